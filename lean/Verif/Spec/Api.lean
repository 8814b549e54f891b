import Verif.Spec.Formats
import Verif.Model.Types

/-!
# The JSON interface of the contract

What a client writes to call the contract and what it reads back, as JSON trees: the names of members and variants, which
may be left out, which may be `null`, where unknown members are refused, how numbers and bytes are written. Written from
the documented messages (`/repo/src/types/msg.rs`, `/repo/src/types/state.rs`, `/repo/src/types/callbacks.rs`,
`/repo/src/types/query_msg.rs` 103-210, cosmwasm-std's message format), not from the codecs; only the data types are shared with the model.
-/
namespace Ica.Api
open Format

/-- A relation between JSON trees and values: "this tree means this value". -/
abbrev Shape (α : Type) := Json → α → Prop

/-! ## Plain values -/

/-- A string. -/
def Text : Shape String := fun j s => j = .str s
/-- `true` or `false`. -/
def Truth : Shape Bool := fun j b => j = .bool b
/-- A 64-bit number. -/
def Num64 : Shape UInt64 := fun j n => j = .num n.toNat
/-- A 32-bit number. -/
def Num32 : Shape UInt32 := fun j n => j = .num n.toNat
/-- A byte as a number. -/
def Num8 : Shape UInt8 := fun j n => j = .num n.toNat

/-- Decimal digits, at least one, perhaps after a plus sign. -/
def Numeral (t : List Char) (n : Nat) : Prop :=
  ∃ d, (t = d ∨ t = '+' :: d) ∧ d ≠ [] ∧ IsDigits d ∧ decimal d = n

/-- `Uint64`, `Timestamp`: a number in a string. -/
def Quoted64 : Shape UInt64 := fun j n => ∃ s : String, j = .str s ∧ Numeral s.toList n.toNat
/-- `Uint128`: a number in a string. -/
def Quoted128 : Shape U128 := fun j n => ∃ s : String, j = .str s ∧ Numeral s.toList n.val
/-- `Decimal`: a number with at most eighteen decimal places, in a string. -/
def QuotedDecimal : Shape Decimal := fun j d => ∃ (s : String) (w : List Char) (whole : Nat), j = .str s ∧ Numeral w whole ∧
  ((s.toList = w ∧ d.atomics.val = whole * 10 ^ 18) ∨
   ∃ (f : List Char) (frac : Nat), Numeral f frac ∧ f.length ≤ 18 ∧ s.toList = w ++ '.' :: f ∧
     d.atomics.val = whole * 10 ^ 18 + frac * 10 ^ (18 - f.length))
/-- `Binary`: base64 in a string, padded or not. -/
def Base64 : Shape Bytes := fun j b => ∃ s : String, j = .str s ∧ IsLooseBase64 b s.toList

/-- `null` or a value. -/
def Nullable {α : Type} (r : Shape α) : Shape (Option α) := fun j o =>
  (j = .null ∧ o = none) ∨ ∃ x, j ≠ .null ∧ r j x ∧ o = some x
/-- An array. -/
def Many {α : Type} (r : Shape α) : Shape (List α) := fun j l => ∃ js, j = .arr js ∧ List.Forall₂ r js l

/-! ## Objects -/

/-- The members of an object, in order. -/
abbrev Members := List (String × Json)

/-- One member, and no other, has the name `k`; its value is `j`. -/
def Member (fs : Members) (k : String) (j : Json) : Prop := fs.filter (fun p => p.1 = k) = [(k, j)]
/-- No member has the name `k`. -/
def Absent (fs : Members) (k : String) : Prop := fs.filter (fun p => p.1 = k) = []

/-- The member `k` is there and means `x`. -/
def Has {α : Type} (r : Shape α) (fs : Members) (k : String) (x : α) : Prop := ∃ j, Member fs k j ∧ r j x
/-- The member `k` may be left out or `null`. -/
def May {α : Type} (r : Shape α) (fs : Members) (k : String) (o : Option α) : Prop :=
  (Absent fs k ∧ o = none) ∨ Has (Nullable r) fs k o
/-- The array `k` is there; `null` means empty. -/
def HasArray {α : Type} (r : Shape α) (fs : Members) (k : String) (l : List α) : Prop :=
  ∃ o, Has (Nullable (Many r)) fs k o ∧ l = o.getD []
/-- The array `k` may be left out or `null`; both mean empty. -/
def MayArray {α : Type} (r : Shape α) (fs : Members) (k : String) (l : List α) : Prop :=
  ∃ o, May (Many r) fs k o ∧ l = o.getD []

/-- An object; members not mentioned in `P` are ignored. -/
def Open (P : Members → Prop) (j : Json) : Prop := ∃ fs, j = .obj fs ∧ P fs
/-- An object with no members besides `keys`. -/
def Closed (keys : List String) (P : Members → Prop) (j : Json) : Prop :=
  ∃ fs, j = .obj fs ∧ (∀ p ∈ fs, p.1 ∈ keys) ∧ P fs
/-- A variant with content: an object whose only member is the name of the variant. -/
def Variant (tag : String) (P : Json → Prop) (j : Json) : Prop := ∃ v, j = .obj [(tag, v)] ∧ P v

/-! ## Messages of cosmwasm-std (unknown members are ignored) -/

/-- A coin. -/
def Coin : Shape Coin := fun j c => Open (fun fs => Has Text fs "denom" c.denom ∧ Has Quoted128 fs "amount" c.amount) j

/-- The order of a channel. -/
def Order : Shape IbcOrder := fun j o => match o with
  | .unordered => j = .str "ORDER_UNORDERED"
  | .ordered => j = .str "ORDER_ORDERED"

/-- A timeout of an IBC transfer. -/
def TimeoutBlock : Shape IbcTimeoutBlock := fun j b =>
  Open (fun fs => Has Num64 fs "revision" b.revision ∧ Has Num64 fs "height" b.height) j
/-- A timeout of an IBC transfer. -/
def Timeout : Shape IbcTimeout := fun j t =>
  Open (fun fs => May TimeoutBlock fs "block" t.block ∧ May Quoted64 fs "timestamp" t.timestamp) j

/-- Bank messages. -/
def Bank : Shape BankMsg := fun j m => match m with
  | .send to_ amount => Variant "send" (Open fun fs => Has Text fs "to_address" to_ ∧ Has (Many Coin) fs "amount" amount) j
  | .burn amount => Variant "burn" (Open fun fs => Has (Many Coin) fs "amount" amount) j

/-- Staking messages. -/
def Staking : Shape StakingMsg := fun j m => match m with
  | .delegate v a => Variant "delegate" (Open fun fs => Has Text fs "validator" v ∧ Has Coin fs "amount" a) j
  | .undelegate v a => Variant "undelegate" (Open fun fs => Has Text fs "validator" v ∧ Has Coin fs "amount" a) j
  | .redelegate s d a => Variant "redelegate" (Open fun fs => Has Text fs "src_validator" s ∧
      Has Text fs "dst_validator" d ∧ Has Coin fs "amount" a) j

/-- Distribution messages. -/
def Distribution : Shape DistributionMsg := fun j m => match m with
  | .setWithdrawAddress a => Variant "set_withdraw_address" (Open fun fs => Has Text fs "address" a) j
  | .withdrawDelegatorReward v => Variant "withdraw_delegator_reward" (Open fun fs => Has Text fs "validator" v) j
  | .fundCommunityPool a => Variant "fund_community_pool" (Open fun fs => Has (Many Coin) fs "amount" a) j

/-- IBC messages. -/
def Ibc : Shape IbcMsg := fun j m => match m with
  | .transfer c to_ a t memo => Variant "transfer" (Open fun fs => Has Text fs "channel_id" c ∧ Has Text fs "to_address" to_ ∧
      Has Coin fs "amount" a ∧ Has Timeout fs "timeout" t ∧ May Text fs "memo" memo) j
  | .sendPacket c d t => Variant "send_packet" (Open fun fs => Has Text fs "channel_id" c ∧ Has Base64 fs "data" d ∧
      Has Timeout fs "timeout" t) j
  | .closeChannel c => Variant "close_channel" (Open fun fs => Has Text fs "channel_id" c) j

/-- Wasm messages. -/
def Wasm : Shape WasmMsg := fun j m => match m with
  | .execute c msg funds => Variant "execute" (Open fun fs => Has Text fs "contract_addr" c ∧ Has Base64 fs "msg" msg ∧
      Has (Many Coin) fs "funds" funds) j
  | .instantiate admin code msg funds label => Variant "instantiate" (Open fun fs => May Text fs "admin" admin ∧
      Has Num64 fs "code_id" code ∧ Has Base64 fs "msg" msg ∧ Has (Many Coin) fs "funds" funds ∧ Has Text fs "label" label) j
  | .instantiate2 admin code label msg funds salt => Variant "instantiate2" (Open fun fs => May Text fs "admin" admin ∧
      Has Num64 fs "code_id" code ∧ Has Text fs "label" label ∧ Has Base64 fs "msg" msg ∧ Has (Many Coin) fs "funds" funds ∧
      Has Base64 fs "salt" salt) j
  | .migrate c code msg => Variant "migrate" (Open fun fs => Has Text fs "contract_addr" c ∧ Has Num64 fs "new_code_id" code ∧
      Has Base64 fs "msg" msg) j
  | .updateAdmin c admin => Variant "update_admin" (Open fun fs => Has Text fs "contract_addr" c ∧ Has Text fs "admin" admin) j
  | .clearAdmin c => Variant "clear_admin" (Open fun fs => Has Text fs "contract_addr" c) j

/-- A vote. -/
def Vote : Shape VoteOption := fun j v => match v with
  | .yes => j = .str "yes"
  | .no => j = .str "no"
  | .abstain => j = .str "abstain"
  | .noWithVeto => j = .str "no_with_veto"
/-- A weighted vote. -/
def WeightedVote : Shape WeightedVoteOption := fun j v =>
  Open (fun fs => Has Vote fs "option" v.option ∧ Has QuotedDecimal fs "weight" v.weight) j
/-- Governance messages. -/
def Gov : Shape GovMsg := fun j m => match m with
  | .vote p o => Variant "vote" (Open fun fs => Has Num64 fs "proposal_id" p ∧ Has Vote fs "option" o) j
  | .voteWeighted p os => Variant "vote_weighted" (Open fun fs => Has Num64 fs "proposal_id" p ∧
      Has (Many WeightedVote) fs "options" os) j

/-- An object whose members do not matter. -/
def Anything : Shape Empty := fun j _ => Open (fun _ => True) j

/-- The messages to be executed by the interchain account. -/
def Cosmos : Shape CosmosMsg := fun j m => match m with
  | .bank x => Variant "bank" (Bank · x) j
  | .custom x => Variant "custom" (Anything · x) j
  | .staking x => Variant "staking" (Staking · x) j
  | .distribution x => Variant "distribution" (Distribution · x) j
  | .stargate url value => Variant "stargate" (Open fun fs => Has Text fs "type_url" url ∧ Has Base64 fs "value" value) j
  | .ibc x => Variant "ibc" (Ibc · x) j
  | .wasm x => Variant "wasm" (Wasm · x) j
  | .gov x => Variant "gov" (Gov · x) j

/-- A page of a query. -/
def Page : Shape PageRequest := fun j p =>
  Open (fun fs => May Base64 fs "key" p.key ∧ Has Num32 fs "limit" p.limit ∧ Has Truth fs "reverse" p.reverse) j
/-- Bank queries. -/
def BankQ : Shape BankQuery := fun j q => match q with
  | .supply d => Variant "supply" (Open fun fs => Has Text fs "denom" d) j
  | .balance a d => Variant "balance" (Open fun fs => Has Text fs "address" a ∧ Has Text fs "denom" d) j
  | .allBalances a => Variant "all_balances" (Open fun fs => Has Text fs "address" a) j
  | .denomMetadata d => Variant "denom_metadata" (Open fun fs => Has Text fs "denom" d) j
  | .allDenomMetadata p => Variant "all_denom_metadata" (Open fun fs => May Page fs "pagination" p) j
/-- Staking queries. -/
def StakingQ : Shape StakingQuery := fun j q => match q with
  | .bondedDenom => Variant "bonded_denom" (Open fun _ => True) j
  | .allDelegations d => Variant "all_delegations" (Open fun fs => Has Text fs "delegator" d) j
  | .delegation d v => Variant "delegation" (Open fun fs => Has Text fs "delegator" d ∧ Has Text fs "validator" v) j
  | .allValidators => Variant "all_validators" (Open fun _ => True) j
  | .validator a => Variant "validator" (Open fun fs => Has Text fs "address" a) j
/-- Distribution queries. -/
def DistributionQ : Shape DistributionQuery := fun j q => match q with
  | .delegatorWithdrawAddress d => Variant "delegator_withdraw_address" (Open fun fs => Has Text fs "delegator_address" d) j
  | .delegationRewards d v => Variant "delegation_rewards" (Open fun fs => Has Text fs "delegator_address" d ∧
      Has Text fs "validator_address" v) j
  | .delegationTotalRewards d => Variant "delegation_total_rewards" (Open fun fs => Has Text fs "delegator_address" d) j
  | .delegatorValidators d => Variant "delegator_validators" (Open fun fs => Has Text fs "delegator_address" d) j
/-- IBC queries. -/
def IbcQ : Shape IbcQuery := fun j q => match q with
  | .portId => Variant "port_id" (Open fun _ => True) j
  | .listChannels p => Variant "list_channels" (Open fun fs => May Text fs "port_id" p) j
  | .channel c p => Variant "channel" (Open fun fs => Has Text fs "channel_id" c ∧ May Text fs "port_id" p) j
/-- Wasm queries. -/
def WasmQ : Shape WasmQuery := fun j q => match q with
  | .smart c m => Variant "smart" (Open fun fs => Has Text fs "contract_addr" c ∧ Has Base64 fs "msg" m) j
  | .raw c k => Variant "raw" (Open fun fs => Has Text fs "contract_addr" c ∧ Has Base64 fs "key" k) j
  | .contractInfo c => Variant "contract_info" (Open fun fs => Has Text fs "contract_addr" c) j
  | .codeInfo c => Variant "code_info" (Open fun fs => Has Num64 fs "code_id" c) j
/-- The queries to be executed on the host. -/
def Query : Shape QueryRequest := fun j q => match q with
  | .bank x => Variant "bank" (BankQ · x) j
  | .custom x => Variant "custom" (Anything · x) j
  | .staking x => Variant "staking" (StakingQ · x) j
  | .distribution x => Variant "distribution" (DistributionQ · x) j
  | .stargate path data => Variant "stargate" (Open fun fs => Has Text fs "path" path ∧ Has Base64 fs "data" data) j
  | .ibc x => Variant "ibc" (IbcQ · x) j
  | .wasm x => Variant "wasm" (WasmQ · x) j

/-! ## Messages of the contract -/

/-- `ChannelOpenInitOptions` (unknown members are ignored). -/
def Options : Shape ChannelOpenInitOptions := fun j o => Open (fun fs => Has Text fs "connection_id" o.connectionId ∧
  Has Text fs "counterparty_connection_id" o.counterpartyConnectionId ∧
  May Text fs "counterparty_port_id" o.counterpartyPortId ∧ May Order fs "channel_ordering" o.channelOrdering) j

/-- When an offer of ownership ends. -/
def Expiry : Shape Expiration := fun j e => match e with
  | .atHeight h => Variant "at_height" (Num64 · h) j
  | .atTime t => Variant "at_time" (Quoted64 · t) j
  | .never => Variant "never" (Closed [] fun _ => True) j

/-- `update_ownership`. -/
def OwnershipAction : Shape Action := fun j a => match a with
  | .transferOwnership o e => Variant "transfer_ownership" (Closed ["new_owner", "expiry"] fun fs =>
      Has Text fs "new_owner" o ∧ May Expiry fs "expiry" e) j
  | .acceptOwnership => j = .str "accept_ownership"
  | .renounceOwnership => j = .str "renounce_ownership"

/-- The message that creates the contract. -/
def Instantiate : Shape InstantiateMsg := fun j m =>
  Closed ["owner", "channel_open_init_options", "send_callbacks_to"] (fun fs => May Text fs "owner" m.owner ∧
    Has Options fs "channel_open_init_options" m.channelOpenInitOptions ∧
    May Text fs "send_callbacks_to" m.sendCallbacksTo) j

/-- The messages the contract executes. -/
def Execute : Shape ExecuteMsg := fun j m => match m with
  | .createChannel o => Variant "create_channel" (Closed ["channel_open_init_options"] fun fs =>
      May Options fs "channel_open_init_options" o) j
  | .closeChannel => Variant "close_channel" (Closed [] fun _ => True) j
  | .sendCosmosMsgs ms qs memo timeout =>
      Variant "send_cosmos_msgs" (Closed ["messages", "queries", "packet_memo", "timeout_seconds"] fun fs =>
        HasArray Cosmos fs "messages" ms ∧ MayArray Query fs "queries" qs ∧ May Text fs "packet_memo" memo ∧
        May Num64 fs "timeout_seconds" timeout) j
  | .updateCallbackAddress a => Variant "update_callback_address" (Closed ["callback_address"] fun fs =>
      May Text fs "callback_address" a) j
  | .updateOwnership a => Variant "update_ownership" (OwnershipAction · a) j

/-- The queries the contract answers. -/
def QueryMessage : Shape QueryMsg := fun j m => match m with
  | .getChannel => Variant "get_channel" (Closed [] fun _ => True) j
  | .getContractState => Variant "get_contract_state" (Closed [] fun _ => True) j
  | .ownership => Variant "ownership" (Closed [] fun _ => True) j

/-- The message of a migration. -/
def Migrate : Shape MigrateMsg := fun j _ => Closed [] (fun _ => True) j

/-! ## What comes from the host -/

/-- The encodings of a transaction. -/
def Encoding : Shape TxEncoding := fun j e => match e with
  | .protobuf => j = .str "proto3"
  | .proto3Json => j = .str "proto3json"

/-- The version of an ICS-27 channel. -/
def Metadata : Shape IcaMetadata := fun j m =>
  Closed ["version", "controller_connection_id", "host_connection_id", "address", "encoding", "tx_type"] (fun fs =>
    Has Text fs "version" m.version ∧ Has Text fs "controller_connection_id" m.controllerConnectionId ∧
    Has Text fs "host_connection_id" m.hostConnectionId ∧ Has Text fs "address" m.address ∧
    Has Encoding fs "encoding" m.encoding ∧ Has Text fs "tx_type" m.txType) j

/-- The acknowledgement of a packet (ICS-4). -/
def Acknowledgement : Shape AckData := fun j a => match a with
  | .result b => Variant "result" (Base64 · b) j
  | .error e => Variant "error" (Text · e) j

/-! ## What the contract writes -/

/-- `null` for nothing. -/
def orNull {α : Type} (f : α → Json) : Option α → Json
  | none => .null
  | some x => f x
/-- Text or `null`. -/
def textOrNull (o : Option String) : Json := orNull .str o

/-- The name of an encoding. -/
def encodingName : TxEncoding → String
  | .protobuf => "proto3"
  | .proto3Json => "proto3json"
/-- The name of an order. -/
def orderName : IbcOrder → String
  | .unordered => "ORDER_UNORDERED"
  | .ordered => "ORDER_ORDERED"
/-- The name of a channel state. -/
def statusName : ChannelStatus → String
  | .uninitialized => "STATE_UNINITIALIZED_UNSPECIFIED"
  | .init => "STATE_INIT"
  | .tryOpen => "STATE_TRYOPEN"
  | .opened => "STATE_OPEN"
  | .closed => "STATE_CLOSED"
  | .flushing => "STATE_FLUSHING"
  | .flushComplete => "STATE_FLUSHCOMPLETE"

/-- A port and a channel. -/
def endpointJson (e : IbcEndpoint) : Json := .obj [("port_id", .str e.portId), ("channel_id", .str e.channelId)]
/-- A channel. -/
def channelJson (c : IbcChannel) : Json := .obj [("endpoint", endpointJson c.endpoint),
  ("counterparty_endpoint", endpointJson c.counterpartyEndpoint), ("order", .str (orderName c.order)),
  ("version", .str c.version), ("connection_id", .str c.connectionId)]

/-- The answer to `get_contract_state`. -/
def contractStateJson (s : ContractState) : Json := .obj [
  ("ica_info", orNull (fun (i : IcaInfo) => .obj [("ica_address", .str i.icaAddress), ("channel_id", .str i.channelId),
    ("encoding", .str (encodingName i.encoding))]) s.icaInfo),
  ("callback_address", textOrNull s.callbackAddress)]
/-- The answer to `get_channel`. -/
def channelStateJson (s : ChannelState) : Json :=
  .obj [("channel", channelJson s.channel), ("channel_status", .str (statusName s.channelStatus))]

/-- A natural number in a string, without leading zeros. -/
def QuotedNatural (n : Nat) (j : Json) : Prop := ∃ s : String, j = .str s ∧ IsNatural n s.toList
/-- Bytes in a string, as padded base64. -/
def QuotedBase64 (b : Bytes) (j : Json) : Prop := ∃ s : String, j = .str s ∧ IsBase64 b s.toList
/-- `null` for nothing. -/
def NullOr {α : Type} (r : α → Json → Prop) (o : Option α) (j : Json) : Prop := match o with
  | none => j = .null
  | some x => r x j

/-- The end of an offer, as written. -/
def WritesExpiry (e : Expiration) (j : Json) : Prop := match e with
  | .atHeight h => j = .obj [("at_height", .num h.toNat)]
  | .atTime t => ∃ q, QuotedNatural t.toNat q ∧ j = .obj [("at_time", q)]
  | .never => j = .obj [("never", .obj [])]
/-- The answer to `ownership`. -/
def WritesOwnership (o : Ownership) (j : Json) : Prop := ∃ e, NullOr WritesExpiry o.pendingExpiry e ∧
  j = .obj [("owner", textOrNull o.owner), ("pending_owner", textOrNull o.pendingOwner), ("pending_expiry", e)]

/-- A timeout, as written. -/
def WritesTimeout (t : IbcTimeout) (j : Json) : Prop := ∃ s, NullOr (fun n : UInt64 => QuotedNatural n.toNat) t.timestamp s ∧
  j = .obj [("block", orNull (fun (b : IbcTimeoutBlock) => .obj [("revision", .num b.revision.toNat), ("height", .num b.height.toNat)])
    t.block), ("timestamp", s)]
/-- A packet, as written. -/
def WritesPacket (p : IbcPacket) (j : Json) : Prop := ∃ d t, QuotedBase64 p.data d ∧ WritesTimeout p.timeout t ∧
  j = .obj [("data", d), ("src", endpointJson p.src), ("dest", endpointJson p.dest), ("sequence", .num p.sequence.toNat), ("timeout", t)]
/-- An acknowledgement, as written. -/
def WritesAck (a : AckData) (j : Json) : Prop := match a with
  | .result b => ∃ s, QuotedBase64 b s ∧ j = .obj [("result", s)]
  | .error e => j = .obj [("error", .str e)]

/-! ### Results of queries -/

/-- An array, as written. -/
def WritesMany {α : Type} (r : α → Json → Prop) (l : List α) (j : Json) : Prop := ∃ js, j = .arr js ∧ List.Forall₂ r l js
/-- A coin, as written. -/
def WritesCoin (c : Ica.Coin) (j : Json) : Prop := ∃ a, QuotedNatural c.amount.val a ∧ j = .obj [("denom", .str c.denom), ("amount", a)]
/-- A decimal number: no more digits than needed. -/
def WritesDecimal (d : Decimal) (j : Json) : Prop := ∃ (s : String) (w : List Char), j = .str s ∧
  IsNatural (d.atomics.val / 10 ^ 18) w ∧
  ((d.atomics.val % 10 ^ 18 = 0 ∧ s.toList = w) ∨
   ∃ f : List Char, f ≠ [] ∧ IsDigits f ∧ f.length ≤ 18 ∧ f.getLast? ≠ some '0' ∧ s.toList = w ++ '.' :: f ∧
     d.atomics.val % 10 ^ 18 = decimal f * 10 ^ (18 - f.length))
/-- Metadata of a denomination. -/
def denomMetadataJson (m : DenomMetadata) : Json := .obj [("description", .str m.description),
  ("denom_units", .arr (m.denomUnits.map fun u => .obj [("denom", .str u.denom), ("exponent", .num u.exponent.toNat),
    ("aliases", .arr (u.aliases.map .str))])),
  ("base", .str m.base), ("display", .str m.display), ("name", .str m.name), ("symbol", .str m.symbol), ("uri", .str m.uri),
  ("uri_hash", .str m.uriHash)]
/-- Answers of the bank module. -/
def WritesBank (r : BankQueryResponse) (j : Json) : Prop := match r with
  | .supply x => ∃ c, WritesCoin x.amount c ∧ j = .obj [("supply", .obj [("amount", c)])]
  | .balance x => ∃ c, WritesCoin x.amount c ∧ j = .obj [("balance", .obj [("amount", c)])]
  | .allBalances x => ∃ c, WritesMany WritesCoin x.amount c ∧ j = .obj [("all_balances", .obj [("amount", c)])]
  | .denomMetadata x => j = .obj [("denom_metadata", .obj [("metadata", denomMetadataJson x.metadata)])]
  | .allDenomMetadata x => ∃ k, NullOr QuotedBase64 x.nextKey k ∧ j = .obj [("all_denom_metadata",
      .obj [("metadata", .arr (x.metadata.map denomMetadataJson)), ("next_key", k)])]
/-- A checksum: lower-case hexadecimal digits, two for each byte. -/
def WritesChecksum (c : Checksum) (j : Json) : Prop := ∃ s, j = .str s ∧
  s.toList = c.bytes.flatMap fun b => [("0123456789abcdef".toList)[b.toNat / 16]?.getD ' ', ("0123456789abcdef".toList)[b.toNat % 16]?.getD ' ']
/-- Answers of the wasm module. -/
def WritesWasm (r : WasmQueryResponse) (j : Json) : Prop := match r with
  | .contractInfo o => j = .obj [("contract_info", orNull (fun (c : ContractInfoResponse) => .obj [("code_id", .num c.codeId.toNat),
      ("creator", .str c.creator), ("admin", textOrNull c.admin), ("pinned", .bool c.pinned), ("ibc_port", textOrNull c.ibcPort)]) o)]
  | .codeInfo o => ∃ v, NullOr (fun (c : CodeInfoResponse) v => ∃ h, WritesChecksum c.checksum h ∧
      v = .obj [("code_id", .num c.codeId.toNat), ("creator", .str c.creator), ("checksum", h)]) o v ∧
      j = .obj [("code_info", v)]
  | .rawContractState o => ∃ b, NullOr QuotedBase64 o b ∧ j = .obj [("raw_contract_state", b)]
  | .smartContractState x => ∃ b, QuotedBase64 x b ∧ j = .obj [("smart_contract_state", b)]
/-- A delegation. -/
def WritesDelegation (d : Delegation) (j : Json) : Prop := ∃ c, WritesCoin d.amount c ∧
  j = .obj [("delegator", .str d.delegator), ("validator", .str d.validator), ("amount", c)]
/-- A validator. -/
def WritesValidator (v : Validator) (j : Json) : Prop := ∃ a b c, WritesDecimal v.commission a ∧ WritesDecimal v.maxCommission b ∧
  WritesDecimal v.maxChangeRate c ∧ j = .obj [("address", .str v.address), ("commission", a), ("max_commission", b), ("max_change_rate", c)]
/-- Answers of the staking module. -/
def WritesStaking (r : StakingQueryResponse) (j : Json) : Prop := match r with
  | .bondedDenom x => j = .obj [("bonded_denom", .obj [("denom", .str x.denom)])]
  | .allDelegations x => ∃ d, WritesMany WritesDelegation x.delegations d ∧ j = .obj [("all_delegations", .obj [("delegations", d)])]
  | .delegation x => ∃ d, NullOr WritesDelegation x.delegation d ∧ j = .obj [("delegation", .obj [("delegation", d)])]
  | .allValidators x => ∃ v, WritesMany WritesValidator x.validators v ∧ j = .obj [("all_validators", .obj [("validators", v)])]
  | .validator x => ∃ v, NullOr WritesValidator x.validator v ∧ j = .obj [("validator", .obj [("validator", v)])]
/-- One answer. -/
def WritesResponse (r : IcaQueryResponse) (j : Json) : Prop := match r with
  | .bank x => ∃ v, WritesBank x v ∧ j = .obj [("bank", v)]
  | .stargate data path => ∃ d, QuotedBase64 data d ∧ j = .obj [("stargate", .obj [("data", d), ("path", .str path)])]
  | .wasm x => ∃ v, WritesWasm x v ∧ j = .obj [("wasm", v)]
  | .staking x => ∃ v, WritesStaking x v ∧ j = .obj [("staking", v)]
/-- The result of the queries of a packet. -/
def WritesResult (r : IcaQueryResult) (j : Json) : Prop := match r with
  | .success height rs => ∃ l, WritesMany WritesResponse rs l ∧ j = .obj [("success", .obj [("height", .num height.toNat), ("responses", l)])]
  | .error e => j = .obj [("error", .str e)]

/-- A callback, as the receiving contract gets it. -/
def WritesCallback (m : CallbackMsg) (j : Json) : Prop := ∃ v, j = .obj [("receive_ica_callback", v)] ∧ match m with
  | .onAcknowledgementPacketCallback ack p relayer result => ∃ a q, WritesAck ack a ∧ WritesPacket p q ∧
      ∃ more, (match result with
        | none => more = []
        | some r => ∃ t, WritesResult r t ∧ more = [("query_result", t)]) ∧
      v = .obj [("on_acknowledgement_packet_callback",
        .obj ([("ica_acknowledgement", a), ("original_packet", q), ("relayer", .str relayer)] ++ more))]
  | .onTimeoutPacketCallback p relayer => ∃ q, WritesPacket p q ∧
      v = .obj [("on_timeout_packet_callback", .obj [("original_packet", q), ("relayer", .str relayer)])]
  | .onChannelOpenAckCallback c addr e => v = .obj [("on_channel_open_ack_callback",
      .obj [("channel", channelJson c), ("ica_address", .str addr), ("tx_encoding", .str (encodingName e))])]

end Ica.Api

namespace Ica
open Format

/-- The bytes are the UTF-8 text of a JSON document that means the value. -/
def Spells {α : Type} (r : Api.Shape α) (bytes : Bytes) (x : α) : Prop :=
  ∃ text j, bytes = utf8 text ∧ IsDocument j text.toList ∧ r j x

/-- The bytes are the UTF-8 text of a JSON document with the property. -/
def Written (P : Json → Prop) (bytes : Bytes) : Prop := ∃ text j, bytes = utf8 text ∧ IsDocument j text.toList ∧ P j

end Ica
