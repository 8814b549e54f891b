import Verif.Spec.Api

/-!
# The JSON of callbacks and of stored values, as read

What a contract that receives callbacks must be able to read, and what the contract's own storage items mean when they are
read back. In the vocabulary of `Spec/Api.lean`, written from `/repo/src/types/callbacks.rs`, `/repo/src/types/state.rs`,
`/repo/src/types/query_msg.rs` 103-210, `/repo/src/ibc/types/packet.rs` 27-46 and cosmwasm-std's types; only the data types
are shared with the model.
-/
namespace Ica.Api
open Format

/-- A port and a channel. -/
def Endpoint : Shape IbcEndpoint := fun j e => Open (fun fs => Has Text fs "port_id" e.portId ∧ Has Text fs "channel_id" e.channelId) j

/-- A channel. -/
def Channel : Shape IbcChannel := fun j c => Open (fun fs => Has Endpoint fs "endpoint" c.endpoint ∧
  Has Endpoint fs "counterparty_endpoint" c.counterpartyEndpoint ∧ Has Order fs "order" c.order ∧
  Has Text fs "version" c.version ∧ Has Text fs "connection_id" c.connectionId) j

/-- A packet. -/
def Packet : Shape IbcPacket := fun j p => Open (fun fs => Has Base64 fs "data" p.data ∧ Has Endpoint fs "src" p.src ∧
  Has Endpoint fs "dest" p.dest ∧ Has Num64 fs "sequence" p.sequence ∧ Has Timeout fs "timeout" p.timeout) j

/-! ## Storage -/

/-- The interchain account. -/
def Account : Shape IcaInfo := fun j i => Closed ["ica_address", "channel_id", "encoding"] (fun fs =>
  Has Text fs "ica_address" i.icaAddress ∧ Has Text fs "channel_id" i.channelId ∧ Has Encoding fs "encoding" i.encoding) j

/-- What is stored under `state`. -/
def ControllerState : Shape ContractState := fun j s => Open (fun fs => May Account fs "ica_info" s.icaInfo ∧
  May Text fs "callback_address" s.callbackAddress) j

/-- The state of a channel. -/
def Status : Shape ChannelStatus := fun j s => j = .str (statusName s)

/-- What is stored under `ica_channel`. -/
def TrackedChannel : Shape ChannelState := fun j s => Closed ["channel", "channel_status"] (fun fs =>
  Has Channel fs "channel" s.channel ∧ Has Status fs "channel_status" s.channelStatus) j

/-- What is stored under `ownership`. -/
def OwnershipRecord : Shape Ownership := fun j o => Closed ["owner", "pending_owner", "pending_expiry"] (fun fs =>
  May Text fs "owner" o.owner ∧ May Text fs "pending_owner" o.pendingOwner ∧ May Expiry fs "pending_expiry" o.pendingExpiry) j

/-- What is stored under `contract_info`. -/
def VersionRecord : Shape ContractVersion := fun j v => Closed ["contract", "version"] (fun fs =>
  Has Text fs "contract" v.contract ∧ Has Text fs "version" v.version) j

/-! ## Results of queries -/

/-- A unit of a denomination. -/
def Unit : Shape DenomUnit := fun j u => Open (fun fs => Has Text fs "denom" u.denom ∧ Has Num32 fs "exponent" u.exponent ∧
  Has (Many Text) fs "aliases" u.aliases) j

/-- Metadata of a denomination. -/
def Denomination : Shape DenomMetadata := fun j m => Open (fun fs => Has Text fs "description" m.description ∧
  Has (Many Unit) fs "denom_units" m.denomUnits ∧ Has Text fs "base" m.base ∧ Has Text fs "display" m.display ∧
  Has Text fs "name" m.name ∧ Has Text fs "symbol" m.symbol ∧ Has Text fs "uri" m.uri ∧ Has Text fs "uri_hash" m.uriHash) j

/-- One coin. -/
def OneCoin : Shape CoinResponse := fun j r => Open (fun fs => Has Coin fs "amount" r.amount) j
/-- All coins. -/
def AllCoins : Shape AllBalanceResponse := fun j r => Open (fun fs => Has (Many Coin) fs "amount" r.amount) j
/-- One denomination. -/
def OneDenomination : Shape DenomMetadataResponse := fun j r => Open (fun fs => Has Denomination fs "metadata" r.metadata) j
/-- Many denominations. -/
def AllDenominations : Shape AllDenomMetadataResponse := fun j r => Open (fun fs =>
  Has (Many Denomination) fs "metadata" r.metadata ∧ May Base64 fs "next_key" r.nextKey) j

/-- Answers of the bank module. -/
def BankAnswer : Shape BankQueryResponse := fun j r => match r with
  | .supply x => Variant "supply" (OneCoin · x) j
  | .balance x => Variant "balance" (OneCoin · x) j
  | .allBalances x => Variant "all_balances" (AllCoins · x) j
  | .denomMetadata x => Variant "denom_metadata" (OneDenomination · x) j
  | .allDenomMetadata x => Variant "all_denom_metadata" (AllDenominations · x) j

/-- A contract. -/
def ContractInfo : Shape ContractInfoResponse := fun j c => Open (fun fs => Has Num64 fs "code_id" c.codeId ∧
  Has Text fs "creator" c.creator ∧ May Text fs "admin" c.admin ∧ Has Truth fs "pinned" c.pinned ∧
  May Text fs "ibc_port" c.ibcPort) j

/-- Bytes as hexadecimal digits, of either case, two for each byte. -/
def IsHexText : Bytes → List Char → Prop
  | [], t => t = []
  | b :: bs, t => ∃ x y u hi lo, t = x :: y :: u ∧ IsHex hi x ∧ IsHex lo y ∧ b.toNat = 16 * hi + lo ∧ IsHexText bs u
/-- A checksum: 32 bytes in hexadecimal. -/
def Hex32 : Shape Checksum := fun j c => ∃ s, j = .str s ∧ IsHexText c.bytes s.toList
/-- Uploaded code. -/
def CodeInfo : Shape CodeInfoResponse := fun j c => Open (fun fs => Has Num64 fs "code_id" c.codeId ∧
  Has Text fs "creator" c.creator ∧ Has Hex32 fs "checksum" c.checksum) j

/-- Answers of the wasm module. -/
def WasmAnswer : Shape WasmQueryResponse := fun j r => match r with
  | .contractInfo x => Variant "contract_info" (Nullable ContractInfo · x) j
  | .codeInfo x => Variant "code_info" (Nullable CodeInfo · x) j
  | .rawContractState x => Variant "raw_contract_state" (Nullable Base64 · x) j
  | .smartContractState x => Variant "smart_contract_state" (Base64 · x) j

/-- A delegation. -/
def OneDelegation : Shape Delegation := fun j d => Closed ["delegator", "validator", "amount"] (fun fs =>
  Has Text fs "delegator" d.delegator ∧ Has Text fs "validator" d.validator ∧ Has Coin fs "amount" d.amount) j
/-- A delegation, if there is one. -/
def MaybeDelegation : Shape IcaDelegationResponse := fun j r => Closed ["delegation"] (fun fs =>
  May OneDelegation fs "delegation" r.delegation) j
/-- Delegations. -/
def AllDelegations : Shape IcaAllDelegationsResponse := fun j r => Closed ["delegations"] (fun fs =>
  Has (Many OneDelegation) fs "delegations" r.delegations) j

/-- A validator. -/
def OneValidator : Shape Validator := fun j v => Open (fun fs => Has Text fs "address" v.address ∧
  Has QuotedDecimal fs "commission" v.commission ∧ Has QuotedDecimal fs "max_commission" v.maxCommission ∧
  Has QuotedDecimal fs "max_change_rate" v.maxChangeRate) j
/-- Validators. -/
def AllValidators : Shape AllValidatorsResponse := fun j r => Open (fun fs => Has (Many OneValidator) fs "validators" r.validators) j
/-- A validator, if there is one. -/
def MaybeValidator : Shape ValidatorResponse := fun j r => Open (fun fs => May OneValidator fs "validator" r.validator) j
/-- The denomination used for staking. -/
def StakeDenom : Shape BondedDenomResponse := fun j r => Open (fun fs => Has Text fs "denom" r.denom) j

/-- Answers of the staking module. -/
def StakingAnswer : Shape StakingQueryResponse := fun j r => match r with
  | .bondedDenom x => Variant "bonded_denom" (StakeDenom · x) j
  | .allDelegations x => Variant "all_delegations" (AllDelegations · x) j
  | .delegation x => Variant "delegation" (MaybeDelegation · x) j
  | .allValidators x => Variant "all_validators" (AllValidators · x) j
  | .validator x => Variant "validator" (MaybeValidator · x) j

/-- One answer. -/
def Answer : Shape IcaQueryResponse := fun j r => match r with
  | .bank x => Variant "bank" (BankAnswer · x) j
  | .stargate data path => Variant "stargate" (Closed ["data", "path"] fun fs =>
      Has Base64 fs "data" data ∧ Has Text fs "path" path) j
  | .wasm x => Variant "wasm" (WasmAnswer · x) j
  | .staking x => Variant "staking" (StakingAnswer · x) j

/-- The result of the queries of a packet. -/
def QueryOutcome : Shape IcaQueryResult := fun j r => match r with
  | .success height answers => Variant "success" (Closed ["height", "responses"] fun fs =>
      Has Num64 fs "height" height ∧ Has (Many Answer) fs "responses" answers) j
  | .error e => Variant "error" (Text · e) j

/-! ## Callbacks -/

/-- A callback (unknown members are ignored). -/
def Callback : Shape CallbackMsg := fun j m => match m with
  | .onAcknowledgementPacketCallback ack p relayer result => Variant "on_acknowledgement_packet_callback" (Open fun fs =>
      Has Acknowledgement fs "ica_acknowledgement" ack ∧ Has Packet fs "original_packet" p ∧ Has Text fs "relayer" relayer ∧
      May QueryOutcome fs "query_result" result) j
  | .onTimeoutPacketCallback p relayer => Variant "on_timeout_packet_callback" (Open fun fs =>
      Has Packet fs "original_packet" p ∧ Has Text fs "relayer" relayer) j
  | .onChannelOpenAckCallback c a e => Variant "on_channel_open_ack_callback" (Open fun fs =>
      Has Channel fs "channel" c ∧ Has Text fs "ica_address" a ∧ Has Encoding fs "tx_encoding" e) j

/-- A callback for a receiver that knows nothing of queries: whatever `query_result` is, it is not looked at. -/
def PlainCallback : Shape CallbackMsg := fun j m => match m with
  | .onAcknowledgementPacketCallback ack p relayer result => result = none ∧
      Variant "on_acknowledgement_packet_callback" (Open fun fs => Has Acknowledgement fs "ica_acknowledgement" ack ∧
        Has Packet fs "original_packet" p ∧ Has Text fs "relayer" relayer) j
  | _ => Callback j m

/-- The call that carries a callback. -/
def CallbackCall : Shape ReceiverExecuteMsg := fun j m => match m with
  | .receiveIcaCallback c => Variant "receive_ica_callback" (Callback · c) j

end Ica.Api
