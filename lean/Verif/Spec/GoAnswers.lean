import Verif.Spec.GoClient
import Verif.Model.GoAnswers

/-!
# What a Go program reads in an answer

Which answer of a contract a Go value stands for: exactly one pointer of a union is set, numbers are the same numbers,
strings show what the contract means by them. Only the Go structures and the values of the contract are mentioned, not
their JSON; the spellings of numbers, decimals, checksums and bytes inside strings are those of `Spec/Api.lean`.
-/
namespace Ica.GoMeans

/-- The string shows the value, as the contracts write it. -/
def Shown {β : Type} (r : β → Json → Prop) (s : String) (x : β) : Prop := r x (.str s)
/-- Bytes in base64. -/
abbrev ShownBytes := Shown Api.QuotedBase64
/-- A 64-bit number in digits. -/
abbrev Shown64 := Shown fun n : UInt64 => Api.QuotedNatural n.toNat
/-- The text is the same. -/
abbrev Same (s t : String) : Prop := s = t

/-- The encodings: one of the two constants. -/
def Encoding (s : String) : Ica.TxEncoding → Prop
  | .protobuf => s = "proto3"
  | .proto3Json => s = "proto3json"
/-- The states of a channel: one of the constants. -/
def Status (s : String) : Ica.ChannelStatus → Prop
  | .uninitialized => s = "STATE_UNINITIALIZED_UNSPECIFIED"
  | .init => s = "STATE_INIT"
  | .tryOpen => s = "STATE_TRYOPEN"
  | .opened => s = "STATE_OPEN"
  | .closed => s = "STATE_CLOSED"
  | .flushing => s = "STATE_FLUSHING"
  | .flushComplete => s = "STATE_FLUSHCOMPLETE"

/-! ## The controller -/

/-- The end of an offer. -/
def ReadExpiry (g : GoController.Expiration) : Ica.Expiration → Prop
  | .atHeight h => ∃ x, g = { AtHeight := some x } ∧ Num x h
  | .atTime t => ∃ x, g = { AtTime := some x } ∧ Shown64 x t
  | .never => ∃ x, g = { Never := some x }
/-- The answer to `ownership`. -/
def ReadOwnership (g : GoController.Ownership_for_String) (o : Ica.Ownership) : Prop :=
  g.Owner = o.owner ∧ g.PendingOwner = o.pendingOwner ∧ Pointer ReadExpiry g.PendingExpiry o.pendingExpiry
/-- The answer to `get_contract_state`. -/
def ReadState (g : GoController.State) (s : Ica.ContractState) : Prop :=
  g.CallbackAddress = s.callbackAddress ∧
  Pointer (fun (a : GoController.IcaInfo) (b : Ica.IcaInfo) => a.IcaAddress = b.icaAddress ∧ a.ChannelId = b.channelId ∧
    Encoding a.Encoding b.encoding) g.IcaInfo s.icaInfo
/-- A port and a channel. -/
def ReadEndpoint (g : GoController.IbcEndpoint) (e : Ica.IbcEndpoint) : Prop := g.PortId = e.portId ∧ g.ChannelId = e.channelId
/-- A channel. -/
def ReadIbcChannel (g : GoController.IbcChannel) (c : Ica.IbcChannel) : Prop :=
  ReadEndpoint g.Endpoint c.endpoint ∧ ReadEndpoint g.CounterpartyEndpoint c.counterpartyEndpoint ∧ Order g.Order c.order ∧
  g.Version = c.version ∧ g.ConnectionId = c.connectionId
/-- The answer to `get_channel`. -/
def ReadChannel (g : GoController.ChannelState) (s : Ica.ChannelState) : Prop :=
  ReadIbcChannel g.Channel s.channel ∧ Status g.ChannelStatus s.channelStatus

/-! ## The owner contract -/

/-- The answer to `get_contract_state`. -/
def ReadOwnerState (g : GoOwner.ContractState) (admin : String) (code : UInt64) : Prop :=
  g.Admin = admin ∧ Num g.IcaControllerCodeId code
/-- A port and a channel. -/
def OReadEndpoint (g : GoOwner.IbcEndpoint) (e : Ica.IbcEndpoint) : Prop := g.PortId = e.portId ∧ g.ChannelId = e.channelId
/-- A channel. -/
def OReadIbcChannel (g : GoOwner.IbcChannel) (c : Ica.IbcChannel) : Prop :=
  OReadEndpoint g.Endpoint c.endpoint ∧ OReadEndpoint g.CounterpartyEndpoint c.counterpartyEndpoint ∧ Order g.Order c.order ∧
  g.Version = c.version ∧ g.ConnectionId = c.connectionId
/-- The answer to `get_ica_contract_state`: the address of the controller and what it told, if it told anything: an open channel,
the address of the account and the encoding. -/
def ReadRegistry (g : GoOwner.IcaContractState) (addr : String) (id : UInt64)
    (told : Option (Ica.IbcChannel × String × Ica.TxEncoding)) : Prop :=
  g.ContractAddr = addr ∧
  Pointer (fun (a : GoOwner.IcaState) (t : Ica.IbcChannel × String × Ica.TxEncoding) => Num a.IcaId id ∧ a.IcaAddr = t.2.1 ∧
    Encoding a.TxEncoding t.2.2 ∧ OReadIbcChannel a.ChannelState.Channel t.1 ∧ Status a.ChannelState.ChannelStatus .opened)
    g.IcaState told

/-! ## The callback counter -/

/-- A port and a channel. -/
def CReadEndpoint (g : GoCounter.IbcEndpoint) (e : Ica.IbcEndpoint) : Prop := g.PortId = e.portId ∧ g.ChannelId = e.channelId
/-- A channel. -/
def CReadIbcChannel (g : GoCounter.IbcChannel) (c : Ica.IbcChannel) : Prop :=
  CReadEndpoint g.Endpoint c.endpoint ∧ CReadEndpoint g.CounterpartyEndpoint c.counterpartyEndpoint ∧ Order g.Order c.order ∧
  g.Version = c.version ∧ g.ConnectionId = c.connectionId
/-- A timeout. -/
def CReadTimeout (g : GoCounter.IbcTimeout) (t : Ica.IbcTimeout) : Prop :=
  Pointer (fun (a : GoCounter.IbcTimeoutBlock) (b : Ica.IbcTimeoutBlock) => Num a.Revision b.revision ∧ Num a.Height b.height)
    g.Block t.block ∧
  Pointer Shown64 g.Timestamp t.timestamp
/-- A packet. -/
def CReadPacket (g : GoCounter.IbcPacket) (p : Ica.IbcPacket) : Prop :=
  ShownBytes g.Data p.data ∧ CReadEndpoint g.Src p.src ∧ CReadEndpoint g.Dest p.dest ∧ Num g.Sequence p.sequence ∧
  CReadTimeout g.Timeout p.timeout
/-- An acknowledgement. -/
def CReadAck (g : GoCounter.Data) : Ica.AckData → Prop
  | .result b => ∃ x, g = { Result := some x } ∧ ShownBytes x b
  | .error e => g = { Error := some e }
/-- A coin. -/
def CReadCoin (g : GoCounter.Coin) (c : Ica.Coin) : Prop :=
  g.Denom = c.denom ∧ Shown (fun n : U128 => Api.QuotedNatural n.val) g.Amount c.amount
/-- Metadata of a denomination. -/
def CReadMetadata (g : GoCounter.DenomMetadata) (m : Ica.DenomMetadata) : Prop :=
  g.Description = m.description ∧ g.Base = m.base ∧ g.Display = m.display ∧ g.Name = m.name ∧ g.Symbol = m.symbol ∧
  g.Uri = m.uri ∧ g.UriHash = m.uriHash ∧
  Slice (fun (a : GoCounter.DenomUnit) (b : Ica.DenomUnit) => a.Denom = b.denom ∧ a.Exponent = b.exponent.toNat ∧
    a.Aliases = some b.aliases) g.DenomUnits m.denomUnits
/-- Answers of the bank module. -/
def CReadBank (g : GoCounter.BankQueryResponse) : Ica.BankQueryResponse → Prop
  | .supply x => ∃ y, g = { Supply := some y } ∧ CReadCoin y.Amount x.amount
  | .balance x => ∃ y, g = { Balance := some y } ∧ CReadCoin y.Amount x.amount
  | .allBalances x => ∃ y, g = { AllBalances := some y } ∧ Slice CReadCoin y.Amount x.amount
  | .denomMetadata x => ∃ y, g = { DenomMetadata := some y } ∧ CReadMetadata y.Metadata x.metadata
  | .allDenomMetadata x => ∃ y, g = { AllDenomMetadata := some y } ∧ Slice CReadMetadata y.Metadata x.metadata ∧
      Pointer ShownBytes y.NextKey x.nextKey
/-- Answers of the wasm module. Nothing tells apart the answers that there is no such contract, no such code and no such
value: all three are read as a structure with no pointer set. -/
def CReadWasm (g : GoCounter.WasmQueryResponse) : Ica.WasmQueryResponse → Prop
  | .contractInfo none => g = {}
  | .contractInfo (some x) => ∃ y, g = { ContractInfo := some y } ∧ Num y.CodeId x.codeId ∧ y.Creator = x.creator ∧
      y.Admin = x.admin ∧ y.Pinned = x.pinned ∧ y.IbcPort = x.ibcPort
  | .codeInfo none => g = {}
  | .codeInfo (some x) => ∃ y, g = { CodeInfo := some y } ∧ Num y.CodeId x.codeId ∧ y.Creator = x.creator ∧
      Shown Api.WritesChecksum y.Checksum x.checksum
  | .rawContractState none => g = {}
  | .rawContractState (some x) => ∃ y, g = { RawContractState := some y } ∧ ShownBytes y x
  | .smartContractState x => ∃ y, g = { SmartContractState := some y } ∧ ShownBytes y x
/-- A delegation. -/
def CReadDelegation (g : GoCounter.Delegation) (d : Ica.Delegation) : Prop :=
  g.Delegator = d.delegator ∧ g.Validator = d.validator ∧ CReadCoin g.Amount d.amount
/-- A validator. -/
def CReadValidator (g : GoCounter.Validator) (v : Ica.Validator) : Prop :=
  g.Address = v.address ∧ Shown Api.WritesDecimal g.Commission v.commission ∧
  Shown Api.WritesDecimal g.MaxCommission v.maxCommission ∧ Shown Api.WritesDecimal g.MaxChangeRate v.maxChangeRate
/-- Answers of the staking module. -/
def CReadStaking (g : GoCounter.StakingQueryResponse) : Ica.StakingQueryResponse → Prop
  | .bondedDenom x => ∃ y, g = { BondedDenom := some y } ∧ y.Denom = x.denom
  | .allDelegations x => ∃ y, g = { AllDelegations := some y } ∧ Slice CReadDelegation y.Delegations x.delegations
  | .delegation x => ∃ y, g = { Delegation := some y } ∧ Pointer CReadDelegation y.Delegation x.delegation
  | .allValidators x => ∃ y, g = { AllValidators := some y } ∧ Slice CReadValidator y.Validators x.validators
  | .validator x => ∃ y, g = { Validator := some y } ∧ Pointer CReadValidator y.Validator x.validator
/-- One answer. -/
def CReadResponse (g : GoCounter.IcaQueryResponse) : Ica.IcaQueryResponse → Prop
  | .bank x => ∃ y, g = { Bank := some y } ∧ CReadBank y x
  | .stargate data path => ∃ y, g = { Stargate := some y } ∧ y.Path = path ∧ ShownBytes y.Data data
  | .wasm x => ∃ y, g = { Wasm := some y } ∧ CReadWasm y x
  | .staking x => ∃ y, g = { Staking := some y } ∧ CReadStaking y x
/-- The result of the queries of a packet. -/
def CReadResult (g : GoCounter.IcaQueryResult) : Ica.IcaQueryResult → Prop
  | .success height rs => ∃ y, g = { Success := some y } ∧ Num y.Height height ∧ Slice CReadResponse y.Responses rs
  | .error e => g = { Error := some e }
/-- A callback. -/
def CReadCallback (g : GoCounter.IcaControllerCallbackMsg) : Ica.CallbackMsg → Prop
  | .onAcknowledgementPacketCallback ack p relayer result => ∃ y, g = { OnAcknowledgementPacketCallback := some y } ∧
      CReadAck y.IcaAcknowledgement ack ∧ CReadPacket y.OriginalPacket p ∧ y.Relayer = relayer ∧
      Pointer CReadResult y.QueryResult result
  | .onTimeoutPacketCallback p relayer => ∃ y, g = { OnTimeoutPacketCallback := some y } ∧
      CReadPacket y.OriginalPacket p ∧ y.Relayer = relayer
  | .onChannelOpenAckCallback c addr e => ∃ y, g = { OnChannelOpenAckCallback := some y } ∧ CReadIbcChannel y.Channel c ∧
      y.IcaAddress = addr ∧ Encoding y.TxEncoding e
/-- The counter: the callbacks about packets that were executed, that were refused and that timed out. -/
def CReadCounter (g : GoCounter.CallbackCounter) (success error timeout : List Ica.CallbackMsg) : Prop :=
  Slice CReadCallback g.Success success ∧ Slice CReadCallback g.Error error ∧ Slice CReadCallback g.Timeout timeout

/-! ## What the Go client cannot hold -/

/-- The number is somewhere in the document. -/
inductive NumberIn (n : Nat) : Json → Prop where
  | here : NumberIn n (.num n)
  | element {x : Json} {xs : List Json} : x ∈ xs → NumberIn n x → NumberIn n (.arr xs)
  | member {k : String} {v : Json} {fs : List (String × Json)} : (k, v) ∈ fs → NumberIn n v → NumberIn n (.obj fs)
/-- All numbers of the document fit into Go's `int`. -/
def Fits (j : Json) : Prop := ∀ n, NumberIn n j → n < 2 ^ 63

end Ica.GoMeans
