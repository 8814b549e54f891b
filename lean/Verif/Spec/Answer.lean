import Verif.Spec.Host

/-!
# Acknowledgements and answers as the host chain writes them

An independent description of what the host sends back: the acknowledgement envelope, the place of the query answers in
it, and the protobuf encoding of the answer of each kind of query with the field numbers of the Cosmos SDK and wasmd
`query.proto` files. Nothing is taken from the contract's decoding.
-/
namespace Ica.Spec

/-! ## The acknowledgement -/

/-- An acknowledgement: `{"result": base64}` or `{"error": text}`, and nothing else. -/
def readAck (bs : Bytes) : Option AckData :=
  match jsonOfBytes bs with
  | some (.obj [("result", .str s)]) => (b64Dec s.toList).map .result
  | some (.obj [("error", .str e)]) => some (.error e)
  | _ => none

/-- `MsgData { 1: msg_type, 2: data }`, deprecated. -/
def readMsgData (m : Fields) : Option (String × Bytes) := do
  let typ ← dStr (sel 1 m)
  let data ← dBytes (sel 2 m)
  some (typ, data)

/-- Where the answers of the queries are: the value of the last `Any` of
`TxMsgData { 1: repeated MsgData data, 2: repeated Any msg_responses }` is a `MsgModuleQuerySafeResponse { 1: height, 2: repeated bytes }`. -/
def readQueryAnswer (res : Bytes) : Option (UInt64 × List Bytes) := do
  let tx ← parseWire res
  let _ ← (dMsgs (sel 1 tx)).bind (readAll readMsgData)
  let anys ← (dMsgs (sel 2 tx)).bind (readAll readAny)
  let last ← anys.getLast?
  let m ← parseWire last.2
  let height ← dU64 (sel 1 m)
  let answers ← dBytess (sel 2 m)
  some (height, answers)

/-! ## The answers -/

/-- Fields with other tags than those of the `.proto` file: to be skipped, whatever they are. -/
def Extra (known : List Nat) (rest : Fields) : Prop := Valid rest ∧ ∀ p ∈ rest, p.1 ∉ known

/-- `cosmos.base.v1beta1.Coin`. -/
def coinFields (c : Coin) : Fields := tagged 1 (vStr c.denom) ++ tagged 2 (vStr (decString c.amount.val))

/-- `cosmos.bank.v1beta1.DenomUnit`. -/
def unitFields (u : DenomUnit) : Fields :=
  tagged 1 (vStr u.denom) ++ tagged 2 (vU64 u.exponent.toUInt64) ++ tagged 3 (vStrs u.aliases)

/-- `cosmos.bank.v1beta1.Metadata`. -/
def metadataFields (m : DenomMetadata) : Fields :=
  tagged 1 (vStr m.description) ++ tagged 2 (vMsgs (m.denomUnits.map unitFields)) ++ tagged 3 (vStr m.base) ++
    tagged 4 (vStr m.display) ++ tagged 5 (vStr m.name) ++ tagged 6 (vStr m.symbol) ++ tagged 7 (vStr m.uri) ++
    tagged 8 (vStr m.uriHash)

/-- `cosmos.base.query.v1beta1.PageResponse`: next key and total. -/
abbrev HostPageInfo := Bytes × UInt64

/-- Its fields. -/
def pageFields (p : HostPageInfo) : Fields := tagged 1 (vBytes p.1) ++ tagged 2 (vU64 p.2)

/-- Two numbers: `AbsoluteTxPosition { 1: block_height, 2: tx_index }`, `Timestamp { 1: seconds, 2: nanos }`,
`Duration { 1: seconds, 2: nanos }` (signed numbers are 64 bits on the wire). -/
def pairFields (p : UInt64 × UInt64) : Fields := tagged 1 (vU64 p.1) ++ tagged 2 (vU64 p.2)

/-- `google.protobuf.Any`. -/
def anyFields (a : String × Bytes) : Fields := tagged 1 (vStr a.1) ++ tagged 2 (vBytes a.2)

/-- `cosmwasm.wasm.v1.ContractInfo`. -/
structure HostContractInfo where
  codeId : UInt64
  creator : String
  admin : String
  label : String
  created : Option (UInt64 × UInt64)
  ibcPort : String
  extension : Option (String × Bytes)
  rest : Fields

/-- Its fields. -/
def HostContractInfo.fields (i : HostContractInfo) : Fields :=
  tagged 1 (vU64 i.codeId) ++ tagged 2 (vStr i.creator) ++ tagged 3 (vStr i.admin) ++ tagged 4 (vStr i.label) ++
    tagged 5 (vMsg (i.created.map pairFields)) ++ tagged 6 (vStr i.ibcPort) ++
    tagged 7 (vMsg (i.extension.map anyFields)) ++ i.rest

/-- A delegation with its balance: `cosmos.staking.v1beta1.DelegationResponse`. -/
structure HostDelegation where
  delegator : String
  validator : String
  shares : String
  balance : Coin

/-- Its fields. -/
def HostDelegation.fields (d : HostDelegation) : Fields :=
  tagged 1 (vMsg (some (tagged 1 (vStr d.delegator) ++ tagged 2 (vStr d.validator) ++ tagged 3 (vStr d.shares)))) ++
    tagged 2 (vMsg (some (coinFields d.balance)))

/-- `cosmos.staking.v1beta1.Description`. -/
structure HostDescription where
  moniker : String
  identity : String
  website : String
  securityContact : String
  details : String

/-- Its fields. -/
def HostDescription.fields (d : HostDescription) : Fields :=
  tagged 1 (vStr d.moniker) ++ tagged 2 (vStr d.identity) ++ tagged 3 (vStr d.website) ++
    tagged 4 (vStr d.securityContact) ++ tagged 5 (vStr d.details)

/-- A validator: `cosmos.staking.v1beta1.Validator`, with its commission. Rates are numbers in units of `10^-18`; the
SDK's `LegacyDec` writes this number in decimal digits, without a point. -/
structure HostValidator where
  operator : String
  pubkey : Option (String × Bytes)
  jailed : Bool
  status : UInt64
  tokens : String
  shares : String
  description : Option HostDescription
  unbondingHeight : UInt64
  unbondingTime : Option (UInt64 × UInt64)
  rate : Nat
  maxRate : Nat
  maxChangeRate : Nat
  updateTime : Option (UInt64 × UInt64)
  minSelfDelegation : String
  onHold : UInt64
  unbondingIds : List UInt64
  rest : Fields
  commissionRest : Fields

/-- The fields of its commission: `Commission { 1: CommissionRates { 1: rate, 2: max_rate, 3: max_change_rate },
2: update_time }`. -/
def HostValidator.commission (v : HostValidator) : Fields :=
  tagged 1 (vMsg (some (tagged 1 (vStr (decString v.rate)) ++ tagged 2 (vStr (decString v.maxRate)) ++
    tagged 3 (vStr (decString v.maxChangeRate))))) ++ tagged 2 (vMsg (v.updateTime.map pairFields)) ++ v.commissionRest

/-- Its fields. -/
def HostValidator.fields (v : HostValidator) : Fields :=
  tagged 1 (vStr v.operator) ++ tagged 2 (vMsg (v.pubkey.map anyFields)) ++ tagged 3 (vBool v.jailed) ++
    tagged 4 (vU64 v.status) ++ tagged 5 (vStr v.tokens) ++ tagged 6 (vStr v.shares) ++
    tagged 7 (vMsg (v.description.map HostDescription.fields)) ++ tagged 8 (vU64 v.unbondingHeight) ++
    tagged 9 (vMsg (v.unbondingTime.map pairFields)) ++ tagged 10 (vMsg (some v.commission)) ++
    tagged 11 (vStr v.minSelfDelegation) ++ tagged 12 (vU64 v.onHold) ++ tagged 13 (vPacked v.unbondingIds) ++ v.rest

/-- The unknown fields of a validator are unknown. -/
def HostValidator.Wf (v : HostValidator) : Prop :=
  Extra [1, 2, 3, 4, 5, 6, 7, 8, 9, 10, 11, 12, 13] v.rest ∧ Extra [1, 2] v.commissionRest

/-- `cosmos.staking.v1beta1.Params`. -/
structure HostParams where
  unbondingTime : Option (UInt64 × UInt64)
  maxValidators : UInt32
  maxEntries : UInt32
  historicalEntries : UInt32
  bondDenom : String
  minCommissionRate : String
  rest : Fields

/-- Its fields. -/
def HostParams.fields (p : HostParams) : Fields :=
  tagged 1 (vMsg (p.unbondingTime.map pairFields)) ++ tagged 2 (vU64 p.maxValidators.toUInt64) ++
    tagged 3 (vU64 p.maxEntries.toUInt64) ++ tagged 4 (vU64 p.historicalEntries.toUInt64) ++
    tagged 5 (vStr p.bondDenom) ++ tagged 6 (vStr p.minCommissionRate) ++ p.rest

/-- The answers of the queries whose values the contract reports (validators are apart, see C40). -/
inductive HostAnswer where
  | balance (c : Coin)
  | allBalances (cs : List Coin) (page : Option HostPageInfo)
  | denomMetadata (m : DenomMetadata)
  | denomsMetadata (ms : List DenomMetadata) (page : Option HostPageInfo)
  | supplyOf (c : Coin)
  | contractInfo (address : String) (info : HostContractInfo)
  | rawState (data : Bytes)
  | smartState (data : Bytes)
  | delegation (d : HostDelegation)
  | delegatorDelegations (ds : List HostDelegation) (page : Option HostPageInfo)
  | stakingParams (p : HostParams)

/-- The fields of an answer. -/
def HostAnswer.fields : HostAnswer → Fields
  | .balance c => tagged 1 (vMsg (some (coinFields c)))
  | .allBalances cs page => tagged 1 (vMsgs (cs.map coinFields)) ++ tagged 2 (vMsg (page.map pageFields))
  | .denomMetadata m => tagged 1 (vMsg (some (metadataFields m)))
  | .denomsMetadata ms page => tagged 1 (vMsgs (ms.map metadataFields)) ++ tagged 2 (vMsg (page.map pageFields))
  | .supplyOf c => tagged 1 (vMsg (some (coinFields c)))
  | .contractInfo address info => tagged 1 (vStr address) ++ tagged 2 (vMsg (some info.fields))
  | .rawState data => tagged 1 (vBytes data)
  | .smartState data => tagged 1 (vBytes data)
  | .delegation d => tagged 1 (vMsg (some d.fields))
  | .delegatorDelegations ds page =>
    tagged 1 (vMsgs (ds.map HostDelegation.fields)) ++ tagged 2 (vMsg (page.map pageFields))
  | .stakingParams p => tagged 1 (vMsg (some p.fields))

/-- The bytes of an answer. -/
def HostAnswer.bytes (a : HostAnswer) : Bytes := encFields a.fields

/-- The unknown fields of an answer are unknown. -/
def HostAnswer.Wf : HostAnswer → Prop
  | .contractInfo _ info => Extra [1, 2, 3, 4, 5, 6, 7] info.rest
  | .stakingParams p => Extra [1, 2, 3, 4, 5, 6] p.rest
  | _ => True

/-- The host query an answer belongs to, by path. -/
def HostAnswer.path : HostAnswer → String
  | .balance .. => "/cosmos.bank.v1beta1.Query/Balance"
  | .allBalances .. => "/cosmos.bank.v1beta1.Query/AllBalances"
  | .denomMetadata .. => "/cosmos.bank.v1beta1.Query/DenomMetadata"
  | .denomsMetadata .. => "/cosmos.bank.v1beta1.Query/DenomsMetadata"
  | .supplyOf .. => "/cosmos.bank.v1beta1.Query/SupplyOf"
  | .rawState .. => "/cosmwasm.wasm.v1.Query/RawContractState"
  | .smartState .. => "/cosmwasm.wasm.v1.Query/SmartContractState"
  | .contractInfo .. => "/cosmwasm.wasm.v1.Query/ContractInfo"
  | .delegation .. => "/cosmos.staking.v1beta1.Query/Delegation"
  | .delegatorDelegations .. => "/cosmos.staking.v1beta1.Query/DelegatorDelegations"
  | .stakingParams .. => "/cosmos.staking.v1beta1.Query/Params"

/-- An empty text or byte string means "none". -/
def unlessEmpty {α : Type} [DecidableEq α] (e x : α) : Option α := if x = e then none else some x

/-- A delegation as reported. -/
def HostDelegation.reported (d : HostDelegation) : Delegation := ⟨d.delegator, d.validator, d.balance⟩

/-- What the callback should report for an answer. (`pinned` is not part of the host's answer.) -/
def HostAnswer.reported : HostAnswer → IcaQueryResponse
  | .balance c => .bank (.balance ⟨c⟩)
  | .allBalances cs _ => .bank (.allBalances ⟨cs⟩)
  | .denomMetadata m => .bank (.denomMetadata ⟨m⟩)
  | .denomsMetadata ms page => .bank (.allDenomMetadata ⟨ms, page.map (·.1)⟩)
  | .supplyOf c => .bank (.supply ⟨c⟩)
  | .contractInfo _ i =>
    .wasm (.contractInfo (some ⟨i.codeId, i.creator, unlessEmpty "" i.admin, false, unlessEmpty "" i.ibcPort⟩))
  | .rawState data => .wasm (.rawContractState (unlessEmpty [] data))
  | .smartState data => .wasm (.smartContractState data)
  | .delegation d => .staking (.delegation ⟨some d.reported⟩)
  | .delegatorDelegations ds _ => .staking (.allDelegations ⟨ds.map HostDelegation.reported⟩)
  | .stakingParams p => .staking (.bondedDenom ⟨p.bondDenom⟩)

/-- The host answered the query `q` with the bytes `bs`, and `r` is what should be reported: the value of the answer,
or for a stargate query the bytes themselves with the path asked for. -/
def Answered (q : QueryRequest) (bs : Bytes) (r : IcaQueryResponse) : Prop :=
  match q with
  | .stargate path _ => r = .stargate bs path
  | q => ∃ (h : HostQuery) (a : HostAnswer), denotesQuery q = some h ∧ a.path = h.path ∧ a.Wf ∧ bs = a.bytes ∧ r = a.reported

/-- The response is of the kind of the query. -/
def SameKind : QueryRequest → IcaQueryResponse → Prop
  | .bank (.supply _), .bank (.supply _) => True
  | .bank (.balance _ _), .bank (.balance _) => True
  | .bank (.allBalances _), .bank (.allBalances _) => True
  | .bank (.denomMetadata _), .bank (.denomMetadata _) => True
  | .bank (.allDenomMetadata _), .bank (.allDenomMetadata _) => True
  | .wasm (.smart _ _), .wasm (.smartContractState _) => True
  | .wasm (.raw _ _), .wasm (.rawContractState _) => True
  | .wasm (.contractInfo _), .wasm (.contractInfo _) => True
  | .staking .bondedDenom, .staking (.bondedDenom _) => True
  | .staking (.allDelegations _), .staking (.allDelegations _) => True
  | .staking (.delegation _ _), .staking (.delegation _) => True
  | .staking .allValidators, .staking (.allValidators _) => True
  | .staking (.validator _), .staking (.validator _) => True
  | .stargate path _, .stargate _ path' => path = path'
  | _, _ => False

/-! ## Validators -/

/-- The host's answer to a validator query. -/
def validatorAnswer (v : HostValidator) : Bytes := encFields (tagged 1 (vMsg (some v.fields)))
/-- The host's answer to a validators query. -/
def validatorsAnswer (vs : List HostValidator) (page : Option HostPageInfo) : Bytes :=
  encFields (tagged 1 (vMsgs (vs.map HostValidator.fields)) ++ tagged 2 (vMsg (page.map pageFields)))
/-- The validator is reported with the rates the host holds. -/
def TrueRates (v : HostValidator) (r : Validator) : Prop :=
  r.address = v.operator ∧ r.commission.atomics.val = v.rate ∧ r.maxCommission.atomics.val = v.maxRate ∧
    r.maxChangeRate.atomics.val = v.maxChangeRate
/-- The validator is reported with rates `10^18` times those the host holds. -/
def ScaledRates (v : HostValidator) (r : Validator) : Prop :=
  r.address = v.operator ∧ r.commission.atomics.val = v.rate * 10 ^ 18 ∧
    r.maxCommission.atomics.val = v.maxRate * 10 ^ 18 ∧ r.maxChangeRate.atomics.val = v.maxChangeRate * 10 ^ 18
/-- Rates are at most one. -/
def RatesOk (v : HostValidator) : Prop :=
  v.Wf ∧ v.rate ≤ 10 ^ 18 ∧ v.maxRate ≤ 10 ^ 18 ∧ v.maxChangeRate ≤ 10 ^ 18

/-! ## Callbacks -/

/-- The operation made exactly one call of another contract: this message, as the receiving contract decodes it, without
funds, to this address. -/
def CalledBack (obs : List Obs) (address : String) (m : CallbackMsg) : Prop :=
  ∃ bytes, callsOf obs = [(address, bytes, [])] ∧ ReceiverExecuteMsg.jc.ofBytes bytes = some (.receiveIcaCallback m)

/-! ## Histories of packets -/

/-- In this history, a transaction of the owner sent the packet `p` with these queries. -/
def Sent (h : List (Op × List Obs)) (p : IbcPacket) (qs : List QueryRequest) : Prop :=
  ∃ sender ms memo t fresh core,
    (Op.execute sender (.sendCosmosMsgs ms qs memo t) fresh core, [Obs.packetSent p]) ∈ h

/-- The operation delivers a success acknowledgement or the timeout of the packet. -/
def Clears (id : String) (n : UInt64) : Op → Prop
  | .relayAck id' n' ack _ => id' = id ∧ n' = n ∧ ∃ res, readAck ack = some (.result res)
  | .relayTimeout id' n' _ => id' = id ∧ n' = n
  | _ => False

end Ica.Spec
