import Verif.Spec.Observe
import Verif.Wire

/-!
# The packet as the host chain reads it

An independent reading of what the ICS-27 host module does with the bytes of a packet: JSON
`{"type": n, "data": [bytes], "memo": s}`, then protobuf `CosmosTx { 1: repeated Any { 1: type_url, 2: value } }`, then
each message by its type URL with the field numbers of the Cosmos SDK, ibc-go and wasmd `tx.proto` files. Amounts are
numbers here, not texts; vote options are named. Nothing is taken from the contract's conversion.
-/
namespace Ica.Spec

/-- A coin on the host: denomination and amount. -/
abbrev HostCoin := String × Nat

/-- The messages the host executes for the interchain account. `signer` is the account that has to sign:
`from_address`, `sender`, `delegator_address`, `voter`, `depositor` or `signer` in the respective message. -/
inductive HostMsg where
  | send (signer toAddress : String) (amount : List HostCoin)
  | transfer (signer port channel receiver : String) (token : HostCoin) (timeoutHeight : Option (Nat × Nat))
      (timeoutNanos : Nat) (memo : String)
  | executeContract (signer contract : String) (msg : Bytes) (funds : List HostCoin)
  | instantiateContract (signer admin : String) (codeId : Nat) (label : String) (msg : Bytes) (funds : List HostCoin)
  | instantiateContract2 (signer admin : String) (codeId : Nat) (label : String) (msg : Bytes) (funds : List HostCoin)
      (salt : Bytes) (fixMsg : Bool)
  | migrateContract (signer contract : String) (codeId : Nat) (msg : Bytes)
  | updateAdmin (signer newAdmin contract : String)
  | clearAdmin (signer contract : String)
  | vote (signer : String) (proposal : Nat) (option : VoteOption)
  /-- weights in units of `10^-18` -/
  | voteWeighted (signer : String) (proposal : Nat) (options : List (VoteOption × Nat)) (metadata : String)
  | delegate (signer validator : String) (amount : HostCoin)
  | undelegate (signer validator : String) (amount : HostCoin)
  | redelegate (signer source destination : String) (amount : HostCoin)
  | setWithdrawAddress (signer address : String)
  | withdrawDelegatorReward (signer validator : String)
  | fundCommunityPool (signer : String) (amount : List HostCoin)
  | moduleQuerySafe (signer : String) (requests : List (String × Bytes))

/-- The account that has to sign. -/
def HostMsg.signer : HostMsg → String
  | .send s .. | .transfer s .. | .executeContract s .. | .instantiateContract s .. | .instantiateContract2 s ..
  | .migrateContract s .. | .updateAdmin s .. | .clearAdmin s .. | .vote s .. | .voteWeighted s .. | .delegate s ..
  | .undelegate s .. | .redelegate s .. | .setWithdrawAddress s .. | .withdrawDelegatorReward s ..
  | .fundCommunityPool s .. | .moduleQuerySafe s .. => s

/-! ## Reading protobuf -/

/-- All of a list, or nothing. -/
def readAll {α β : Type} (f : α → Option β) : List α → Option (List β)
  | [] => some []
  | x :: xs => do
    let y ← f x
    let ys ← readAll f xs
    some (y :: ys)

/-- `cosmos.base.v1beta1.Coin { 1: denom, 2: amount (decimal digits) }`. -/
def readCoin (m : Fields) : Option HostCoin := do
  let denom ← dStr (sel 1 m)
  let amount ← dStr (sel 2 m)
  let n ← parseDecChars amount.toList
  some (denom, n)

/-- A repeated coin field. -/
def readCoins (m : Fields) (tag : Nat) : Option (List HostCoin) := (dMsgs (sel tag m)).bind (readAll readCoin)

/-- A single coin field, which must be there. -/
def readTheCoin (m : Fields) (tag : Nat) : Option HostCoin := do
  let c ← ← dMsg (sel tag m)
  readCoin c

/-- `ibc.core.client.v1.Height { 1: revision_number, 2: revision_height }`, if present. -/
def readHeight (m : Fields) (tag : Nat) : Option (Option (Nat × Nat)) :=
  match dMsg (sel tag m) with
  | none => none
  | some none => some none
  | some (some h) => do
    let r ← dU64 (sel 1 h)
    let n ← dU64 (sel 2 h)
    some (some (r.toNat, n.toNat))

/-- `cosmos.gov.VoteOption`. -/
def readVoteOption (n : UInt64) : Option VoteOption :=
  if n = 1 then some .yes
  else if n = 2 then some .abstain
  else if n = 3 then some .no
  else if n = 4 then some .noWithVeto
  else none

/-- `cosmos.gov.v1.WeightedVoteOption { 1: option, 2: weight }`. -/
def readWeighted (m : Fields) : Option (VoteOption × Nat) := do
  let o ← dU64 (sel 1 m)
  let v ← readVoteOption o
  let s ← dStr (sel 2 m)
  let d ← parseDecimal s
  some (v, d.atomics.val)

/-- `ibc.applications.interchain_accounts.host.v1.QueryRequest { 1: path, 2: data }`. -/
def readRequest (m : Fields) : Option (String × Bytes) := do
  let p ← dStr (sel 1 m)
  let d ← dBytes (sel 2 m)
  some (p, d)

/-- Read a message by its type URL. -/
def readFields (url : String) (m : Fields) : Option HostMsg :=
  if url = "/cosmos.bank.v1beta1.MsgSend" then do
    let s ← dStr (sel 1 m); let t ← dStr (sel 2 m); let a ← readCoins m 3
    some (.send s t a)
  else if url = "/ibc.applications.transfer.v1.MsgTransfer" then do
    let port ← dStr (sel 1 m); let channel ← dStr (sel 2 m); let token ← readTheCoin m 3; let s ← dStr (sel 4 m)
    let receiver ← dStr (sel 5 m); let h ← readHeight m 6; let t ← dU64 (sel 7 m); let memo ← dStr (sel 8 m)
    some (.transfer s port channel receiver token h t.toNat memo)
  else if url = "/cosmwasm.wasm.v1.MsgExecuteContract" then do
    let s ← dStr (sel 1 m); let c ← dStr (sel 2 m); let b ← dBytes (sel 3 m); let f ← readCoins m 5
    some (.executeContract s c b f)
  else if url = "/cosmwasm.wasm.v1.MsgInstantiateContract" then do
    let s ← dStr (sel 1 m); let a ← dStr (sel 2 m); let c ← dU64 (sel 3 m); let l ← dStr (sel 4 m)
    let b ← dBytes (sel 5 m); let f ← readCoins m 6
    some (.instantiateContract s a c.toNat l b f)
  else if url = "/cosmwasm.wasm.v1.MsgInstantiateContract2" then do
    let s ← dStr (sel 1 m); let a ← dStr (sel 2 m); let c ← dU64 (sel 3 m); let l ← dStr (sel 4 m)
    let b ← dBytes (sel 5 m); let f ← readCoins m 6; let salt ← dBytes (sel 7 m); let fix ← dBool (sel 8 m)
    some (.instantiateContract2 s a c.toNat l b f salt fix)
  else if url = "/cosmwasm.wasm.v1.MsgMigrateContract" then do
    let s ← dStr (sel 1 m); let c ← dStr (sel 2 m); let n ← dU64 (sel 3 m); let b ← dBytes (sel 4 m)
    some (.migrateContract s c n.toNat b)
  else if url = "/cosmwasm.wasm.v1.MsgUpdateAdmin" then do
    let s ← dStr (sel 1 m); let a ← dStr (sel 2 m); let c ← dStr (sel 3 m)
    some (.updateAdmin s a c)
  else if url = "/cosmwasm.wasm.v1.MsgClearAdmin" then do
    let s ← dStr (sel 1 m); let c ← dStr (sel 3 m)
    some (.clearAdmin s c)
  else if url = "/cosmos.gov.v1beta1.MsgVote" then do
    let p ← dU64 (sel 1 m); let s ← dStr (sel 2 m); let o ← dU64 (sel 3 m); let v ← readVoteOption o
    some (.vote s p.toNat v)
  else if url = "/cosmos.gov.v1.MsgVoteWeighted" then do
    let p ← dU64 (sel 1 m); let s ← dStr (sel 2 m); let os ← (dMsgs (sel 3 m)).bind (readAll readWeighted)
    let t ← dStr (sel 4 m)
    some (.voteWeighted s p.toNat os t)
  else if url = "/cosmos.staking.v1beta1.MsgDelegate" then do
    let s ← dStr (sel 1 m); let v ← dStr (sel 2 m); let a ← readTheCoin m 3
    some (.delegate s v a)
  else if url = "/cosmos.staking.v1beta1.MsgUndelegate" then do
    let s ← dStr (sel 1 m); let v ← dStr (sel 2 m); let a ← readTheCoin m 3
    some (.undelegate s v a)
  else if url = "/cosmos.staking.v1beta1.MsgBeginRedelegate" then do
    let s ← dStr (sel 1 m); let v ← dStr (sel 2 m); let u ← dStr (sel 3 m); let a ← readTheCoin m 4
    some (.redelegate s v u a)
  else if url = "/cosmos.distribution.v1beta1.MsgSetWithdrawAddress" then do
    let s ← dStr (sel 1 m); let a ← dStr (sel 2 m)
    some (.setWithdrawAddress s a)
  else if url = "/cosmos.distribution.v1beta1.MsgWithdrawDelegatorReward" then do
    let s ← dStr (sel 1 m); let v ← dStr (sel 2 m)
    some (.withdrawDelegatorReward s v)
  else if url = "/cosmos.distribution.v1beta1.MsgFundCommunityPool" then do
    let a ← readCoins m 1; let s ← dStr (sel 2 m)
    some (.fundCommunityPool s a)
  else if url = "/ibc.applications.interchain_accounts.host.v1.MsgModuleQuerySafe" then do
    let s ← dStr (sel 1 m); let rs ← (dMsgs (sel 2 m)).bind (readAll readRequest)
    some (.moduleQuerySafe s rs)
  else none

/-- Read a message from its type URL and bytes. -/
def readHostMsg (url : String) (value : Bytes) : Option HostMsg := (parseWire value).bind (readFields url)

/-- `google.protobuf.Any { 1: type_url, 2: value }`. -/
def readAny (m : Fields) : Option (String × Bytes) := do
  let u ← dStr (sel 1 m)
  let v ← dBytes (sel 2 m)
  some (u, v)

/-- An array of numbers below 256, as bytes. -/
def readByteArray : List Json → Option Bytes
  | [] => some []
  | .num n :: l => if n < 256 then (readByteArray l).map (UInt8.ofNat n :: ·) else none
  | _ :: _ => none

/-- What an ICA packet says: its type, its memo and its messages (type URL and bytes). -/
structure HostPacket where
  /-- `1` is `EXECUTE_TX` -/
  type : Nat
  memo : Option String
  messages : List (String × Bytes)

/-- Read the bytes of a packet. -/
def readPacket (data : Bytes) : Option HostPacket := do
  let j ← jsonOfBytes data
  match j with
  | .obj ms =>
    let type ← match lookupKey "type" ms with | some (.num n) => some n | _ => none
    let bytes ← match lookupKey "data" ms with | some (.arr l) => readByteArray l | _ => none
    let memo ← match lookupKey "memo" ms with
      | some (.str s) => some (some s)
      | none => some none
      | _ => none
    let tx ← parseWire bytes
    let anys ← (dMsgs (sel 1 tx)).bind (readAll readAny)
    some ⟨type, memo, anys⟩
  | _ => none

/-! ## What the owner asked for -/

/-- A coin as the owner wrote it. -/
def hostCoin (c : Coin) : HostCoin := (c.denom, c.amount.val)

/-- An optional admin or memo: the host writes "none" as the empty text. -/
def orEmpty : Option String → String
  | some a => a
  | none => ""

/-- A timeout in nanoseconds: the host writes "none" as zero. -/
def orZero : Option UInt64 → Nat
  | some t => t.toNat
  | none => 0

/-- The host message a `CosmosMsg` of the owner denotes, for the interchain account `ica`; none for the kinds the
contract does not support and for `stargate` (whose bytes are already a host message). -/
def denotes (ica : String) : CosmosMsg → Option HostMsg
  | .bank (.send toAddress amount) => some (.send ica toAddress (amount.map hostCoin))
  | .bank (.burn _) => none
  | .ibc (.transfer channel receiver amount timeout memo) =>
    some (.transfer ica "transfer" channel receiver (hostCoin amount)
      (timeout.block.map fun b => (b.revision.toNat, b.height.toNat)) (orZero timeout.timestamp) (orEmpty memo))
  | .ibc _ => none
  | .wasm (.execute contract msg funds) => some (.executeContract ica contract msg (funds.map hostCoin))
  | .wasm (.instantiate admin codeId msg funds label) =>
    some (.instantiateContract ica (orEmpty admin) codeId.toNat label msg (funds.map hostCoin))
  | .wasm (.instantiate2 admin codeId label msg funds salt) =>
    some (.instantiateContract2 ica (orEmpty admin) codeId.toNat label msg (funds.map hostCoin) salt false)
  | .wasm (.migrate contract codeId msg) => some (.migrateContract ica contract codeId.toNat msg)
  | .wasm (.updateAdmin contract admin) => some (.updateAdmin ica admin contract)
  | .wasm (.clearAdmin contract) => some (.clearAdmin ica contract)
  | .gov (.vote proposal option) => some (.vote ica proposal.toNat option)
  | .gov (.voteWeighted proposal options) =>
    some (.voteWeighted ica proposal.toNat (options.map fun o => (o.option, o.weight.atomics.val)) "")
  | .staking (.delegate validator amount) => some (.delegate ica validator (hostCoin amount))
  | .staking (.undelegate validator amount) => some (.undelegate ica validator (hostCoin amount))
  | .staking (.redelegate source destination amount) =>
    some (.redelegate ica source destination (hostCoin amount))
  | .distribution (.setWithdrawAddress address) => some (.setWithdrawAddress ica address)
  | .distribution (.withdrawDelegatorReward validator) => some (.withdrawDelegatorReward ica validator)
  | .distribution (.fundCommunityPool amount) => some (.fundCommunityPool ica (amount.map hostCoin))
  | .stargate _ _ => none
  | .custom _ => none

/-- The host reads the message `a` as exactly what the owner asked for: a stargate message is passed on as it is,
any other message is read as the message it denotes. -/
def HostReads (ica : String) (m : CosmosMsg) (a : String × Bytes) : Prop :=
  match m with
  | .stargate url value => a = (url, value)
  | m => ∃ h, denotes ica m = some h ∧ readHostMsg a.1 a.2 = some h

/-! ## Queries -/

/-- A page request: key, offset, limit, count total, reverse. -/
structure HostPage where
  key : Bytes
  offset : Nat
  limit : Nat
  countTotal : Bool
  reverse : Bool

/-- The queries the host answers in a `MsgModuleQuerySafe`. -/
inductive HostQuery where
  | balance (address denom : String)
  | allBalances (address : String) (page : Option HostPage)
  | denomMetadata (denom : String)
  | denomsMetadata (page : Option HostPage)
  | supplyOf (denom : String)
  | rawState (address : String) (key : Bytes)
  | smartState (address : String) (msg : Bytes)
  | contractInfo (address : String)
  | validator (address : String)
  | validators (status : String) (page : Option HostPage)
  | delegation (delegator validator : String)
  | delegatorDelegations (delegator : String) (page : Option HostPage)
  | stakingParams

/-- `cosmos.base.query.v1beta1.PageRequest { 1: key, 2: offset, 3: limit, 4: count_total, 5: reverse }`, if present. -/
def readPage (m : Fields) (tag : Nat) : Option (Option HostPage) :=
  match dMsg (sel tag m) with
  | none => none
  | some none => some none
  | some (some p) => do
    let k ← dBytes (sel 1 p); let o ← dU64 (sel 2 p); let l ← dU64 (sel 3 p); let c ← dBool (sel 4 p)
    let r ← dBool (sel 5 p)
    some (some ⟨k, o.toNat, l.toNat, c, r⟩)

/-- Read a query request by its path. -/
def readQueryFields (path : String) (m : Fields) : Option HostQuery :=
  if path = "/cosmos.bank.v1beta1.Query/Balance" then do
    let a ← dStr (sel 1 m); let d ← dStr (sel 2 m)
    some (.balance a d)
  else if path = "/cosmos.bank.v1beta1.Query/AllBalances" then do
    let a ← dStr (sel 1 m); let p ← readPage m 2
    some (.allBalances a p)
  else if path = "/cosmos.bank.v1beta1.Query/DenomMetadata" then do
    let d ← dStr (sel 1 m)
    some (.denomMetadata d)
  else if path = "/cosmos.bank.v1beta1.Query/DenomsMetadata" then do
    let p ← readPage m 1
    some (.denomsMetadata p)
  else if path = "/cosmos.bank.v1beta1.Query/SupplyOf" then do
    let d ← dStr (sel 1 m)
    some (.supplyOf d)
  else if path = "/cosmwasm.wasm.v1.Query/RawContractState" then do
    let a ← dStr (sel 1 m); let k ← dBytes (sel 2 m)
    some (.rawState a k)
  else if path = "/cosmwasm.wasm.v1.Query/SmartContractState" then do
    let a ← dStr (sel 1 m); let k ← dBytes (sel 2 m)
    some (.smartState a k)
  else if path = "/cosmwasm.wasm.v1.Query/ContractInfo" then do
    let a ← dStr (sel 1 m)
    some (.contractInfo a)
  else if path = "/cosmos.staking.v1beta1.Query/Validator" then do
    let a ← dStr (sel 1 m)
    some (.validator a)
  else if path = "/cosmos.staking.v1beta1.Query/Validators" then do
    let s ← dStr (sel 1 m); let p ← readPage m 2
    some (.validators s p)
  else if path = "/cosmos.staking.v1beta1.Query/Delegation" then do
    let a ← dStr (sel 1 m); let b ← dStr (sel 2 m)
    some (.delegation a b)
  else if path = "/cosmos.staking.v1beta1.Query/DelegatorDelegations" then do
    let a ← dStr (sel 1 m); let p ← readPage m 2
    some (.delegatorDelegations a p)
  else if path = "/cosmos.staking.v1beta1.Query/Params" then some .stakingParams
  else none

/-- Read a query request from its path and bytes. -/
def readHostQuery (path : String) (data : Bytes) : Option HostQuery := (parseWire data).bind (readQueryFields path)

/-- The host query a `QueryRequest` of the owner denotes; none for the kinds the contract does not support and for
`stargate`. -/
def denotesQuery : QueryRequest → Option HostQuery
  | .bank (.balance address denom) => some (.balance address denom)
  | .bank (.allBalances address) => some (.allBalances address none)
  | .bank (.denomMetadata denom) => some (.denomMetadata denom)
  | .bank (.allDenomMetadata page) =>
    some (.denomsMetadata (page.map fun p => ⟨p.key.getD [], 0, p.limit.toNat, false, p.reverse⟩))
  | .bank (.supply denom) => some (.supplyOf denom)
  | .wasm (.raw address key) => some (.rawState address key)
  | .wasm (.smart address msg) => some (.smartState address msg)
  | .wasm (.contractInfo address) => some (.contractInfo address)
  | .wasm (.codeInfo _) => none
  | .staking (.validator address) => some (.validator address)
  | .staking .allValidators => some (.validators "" none)
  | .staking (.delegation delegator validator) => some (.delegation delegator validator)
  | .staking (.allDelegations delegator) => some (.delegatorDelegations delegator none)
  | .staking .bondedDenom => some .stakingParams
  | .stargate _ _ => none
  | .ibc _ => none
  | .custom _ => none
  | .distribution _ => none

/-- The host reads the request `a` as exactly the query the owner asked. -/
def QueryReads (q : QueryRequest) (a : String × Bytes) : Prop :=
  match q with
  | .stargate path data => a = (path, data)
  | q => ∃ h, denotesQuery q = some h ∧ readHostQuery a.1 a.2 = some h

/-! ## Supported kinds -/

/-- The messages the contract documents as supported. -/
def Supported (m : CosmosMsg) : Prop := (∃ url value, m = .stargate url value) ∨ ∃ h, denotes "" m = some h

/-- The gRPC path of a host query. -/
def HostQuery.path : HostQuery → String
  | .balance .. => "/cosmos.bank.v1beta1.Query/Balance"
  | .allBalances .. => "/cosmos.bank.v1beta1.Query/AllBalances"
  | .denomMetadata .. => "/cosmos.bank.v1beta1.Query/DenomMetadata"
  | .denomsMetadata .. => "/cosmos.bank.v1beta1.Query/DenomsMetadata"
  | .supplyOf .. => "/cosmos.bank.v1beta1.Query/SupplyOf"
  | .rawState .. => "/cosmwasm.wasm.v1.Query/RawContractState"
  | .smartState .. => "/cosmwasm.wasm.v1.Query/SmartContractState"
  | .contractInfo .. => "/cosmwasm.wasm.v1.Query/ContractInfo"
  | .validator .. => "/cosmos.staking.v1beta1.Query/Validator"
  | .validators .. => "/cosmos.staking.v1beta1.Query/Validators"
  | .delegation .. => "/cosmos.staking.v1beta1.Query/Delegation"
  | .delegatorDelegations .. => "/cosmos.staking.v1beta1.Query/DelegatorDelegations"
  | .stakingParams => "/cosmos.staking.v1beta1.Query/Params"

/-- What is recorded for a query until its answer comes: its path, and whether its answer is to be passed on as bytes
(a stargate query). -/
def RecordedAs (q : QueryRequest) (r : String × Bool) : Prop :=
  match q with
  | .stargate path _ => r = (path, true)
  | q => ∃ h, denotesQuery q = some h ∧ r = (h.path, false)

/-- The queries the contract documents as supported. -/
def SupportedQuery (q : QueryRequest) : Prop :=
  (∃ path data, q = .stargate path data) ∨ ∃ h, denotesQuery q = some h

end Ica.Spec
