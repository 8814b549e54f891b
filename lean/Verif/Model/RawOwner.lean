import Verif.Model.Receivers

/-!
# cw-ica-owner on raw key-value storage

The owner contract of `/repo/testing/contracts/cw-ica-owner` as it runs in the VM, in the way `Model/RawStore.lean` does it
for the controller: storage of bytes, entry points on JSON text, one read or write after the other.
`Facts/RawOwner.lean` proves that the typed functions of `Model/Receivers.lean` are what these do.
-/
namespace Ica

/-! ## JSON (`cw_serde`: unknown members are refused) -/

/-- JSON of `ContractState` (`/repo/testing/contracts/cw-ica-owner/src/state.rs` 23-30). -/
def Owner.State.jc : JC Owner.State where
  enc m := .obj [("admin", jcStr.enc m.admin), ("ica_controller_code_id", jcU64.enc m.codeId)]
  dec j :=
    match getObj true ["admin", "ica_controller_code_id"] j with
    | none => none
    | some fs =>
      match reqF jcStr "admin" fs with
      | none => none
      | some a =>
        match reqF jcU64 "ica_controller_code_id" fs with
        | none => none
        | some c => some ⟨a, c⟩

/-- JSON of `IcaState` (`/repo/testing/contracts/cw-ica-owner/src/state.rs` 62-69). -/
def Owner.IcaState.jc : JC Owner.IcaState where
  enc m := .obj [("ica_id", jcU64.enc m.icaId), ("ica_addr", jcStr.enc m.icaAddr),
    ("tx_encoding", TxEncoding.jc.enc m.txEncoding), ("channel_state", ChannelState.jc.enc m.channelState)]
  dec j :=
    match getObj true ["ica_id", "ica_addr", "tx_encoding", "channel_state"] j with
    | none => none
    | some fs =>
      match reqF jcU64 "ica_id" fs with
      | none => none
      | some i =>
        match reqF jcStr "ica_addr" fs with
        | none => none
        | some a =>
          match reqF TxEncoding.jc "tx_encoding" fs with
          | none => none
          | some e =>
            match reqF ChannelState.jc "channel_state" fs with
            | none => none
            | some c => some ⟨i, a, e, c⟩

/-- JSON of `IcaContractState` (`/repo/testing/contracts/cw-ica-owner/src/state.rs` 55-60). -/
def Owner.IcaContractState.jc : JC Owner.IcaContractState where
  enc m := .obj [("contract_addr", jcStr.enc m.contractAddr), ("ica_state", (jcOpt Owner.IcaState.jc).enc m.icaState)]
  dec j :=
    match getObj true ["contract_addr", "ica_state"] j with
    | none => none
    | some fs =>
      match reqF jcStr "contract_addr" fs with
      | none => none
      | some a =>
        match optF Owner.IcaState.jc "ica_state" fs with
        | none => none
        | some s => some ⟨a, s⟩

/-- JSON of `InstantiateMsg` (`/repo/testing/contracts/cw-ica-owner/src/msg.rs` 5-9). -/
def Owner.InstantiateMsg.jc : JC Owner.InstantiateMsg where
  enc m := .obj [("admin", (jcOpt jcStr).enc m.admin), ("ica_controller_code_id", jcU64.enc m.codeId)]
  dec j :=
    match getObj true ["admin", "ica_controller_code_id"] j with
    | none => none
    | some fs =>
      match optF jcStr "admin" fs with
      | none => none
      | some a =>
        match reqF jcU64 "ica_controller_code_id" fs with
        | none => none
        | some c => some ⟨a, c⟩

namespace Owner

/-- `QueryMsg` (`/repo/testing/contracts/cw-ica-owner/src/msg.rs` 30-42). -/
inductive QueryMsg where
  | getContractState
  | getIcaContractState (icaId : UInt64)
  | getIcaCount
  deriving DecidableEq

/-- How serde reads it. -/
def QueryMsg.dec (j : Json) : Option QueryMsg :=
  match j with
  | .obj [(k, v)] =>
    if k = "get_contract_state" then (getObj true [] v).map fun _ => .getContractState
    else if k = "get_ica_contract_state" then
      match getObj true ["ica_id"] v with
      | none => none
      | some fs => (reqF jcU64 "ica_id" fs).map .getIcaContractState
    else if k = "get_ica_count" then (getObj true [] v).map fun _ => .getIcaCount
    else none
  | _ => none

end Owner

namespace Raw

/-! ## Maps with one key (cw-storage-plus 2.0.0, not in /repo) -/

/-- `Map<K, T>` where `K` is one key part: its raw key is the namespace with its length in front, then the part. -/
structure Map1 (κ α : Type) where
  ns : String
  part : κ → Bytes
  jc : JC α

/-- The raw key of an entry. -/
def Map1.rawKey {κ α : Type} (m : Map1 κ α) (k : κ) : Bytes := prefixed (utf8 m.ns) ++ m.part k

/-- `Map::load`. -/
def Map1.load {κ α : Type} (m : Map1 κ α) (k : κ) : RM α := fun raw =>
  match raw (m.rawKey k) with
  | none => (.err (.std "not found"), raw)
  | some b =>
    match m.jc.ofBytes b with
    | none => (.err (.std "Error parsing into type"), raw)
    | some x => (.ok x, raw)

/-- `Map::save`. -/
def Map1.save {κ α : Type} (m : Map1 κ α) (k : κ) (x : α) : RM Unit := fun raw =>
  (.ok (), setKey raw (m.rawKey k) (some (m.jc.toBytes x)))

end Raw

/-! ## The contract -/

namespace RawOwner
open Raw Owner

/-- `/repo/testing/contracts/cw-ica-owner/src/state.rs` 9. -/
def STATE : Item State := ⟨"state", State.jc⟩
/-- `/repo/testing/contracts/cw-ica-owner/src/state.rs` 11. -/
def ICA_STATES : Map1 UInt64 IcaContractState := ⟨"ica_states", be64, IcaContractState.jc⟩
/-- `/repo/testing/contracts/cw-ica-owner/src/state.rs` 13. -/
def ICA_COUNT : Item UInt64 := ⟨"ica_count", jcU64⟩
/-- `/repo/testing/contracts/cw-ica-owner/src/state.rs` 15. -/
def CONTRACT_ADDR_TO_ICA_ID : Map1 String UInt64 := ⟨"contract_addr_to_ica_id", utf8, jcU64⟩

/-- `instantiate` (`/repo/testing/contracts/cw-ica-owner/src/contract.rs` 17-35). -/
def instantiate (api : Api) (sender : String) (msg : Owner.InstantiateMsg) : RM Response := do
  let a ← match msg.admin with
    | some a => lift (addrValidate api a)
    | none => pure sender
  let _ ← STATE.save ⟨a, msg.codeId⟩
  pure .empty

/-- `create_ica_contract` (`/repo/testing/contracts/cw-ica-owner/src/contract.rs` 83-128); the addition is evaluated before
the last write. -/
def createIcaContract (env : Owner.Env) (sender : String) (salt : Option String) (o : ChannelOpenInitOptions) :
    RM Response := do
  let st ← STATE.load
  if st.admin ≠ sender then fail (.std "unauthorized")
  else do
    let count ← attempt ICA_COUNT.load
    let count := count.getD 0
    match (Helpers.Code.mk st.codeId).instantiate2 env.addr env.querier env.self (controllerMsg env.self o)
        ("icacontroller-" ++ env.self ++ "-" ++ decString count.toNat) (some env.self)
        (salt.getD (decString (env.time.toNat / 1000000000))) with
    | none => fail (.std "instantiate2")
    | some (m, addr) => do
      let _ ← ICA_STATES.save count ⟨addr, none⟩
      let _ ← CONTRACT_ADDR_TO_ICA_ID.save addr count
      if count.toNat + 1 < 18446744073709551616 then do
        let _ ← ICA_COUNT.save (UInt64.ofNat (count.toNat + 1))
        pure ⟨[.new m], []⟩
      else lift (.panic "attempt to add with overflow")

/-- `send_predefined_action` (`/repo/testing/contracts/cw-ica-owner/src/contract.rs` 131-162). -/
def sendPredefinedAction (sender : String) (icaId : UInt64) (toAddress : String) : RM Response := do
  let st ← STATE.load
  if st.admin ≠ sender then fail (.std "unauthorized")
  else do
    let ica ← ICA_STATES.load icaId
    pure ⟨[.new (.wasm (.execute ica.contractAddr
      (jsonToBytes (sendCosmosMsgsPlain [predefined toAddress] none none)) []))], []⟩

/-- `ica_callback_handler` (`/repo/testing/contracts/cw-ica-owner/src/contract.rs` 165-196). -/
def icaCallbackHandler (sender : String) (m : CallbackMsg) : RM Response := do
  let id ← CONTRACT_ADDR_TO_ICA_ID.load sender
  let ica ← ICA_STATES.load id
  match m with
  | .onChannelOpenAckCallback ch a e => do
    let _ ← ICA_STATES.save id { ica with icaState := some ⟨id, a, e, ⟨ch, .opened⟩⟩ }
    pure .empty
  | _ => pure .empty

/-- The exported `instantiate`. -/
def vmInstantiate (api : Api) (sender : String) (bytes : Bytes) : RM Response :=
  withMsg Owner.InstantiateMsg.jc bytes (instantiate api sender)

/-- `execute` (`/repo/testing/contracts/cw-ica-owner/src/contract.rs` 37-57), exported. -/
def vmExecute (env : Owner.Env) (sender : String) (bytes : Bytes) : RM Response :=
  match (jsonOfBytes bytes).bind (decodeEnum execVariants) with
  | some (.inl (.createIcaContract salt o)) => createIcaContract env sender salt o
  | some (.inl (.sendPredefinedAction i a)) => sendPredefinedAction sender i a
  | some (.inr m) => icaCallbackHandler sender m
  | none => fail (.std "Error parsing into type")

/-- `query` (`/repo/testing/contracts/cw-ica-owner/src/contract.rs` 57-66, 198-217). -/
def query (msg : Owner.QueryMsg) : RM Bytes :=
  match msg with
  | .getContractState => do
    let x ← STATE.load
    pure (State.jc.toBytes x)
  | .getIcaContractState id => do
    let x ← ICA_STATES.load id
    pure (IcaContractState.jc.toBytes x)
  | .getIcaCount => do
    let x ← ICA_COUNT.load
    pure (jcU64.toBytes x)

/-- The exported `query`. -/
def vmQuery (bytes : Bytes) (raw : RawStore) : Res Bytes :=
  match (jsonOfBytes bytes).bind Owner.QueryMsg.dec with
  | some m => (query m raw).1
  | none => .err (.std "Error parsing into type")

end RawOwner

end Ica
