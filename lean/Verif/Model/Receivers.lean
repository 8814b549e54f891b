import Verif.Model.Helpers
import Verif.Model.RawStore

/-!
# Contracts that receive the callbacks

The `ica_callback_execute` macro (`/repo/derive/src/lib.rs`), how crates built without the `query` feature read and write
messages, and the two receiving contracts in `/repo/testing/contracts`.
-/
namespace Ica

/-! ## The macro -/

/-- Serde's `rename_all = "snake_case"` on a variant name (serde_derive, not in /repo; from `cw_serde`). -/
def snakeCase (ident : String) : String :=
  String.ofList (go true ident.toList)
where
  /-- Letter by letter; no underscore at the start. -/
  go : Bool → List Char → List Char
    | _, [] => []
    | first, c :: cs =>
      if c.isUpper then (if first then [c.toLower] else ['_', c.toLower]) ++ go false cs
      else c :: go false cs

/-- A variant of an enum that holds data: its name and how its data is read. -/
structure Variant (ρ : Type) where
  ident : String
  dec : Json → Option ρ

/-- Serde's derived `Deserialize` of an externally tagged enum with `rename_all = "snake_case"`. -/
def decodeEnum {ρ : Type} (vs : List (Variant ρ)) (j : Json) : Option ρ :=
  match j with
  | .obj [(k, v)] =>
    match vs.find? (fun x => snakeCase x.ident = k) with
    | some x => x.dec v
    | none => none
  | _ => none

/-- What the macro is applied to. -/
inductive DeriveInput (ρ : Type) where
  | enum (vs : List (Variant ρ))
  | other

/-- `merge_variants` (`/repo/derive/src/lib.rs` 11-40): `none` is a compile error. The values of the new enum are those of
the old one or of the added variants. -/
def mergeVariants {ρ σ : Type} (args : List String) (left : DeriveInput ρ) (right : List (Variant σ)) :
    Option (List (Variant (ρ ⊕ σ))) :=
  match args, left with
  | [], .enum vs =>
    some (vs.map (fun x => ⟨x.ident, fun j => (x.dec j).map .inl⟩) ++
      right.map fun x => ⟨x.ident, fun j => (x.dec j).map .inr⟩)
  | _, _ => none

/-- `ica_callback_execute` (`/repo/derive/src/lib.rs` 82-98). -/
def icaCallbackExecute {ρ : Type} (args : List String) (input : DeriveInput ρ) :
    Option (List (Variant (ρ ⊕ CallbackMsg))) :=
  mergeVariants args input [⟨"ReceiveIcaCallback", CallbackMsg.jc.dec⟩]

/-! ## Crates built without the `query` feature -/

/-- `IcaControllerCallbackMsg` as read without the `query` feature (`/repo/src/types/callbacks.rs` 18-62 without 35-37):
the type has no `query_result`, here `none`. -/
def CallbackMsg.decPlain (j : Json) : Option CallbackMsg :=
  match j with
  | .obj [(k, v)] =>
    if k = "on_acknowledgement_packet_callback" then
      match getObj false ["ica_acknowledgement", "original_packet", "relayer"] v with
      | none => none
      | some fs =>
        match reqF AckData.jc "ica_acknowledgement" fs with
        | none => none
        | some a =>
          match reqF IbcPacket.jc "original_packet" fs with
          | none => none
          | some p =>
            match reqF jcStr "relayer" fs with
            | none => none
            | some r => some (.onAcknowledgementPacketCallback a p r none)
    else CallbackMsg.jc.dec j
  | _ => none

/-- `ExecuteMsg::SendCosmosMsgs` as written without the `query` feature (`/repo/src/types/msg.rs` 46-66 without 50-56). -/
def sendCosmosMsgsPlain (messages : List CosmosMsg) (memo : Option String) (timeout : Option UInt64) : Json :=
  .obj [("send_cosmos_msgs", .obj ([("messages", (jcList CosmosMsg.jc).enc messages)] ++
    (skipNone jcStr "packet_memo" memo ++ skipNone jcU64 "timeout_seconds" timeout)))]

/-! ## callback-counter -/

/-- `CallbackCounter` (`/repo/testing/contracts/callback-counter/src/state.rs` 12-24). -/
structure CallbackCounter where
  success : List CallbackMsg
  error : List CallbackMsg
  timeout : List CallbackMsg
  deriving DecidableEq

/-- Its JSON (`cw_serde`). -/
def CallbackCounter.jc : JC CallbackCounter where
  enc c := .obj [("success", (jcList CallbackMsg.jc).enc c.success), ("error", (jcList CallbackMsg.jc).enc c.error),
    ("timeout", (jcList CallbackMsg.jc).enc c.timeout)]
  dec j :=
    match getObj true ["success", "error", "timeout"] j with
    | none => none
    | some fs =>
      match reqF (jcList CallbackMsg.jc) "success" fs with
      | none => none
      | some a =>
        match reqF (jcList CallbackMsg.jc) "error" fs with
        | none => none
        | some b =>
          match reqF (jcList CallbackMsg.jc) "timeout" fs with
          | none => none
          | some c => some ⟨a, b, c⟩

namespace Counter
open Raw

/-- `/repo/testing/contracts/callback-counter/src/state.rs` 6. -/
def CALLBACK_COUNTER : Item CallbackCounter := ⟨"callback_counter", CallbackCounter.jc⟩

/-- `instantiate` (`/repo/testing/contracts/callback-counter/src/contract.rs` 17-26). -/
def instantiate : RM Response := do
  let _ ← CALLBACK_COUNTER.save ⟨[], [], []⟩
  pure .empty

/-- `Item::update` (cw-storage-plus, not in /repo). -/
def update (f : CallbackCounter → CallbackCounter) : RM Unit := do
  let c ← CALLBACK_COUNTER.load
  CALLBACK_COUNTER.save (f c)

/-- `ica_callback_handler` (`/repo/testing/contracts/callback-counter/src/contract.rs` 58-90). -/
def icaCallbackHandler (m : CallbackMsg) : RM Response :=
  match m with
  | .onChannelOpenAckCallback _ _ _ => pure .empty
  | .onAcknowledgementPacketCallback (.result _) _ _ _ => do
    let _ ← update fun c => { c with success := c.success ++ [m] }
    pure .empty
  | .onAcknowledgementPacketCallback (.error _) _ _ _ => do
    let _ ← update fun c => { c with error := c.error ++ [m] }
    pure .empty
  | .onTimeoutPacketCallback _ _ => do
    let _ ← update fun c => { c with timeout := c.timeout ++ [m] }
    pure .empty

/-- `ExecuteMsg` (`/repo/testing/contracts/callback-counter/src/msg.rs` 7-11): the empty enum with the macro. -/
def execVariants : List (Variant (_root_.Empty ⊕ CallbackMsg)) := (icaCallbackExecute [] (.enum [])).getD []

/-- `execute` (`/repo/testing/contracts/callback-counter/src/contract.rs` 28-40) on bytes. -/
def execute (bytes : Bytes) : RM Response :=
  match (jsonOfBytes bytes).bind (decodeEnum execVariants) with
  | some (.inr m) => icaCallbackHandler m
  | _ => fail (.std "Error parsing into type")

/-- `query` (`/repo/testing/contracts/callback-counter/src/contract.rs` 42-47, 95-104) for `GetCallbackCounter`. -/
def query : RM Bytes := do
  let c ← CALLBACK_COUNTER.load
  pure (CallbackCounter.jc.toBytes c)

/-- `QueryMsg` (`/repo/testing/contracts/callback-counter/src/msg.rs` 13-19): one variant without fields. -/
def queryDec (j : Json) : Option Unit :=
  match j with
  | .obj [(k, v)] => if k = "get_callback_counter" then (getObj true [] v).map fun _ => () else none
  | _ => none

/-- `query` on bytes. -/
def vmQuery (bytes : Bytes) : RM Bytes :=
  match (jsonOfBytes bytes).bind queryDec with
  | some _ => query
  | none => fail (.std "Error parsing into type")

/-- `instantiate` on bytes: `InstantiateMsg` has no fields (`/repo/testing/contracts/callback-counter/src/msg.rs` 4-5). -/
def vmInstantiate (bytes : Bytes) : RM Response :=
  match (jsonOfBytes bytes).bind (getObj true []) with
  | some _ => instantiate
  | none => fail (.std "Error parsing into type")

end Counter

/-! ## cw-ica-owner -/

namespace Owner

/-- `ContractState` (`/repo/testing/contracts/cw-ica-owner/src/state.rs` 23-30). -/
structure State where
  admin : String
  codeId : UInt64
  deriving DecidableEq

/-- `IcaState` (`/repo/testing/contracts/cw-ica-owner/src/state.rs` 62-69). -/
structure IcaState where
  icaId : UInt64
  icaAddr : String
  txEncoding : TxEncoding
  channelState : ChannelState
  deriving DecidableEq

/-- `IcaContractState` (`/repo/testing/contracts/cw-ica-owner/src/state.rs` 55-60). -/
structure IcaContractState where
  contractAddr : String
  icaState : Option IcaState
  deriving DecidableEq

/-- Storage (`/repo/testing/contracts/cw-ica-owner/src/state.rs` 8-15), typed; on raw keys in
`Model/RawOwner.lean`. -/
structure Store where
  state : Option State
  icaStates : UInt64 → Option IcaContractState
  icaCount : Option UInt64
  addrToId : String → Option UInt64

/-- `InstantiateMsg` (`/repo/testing/contracts/cw-ica-owner/src/msg.rs` 5-9). -/
structure InstantiateMsg where
  admin : Option String
  codeId : UInt64

/-- `ExecuteMsg` (`/repo/testing/contracts/cw-ica-owner/src/msg.rs` 11-30), without the macro's variant. -/
inductive OwnMsg where
  | createIcaContract (salt : Option String) (options : ChannelOpenInitOptions)
  | sendPredefinedAction (icaId : UInt64) (toAddress : String)

/-- Its variants as read by serde. -/
def ownVariants : List (Variant OwnMsg) :=
  [⟨"CreateIcaContract", fun j =>
      match getObj true ["salt", "channel_open_init_options"] j with
      | none => none
      | some fs =>
        match optF jcStr "salt" fs with
        | none => none
        | some s =>
          match reqF ChannelOpenInitOptions.jc "channel_open_init_options" fs with
          | none => none
          | some o => some (.createIcaContract s o)⟩,
   ⟨"SendPredefinedAction", fun j =>
      match getObj true ["ica_id", "to_address"] j with
      | none => none
      | some fs =>
        match reqF jcU64 "ica_id" fs with
        | none => none
        | some i =>
          match reqF jcStr "to_address" fs with
          | none => none
          | some a => some (.sendPredefinedAction i a)⟩]

/-- With the macro; this crate is built without the `query` feature. -/
def execVariants : List (Variant (OwnMsg ⊕ CallbackMsg)) :=
  (mergeVariants [] (.enum ownVariants) [⟨"ReceiveIcaCallback", CallbackMsg.decPlain⟩]).getD []

/-- `instantiate` (`/repo/testing/contracts/cw-ica-owner/src/contract.rs` 17-35). -/
def instantiate (api : Api) (s : Store) (sender : String) (msg : InstantiateMsg) : Res (Store × Response) :=
  match msg.admin with
  | some a => (addrValidate api a).bind fun a => .ok ({ s with state := some ⟨a, msg.codeId⟩ }, .empty)
  | none => .ok ({ s with state := some ⟨sender, msg.codeId⟩ }, .empty)

/-- What `create_ica_contract` is given by the chain: address, block time in nanoseconds, address functions, querier. -/
structure Env where
  self : String
  time : UInt64
  addr : Helpers.AddrApi
  querier : Helpers.Querier

/-- The message for the new controller (`/repo/testing/contracts/cw-ica-owner/src/contract.rs` 97-101). -/
def controllerMsg (self : String) (o : ChannelOpenInitOptions) : Ica.InstantiateMsg := ⟨some self, o, some self⟩

/-- `create_ica_contract` (`/repo/testing/contracts/cw-ica-owner/src/contract.rs` 83-128). `ica_count + 1` aborts on
overflow; `ICA_COUNT.load(..).unwrap_or(0)` is 0 when absent. -/
def createIcaContract (env : Env) (s : Store) (sender : String) (salt : Option String) (o : ChannelOpenInitOptions) :
    Res (Store × Response) :=
  match s.state with
  | none => .err (.std "not found")
  | some st =>
    if st.admin ≠ sender then .err (.std "unauthorized")
    else
      let count := s.icaCount.getD 0
      match (Helpers.Code.mk st.codeId).instantiate2 env.addr env.querier env.self (controllerMsg env.self o)
          ("icacontroller-" ++ env.self ++ "-" ++ decString count.toNat) (some env.self)
          (salt.getD (decString (env.time.toNat / 1000000000))) with
      | none => .err (.std "instantiate2")
      | some (m, addr) =>
        if count.toNat + 1 < 18446744073709551616 then
          .ok ({ s with
              icaStates := fun i => if i = count then some ⟨addr, none⟩ else s.icaStates i
              addrToId := fun a => if a = addr then some count else s.addrToId a
              icaCount := some (UInt64.ofNat (count.toNat + 1)) }, ⟨[.new m], []⟩)
        else .panic "attempt to add with overflow"

/-- The predefined message (`/repo/testing/contracts/cw-ica-owner/src/contract.rs` 145-151). -/
def predefined (toAddress : String) : CosmosMsg := .bank (.send toAddress [⟨"stake", ⟨100, by decide⟩⟩])

/-- `send_predefined_action` (`/repo/testing/contracts/cw-ica-owner/src/contract.rs` 131-162); the helper's `execute`
(`/repo/src/helpers.rs` 53-61) in a build without the `query` feature. -/
def sendPredefinedAction (s : Store) (sender : String) (icaId : UInt64) (toAddress : String) : Res (Store × Response) :=
  match s.state with
  | none => .err (.std "not found")
  | some st =>
    if st.admin ≠ sender then .err (.std "unauthorized")
    else
      match s.icaStates icaId with
      | none => .err (.std "not found")
      | some ica =>
        .ok (s, ⟨[.new (.wasm (.execute ica.contractAddr
          (jsonToBytes (sendCosmosMsgsPlain [predefined toAddress] none none)) []))], []⟩)

/-- `ica_callback_handler` (`/repo/testing/contracts/cw-ica-owner/src/contract.rs` 165-196). -/
def icaCallbackHandler (s : Store) (sender : String) (m : CallbackMsg) : Res (Store × Response) :=
  match s.addrToId sender with
  | none => .err (.std "not found")
  | some id =>
    match s.icaStates id with
    | none => .err (.std "not found")
    | some ica =>
      match m with
      | .onChannelOpenAckCallback ch a e =>
        .ok ({ s with
          icaStates := fun i => if i = id then some { ica with icaState := some ⟨id, a, e, ⟨ch, .opened⟩⟩ }
            else s.icaStates i }, .empty)
      | _ => .ok (s, .empty)

/-- `execute` (`/repo/testing/contracts/cw-ica-owner/src/contract.rs` 37-57) on bytes. -/
def execute (env : Env) (s : Store) (sender : String) (bytes : Bytes) : Res (Store × Response) :=
  match (jsonOfBytes bytes).bind (decodeEnum execVariants) with
  | some (.inl (.createIcaContract salt o)) => createIcaContract env s sender salt o
  | some (.inl (.sendPredefinedAction i a)) => sendPredefinedAction s sender i a
  | some (.inr m) => icaCallbackHandler s sender m
  | none => .err (.std "Error parsing into type")

end Owner

end Ica
