import Verif.Model.RawOwner
import Verif.Spec.OwnerWorld
import Verif.Spec.RawStore
import Verif.Spec.OwnerApi

/-!
# The owner contract on a chain, with its storage and messages as bytes

`Spec/OwnerWorld.lean` with the entry points of `Model/RawOwner.lean`, and when raw storage stands for typed storage.
-/
namespace Ica.RawOwner
open Raw Owner Api

/-- As `OWorld`, with raw storage and whether the contract exists. -/
structure ROWorld where
  raw : RawStore
  live : Bool
  self : String
  time : UInt64
  addr : Helpers.AddrApi
  codes : Wasmd.Codes
  taken : String → Bool
  created : List Wasmd.Created

/-- Before the contract is instantiated. -/
def ROWorld.genesis (self : String) (time : UInt64) (addr : Helpers.AddrApi) (codes : Wasmd.Codes) (taken : String → Bool) :
    ROWorld := ⟨.empty, false, self, time, addr, codes, taken, []⟩

/-- As `OOp`; every message is text. -/
inductive ROOp where
  | instantiate (sender : String) (bytes : Bytes)
  | execute (sender : String) (bytes : Bytes) (ok : Bool)
  | block (time : UInt64)
  | elsewhere (addr : String)
  | upload (code : UInt64) (checksum : Bytes)

/-- As `Owner.runMessages`. -/
def runMessages (w : ROWorld) (ok : Bool) : List SubMsg → Option ROWorld
  | [] => some w
  | m :: ms =>
    if ok then
      match m.msg with
      | .wasm (.instantiate2 ..) =>
        match Wasmd.instantiate2 w.addr w.codes w.taken w.self m.msg with
        | none => none
        | some c => runMessages { w with
            taken := fun a => if a = c.addr then true else w.taken a
            created := w.created ++ [c] } ok ms
      | _ => runMessages w ok ms
    else none

/-- As `Owner.applyO`; what a failing call wrote is dropped. -/
def applyRO (api : Api) (w : ROWorld) (op : ROOp) : Option (ROWorld × List CosmosMsg) :=
  match op with
  | .instantiate sender bytes =>
    if w.live then none
    else
      match vmInstantiate api sender bytes w.raw with
      | (.ok _, raw) => some ({ w with raw := raw, live := true }, [])
      | _ => none
  | .execute sender bytes ok =>
    if w.live then
      match vmExecute ⟨w.self, w.time, w.addr, ⟨fun _ _ => none, w.codes⟩⟩ sender bytes w.raw with
      | (.ok r, raw) => (runMessages { w with raw := raw } ok r.messages).map fun w' => (w', r.messages.map (·.msg))
      | _ => none
    else none
  | .block t => some ({ w with time := t }, [])
  | .elsewhere a => some ({ w with taken := fun x => if x = a then true else w.taken x }, [])
  | .upload c k =>
    match w.codes c with
    | some _ => none
    | none => some ({ w with codes := fun x => if x = c then some k else w.codes x }, [])

/-- Histories of successful transactions. -/
inductive ROExec (api : Api) (w0 : ROWorld) : List (ROOp × List CosmosMsg) → ROWorld → Prop where
  | nil : ROExec api w0 [] w0
  | step {h w w' op ms} : ROExec api w0 h w → applyRO api w op = some (w', ms) → ROExec api w0 (h ++ [(op, ms)]) w'

/-- One entry of a map is nothing, or bytes that decode to the value. -/
def MapHolds {κ α : Type} (m : Map1 κ α) (raw : RawStore) (k : κ) (o : Option α) : Prop :=
  match raw (m.rawKey k), o with
  | none, none => True
  | some b, some x => m.jc.ofBytes b = some x
  | _, _ => False

/-- The raw storage stands for this typed storage. -/
structure Stands (raw : RawStore) (s : Owner.Store) : Prop where
  state : STATE.Holds raw s.state
  count : ICA_COUNT.Holds raw s.icaCount
  states : ∀ id, MapHolds ICA_STATES raw id (s.icaStates id)
  ids : ∀ a, MapHolds CONTRACT_ADDR_TO_ICA_ID raw a (s.addrToId a)

/-- The two worlds differ only in how storage is represented. -/
structure Same (w : ROWorld) (o : OWorld) : Prop where
  store : Stands w.raw o.store
  live : w.live = o.store.state.isSome
  rest : o = ⟨o.store, w.self, w.time, w.addr, w.codes, w.taken, w.created⟩

/-- The operation on typed values that an operation on text stands for. -/
inductive Means : ROOp → OOp → Prop where
  | instantiate {sender bytes msg} (h : Spells OwnerInstantiate bytes msg) : Means (.instantiate sender bytes) (.instantiate sender msg)
  | execute (sender bytes ok) : Means (.execute sender bytes ok) (.execute sender bytes ok)
  | block (t) : Means (.block t) (.block t)
  | elsewhere (a) : Means (.elsewhere a) (.elsewhere a)
  | upload (c k) : Means (.upload c k) (.upload c k)

end Ica.RawOwner
