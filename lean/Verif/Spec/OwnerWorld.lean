import Verif.Model.Receivers
import Verif.Spec.Wasm

/-!
# The owner contract on a chain

Histories of `/repo/testing/contracts/cw-ica-owner` together with the chain that executes the messages it returns. What the
called contracts do is only whether they accept (`ok`).
-/
namespace Ica.Owner

/-- The owner contract and what surrounds it: its storage, address and the block time; the address functions and codes of
the chain; which addresses are taken; the contracts created for it, in order. -/
structure OWorld where
  store : Store
  self : String
  time : UInt64
  addr : Helpers.AddrApi
  codes : Wasmd.Codes
  taken : String → Bool
  created : List Wasmd.Created

/-- Before the contract is instantiated. -/
def OWorld.genesis (self : String) (time : UInt64) (addr : Helpers.AddrApi) (codes : Wasmd.Codes) (taken : String → Bool) :
    OWorld := ⟨⟨none, fun _ => none, none, fun _ => none⟩, self, time, addr, codes, taken, []⟩

/-- What may happen: the contract is instantiated, somebody calls it, a block passes, a contract appears elsewhere, a code
is uploaded. -/
inductive OOp where
  | instantiate (sender : String) (msg : InstantiateMsg)
  | execute (sender : String) (bytes : Bytes) (ok : Bool)
  | block (time : UInt64)
  | elsewhere (addr : String)
  | upload (code : UInt64) (checksum : Bytes)

/-- The chain executes the messages returned by the contract. -/
def runMessages (w : OWorld) (ok : Bool) : List SubMsg → Option OWorld
  | [] => some w
  | m :: ms =>
    if ok then
      match m.msg with
      | .wasm (.instantiate2 ..) =>
        match Wasmd.instantiate2 w.addr w.codes w.taken w.self m.msg with
        | none => none
        | some c => runMessages { w with
            taken := fun a => if a = c.addr then true else w.taken a
            created := w.created ++ [c] } ok ms
      | _ => runMessages w ok ms
    else none

/-- One transaction: the new world and the messages the contract sent; `none` if it fails. -/
def applyO (api : Api) (w : OWorld) (op : OOp) : Option (OWorld × List CosmosMsg) :=
  match op with
  | .instantiate sender msg =>
    match w.store.state with
    | some _ => none
    | none =>
      match instantiate api w.store sender msg with
      | .ok (s, _) => some ({ w with store := s }, [])
      | _ => none
  | .execute sender bytes ok =>
    match execute ⟨w.self, w.time, w.addr, ⟨fun _ _ => none, w.codes⟩⟩ w.store sender bytes with
    | .ok (s, r) => (runMessages { w with store := s } ok r.messages).map fun w' => (w', r.messages.map (·.msg))
    | _ => none
  | .block t => some ({ w with time := t }, [])
  | .elsewhere a => some ({ w with taken := fun x => if x = a then true else w.taken x }, [])
  | .upload c k =>
    match w.codes c with
    | some _ => none
    | none => some ({ w with codes := fun x => if x = c then some k else w.codes x }, [])

/-- Histories of successful transactions. -/
inductive OExec (api : Api) (w0 : OWorld) : List (OOp × List CosmosMsg) → OWorld → Prop where
  | nil : OExec api w0 [] w0
  | step {h w w' op ms} : OExec api w0 h w → applyO api w op = some (w', ms) → OExec api w0 (h ++ [(op, ms)]) w'

end Ica.Owner
