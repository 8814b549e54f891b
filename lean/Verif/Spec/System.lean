import Verif.Spec.OwnerWorld
import Verif.Spec.Observe

/-!
# The owner contract and its controllers on one chain

`Spec/OwnerWorld.lean` looks at the owner contract alone, `Model/World.lean` at one controller alone. Here the owner contract of
`/repo/testing/contracts/cw-ica-owner` and every controller it creates run together: the messages of the owner contract
reach the controllers, and their callbacks reach the owner contract, as bytes and within one transaction.

None of this is code of `/repo`; it composes the two transition systems the way wasmd does. Assumed of the surroundings: the owner
contract is deployed with the code id of the controller; nobody but the owner contract sends as the owner contract, and
nobody but a controller sends as that controller; contracts are migrated by their wasm admin only.
-/
namespace Ica.System
open Owner Spec

/-- The owner contract with its chain, the block height, the code id of the controller, and the controllers by address. -/
structure SWorld where
  owner : OWorld
  height : UInt64
  code : UInt64
  ctrl : String → Option World

/-- Before the owner contract is instantiated. Its address is taken. -/
def SWorld.genesis (self : String) (height time : UInt64) (addr : Helpers.AddrApi) (codes : Wasmd.Codes)
    (taken : String → Bool) (code : UInt64) : SWorld :=
  ⟨OWorld.genesis self time addr codes (fun a => if a = self then true else taken a), height, code, fun _ => none⟩

/-- What may happen: a block passes, a code is uploaded, a contract appears elsewhere, the owner contract is deployed, somebody
calls it, somebody else does something that concerns the controller at an address. `fresh` and `core` are as in `Op`. -/
inductive SOp where
  | block (height time : UInt64)
  | upload (code : UInt64) (checksum : Bytes)
  | elsewhere (addr : String)
  | deploy (sender : String) (admin : Option String)
  | owner (sender : String) (bytes : Bytes) (fresh : String) (core : Bool)
  | ctrl (addr : String) (op : Op)

/-- What somebody other than the owner contract can submit to a controller: messages under its own name, and everything
relayers do. Contracts are created and migrated by the owner contract, which is their creator and admin. -/
def outside (self : String) : Op → Bool
  | .block .. => false
  | .instantiate .. => false
  | .migrate => false
  | .execute sender .. => decide (sender ≠ self)
  | _ => true

/-- Set one controller. -/
def setCtrl (f : String → Option World) (a : String) (w : World) : String → Option World :=
  fun x => if x = a then some w else f x

/-- The calls a controller makes, one after the other: those of the owner contract run it, with the controller as sender;
if it fails, the transaction fails. (The owner contract answers callbacks without messages of its own.) -/
def hear (api : Api) (addr : String) : OWorld → List (String × Bytes × List Coin) → Option OWorld
  | w, [] => some w
  | w, (a, b, _) :: cs =>
    if a = w.self then
      match applyO api w (.execute addr b true) with
      | some (w', []) => hear api addr w' cs
      | _ => none
    else hear api addr w cs

/-- The messages of the owner contract, one after the other: a new contract starts as a controller, with the message it was
sent; a call runs the controller at that address. (Controllers do not call anybody in either case, `C43_no_other`.) -/
def deliver (api : Api) (fresh : String) (core : Bool) :
    SWorld → List Wasmd.Created → List CosmosMsg → Option (SWorld × List (String × Obs))
  | w, _, [] => some (w, [])
  | w, c :: cs, .wasm (.instantiate2 ..) :: ms =>
    match InstantiateMsg.jc.ofBytes c.msg with
    | none => none
    | some m =>
      match apply api (World.genesis ⟨c.addr, w.height, w.owner.time⟩) (.instantiate c.creator m fresh core) with
      | none => none
      | some (cw, obs) =>
        match deliver api fresh core { w with ctrl := setCtrl w.ctrl c.addr cw } cs ms with
        | none => none
        | some (w', l) => some (w', obs.map (c.addr, ·) ++ l)
  | w, cs, .wasm (.execute a b _) :: ms =>
    match w.ctrl a, ExecuteMsg.jc.ofBytes b with
    | some cw, some m =>
      match apply api cw (.execute w.owner.self m fresh core) with
      | none => none
      | some (cw', obs) =>
        match deliver api fresh core { w with ctrl := setCtrl w.ctrl a cw' } cs ms with
        | none => none
        | some (w', l) => some (w', obs.map (a, ·) ++ l)
    | _, _ => none
  | _, _, _ => none

/-- One transaction, with what each controller makes visible; `none`: it fails and nothing happens. -/
def applyS (api : Api) (w : SWorld) (op : SOp) : Option (SWorld × List (String × Obs)) :=
  match op with
  | .block h t =>
    if w.height ≤ h ∧ w.owner.time ≤ t then
      some ({ w with
        owner := { w.owner with time := t }
        height := h
        ctrl := fun a => (w.ctrl a).map fun cw => { cw with env := { cw.env with height := h, time := t } } }, [])
    else none
  | .upload c k => (applyO api w.owner (.upload c k)).map fun r => ({ w with owner := r.1 }, [])
  | .elsewhere a => (applyO api w.owner (.elsewhere a)).map fun r => ({ w with owner := r.1 }, [])
  | .deploy sender admin =>
    (applyO api w.owner (.instantiate sender ⟨admin, w.code⟩)).map fun r => ({ w with owner := r.1 }, [])
  | .owner sender bytes fresh core =>
    if (w.ctrl sender).isSome then none
    else
      match applyO api w.owner (.execute sender bytes true) with
      | none => none
      | some (o, ms) => deliver api fresh core { w with owner := o } (o.created.drop w.owner.created.length) ms
  | .ctrl a op =>
    match w.ctrl a with
    | none => none
    | some cw =>
      if outside w.owner.self op = true then
        match apply api cw op with
        | none => none
        | some (cw', obs) =>
          match hear api a w.owner (callsOf obs) with
          | none => none
          | some o => some ({ w with owner := o, ctrl := setCtrl w.ctrl a cw' }, obs.map (a, ·))
      else none

/-- Histories of committed transactions. -/
inductive SExec (api : Api) (w0 : SWorld) : List (SOp × List (String × Obs)) → SWorld → Prop where
  | nil : SExec api w0 [] w0
  | step {h w w' op obs} : SExec api w0 h w → applyS api w op = some (w', obs) → SExec api w0 (h ++ [(op, obs)]) w'

/-- Worlds that arise from a chain on which the owner contract does not exist yet. -/
def SReachable (api : Api) (w : SWorld) : Prop :=
  ∃ self height time addr codes taken code h, SExec api (SWorld.genesis self height time addr codes taken code) h w

/-- The controller at the address. -/
def Controller (w : SWorld) (a : String) (cw : World) : Prop := w.ctrl a = some cw

/-- The owner contract lists the controller at address `a` under the id `n`, with the given account. -/
def Listed (w : SWorld) (n : UInt64) (a : String) (s : Option IcaState) : Prop :=
  w.owner.store.icaStates n = some ⟨a, s⟩

/-- The address the chain gives to the next controller with this salt; without a salt the block time in seconds is used. -/
def NextAddress (w : SWorld) (salt : Option String) (a : String) : Prop :=
  ∃ st checksum creator b, w.owner.store.state = some st ∧ w.owner.codes st.codeId = some checksum ∧
    w.owner.addr.canonicalize w.owner.self = some creator ∧
    Wasmd.predictable w.owner.addr.sha256 checksum creator
      (utf8 (salt.getD (decString (w.owner.time.toNat / 1000000000)))) = some b ∧
    w.owner.addr.humanize b = some a

/-- The admin of the owner contract. -/
def adminOf (w : SWorld) : Option String := w.owner.store.state.map (·.admin)

end Ica.System
