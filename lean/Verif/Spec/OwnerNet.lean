import Verif.Spec.System
import Verif.Spec.Interchain
import Verif.Spec.OwnerApi

/-!
# The owner contract, its controllers, and the host chains

`Spec/System.lean` (the owner contract with all controllers it creates) joined with the host chains of
`Spec/Interchain.lean`: every controller has its own channels, and at the other ends of its connections hosts as
`Spec/Interchain.lean` describes them. None of this is code of `/repo`.
-/
namespace Ica.System
open Owner Spec

/-- What is at the other ends of the connections for one controller: the fields of `Net` other than the controller. -/
structure Far where
  hosts : String → HostSide
  proposed : List IbcChannel
  sent : List IbcPacket
  log : List Executed

/-- One controller with the other ends. -/
def Far.net (f : Far) (cw : World) : Net := ⟨cw, f.hosts, f.proposed, f.sent, f.log⟩

/-- The other ends, of a `Net`. -/
def farOf (n : Net) : Far := ⟨n.hosts, n.proposed, n.sent, n.log⟩

/-- After a transaction in which the controller showed `obs` and became `cw'`. -/
def Far.moved (f : Far) (cw' : World) (obs : List Obs) : Far :=
  { f with
    proposed := f.proposed ++ newChans cw' obs
    sent := f.sent ++ obs.filterMap fun | .packetSent p => some p | _ => none }

/-- No host knows the controller yet. -/
structure Far.Fresh (f : Far) : Prop where
  account : ∀ conn, (f.hosts conn).account = none
  chans : ∀ conn hid, (f.hosts conn).chans hid = none
  proposed : f.proposed = []
  sent : f.sent = []
  log : f.log = []

/-- The chain of the owner contract, and the other ends for the controller at each address. -/
structure ONet where
  s : SWorld
  far : String → Far

/-- A transaction on the chain of the owner contract, or something a host does for the controller at an address. -/
inductive ONetOp where
  | chain (op : SOp)
  | host (a : String) (op : NetOp)

/-- What one controller showed. -/
def obsOf (a : String) (l : List (String × Obs)) : List Obs := (l.filter fun x => x.1 = a).map (·.2)

/-- The committed operations. -/
inductive ONetStep (api : Api) (n : ONet) : ONetOp → ONet → List (String × Obs) → Prop where
  /-- a transaction on the chain; what relayers submit must be shown by light clients -/
  | chain (op : SOp) (s' : SWorld) (l : List (String × Obs)) :
      (∀ a o cw, op = .ctrl a o → Controller n.s a cw → Proven ((n.far a).net cw) o) →
      applyS api n.s op = some (s', l) →
      ONetStep api n (.chain op)
        ⟨s', fun a => match s'.ctrl a with | none => n.far a | some cw => (n.far a).moved cw (obsOf a l)⟩ l
  /-- a host acts -/
  | host (a : String) (cw : World) (op : NetOp) (n' : Net) :
      Controller n.s a cw → (∀ o, op ≠ .ctrl o) → NetStep api ((n.far a).net cw) op n' [] →
      ONetStep api n (.host a op) ⟨n.s, fun x => if x = a then farOf n' else n.far x⟩ []

/-- Before the owner contract exists. -/
def ONet.Initial (n : ONet) : Prop :=
  (∃ self height time addr codes taken code, n.s = SWorld.genesis self height time addr codes taken code) ∧
    ∀ a, (n.far a).Fresh

/-- Histories. -/
inductive ONetExec (api : Api) (n0 : ONet) : List (ONetOp × List (String × Obs)) → ONet → Prop where
  | nil : ONetExec api n0 [] n0
  | step {h : List (ONetOp × List (String × Obs))} {n n' : ONet} {op : ONetOp} {l : List (String × Obs)} :
      ONetExec api n0 h n → ONetStep api n op n' l → ONetExec api n0 (h ++ [(op, l)]) n'

/-- At place `k` of the history, the then admin of the owner contract called `send_predefined_action` for the controller
at `a`, then listed under `id`, with the destination `dst`, and the controller sent the packet. -/
def AskedByAdmin (api : Api) (n0 : ONet) (h : List (ONetOp × List (String × Obs))) (k : Nat) (a : String)
    (p : IbcPacket) (dst : String) : Prop :=
  ∃ h1 h2 m sender bytes fresh core id s,
    h = h1 ++ (.chain (.owner sender bytes fresh core), [(a, .packetSent p)]) :: h2 ∧ h1.length = k ∧
    ONetExec api n0 h1 m ∧ adminOf m.s = some sender ∧
    Spells Api.OwnerCall bytes (.sendPredefinedAction id dst) ∧ Listed m.s id a s

end Ica.System
