import Verif.Spec.OwnerMachine
import Verif.Spec.Refusal

/-!
# What the owner contract says when it refuses

The checks of `/repo/testing/contracts/cw-ica-owner`, in order, about the state of the machine of `Spec/OwnerMachine`.
-/
namespace Ica.Spec
open RawOwner (ROWorld)

/-- What the caller is told. -/
inductive OwnerComplaint where
  | unauthorized
  /-- the message cannot be read -/
  | notUnderstood
  /-- something is not in storage -/
  | nothingThere
  /-- the chain does not accept an address -/
  | badAddress
  /-- there is no address for a new contract: the code, the salt or the creator is not good -/
  | noPlace
  deriving DecidableEq

/-- How an error is heard. -/
def ownerHeard (e : Err) : Option OwnerComplaint :=
  match e with
  | .std m =>
    if m = "unauthorized" then some .unauthorized
    else if m = "not found" then some .nothingThere
    else if m = "invalid address" then some .badAddress
    else if m = "instantiate2" then some .noPlace
    else if m = "Error parsing into type" then some .notUnderstood
    else none
  | _ => none

/-- The owner contract, called like this, refuses and says this. -/
def OwnerRefuses {α : Type} (out : Res α × Raw.RawStore) (c : OwnerComplaint) : Prop :=
  ∃ e, out.1 = .err e ∧ ownerHeard e = some c

/-- The first of these that holds, and what belongs to it. -/
inductive OwnerFirst : List (Prop × OwnerComplaint) → OwnerComplaint → Prop where
  | here {p : Prop} {c : OwnerComplaint} {l : List (Prop × OwnerComplaint)} : p → OwnerFirst ((p, c) :: l) c
  | later {p : Prop} {c c' : OwnerComplaint} {l : List (Prop × OwnerComplaint)} :
      ¬ p → OwnerFirst l c → OwnerFirst ((p, c') :: l) c

/-- The sender is not the admin. -/
def notAdmin (r : Register) (sender : String) : Prop × OwnerComplaint :=
  (∀ code, r.admin ≠ some (sender, code), .unauthorized)

/-- What can be wrong with a message of a user. -/
def ownerWrong (r : Register) (sender : String) : Owner.OwnMsg → List (Prop × OwnerComplaint)
  | .createIcaContract salt _ =>
    [notAdmin r sender, (∀ code a, r.admin = some (sender, code) → ¬ r.Next code salt a, .noPlace)]
  | .sendPredefinedAction i _ => [notAdmin r sender, (r.entries[i.toNat]? = none, .nothingThere)]

/-- What cannot be carried out: one controller more than there are numbers. -/
def OwnerImpossible (r : Register) (sender : String) : Owner.OwnMsg → Prop
  | .createIcaContract salt _ => ∃ code a, r.admin = some (sender, code) ∧ r.Next code salt a ∧ r.entries.length + 1 = 2 ^ 64
  | .sendPredefinedAction .. => False

/-- The owner contract as the VM runs it. -/
def ownerCall (w : ROWorld) (sender : String) (text : Bytes) : Res Response × Raw.RawStore :=
  RawOwner.vmExecute ⟨w.self, w.time, w.addr, ⟨fun _ _ => none, w.codes⟩⟩ sender text w.raw

/-- It says all of this. -/
structure OwnerExplains (w : ROWorld) (r : Register) : Prop where
  /-- texts that are no messages -/
  nonsense : ∀ sender text, (∀ m, ¬ Spells Api.OwnerCall text m) → (∀ m, ¬ Spells Api.OwnerCallback text m) →
    OwnerRefuses (ownerCall w sender text) .notUnderstood
  /-- messages of users -/
  message : ∀ sender text m, Spells Api.OwnerCall text m →
    (∀ c, OwnerRefuses (ownerCall w sender text) c ↔ OwnerFirst (ownerWrong r sender m) c) ∧
    ((∃ why, (ownerCall w sender text).1 = .panic why) ↔ OwnerImpossible r sender m) ∧
    ((∃ answer, (ownerCall w sender text).1 = .ok answer) ↔
      (∀ c, ¬ OwnerFirst (ownerWrong r sender m) c) ∧ ¬ OwnerImpossible r sender m)
  /-- messages of controllers, and of contracts that are none -/
  callback : ∀ sender text m, Spells Api.OwnerCallback text m →
    (∀ c, OwnerRefuses (ownerCall w sender text) c ↔ (∀ n : Nat, ∀ told, r.entries[n]? ≠ some (sender, told)) ∧ c = .nothingThere) ∧
    ((∃ answer, (ownerCall w sender text).1 = .ok answer) ↔ ∃ n : Nat, ∃ told, r.entries[n]? = some (sender, told))

end Ica.Spec
