import Verif.Spec.Observe
import Verif.Spec.Semver

/-!
# A contract that an earlier version of the program has left

The program of `/repo` may take over a contract whose storage an earlier version has written. The chain, the channels and the
values in the storage are as they are; what differs is the stored version.
-/
namespace Ica.Spec

/-- The same world, with another version recorded in the contract's storage. -/
def dated (v : Option ContractVersion) (w : World) : World := { w with store := { w.store with version := v } }

/-- The record an earlier version of this program has left. -/
def Earlier (v : Option ContractVersion) : Prop :=
  ∃ s, v = some ⟨"crates.io:cw-ica-controller", s⟩ ∧ Semver.Older s "0.20.0"

/-- No migration is among the operations. -/
def NoMigration (h : List (Op × List Obs)) : Prop := ∀ x ∈ h, x.1 ≠ .migrate

/-- No message of a user to the contract is among the operations. -/
def NoExecute (h : List (Op × List Obs)) : Prop := ∀ x ∈ h, ∀ sender msg fresh core, x.1 ≠ .execute sender msg fresh core

end Ica.Spec
