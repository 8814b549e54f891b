import Verif.Spec.Stored
import Verif.Spec.OwnerMachine

/-!
# What the owner contract has in its storage

Told from the state of the machine of `Spec/OwnerMachine`.
-/
namespace Ica.Spec

/-- This JSON document is stored under this key. -/
inductive OwnerStored (r : Register) : Bytes → Json → Prop where
  /-- the contract has been instantiated -/
  | state {admin code} : r.admin = some (admin, code) → OwnerStored r (utf8 "state") (Api.ownerStateJson admin code)
  /-- the number of controllers, once there is one -/
  | count : r.entries ≠ [] → OwnerStored r (utf8 "ica_count") (.num r.entries.length)
  /-- each controller under its number -/
  | entry {n a told} : r.entries[n]? = some (a, told) →
      OwnerStored r (keyPart (utf8 "ica_states") ++ bigEndian 8 n) (Api.registryJson a (UInt64.ofNat n) told)
  /-- each number under the address of its controller -/
  | number {n a told} : r.entries[n]? = some (a, told) →
      OwnerStored r (keyPart (utf8 "contract_addr_to_ica_id") ++ utf8 a) (.num n)

end Ica.Spec
