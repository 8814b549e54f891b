import Verif.Spec.Stored
import Verif.Model.RawStore

/-!
# Which entries of the storage a call can see and change
-/
namespace Ica.Spec

/-- Run on this storage, the computation depends on nothing but the entries under the keys `R`, and touches nothing but
those under the keys `W`: with any other storage that has the same under `R`, the outcome is the same, what it writes is the
same, and everything outside `W` stays. -/
def Sees {α : Type} (R W : List Bytes) (m : Raw.RM α) (raw : Raw.RawStore) : Prop :=
  ∀ raw', (∀ k ∈ R, raw' k = raw k) →
    (m raw').1 = (m raw).1 ∧
    ∀ k, (k ∉ W → (m raw').2 k = raw' k) ∧
      ((m raw').2 k = (m raw).2 k ∨ (m raw').2 k = raw' k ∧ (m raw).2 k = raw k)

/-- What an execution looks at. -/
def executeReads : ExecuteMsg → List String
  | .createChannel _ => ["ownership", "channel_open_init_options"]
  | .closeChannel => ["ownership", "ica_channel"]
  | .updateCallbackAddress _ => ["ownership", "state"]
  | .sendCosmosMsgs _ _ _ _ => ["ownership", "state"]
  | .updateOwnership _ => ["ownership"]

/-- What an execution can write. -/
def executeWrites : ExecuteMsg → List String
  | .createChannel _ => ["channel_open_init_options", "allow_channel_open_init"]
  | .closeChannel => ["allow_channel_close_init"]
  | .updateCallbackAddress _ => ["state"]
  | .sendCosmosMsgs _ _ _ _ => ["pending_query"]
  | .updateOwnership _ => ["ownership"]

/-- What a query looks at. -/
def queryReads : QueryMsg → List String
  | .getContractState => ["state"]
  | .getChannel => ["ica_channel"]
  | .ownership => ["ownership"]

/-- The key of the entry of the owner contract for the controller with this number. -/
def entryKey (n : UInt64) : Bytes := keyPart (utf8 "ica_states") ++ bigEndian 8 n.toNat

/-- The key of the number of the controller with this address. -/
def numberKey (a : String) : Bytes := keyPart (utf8 "contract_addr_to_ica_id") ++ utf8 a

end Ica.Spec
