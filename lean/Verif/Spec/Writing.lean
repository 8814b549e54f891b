import Verif.Spec.Stored
import Verif.Spec.Footprint
import Verif.Spec.RawOwnerWorld
import Verif.Model.RawWorld

/-!
# Storages that say the same in other words

The values in the storage are JSON texts. Two texts can mean the same value: the members may stand in another order, there may be
white space, and for some types members that this version does not know.
-/
namespace Ica.Spec

/-- Under some key: nothing in both storages, or two texts that are read as the same value, or two unreadable texts. -/
def Alike {α : Type} (c : JC α) (x y : Option Bytes) : Prop := x.map c.ofBytes = y.map c.ofBytes

/-- Two storages of the contract in which every value is read alike. Under other keys there may be anything. -/
structure ReadAlike (a b : Raw.RawStore) : Prop where
  version : Alike ContractVersion.jc (a (utf8 "contract_info")) (b (utf8 "contract_info"))
  ownership : Alike Ownership.jc (a (utf8 "ownership")) (b (utf8 "ownership"))
  state : Alike ContractState.jc (a (utf8 "state")) (b (utf8 "state"))
  channel : Alike ChannelState.jc (a (utf8 "ica_channel")) (b (utf8 "ica_channel"))
  options : Alike ChannelOpenInitOptions.jc (a (utf8 "channel_open_init_options")) (b (utf8 "channel_open_init_options"))
  opening : Alike jcBool (a (utf8 "allow_channel_open_init")) (b (utf8 "allow_channel_open_init"))
  closing : Alike jcBool (a (utf8 "allow_channel_close_init")) (b (utf8 "allow_channel_close_init"))
  sending : Alike (jcList (jcPair jcStr jcBool)) (a (utf8 "pending_query")) (b (utf8 "pending_query"))
  records : ∀ c n, Alike (jcList (jcPair jcStr jcBool)) (a (recordKey c n)) (b (recordKey c n))

/-- The same chain, with a contract whose storage reads alike. -/
def Twin (w v : Raw.RWorld) : Prop := ReadAlike w.raw v.raw ∧ v = { w with raw := v.raw }

/-- Two storages of the owner contract in which every value is read alike. -/
structure OwnerReadAlike (a b : Raw.RawStore) : Prop where
  state : Alike Owner.State.jc (a (utf8 "state")) (b (utf8 "state"))
  count : Alike jcU64 (a (utf8 "ica_count")) (b (utf8 "ica_count"))
  entries : ∀ n, Alike Owner.IcaContractState.jc (a (entryKey n)) (b (entryKey n))
  numbers : ∀ c, Alike jcU64 (a (numberKey c)) (b (numberKey c))

/-- The same chain, with an owner contract whose storage reads alike. -/
def OwnerTwin (w v : RawOwner.ROWorld) : Prop := OwnerReadAlike w.raw v.raw ∧ v = { w with raw := v.raw }

/-- Two JSON objects that have, of the members with these names, the same ones, in whatever order; they may have any others. -/
def SameMembers (names : List String) (fs gs : List (String × Json)) : Prop :=
  List.Perm (fs.filter fun f => f.1 ∈ names) (gs.filter fun g => g.1 ∈ names)

end Ica.Spec
