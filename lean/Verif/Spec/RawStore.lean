import Verif.Model.RawStore

/-!
# When raw storage stands for a typed storage
-/
namespace Ica.Raw

/-- The raw storage has, under the item's key, either nothing or bytes that decode to a value: `o` says which. -/
def Item.Holds {α : Type} (i : Item α) (raw : RawStore) (o : Option α) : Prop :=
  match raw (utf8 i.key), o with
  | none, none => True
  | some b, some x => i.jc.ofBytes b = some x
  | _, _ => False

/-- Likewise for one entry of a map, at its raw key. -/
def Map2.Holds {α : Type} (m : Map2 α) (raw : RawStore) (channel : String) (n : UInt64) (o : Option α) : Prop :=
  ∀ k, mapKey m.ns channel n = .ok k →
    match raw k, o with
    | none, none => True
    | some b, some x => m.jc.ofBytes b = some x
    | _, _ => False

/-- A channel id for which the map has a key. IBC identifiers have at most 64 characters. -/
def Short (id : String) : Prop := (utf8 id).length ≤ 65535

instance (id : String) : Decidable (Short id) := inferInstanceAs (Decidable (_ ≤ _))

/-- The raw storage stands for this typed storage. -/
structure Rep (raw : RawStore) (s : Store) : Prop where
  version : CONTRACT.Holds raw s.version
  ownership : OWNERSHIP.Holds raw s.ownership
  state : STATE.Holds raw s.state
  channel : CHANNEL_STATE.Holds raw s.channel
  options : CHANNEL_OPEN_INIT_OPTIONS.Holds raw s.options
  allowOpenInit : ALLOW_CHANNEL_OPEN_INIT.Holds raw s.allowOpenInit
  allowCloseInit : ALLOW_CHANNEL_CLOSE_INIT.Holds raw s.allowCloseInit
  query : QUERY.Holds raw s.query
  pending : ∀ id n, Short id → PENDING_QUERIES.Holds raw id n (s.pending id n)
  long : ∀ id n, ¬ Short id → s.pending id n = none

/-- A computation on raw storage agrees with a typed outcome: same value and storage that stands for the typed one, same
error, or same abort. -/
def Agrees {α : Type} (out : Res α × RawStore) (t : Res (Store × α)) : Prop :=
  match t with
  | .ok (s, a) => out.1 = .ok a ∧ Rep out.2 s
  | .err e => out.1 = .err e
  | .panic w => out.1 = .panic w

end Ica.Raw
