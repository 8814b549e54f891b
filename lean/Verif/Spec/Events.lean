import Verif.Model.Store

/-!
# Events a chain accepts

wasmd checks the events of a contract before it adds them to a transaction, and refuses the transaction otherwise: the
type has at least two characters, no key is blank or starts with an underscore, and (in the releases that check values) no
value is blank. Space at either end does not count.
-/
namespace Ica.Spec

/-- White space (Unicode). -/
def space (c : Char) : Bool :=
  c.toNat ∈ [9, 10, 11, 12, 13, 32, 133, 160, 5760, 8192, 8193, 8194, 8195, 8196, 8197, 8198, 8199, 8200, 8201, 8202, 8232,
    8233, 8239, 8287, 12288]

/-- A text without the space at its ends. -/
def trimmed (s : String) : List Char := ((s.toList.dropWhile space).reverse.dropWhile space).reverse

/-- Nothing but space. -/
def Blank (s : String) : Prop := ∀ c ∈ s.toList, space c = true

/-- The chain accepts the event. -/
def Acceptable (e : Event) : Prop :=
  2 ≤ (trimmed e.ty).length ∧
    ∀ kv ∈ e.attributes, ¬ Blank kv.1 ∧ (trimmed kv.1).head? ≠ some '_' ∧ ¬ Blank kv.2

end Ica.Spec
