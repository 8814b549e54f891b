import Verif.Spec.OwnerNet

/-!
# What concerns which controller

The controllers of one owner contract run side by side. Which of them a transaction concerns.
-/
namespace Ica.System
open Owner Spec

/-- The transaction concerns the controller at `a`: somebody submits it for that controller, a host acts for it, or the owner
contract is called and that controller sends a packet. Everything else (a block, the creation of a controller, an upload)
is taken to concern all. -/
def touches (a : String) (x : ONetOp × List (String × Obs)) : Bool :=
  match x.1 with
  | .host b _ => decide (b = a)
  | .chain (.ctrl b _) => decide (b = a)
  | .chain (.owner ..) =>
    match x.2 with
    | [(b, .packetSent _)] => decide (b = a)
    | _ => true
  | .chain _ => true

/-- `l'` is another interleaving of `l`: for every controller the transactions that concern it are the same, in the same
order. -/
def Interleaved (l l' : List (ONetOp × List (String × Obs))) : Prop := ∀ a, l'.filter (touches a) = l.filter (touches a)

end Ica.System
