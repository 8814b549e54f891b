import Verif.Spec.OwnerNet
import Verif.Spec.Settle

/-!
# Settling packets of the controllers of an owner contract
-/
namespace Ica.System
open Owner Spec

/-- A relayer delivers an acknowledgement or a timeout to the controller at `a`, or a host makes a block. -/
def RelayingFor (a : String) : ONetOp → Prop
  | .chain (.ctrl b (.relayAck ..)) => b = a
  | .chain (.ctrl b (.relayTimeout ..)) => b = a
  | .host b (.hostBlock ..) => b = a
  | _ => False

/-- The transaction delivers an acknowledgement or the timeout of this packet to the controller at `a`. -/
def EndsFor (a id : String) (k : UInt64) (op : ONetOp) : Prop :=
  (∃ ack relayer, op = .chain (.ctrl a (.relayAck id k ack relayer))) ∨
    ∃ relayer, op = .chain (.ctrl a (.relayTimeout id k relayer))

end Ica.System
