import Verif.Spec.Interchain

/-!
# Settling packets

What it means that a packet is brought to an end by relayers and blocks of the host alone, and that the callback contract
is told.
-/
namespace Ica.Spec

/-- A relayer delivers an acknowledgement or a timeout, or a host makes a block. -/
def Relaying : NetOp → Prop
  | .ctrl (.relayAck ..) => True
  | .ctrl (.relayTimeout ..) => True
  | .hostBlock .. => True
  | _ => False

/-- The callback contract was told how the packet ended. -/
def ToldEnd (obs : List Obs) (cb : String) (p : IbcPacket) : Prop :=
  ∃ relayer, CalledBack obs cb (.onTimeoutPacketCallback p relayer) ∨
    ∃ a q, CalledBack obs cb (.onAcknowledgementPacketCallback a p relayer q)

/-- The transaction delivers an acknowledgement or the timeout of this packet. -/
def Ends (id : String) (k : UInt64) (op : NetOp) : Prop :=
  (∃ ack relayer, op = .ctrl (.relayAck id k ack relayer)) ∨ ∃ relayer, op = .ctrl (.relayTimeout id k relayer)

/-- The sequence numbers of the acknowledgements delivered on a channel, in the order of delivery. -/
def ackedNumbers (id : String) (h : List (Op × List Obs)) : List Nat :=
  h.filterMap fun x => match x.1 with
    | .relayAck id' k _ _ => if id' = id then some k.toNat else none
    | _ => none

end Ica.Spec
