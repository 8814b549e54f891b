import Verif.Spec.Observe

/-!
# Schedules

Outcomes of packets are brought by relayers, at times nobody in particular decides. Which transactions do not depend on when
they are brought.
-/
namespace Ica.Spec

/-- The transaction brings the outcome of this packet (channel and number). -/
def brings : Op → Option (String × UInt64)
  | .relayAck id n _ _ => some (id, n)
  | .relayTimeout id n _ => some (id, n)
  | _ => none

/-- Transactions that have nothing to do with outcomes: blocks, requests of the owner, handovers of the ownership, proposed
and completed handshakes. Not among them: a change of the callback address (it decides who is told) and the closing of a
channel (outcomes are not brought over a closed channel). -/
def Unconcerned : Op → Prop
  | .block .. => True
  | .execute _ (.sendCosmosMsgs ..) _ _ => True
  | .execute _ (.updateOwnership _) _ _ => True
  | .execute _ (.createChannel _) _ _ => True
  | .relayOpenAck .. => True
  | _ => False

/-- The packet is sent here. -/
def SendsPacket (x : Op × List Obs) (id : String) (n : UInt64) : Prop :=
  ∃ p, Obs.packetSent p ∈ x.2 ∧ p.src.channelId = id ∧ p.sequence = n

/-- `l'` is `l` with the outcomes moved about: the same transactions, the others in the same order, and each outcome after
its packet, which is in flight in `w` or sent before. -/
structure Rescheduled (w : World) (l l' : List (Op × List Obs)) : Prop where
  same : l'.Perm l
  others : l'.filter (fun x => (brings x.1).isNone) = l.filter (fun x => (brings x.1).isNone)
  after : ∀ l1 x l2 id n, l' = l1 ++ x :: l2 → brings x.1 = some (id, n) →
    w.commits id n ≠ none ∨ ∃ y ∈ l1, SendsPacket y id n

/-- The contract has unordered channels only. -/
def AllUnordered (w : World) : Prop := ∀ id c, w.chans id = some c → c.chan.order = .unordered

end Ica.Spec
