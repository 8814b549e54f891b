import Verif.Spec.Use

/-!
# Trying again

An owner who wants something done once, and sends the request again, as it was or in other words, if it failed.
-/
namespace Ica.Spec

/-- The `i`-th transaction of the history is a message of the kind `R`, and it sent the packet. -/
def SentFor (R : ExecuteMsg → Prop) (h : List (Op × List Obs)) (i : Nat) (p : IbcPacket) : Prop :=
  ∃ sender m fresh core, R m ∧ h[i]? = some (Op.execute sender m fresh core, [Obs.packetSent p])

/-- Some contract is told that the packet failed: with an error, or by a timeout. -/
def ToldFailed (obs : List Obs) (p : IbcPacket) : Prop :=
  ∃ cb relayer, (∃ err q, CalledBack obs cb (.onAcknowledgementPacketCallback (.error err) p relayer q)) ∨
    CalledBack obs cb (.onTimeoutPacketCallback p relayer)

/-- Messages of the kind `R` are sent again only after it was told that the earlier ones failed. -/
def Patient (R : ExecuteMsg → Prop) (h : List (Op × List Obs)) : Prop :=
  ∀ i j p q, i < j → SentFor R h i p → SentFor R h j q →
    ∃ k x, i < k ∧ k < j ∧ h[k]? = some x ∧ ToldFailed x.2 p

/-- All messages of the kind `R` so far, if any, were told to have failed. -/
def AllFailed (R : ExecuteMsg → Prop) (h : List (Op × List Obs)) : Prop :=
  ∀ i p, SentFor R h i p → ∃ k x, i < k ∧ h[k]? = some x ∧ ToldFailed x.2 p

end Ica.Spec
