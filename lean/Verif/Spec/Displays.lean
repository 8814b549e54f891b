import Verif.Props.Receivers
import Verif.Spec.Script

/-!
# What is shown between the scenes of a script

`feed` (the counter called with messages in turn) and `deliveries` (the messages by which the controller called an
address) are those of C63.
-/
namespace Ica.Spec

/-- The error a callback tells. -/
def errorTold : CallbackMsg → Option String
  | .onAcknowledgementPacketCallback (.error e) _ _ _ => some e
  | _ => none

/-- The contract, the chains and the counter (told everything since its instantiation left it as `raw`) show the stage. -/
structure Displays (c : Cast) (raw : Raw.RawStore) (h : List (NetOp × List Obs)) (n : Net) (s : Stage) : Prop where
  owner : ownerOf n.w = some c.owner
  callback : callbackOf n.w = some c.counter
  options : lastOptions (onController h) = some s.options
  clock : n.w.env.time.toNat = s.clock
  hostClock : (n.hosts c.connection).time.toNat ≤ s.clock
  hostName : (n.hosts c.connection).connection = c.hostConnection
  account : (n.hosts c.connection).account = some c.account
  /-- open: at both ends, over the connection, with the ordering asked for, to the account; and an ordered channel has
  nothing on its way -/
  isOpen : s.isOpen = true → ∃ ch, Working n ch c.account ∧ ch.connectionId = c.connection ∧ ch.order = askedOrder s.options ∧
    (ch.order = .ordered → Idle n ch.endpoint.channelId) ∧ n.w.nextSeq ch.endpoint.channelId = s.sequence
  isClosed : s.isOpen = false → ¬ ReportsOpen n.w
  /-- no other channel is open -/
  only : ∀ id x, ChainOpen n.w id x → Reports n.w x .opened
  counter : ∃ raw' k, feed raw (deliveries c.counter (onController h)) = some raw' ∧
    Counter.query raw' = (.ok (CallbackCounter.jc.toBytes k), raw') ∧ k.success.length = s.success ∧
    k.error.map errorTold = s.errors.map some ∧ k.timeout.length = s.timeout
  executed : List.Forall₂ (fun (r : Request) (e : Executed) => e.connection = c.connection ∧ e.account = c.account ∧
    r.ReadAs c.account e.messages) s.executed n.log

end Ica.Spec
