import Verif.Spec.OwnerNet
import Verif.Spec.Use

/-!
# Using the accounts of the owner contract

An action of the admin on its way there and back: asked for at the owner contract, sent by the controller, executed by the
host, its outcome told to the owner contract.
-/
namespace Ica.System
open Owner Spec

/-- A call of `send_predefined_action`: its text, what it says, and the controller, channel and account it is about. -/
structure Errand where
  bytes : Bytes
  id : UInt64
  dst : String
  controller : String
  channel : IbcChannel
  account : String

/-- `k` such actions can be carried out: the text says what it should, the controller listed under the id has an account
that works, nothing is on its way if the channel is ordered, and ten minutes from now the host's clock will not have passed. -/
structure Errand.Fine (x : Errand) (n : ONet) (k : Nat) : Prop where
  text : Spells Api.OwnerCall x.bytes (.sendPredefinedAction x.id x.dst)
  listed : ∃ s, Listed n.s x.id x.controller s
  works : ∃ cw, Controller n.s x.controller cw ∧ Working ((n.far x.controller).net cw) x.channel x.account ∧
    (x.channel.order = .ordered → Idle ((n.far x.controller).net cw) x.channel.endpoint.channelId) ∧
    cw.nextSeq x.channel.endpoint.channelId + k ≤ 2 ^ 64
  later : ((n.far x.controller).hosts x.channel.connectionId).time.toNat < n.s.owner.time.toNat + 600 * 1000000000

/-- What the host executes for the action: one transfer of 100 stake out of the account, to the address of the call. -/
def Errand.DoneBy (x : Errand) (e : Executed) : Prop :=
  e.connection = x.channel.connectionId ∧ e.account = x.account ∧
    ∃ url value, e.messages = [(url, value)] ∧ readHostMsg url value = some (.send x.account x.dst [("stake", 100)])

/-- The executions for one controller among those of all. -/
def doneAt (a : String) (es : List (String × Executed)) : List Executed := (es.filter fun y => y.1 = a).map (·.2)

/-- What it takes to carry out actions: the admin calls the owner contract, hosts receive, relayers bring acknowledgements. -/
def CarryingOut (admin : String) : ONetOp → Prop
  | .chain (.owner sender _ _ _) => sender = admin
  | .host _ (.hostReceive ..) => True
  | .chain (.ctrl _ (.relayAck ..)) => True
  | _ => False

end Ica.System
