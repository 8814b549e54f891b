import Verif.Spec.Interchain
import Verif.Spec.Api
import Verif.Model.RawWorld

/-!
# The contract in bytes together with the host chains

The joint system of `Spec/Interchain.lean` with the contract as the VM runs it: raw storage, and JSON text as messages
(`Model/RawWorld.lean`). The hosts, relayers and light clients are the same. None of this is code of `/repo`.
-/
namespace Ica.Spec

/-- `Net` with raw storage. -/
structure RNet where
  w : Raw.RWorld
  hosts : String → HostSide
  proposed : List IbcChannel
  sent : List IbcPacket
  log : List Executed

/-- The same with typed storage. -/
def RNet.typed (n : RNet) (s : Store) : Net := ⟨n.w.typed s, n.hosts, n.proposed, n.sent, n.log⟩

/-- Operations: transactions on the controller chain, where messages are text, and operations of hosts. -/
inductive RNetOp where
  | ctrl (op : Raw.ROp)
  | host (op : NetOp)

/-- What light clients have to show before the controller chain accepts a message of a relayer. (It does not depend on
the contract's storage; here it is the empty one.) -/
def RProven (n : RNet) : Raw.ROp → Prop
  | .chain op => Proven (n.typed .empty) op
  | _ => True

/-- After a transaction on the controller chain. -/
def RNet.moved (n : RNet) (w' : Raw.RWorld) (obs : List Obs) : RNet :=
  { n with
    w := w'
    proposed := n.proposed ++ obs.filterMap fun | .channelCreated id => (w'.chans id).map (·.chan) | _ => none
    sent := n.sent ++ obs.filterMap fun | .packetSent p => some p | _ => none }

/-- The committed operations. What hosts do is as in `NetStep`; they do not see the contract's storage. -/
inductive RNetStep (api : Api) (n : RNet) : RNetOp → RNet → List Obs → Prop where
  | ctrl (op : Raw.ROp) (w' : Raw.RWorld) (obs : List Obs) : RProven n op → Raw.apply api n.w op = some (w', obs) →
      RNetStep api n (.ctrl op) (n.moved w' obs) obs
  | host (op : NetOp) (m : Net) : (∀ o, op ≠ .ctrl o) → NetStep api (n.typed .empty) op m [] →
      RNetStep api n (.host op) { n with hosts := m.hosts, log := m.log } []

/-- Before the contract exists. -/
structure RNet.Initial (env : Env) (n : RNet) : Prop where
  w : n.w = .genesis env
  account : ∀ conn, (n.hosts conn).account = none
  chans : ∀ conn hid, (n.hosts conn).chans hid = none
  proposed : n.proposed = []
  sent : n.sent = []
  log : n.log = []

/-- A history. -/
inductive RNetExec (api : Api) (n0 : RNet) : List (RNetOp × List Obs) → RNet → Prop where
  | nil : RNetExec api n0 [] n0
  | step {h : List (RNetOp × List Obs)} {n n' : RNet} {op : RNetOp} {obs : List Obs} :
      RNetExec api n0 h n → RNetStep api n op n' obs → RNetExec api n0 (h ++ [(op, obs)]) n'

/-- The text of a transaction says this. -/
inductive Says : Raw.ROp → Op → Prop where
  | instantiate {sender fresh : String} {text : Bytes} {core : Bool} {m : InstantiateMsg} :
      Spells Api.Instantiate text m → Says (.instantiate sender text fresh core) (.instantiate sender m fresh core)
  | execute {sender fresh : String} {text : Bytes} {core : Bool} {m : ExecuteMsg} :
      Spells Api.Execute text m → Says (.execute sender text fresh core) (.execute sender m fresh core)
  | migrate {text : Bytes} {m : MigrateMsg} : Spells Api.Migrate text m → Says (.migrate text) .migrate
  | chain (op : Op) : Says (.chain op) op

/-- The same operation in the two joint systems. -/
inductive SameOp : RNetOp → NetOp → Prop where
  | ctrl {r : Raw.ROp} {op : Op} : Says r op → SameOp (.ctrl r) (.ctrl op)
  | host (op : NetOp) : SameOp (.host op) op

end Ica.Spec
