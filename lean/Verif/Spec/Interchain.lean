import Verif.Spec.Answer
import Verif.Spec.Proposal

/-!
# The controller chain together with the host chains

The world of `Model/World.lean` joined with the other ends of its channels: for every connection of the controller
chain, the ICS-27 host module at the other end (ibc-go `modules/apps/27-interchain-accounts/host` and the channel
keeper). None of this is code of `/repo`. It is the environment of the end-to-end properties, and it is as permissive as
ICS-27 and ICS-4 allow: hosts may refuse anything and fail any message; relayers act in any order; light clients show
the past as well as the present.

What a host does is assumed to be this and no more:

* it keeps one interchain account for the contract on each connection, and names it in the version it answers with;
* it receives a packet only if the controller chain committed it, it has not been received before and its timeout has
  not passed, on ordered channels in the order of the sequence numbers;
* it executes all messages of a packet or none, after checking that they are signed by the account;
* it writes one acknowledgement for each received packet and keeps it.
-/
namespace Ica.Spec

/-- ICS-27 metadata answered by a host: the proposal with the address of the account. -/
def answeredMetadata (connection hostConnection address : String) : Json :=
  .obj [("version", .str "ics27-1"), ("controller_connection_id", .str connection),
    ("host_connection_id", .str hostConnection), ("address", .str address), ("encoding", .str "proto3"),
    ("tx_type", .str "sdk_multi_msg")]

/-- State of a channel end on a host chain. -/
inductive HostStatus where
  | tryOpen
  | opened
  | closed
  deriving DecidableEq

/-- A channel end on a host chain. -/
structure HostChan where
  /-- the other end -/
  controller : IbcEndpoint
  order : IbcOrder
  version : String
  status : HostStatus
  /-- the sequence number received next (ordered channels) -/
  nextRecv : Nat
  /-- acknowledgements written, by sequence number; a packet is received exactly if it has one -/
  acks : UInt64 → Option Bytes

/-- The host chain at the other end of a connection, as far as it concerns the contract's port. -/
structure HostSide where
  /-- its own name of the connection -/
  connection : String
  height : UInt64
  time : UInt64
  /-- the contract's interchain account -/
  account : Option String
  chans : String → Option HostChan

/-- A packet executed by a host: all of its messages succeeded. -/
structure Executed where
  connection : String
  /-- the host's channel id -/
  channel : String
  packet : IbcPacket
  /-- the host's block -/
  height : UInt64
  account : String
  messages : List (String × Bytes)
  responses : List (String × Bytes)

/-- The controller chain, the host chains by connection of the controller chain, what light clients can show of the
controller chain's past, and what the hosts have executed, in order. -/
structure Net where
  w : World
  hosts : String → HostSide
  /-- all channels that were ever in state INIT, as they were then -/
  proposed : List IbcChannel
  /-- all packets that were ever committed -/
  sent : List IbcPacket
  log : List Executed

/-- What comes of executing a packet: a response for each message, or an error. -/
inductive Outcome where
  | ok (responses : List (String × Bytes))
  | fail (error : String)

/-- Operations of the joint system. -/
inductive NetOp where
  | ctrl (op : Op)
  | hostBlock (connection : String) (height time : UInt64)
  | hostOpenTry (connection channel : String) (proposal : IbcChannel) (version address : String)
  | hostOpenConfirm (connection channel : String)
  | hostCloseConfirm (connection channel : String)
  | hostReceive (connection channel : String) (packet : IbcPacket) (outcome : Outcome) (ack : Bytes)

/-- A timeout has passed on a host chain (zero is "none"). -/
def Elapsed (s : HostSide) (t : IbcTimeout) : Prop :=
  (∃ ts, t.timestamp = some ts ∧ ts ≠ 0 ∧ ts ≤ s.time) ∨ ∃ b, t.block = some b ∧ b.height ≠ 0 ∧ b.height ≤ s.height

/-- `TxMsgData { 1: repeated MsgData data, 2: repeated Any msg_responses }`. -/
def readTxMsgData (res : Bytes) : Option (List (String × Bytes)) := do
  let tx ← parseWire res
  let _ ← (dMsgs (sel 1 tx)).bind (readAll readMsgData)
  (dMsgs (sel 2 tx)).bind (readAll readAny)

/-- `MsgModuleQuerySafeResponse { 1: height, 2: repeated bytes responses }`. -/
def readSafeResponse (bs : Bytes) : Option (UInt64 × List Bytes) := do
  let m ← parseWire bs
  let height ← dU64 (sel 1 m)
  let answers ← dBytess (sel 2 m)
  some (height, answers)

/-- The bytes of an acknowledgement say how the execution came out. -/
def AckSays (ack : Bytes) : Outcome → Prop
  | .ok rs => ∃ res, readAck ack = some (.result res) ∧ readTxMsgData res = some rs
  | .fail e => readAck ack = some (.error e)

/-- A response fits its message: a query message is answered at the host's height with one answer for each request. -/
def Responds (height : UInt64) (m r : String × Bytes) : Prop :=
  ∀ signer reqs, readHostMsg m.1 m.2 = some (.moduleQuerySafe signer reqs) →
    ∃ answers, readSafeResponse r.2 = some (height, answers) ∧ answers.length = reqs.length

/-- The host finds the messages signed by the account (as far as it knows their types). -/
def Authentic (account : String) (ms : List (String × Bytes)) : Prop :=
  ∀ m ∈ ms, ∀ x, readHostMsg m.1 m.2 = some x → x.signer = account

/-- Change the host of one connection. -/
def setHost (f : String → HostSide) (conn : String) (s : HostSide) : String → HostSide :=
  fun c => if c = conn then s else f c

/-- Set one channel of a host. -/
def HostSide.setChan (s : HostSide) (hid : String) (c : HostChan) : HostSide :=
  { s with chans := fun x => if x = hid then some c else s.chans x }

/-- Name the account. -/
def HostSide.setAccount (s : HostSide) (a : String) : HostSide := { s with account := some a }

/-- A later block. -/
def HostSide.setBlock (s : HostSide) (height time : UInt64) : HostSide := { s with height := height, time := time }

/-- Write one acknowledgement. -/
def HostChan.receive (c : HostChan) (n : UInt64) (ack : Bytes) : HostChan :=
  { c with nextRecv := c.nextRecv + 1, acks := fun x => if x = n then some ack else c.acks x }

/-- What light clients have to show of the hosts before the controller chain accepts a message of a relayer, and on
ordered channels the turn of an acknowledgement (`nextSequenceAck` of the channel keeper). -/
def Proven (n : Net) : Op → Prop
  | .relayOpenAck id cpId v => ∃ c hc, n.w.chans id = some c ∧ (n.hosts c.chan.connectionId).chans cpId = some hc ∧
      hc.controller = c.chan.endpoint ∧ hc.order = c.chan.order ∧ hc.version = v
  | .relayCloseConfirm id => ∃ c hc, n.w.chans id = some c ∧
      (n.hosts c.chan.connectionId).chans c.chan.counterpartyEndpoint.channelId = some hc ∧
      hc.controller = c.chan.endpoint ∧ hc.status = .closed
  | .relayAck id seq ack _ => ∃ c p hc, n.w.chans id = some c ∧ n.w.commits id seq = some p ∧
      (n.hosts c.chan.connectionId).chans p.dest.channelId = some hc ∧ hc.acks seq = some ack ∧
      /- the channel keeper takes acknowledgements on ordered channels in the order of the sequence numbers -/
      (c.chan.order = .ordered → ∀ k < seq, n.w.commits id k = none)
  | .relayTimeout id seq _ => ∃ c p hc, n.w.chans id = some c ∧ n.w.commits id seq = some p ∧
      (n.hosts c.chan.connectionId).chans p.dest.channelId = some hc ∧ hc.acks seq = none ∧
      (hc.order = .ordered → hc.nextRecv ≤ seq.toNat) ∧
      (Elapsed (n.hosts c.chan.connectionId) p.timeout ∨ hc.status = .closed)
  | _ => True

/-- The channels an operation created, as they are now. -/
def newChans (w : World) (obs : List Obs) : List IbcChannel :=
  obs.filterMap fun | .channelCreated id => (w.chans id).map (·.chan) | _ => none

/-- After a transaction on the controller chain. -/
def Net.moved (n : Net) (op : Op) (w' : World) (obs : List Obs) : Net :=
  { n with
    w := w'
    proposed := n.proposed ++ newChans w' obs
    sent := n.sent ++ sentPackets [(op, obs)] }

/-- The committed operations of the joint system. -/
inductive NetStep (api : Api) (n : Net) : NetOp → Net → List Obs → Prop where
  /-- a transaction on the controller chain -/
  | ctrl (op : Op) (w' : World) (obs : List Obs) : Proven n op → apply api n.w op = some (w', obs) →
      NetStep api n (.ctrl op)
        (n.moved op w' obs) obs
  /-- a new block of a host chain -/
  | hostBlock (conn : String) (height time : UInt64) :
      (n.hosts conn).height ≤ height → (n.hosts conn).time ≤ time →
      NetStep api n (.hostBlock conn height time)
        { n with hosts := setHost n.hosts conn ((n.hosts conn).setBlock height time) } []
  /-- a proposal of the controller chain is taken up: the account is named, and created if there is none yet -/
  | hostOpenTry (conn hid : String) (ch : IbcChannel) (v a : String) :
      ch ∈ n.proposed → ch.connectionId = conn → ch.counterpartyEndpoint.portId = "icahost" →
      (n.hosts conn).chans hid = none →
      jsonOfString ch.version = some (proposedMetadata conn (n.hosts conn).connection) →
      jsonOfString v = some (answeredMetadata conn (n.hosts conn).connection a) → a ≠ "" →
      ((n.hosts conn).account = none ∨ (n.hosts conn).account = some a) →
      NetStep api n (.hostOpenTry conn hid ch v a)
        { n with
          hosts := setHost n.hosts conn
            (((n.hosts conn).setAccount a).setChan hid ⟨ch.endpoint, ch.order, v, .tryOpen, 1, fun _ => none⟩) } []
  /-- the controller chain is shown to have opened the channel -/
  | hostOpenConfirm (conn hid : String) (hc : HostChan) (c : ChainChan) :
      (n.hosts conn).chans hid = some hc → hc.status = .tryOpen →
      n.w.chans hc.controller.channelId = some c → c.status ≠ .init → c.chan.counterpartyEndpoint.channelId = hid →
      NetStep api n (.hostOpenConfirm conn hid)
        { n with hosts := setHost n.hosts conn ((n.hosts conn).setChan hid { hc with status := .opened }) } []
  /-- the controller chain is shown to have closed the channel -/
  | hostCloseConfirm (conn hid : String) (hc : HostChan) (c : ChainChan) :
      (n.hosts conn).chans hid = some hc → hc.status ≠ .closed →
      n.w.chans hc.controller.channelId = some c → c.status = .closed → c.chan.counterpartyEndpoint.channelId = hid →
      NetStep api n (.hostCloseConfirm conn hid)
        { n with hosts := setHost n.hosts conn ((n.hosts conn).setChan hid { hc with status := .closed }) } []
  /-- a packet is received and executed -/
  | execute (conn hid : String) (hc : HostChan) (p : IbcPacket) (ack : Bytes) (a : String) (memo : Option String)
      (ms rs : List (String × Bytes)) :
      (n.hosts conn).chans hid = some hc → hc.status = .opened → p ∈ n.sent → p.src = hc.controller →
      p.dest = ⟨"icahost", hid⟩ → ¬ Elapsed (n.hosts conn) p.timeout → hc.acks p.sequence = none →
      (hc.order = .ordered → p.sequence.toNat = hc.nextRecv) →
      (n.hosts conn).account = some a → readPacket p.data = some ⟨1, memo, ms⟩ → Authentic a ms →
      List.Forall₂ (Responds (n.hosts conn).height) ms rs → AckSays ack (.ok rs) →
      NetStep api n (.hostReceive conn hid p (.ok rs) ack)
        { n with
          hosts := setHost n.hosts conn ((n.hosts conn).setChan hid (hc.receive p.sequence ack))
          log := n.log ++ [⟨conn, hid, p, (n.hosts conn).height, a, ms, rs⟩] } []
  /-- a packet is received and its execution fails, which leaves nothing but the acknowledgement -/
  | fail (conn hid : String) (hc : HostChan) (p : IbcPacket) (ack : Bytes) (e : String) :
      (n.hosts conn).chans hid = some hc → hc.status = .opened → p ∈ n.sent → p.src = hc.controller →
      p.dest = ⟨"icahost", hid⟩ → ¬ Elapsed (n.hosts conn) p.timeout → hc.acks p.sequence = none →
      (hc.order = .ordered → p.sequence.toNat = hc.nextRecv) → AckSays ack (.fail e) →
      NetStep api n (.hostReceive conn hid p (.fail e) ack)
        { n with hosts := setHost n.hosts conn ((n.hosts conn).setChan hid (hc.receive p.sequence ack)) } []

/-- Before the contract exists: the hosts have no channel with it and no account for it. -/
structure Net.Initial (env : Env) (n : Net) : Prop where
  w : n.w = World.genesis env
  account : ∀ conn, (n.hosts conn).account = none
  chans : ∀ conn hid, (n.hosts conn).chans hid = none
  proposed : n.proposed = []
  sent : n.sent = []
  log : n.log = []

/-- A history of the joint system. -/
inductive NetExec (api : Api) (n0 : Net) : List (NetOp × List Obs) → Net → Prop where
  | nil : NetExec api n0 [] n0
  | step {h : List (NetOp × List Obs)} {n n' : Net} {op : NetOp} {obs : List Obs} :
      NetExec api n0 h n → NetStep api n op n' obs → NetExec api n0 (h ++ [(op, obs)]) n'

/-- What happened on the controller chain. -/
def onController (h : List (NetOp × List Obs)) : List (Op × List Obs) :=
  h.filterMap fun x => match x.1 with | .ctrl op => some (op, x.2) | _ => none

/-- In this history a transaction of the owner sent the packet, and the host reads it as exactly what the owner asked
for, for the account `a`: the messages in order, then one query message with the queries in order. -/
def AskedFor (h : List (Op × List Obs)) (p : IbcPacket) (a : String) (messages : List (String × Bytes)) : Prop :=
  ∃ sender ms qs memo t fresh core,
    (Op.execute sender (.sendCosmosMsgs ms qs memo t) fresh core, [Obs.packetSent p]) ∈ h ∧
    ∃ l last, messages = l ++ last ∧ List.Forall₂ (HostReads a) ms l ∧
      (qs = [] ∧ last = [] ∨ qs ≠ [] ∧ ∃ url value reqs, last = [(url, value)] ∧
        readHostMsg url value = some (.moduleQuerySafe a reqs) ∧ List.Forall₂ QueryReads qs reqs)

end Ica.Spec
