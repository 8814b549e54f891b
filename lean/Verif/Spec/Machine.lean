import Verif.Spec.Admission
import Verif.Spec.Host
import Verif.Spec.Reading
import Verif.Spec.ApiStored
import Verif.Spec.RawInterchain
import Mathlib.Logic.Function.Basic

/-!
# The contract on one page

A machine that says everything the contract does, in terms of what users, relayers, callback contracts and queries see. It
has no storage and no code: its state is a `View`, and `Rule` lists which transactions are carried out, what they change
and what they make visible. Where texts or bytes go out, the rule says what a reader finds in them.
-/
namespace Ica.Spec
open Function (update)

/-- What there is to see. -/
structure View where
  /-- the contract exists -/
  live : Bool
  env : Env
  owner : Option String
  /-- an offer of ownership: to whom, and until when -/
  offer : Option (String × Option Expiration)
  callback : Option String
  /-- the interchain account: its address, and the channel over which it was opened -/
  account : Option (String × String)
  /-- the channel reported by `get_channel` -/
  channel : Option ChannelState
  /-- the options given last -/
  options : Option ChannelOpenInitOptions
  /-- the channel ends of the contract on its chain -/
  chans : String → Option ChainChan
  /-- the next sequence number of each channel -/
  nextSeq : String → Nat
  /-- packets that are neither acknowledged nor timed out, with the queries in them -/
  inFlight : String → UInt64 → Option (IbcPacket × List QueryRequest)

/-- Before the contract exists. -/
def View.start (env : Env) : View :=
  ⟨false, env, none, none, none, none, none, none, fun _ => none, fun _ => 1, fun _ _ => none⟩

/-- A packet is done with. -/
def View.settled (v : View) (id : String) (n : UInt64) : String → UInt64 → Option (IbcPacket × List QueryRequest) :=
  update v.inFlight id (update (v.inFlight id) n none)

/-- The channel that is proposed. -/
def proposed (address fresh : String) (o : ChannelOpenInitOptions) : IbcChannel where
  endpoint := ⟨"wasm." ++ address, fresh⟩
  counterpartyEndpoint := ⟨"icahost", ""⟩
  order := askedOrder o
  version := jsonToString (proposedMetadata o.connectionId o.counterpartyConnectionId)
  connectionId := o.connectionId

/-- What the host finds in a packet: type 1 (`EXECUTE_TX`), the memo, one message per message asked for, in order, and
last, if there are queries, one safe module query with a request per query. -/
def Carries (data : Bytes) (account : String) (ms : List CosmosMsg) (qs : List QueryRequest) (memo : Option String) : Prop :=
  ∃ l last, readPacket data = some ⟨1, memo, l ++ last⟩ ∧ List.Forall₂ (HostReads account) ms l ∧
    (qs = [] ∧ last = [] ∨ qs ≠ [] ∧ ∃ url value reqs, last = [(url, value)] ∧
      readHostMsg url value = some (.moduleQuerySafe account reqs) ∧ List.Forall₂ QueryReads qs reqs)

/-- The callback contract, if there is one, is called once with the documented text of this message and without funds;
nothing else is seen. -/
def Tells (callback : Option String) (m : CallbackMsg) (obs : List Obs) : Prop :=
  match callback with
  | none => obs = []
  | some a => ∃ bytes, obs = [.call a bytes []] ∧ Written (Api.WritesCallback m) bytes ∧
      Spells Api.CallbackCall bytes (.receiveIcaCallback m)

/-- All queries have an answer that says something, and this is what they say. -/
def AllSay (qs : List QueryRequest) (answers : List Bytes) (rs : List IcaQueryResponse) : Prop :=
  answers.length = qs.length ∧
    List.Forall₂ (fun (a : QueryRequest × Bytes) x => SaysReply a.1 a.2 x) (qs.zip answers) rs

/-- What is reported of the queries of a packet that succeeded with this result: nothing if there were none; else what all
of the answers say, or an error if one of them does not say anything. -/
def Reported (qs : List QueryRequest) (res : Bytes) (q : Option IcaQueryResult) : Prop :=
  (qs = [] ∧ q = none) ∨ (qs ≠ [] ∧ ∃ height answers, readQueryAnswer res = some (height, answers) ∧
    ((∃ rs, AllSay qs answers rs ∧ q = some (.success height rs)) ∨ ((∀ rs, ¬ AllSay qs answers rs) ∧ ∃ e, q = some (.error e))))

/-- The event of an acknowledgement. -/
def ackEvent (p : IbcPacket) (a : AckData) : Event :=
  ⟨"acknowledge_packet", [("packet_sequence", decString p.sequence.toNat), ("packet_src_port", p.src.portId),
    ("packet_src_channel", p.src.channelId),
    match a with
    | .result res => ("packet_ack_base64", String.ofList (b64Enc res))
    | .error e => ("error", e)]⟩

/-- The transactions that are carried out. -/
inductive Rule (api : Api) (v : View) : Op → View → List Obs → Prop where
  /-- blocks do not go back -/
  | block {height time : UInt64} (h1 : v.env.height ≤ height) (h2 : v.env.time ≤ time) :
      Rule api v (.block height time) { v with env := { v.env with height := height, time := time } } []
  /-- once; a channel is proposed -/
  | instantiate {sender fresh : String} {msg : InstantiateMsg} (h1 : v.live = false)
      (h2 : api.validAddr (askedOwner sender msg) = true)
      (h3 : ∀ a, msg.sendCallbacksTo = some a → api.validAddr a = true)
      (h4 : askedPort msg.channelOpenInitOptions = "icahost") (h5 : v.chans fresh = none) :
      Rule api v (.instantiate sender msg fresh true)
        { v with
          live := true
          owner := some (askedOwner sender msg)
          callback := msg.sendCallbacksTo
          options := some msg.channelOpenInitOptions
          chans := update v.chans fresh (some ⟨proposed v.env.contractAddr fresh msg.channelOpenInitOptions, .init⟩) }
        [.channelCreated fresh]
  /-- the owner, while no channel is reported open; a channel is proposed, with the options given now or before -/
  | createChannel {sender fresh : String} {o : Option ChannelOpenInitOptions} {o' : ChannelOpenInitOptions}
      (h1 : v.owner = some sender) (h2 : ∀ ch, v.channel ≠ some ⟨ch, .opened⟩) (h3 : o.or v.options = some o')
      (h4 : askedPort o' = "icahost") (h5 : v.chans fresh = none) :
      Rule api v (.execute sender (.createChannel o) fresh true)
        { v with
          options := some o'
          chans := update v.chans fresh (some ⟨proposed v.env.contractAddr fresh o', .init⟩) }
        [.channelCreated fresh]
  /-- the owner, while a channel is reported open -/
  | closeChannel {sender fresh : String} {ch : IbcChannel} (h1 : v.owner = some sender)
      (h2 : v.channel = some ⟨ch, .opened⟩) :
      Rule api v (.execute sender .closeChannel fresh true)
        { v with
          channel := some ⟨ch, .closed⟩
          chans := update v.chans ch.endpoint.channelId (some ⟨ch, .closed⟩) }
        [.channelClosed ch.endpoint.channelId]
  /-- the owner, with an account whose channel is open; one packet is sent -/
  | sendCosmosMsgs {sender fresh : String} {ms : List CosmosMsg} {qs : List QueryRequest} {memo : Option String}
      {t : Option UInt64} {address id : String} {ch : IbcChannel} {p : IbcPacket} {ts : UInt64}
      (h1 : v.owner = some sender) (h2 : v.account = some (address, id)) (h3 : v.chans id = some ⟨ch, .opened⟩)
      (h4 : v.nextSeq id < 2 ^ 64) (h5 : ∀ m ∈ ms, Supported m) (h6 : ∀ q ∈ qs, SupportedQuery q)
      (h7 : p.src = ch.endpoint) (h8 : p.dest = ch.counterpartyEndpoint) (h9 : p.sequence.toNat = v.nextSeq id)
      (h10 : p.timeout = ⟨none, some ts⟩) (h11 : ts.toNat = v.env.time.toNat + allowedSeconds t * 1000000000)
      (h12 : Carries p.data address ms qs memo) :
      Rule api v (.execute sender (.sendCosmosMsgs ms qs memo t) fresh true)
        { v with
          nextSeq := update v.nextSeq id (v.nextSeq id + 1)
          inFlight := update v.inFlight id (update (v.inFlight id) p.sequence (some (p, qs))) }
        [.packetSent p]
  /-- the owner, with a valid address or none -/
  | updateCallbackAddress {sender fresh : String} {core : Bool} {a : Option String} (h1 : v.owner = some sender)
      (h2 : ∀ x, a = some x → api.validAddr x = true) :
      Rule api v (.execute sender (.updateCallbackAddress a) fresh core) { v with callback := a } []
  /-- the owner, to a valid address; an offer that was there is replaced -/
  | transferOwnership {sender fresh : String} {core : Bool} {to' : String} {e : Option Expiration} (h1 : v.owner = some sender)
      (h2 : api.validAddr to' = true) :
      Rule api v (.execute sender (.updateOwnership (.transferOwnership to' e)) fresh core) { v with offer := some (to', e) } []
  /-- the account to which ownership is offered, in time -/
  | acceptOwnership {sender fresh : String} {core : Bool} {e : Option Expiration} (h1 : v.offer = some (sender, e))
      (h2 : Unexpired v.env e) :
      Rule api v (.execute sender (.updateOwnership .acceptOwnership) fresh core)
        { v with owner := some sender, offer := none } []
  /-- a proposed channel, and an answer with valid metadata and an address; the channel is open and is reported, with the
  account -/
  | openAck {id cpId version : String} {ch ch' : IbcChannel} {m : IcaMetadata} {obs : List Obs}
      (h1 : v.chans id = some ⟨ch, .init⟩) (h2 : IsMetadata version m) (h3 : ValidMetadata api m ch.connectionId)
      (h4 : m.address ≠ "")
      (h5 : ch' = ⟨ch.endpoint, ⟨ch.counterpartyEndpoint.portId, cpId⟩, ch.order, version, ch.connectionId⟩)
      (h6 : Tells v.callback (.onChannelOpenAckCallback ch' m.address .protobuf) obs) :
      Rule api v (.relayOpenAck id cpId version)
        { v with
          account := some (m.address, id)
          channel := some ⟨ch', .opened⟩
          chans := update v.chans id (some ⟨ch', .opened⟩) }
        obs
  /-- the channel reported open -/
  | closeConfirm {id : String} {ch : IbcChannel} (h1 : v.channel = some ⟨ch, .opened⟩) (h2 : ch.endpoint.channelId = id) :
      Rule api v (.relayCloseConfirm id)
        { v with channel := some ⟨ch, .closed⟩, chans := update v.chans id (some ⟨ch, .closed⟩) } [.channelClosed id]
  /-- a packet in flight on an open channel, acknowledged with a result; if there were queries, it has to be one in which
  answers can be found -/
  | success {id relayer : String} {n : UInt64} {ack res : Bytes} {p : IbcPacket} {qs : List QueryRequest} {ch : IbcChannel}
      {q : Option IcaQueryResult} {obs : List Obs} (h1 : v.inFlight id n = some (p, qs)) (h2 : v.chans id = some ⟨ch, .opened⟩)
      (h3 : readAck ack = some (.result res)) (h4 : Reported qs res q)
      (h5 : Tells v.callback (.onAcknowledgementPacketCallback (.result res) p relayer q) obs) :
      Rule api v (.relayAck id n ack relayer) { v with inFlight := v.settled id n } (.event (ackEvent p (.result res)) :: obs)
  /-- a packet in flight on an open channel, acknowledged with an error (finding 3: the error is also reported as that of the
  queries, if there were none) -/
  | failure {id relayer : String} {n : UInt64} {ack : Bytes} {e : String} {p : IbcPacket} {qs : List QueryRequest}
      {ch : IbcChannel} {obs : List Obs} (h1 : v.inFlight id n = some (p, qs)) (h2 : v.chans id = some ⟨ch, .opened⟩)
      (h3 : readAck ack = some (.error e))
      (h4 : Tells v.callback (.onAcknowledgementPacketCallback (.error e) p relayer (some (.error e))) obs) :
      Rule api v (.relayAck id n ack relayer) { v with inFlight := v.settled id n } (.event (ackEvent p (.error e)) :: obs)
  /-- a packet in flight; if its channel is ordered, it is closed (finding 1: and if the reported channel is ordered, it is
  reported closed, whichever it is) -/
  | timeout {id relayer : String} {n : UInt64} {p : IbcPacket} {qs : List QueryRequest} {c : ChainChan} {obs : List Obs}
      (h1 : v.inFlight id n = some (p, qs)) (h2 : v.chans id = some c)
      (h3 : Tells v.callback (.onTimeoutPacketCallback p relayer) obs) :
      Rule api v (.relayTimeout id n relayer)
        { v with
          inFlight := v.settled id n
          chans := if c.chan.order = .ordered then update v.chans id (some ⟨c.chan, .closed⟩) else v.chans
          channel := v.channel.map fun x => if x.channel.order = .ordered then ⟨x.channel, .closed⟩ else x }
        obs

/-- A history of the machine. -/
inductive Runs (api : Api) (v0 : View) : List (Op × List Obs) → View → Prop where
  | nil : Runs api v0 [] v0
  | step {h : List (Op × List Obs)} {v v' : View} {op : Op} {obs : List Obs} :
      Runs api v0 h v → Rule api v op v' obs → Runs api v0 (h ++ [(op, obs)]) v'

/-- A packet but for its data. -/
def header (x : IbcPacket × List QueryRequest) : IbcEndpoint × IbcEndpoint × UInt64 × IbcTimeout × List QueryRequest :=
  (x.1.src, x.1.dest, x.1.sequence, x.1.timeout, x.2)

/-- The same but for the data of packets. -/
structure View.Alike (v v' : View) : Prop where
  live : v.live = v'.live
  env : v.env = v'.env
  owner : v.owner = v'.owner
  offer : v.offer = v'.offer
  callback : v.callback = v'.callback
  account : v.account = v'.account
  channel : v.channel = v'.channel
  options : v.options = v'.options
  chans : v.chans = v'.chans
  nextSeq : v.nextSeq = v'.nextSeq
  inFlight : ∀ id n, (v.inFlight id n).map header = (v'.inFlight id n).map header

/-- The contract and its chain show this. -/
structure Shows (w : World) (v : View) : Prop where
  live : w.live = v.live
  env : w.env = v.env
  owner : ownerOf w = v.owner
  offer : nominee w = v.offer
  callback : callbackOf w = v.callback
  account : icaOf w = v.account.map fun x => ⟨x.1, x.2, .protobuf⟩
  channel : ∀ ch s, Reports w ch s ↔ v.channel = some ⟨ch, s⟩
  chans : w.chans = v.chans
  nextSeq : w.nextSeq = v.nextSeq
  inFlight : ∀ id n, w.commits id n = (v.inFlight id n).map (·.1)

/-- A query, as text, is answered: with the documented JSON of this, or refused if there is nothing. -/
def AnsweredBy (raw : Raw.RawStore) (q : QueryMsg) (json : Option (Json → Prop)) : Prop :=
  ∀ text, Spells Api.QueryMessage text q →
    match json with
    | some r => ∃ answer, Raw.vmQuery text raw = .ok answer ∧ Written r answer
    | none => ∃ e, Raw.vmQuery text raw = .err e

/-- The contract as the VM runs it, with its chain, shows this: by its answers to queries. -/
structure Answering (w : Raw.RWorld) (v : View) : Prop where
  live : w.live = v.live
  env : w.env = v.env
  ownership : AnsweredBy w.raw .ownership
    (if v.live then some (Api.WritesOwnership ⟨v.owner, v.offer.map (·.1), v.offer.bind (·.2)⟩) else none)
  state : AnsweredBy w.raw .getContractState
    (if v.live then some (· = Api.contractStateJson ⟨v.account.map fun x => ⟨x.1, x.2, .protobuf⟩, v.callback⟩) else none)
  channel : AnsweredBy w.raw .getChannel (v.channel.map fun c => (· = Api.channelStateJson c))
  chans : w.chans = v.chans
  nextSeq : w.nextSeq = v.nextSeq
  inFlight : ∀ id n, w.commits id n = (v.inFlight id n).map (·.1)

/-- The messages of users are texts. -/
def ByText : Raw.ROp → Prop
  | .chain (.instantiate ..) => False
  | .chain (.execute ..) => False
  | .chain .migrate => False
  | _ => True

end Ica.Spec
