import Verif.Model.World

/-!
# What a user sees

Small vocabulary used in the statements of the properties, independent of how the contract computes.
-/
namespace Ica.Spec

/-- The owner (as smart query `Ownership` reports it). -/
def ownerOf (w : World) : Option String :=
  match w.store.ownership with
  | some ow => ow.owner
  | none => none

/-- The nomination in force: nominee and expiry. -/
def nominee (w : World) : Option (String × Option Expiration) :=
  match w.store.ownership with
  | some ⟨_, some p, e⟩ => some (p, e)
  | _ => none

/-- Whether a nomination with this expiry is still good in the given block: strictly before the stated height or
time. -/
def Unexpired (env : Env) : Option Expiration → Prop
  | none => True
  | some .never => True
  | some (.atHeight h) => env.height.toNat < h.toNat
  | some (.atTime t) => env.time.toNat < t.toNat

/-- The callback address in force. -/
def callbackOf (w : World) : Option String :=
  match w.store.state with
  | some st => st.callbackAddress
  | none => none

/-- The ICA account known to the contract. -/
def icaOf (w : World) : Option IcaInfo :=
  match w.store.state with
  | some st => st.icaInfo
  | none => none

/-- The contract reports this channel with this status (smart query `GetChannel`). -/
def Reports (w : World) (ch : IbcChannel) (s : ChannelStatus) : Prop := w.store.channel = some ⟨ch, s⟩

/-- The contract reports an open channel. -/
def ReportsOpen (w : World) : Prop := ∃ ch, Reports w ch .opened

/-- The chain holds this channel end, open. -/
def ChainOpen (w : World) (id : String) (ch : IbcChannel) : Prop := w.chans id = some ⟨ch, .opened⟩

/-- The transaction fails; nothing happens. -/
def Refused (api : Api) (w : World) (op : Op) : Prop := apply api w op = none

/-- The transaction is committed. -/
def Commits (api : Api) (w : World) (op : Op) (w' : World) (obs : List Obs) : Prop := apply api w op = some (w', obs)

/-- The ids of the channels created in a history, in order. -/
def createdIds (h : List (Op × List Obs)) : List String :=
  (h.flatMap (·.2)).filterMap fun | .channelCreated id => some id | _ => none

/-- The packets sent in a history, in order. -/
def sentPackets (h : List (Op × List Obs)) : List IbcPacket :=
  (h.flatMap (·.2)).filterMap fun | .packetSent p => some p | _ => none

/-- Calls of other contracts made by an operation. -/
def callsOf (obs : List Obs) : List (String × Bytes × List Coin) :=
  obs.filterMap fun | .call a m f => some (a, m, f) | _ => none

/-- Events emitted by an operation. -/
def eventsOf (obs : List Obs) : List Event := obs.filterMap fun | .event e => some e | _ => none

/-- Whether the observation is a call by which a contract is told about the acknowledgement or the timeout of packet
`n` of channel `id`. -/
def tellsSettled (id : String) (n : UInt64) : Obs → Bool
  | .call _ m _ =>
    match ReceiverExecuteMsg.jc.ofBytes m with
    | some (.receiveIcaCallback (.onAcknowledgementPacketCallback _ p _ _)) =>
      decide (p.src.channelId = id ∧ p.sequence = n)
    | some (.receiveIcaCallback (.onTimeoutPacketCallback p _)) => decide (p.src.channelId = id ∧ p.sequence = n)
    | _ => false
  | _ => false

/-- All such calls in a history. -/
def settledCalls (id : String) (n : UInt64) (h : List (Op × List Obs)) : List Obs :=
  (h.flatMap (·.2)).filter (tellsSettled id n)

end Ica.Spec

namespace Ica

/-- An operation by which the owner (or the deployer) asks for a channel. -/
def Op.asksChannel : Op → Bool
  | .instantiate _ _ _ _ => true
  | .execute _ (.createChannel _) _ _ => true
  | _ => false

/-- An operation that settles a packet: its acknowledgement or its timeout. -/
def Op.settles (id : String) (seq : UInt64) : Op → Bool
  | .relayAck id' seq' _ _ => decide (id' = id ∧ seq' = seq)
  | .relayTimeout id' seq' _ => decide (id' = id ∧ seq' = seq)
  | _ => false

/-- An operation that names a new candidate or changes the owner. -/
def Op.handover : Op → Bool
  | .execute _ (.updateOwnership _) _ _ => true
  | _ => false

/-- The events the callback contract is told about: OpenAck, acknowledgement, timeout. -/
def Op.notifies : Op → Bool
  | .relayOpenAck _ _ _ => true
  | .relayAck _ _ _ _ => true
  | .relayTimeout _ _ _ => true
  | _ => false

end Ica
