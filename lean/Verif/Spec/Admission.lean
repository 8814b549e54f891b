import Verif.Spec.Answer
import Verif.Spec.Api
import Verif.Spec.Proposal

/-!
# Which transactions are accepted

For each message, the exact condition under which the chain with the contract accepts it, in terms of what users see.
-/
namespace Ica.Spec
open Format

/-- The time allowed for a packet, in seconds: ten minutes unless stated. -/
def allowedSeconds : Option UInt64 → Nat
  | some s => s.toNat
  | none => 600

/-- The version of a channel is ICS-27 metadata (JSON). -/
def IsMetadata (v : String) (m : IcaMetadata) : Prop := ∃ j, IsDocument j v.toList ∧ Api.Metadata j m

/-- The owner an instantiation asks for: the sender unless stated otherwise. -/
def askedOwner (sender : String) (msg : InstantiateMsg) : String :=
  match msg.owner with
  | some o => o
  | none => sender

/-- What the contract requires for the owner's messages (or the nominee's). `h` is what happened before. -/
def ExecAdmitted (h : List (Op × List Obs)) (api : Api) (w : World) (sender : String) (fresh : String) (core : Bool) :
    ExecuteMsg → Prop
  /- the owner, while no channel is reported open, with options (given now or before) for the host's ICA port -/
  | .createChannel o => ownerOf w = some sender ∧ ¬ ReportsOpen w ∧
      (∃ o', o.or (lastOptions h) = some o' ∧ askedPort o' = "icahost") ∧ core = true ∧ w.chans fresh = none
  /- the owner, while a channel is reported open -/
  | .closeChannel => ownerOf w = some sender ∧ ReportsOpen w ∧ core = true
  /- the owner, with a known account whose channel is open on the chain -/
  | .sendCosmosMsgs ms qs _ t => ownerOf w = some sender ∧
      (∃ info ch, icaOf w = some info ∧ ChainOpen w info.channelId ch ∧ w.nextSeq info.channelId < 2 ^ 64) ∧
      (∀ m ∈ ms, Supported m) ∧ (∀ q ∈ qs, SupportedQuery q) ∧
      w.env.time.toNat + allowedSeconds t * 1000000000 < 2 ^ 64 ∧ core = true
  /- the owner, with a valid address or none -/
  | .updateCallbackAddress a => ownerOf w = some sender ∧ ∀ x, a = some x → api.validAddr x = true
  /- the owner, nominating a valid address -/
  | .updateOwnership (.transferOwnership p _) => ownerOf w = some sender ∧ api.validAddr p = true
  /- the nominee, in time -/
  | .updateOwnership .acceptOwnership => ∃ e, nominee w = some (sender, e) ∧ Unexpired w.env e
  /- nobody -/
  | .updateOwnership .renounceOwnership => False

/-- Exactly these operations are accepted. -/
def Admitted (h : List (Op × List Obs)) (api : Api) (w : World) : Op → Prop
  /- blocks do not go back -/
  | .block height time => w.env.height ≤ height ∧ w.env.time ≤ time
  /- once, with valid addresses and options for the host's ICA port -/
  | .instantiate sender msg fresh core => w.live = false ∧
      api.validAddr (askedOwner sender msg) = true ∧
      (∀ a, msg.sendCallbacksTo = some a → api.validAddr a = true) ∧
      askedPort msg.channelOpenInitOptions = "icahost" ∧ core = true ∧ w.chans fresh = none
  | .execute sender msg fresh core => ExecAdmitted h api w sender fresh core msg
  /- not to the version that is already there -/
  | .migrate => False
  /- only the contract opens and closes channels; it is never the other end of a handshake, and receives no packets -/
  | .relayOpenInit _ _ => False
  | .relayOpenTry _ _ => False
  | .relayOpenConfirm _ => False
  | .relayCloseInit _ => False
  | .relayRecv _ => False
  /- a channel that awaits it, and an answer with valid metadata and the address of the account -/
  | .relayOpenAck id _ v => ∃ ch m, w.chans id = some ⟨ch, .init⟩ ∧ IsMetadata v m ∧
      ValidMetadata api m ch.connectionId ∧ m.address ≠ ""
  /- the channel reported open -/
  | .relayCloseConfirm id => ∃ ch, Reports w ch .opened ∧ ch.endpoint.channelId = id
  /- a packet in flight on an open channel, and an acknowledgement that can be read -/
  | .relayAck id n ack _ => ∃ p ch qs a, w.commits id n = some p ∧ ChainOpen w id ch ∧ Sent h p qs ∧
      readAck ack = some a ∧ ∀ res, a = .result res → qs ≠ [] → (readQueryAnswer res).isSome
  /- a packet in flight -/
  | .relayTimeout id n _ => ∃ p, w.commits id n = some p

end Ica.Spec
