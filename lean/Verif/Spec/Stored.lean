import Verif.Spec.Answer

/-!
# Which keys the contract has in its storage

Told from the history alone: what has been done, and nothing of how the contract is written.
-/
namespace Ica.Spec

/-- A number as `k` bytes, most significant first. -/
def bigEndian : Nat → Nat → Bytes
  | 0, _ => []
  | k + 1, n => bigEndian k (n / 256) ++ [UInt8.ofNat n]

/-- A part of a composite key of `cw-storage-plus`: its length in two bytes, then the part. -/
def keyPart (b : Bytes) : Bytes := bigEndian 2 b.length ++ b

/-- The key of the record of the queries of the packet `n` of a channel: the last part is without its length. -/
def recordKey (channel : String) (n : UInt64) : Bytes :=
  keyPart (utf8 "pending_queries") ++ keyPart (utf8 channel) ++ bigEndian 8 n.toNat

/-- What is there from the instantiation on. -/
def alwaysStored : List String :=
  ["contract_info", "ownership", "state", "channel_open_init_options", "allow_channel_open_init"]

/-- The keys in the storage of the contract after this history. -/
inductive Stored (h : List (Op × List Obs)) : Bytes → Prop where
  /-- the contract has been instantiated -/
  | always {sender msg fresh core obs name} :
      (Op.instantiate sender msg fresh core, obs) ∈ h → name ∈ alwaysStored → Stored h (utf8 name)
  /-- a channel has been opened -/
  | channel {id cpId v obs} : (Op.relayOpenAck id cpId v, obs) ∈ h → Stored h (utf8 "ica_channel")
  /-- the owner has closed a channel -/
  | closing {sender fresh core obs} :
      (Op.execute sender .closeChannel fresh core, obs) ∈ h → Stored h (utf8 "allow_channel_close_init")
  /-- a packet was sent with queries; neither a success acknowledgement nor its timeout has come -/
  | record {p qs} : Sent h p qs → qs ≠ [] → (∀ x ∈ h, ¬ Clears p.src.channelId p.sequence x.1) →
      Stored h (recordKey p.src.channelId p.sequence)

/-- The operation sends a packet with queries. -/
def SendsQueries : Op → Bool
  | .execute _ (.sendCosmosMsgs _ qs _ _) _ _ => !qs.isEmpty
  | _ => false

end Ica.Spec
