import Verif.Model.RawStore

/-!
# The unit tests of `/repo`, run on the model

These are tests, not properties: each `example` is a test of `/repo/src`, with the same data and the same assertions, run on the
model of the contract over bytes (`Model/RawStore`). They check the model, not the contract.
-/
namespace Ica.UnitTests
open Raw

/-- `mock_dependencies().api`: the addresses made by `addr_make` are valid. -/
def api : Api := ⟨fun _ => true, fun _ => false⟩

/-- `mock_env()`. -/
def env : Env := ⟨"cosmos2contract", 12345, 1571797419879305533⟩

/-- What a computation returns. -/
def out {α : Type} (m : RM α) (raw : RawStore) : Res α := (m raw).1

/-- The storage it leaves. -/
def left {α : Type} (m : RM α) (raw : RawStore) : RawStore := (m raw).2

/-! ## `/repo/src/types/cosmos_msg.rs` 339-357, `test_weighted_vote_option` -/

def voteOption : Option WeightedVoteOption := WeightedVoteOption.jc.ofStr "{\"option\":\"yes\",\"weight\":\"0.5\"}"

example : voteOption = some ⟨.yes, ⟨1 * 10 ^ 18 / 2, by decide⟩⟩ := by decide +kernel
example : voteOption.map (fun v => v.weight.toString) = some "0.5" := by decide +kernel

/-! ## `/repo/src/ibc/types/metadata.rs` 215-294 -/

/-- `mock_channel` (178-202). -/
def channel (connection : String) : IbcChannel :=
  ⟨⟨"port-0", "channel-0"⟩, ⟨"port-1", "channel-1"⟩, .ordered, "ics27-1", connection⟩

def storedOptions : ChannelOpenInitOptions := ⟨"connection-0", "connection-1", some "icahost", none⟩

def stored : RawStore := left (CHANNEL_OPEN_INIT_OPTIONS.save storedOptions) .empty

/-- `mock_metadata` (204-213). -/
def metadata : IcaMetadata := ⟨"ics27-1", "connection-0", "connection-1", "", .proto3Json, "sdk_multi_msg"⟩

def metadataText : String :=
  "{\"version\":\"ics27-1\",\"controller_connection_id\":\"connection-0\",\"host_connection_id\":\"connection-1\",\"address\":\"\",\"encoding\":\"proto3json\",\"tx_type\":\"sdk_multi_msg\"}"

/-- `test_validate_success` -/
example : ((out (fromChannel (channel "connection-0")) stored).bind fun m => m.validate api (channel "connection-0")) = .ok () := by
  decide +kernel

/-- `test_validate_fail` -/
example : ∃ m e, out (fromChannel (channel "connection-0")) stored = .ok m ∧
    m.validate api (channel "connection-1") = .err e :=
  ⟨IcaMetadata.ofOptions storedOptions, .invalidConnection, by decide +kernel, by decide +kernel⟩

/-- `test_to_string` -/
example : metadata.display = metadataText := by decide +kernel

/-- `test_deserialize_str` -/
example : IcaMetadata.parse metadataText = some metadata := by decide +kernel

/-! ## `/repo/src/ibc/types/packet.rs` 279-305, `test_acknowledgement` -/

example : AckData.jc.ofBytes [123, 34, 114, 101, 115, 117, 108, 116, 34, 58, 34, 99, 51, 86, 106, 89, 50, 86, 122, 99, 119, 61, 61,
    34, 125] = some (.result (utf8 "success")) := by decide +kernel

example : AckData.jc.ofBytes (utf8 "{\"error\":\"ABCI code: 1: error handling packet: see events for details\"}") =
    some (.error "ABCI code: 1: error handling packet: see events for details") := by decide +kernel

/-! ## `/repo/src/contract.rs` 352-599 -/

def options : ChannelOpenInitOptions := ⟨"connection-0", "connection-1", none, none⟩

def start : RM Response := Raw.instantiate api env "creator" ⟨none, options, none⟩

def started : RawStore := left start .empty

/-- `test_instantiate` -/
example : out start .empty = .ok ⟨[.new (newIcaChannelOpenInitCosmosMsg env.contractAddr "connection-0" none "connection-1" none none)], []⟩ := by
  decide +kernel
example : out CHANNEL_OPEN_INIT_OPTIONS.load started = .ok options := by decide +kernel
example : out OWNERSHIP.load started = .ok ⟨some "creator", none, none⟩ := by decide +kernel
example : out CONTRACT.load started = .ok ⟨CONTRACT_NAME, CONTRACT_VERSION⟩ := by decide +kernel

def update (sender : String) : RM Response := Raw.execute api env sender (.updateCallbackAddress (some "new_callback_address"))

/-- `test_update_callback_address` -/
example : out (update "creator") started = .ok ⟨[], []⟩ := by decide +kernel
example : out STATE.load (left (update "creator") started) = .ok ⟨none, some "new_callback_address"⟩ := by decide +kernel
example : ∃ e, out (update "non-admin") (left (update "creator") started) = .err e ∧
    errText e = "Caller is not the contract's current owner" := ⟨.ownership .notOwner, by decide +kernel, rfl⟩

/-- `cw2::set_contract_version(&mut deps.storage, keys::CONTRACT_NAME, v)` -/
def versioned (v : String) (raw : RawStore) : RawStore := left (CONTRACT.save ⟨CONTRACT_NAME, v⟩) raw

/-- `test_migrate` -/
example : out CONTRACT.load (versioned "0.0.1" started) = .ok ⟨CONTRACT_NAME, "0.0.1"⟩ := by decide +kernel
example : out Raw.migrate (versioned "0.0.1" started) = .ok .empty := by decide +kernel
example : out CONTRACT.load (left Raw.migrate (versioned "0.0.1" started)) = .ok ⟨CONTRACT_NAME, CONTRACT_VERSION⟩ := by decide +kernel
example : ∃ e, out Raw.migrate (versioned "100.0.0" (left Raw.migrate (versioned "0.0.1" started))) = .err e ∧
    errText e = "invalid migration version: expected > 100.0.0, got " ++ CONTRACT_VERSION :=
  ⟨.invalidMigrationVersion "> 100.0.0" "0.20.0", by decide +kernel, by decide +kernel⟩

/-- `state.set_ica_info("", "", e)` -/
def withEncoding (e : TxEncoding) (raw : RawStore) : RawStore :=
  left (STATE.load >>= fun s => STATE.save { s with icaInfo := some ⟨"", "", e⟩ }) raw

/-- `test_migrate_with_encoding` -/
example : ∃ e, out Raw.migrate (withEncoding .proto3Json (versioned "0.0.1" started)) = .err e ∧
    errText e = errText (.unsupportedPacketEncoding (TxEncoding.display .proto3Json)) :=
  ⟨.unsupportedPacketEncoding (TxEncoding.display .proto3Json), by decide +kernel, rfl⟩
example : out Raw.migrate (withEncoding .protobuf (withEncoding .proto3Json (versioned "0.0.1" started))) = .ok .empty := by decide +kernel
example : out CONTRACT.load (left Raw.migrate (withEncoding .protobuf (withEncoding .proto3Json (versioned "0.0.1" started)))) =
    .ok ⟨CONTRACT_NAME, CONTRACT_VERSION⟩ := by decide +kernel

end Ica.UnitTests
