import Verif.Model.TypesJson
import Verif.Model.Proto

/-!
# Storage, environment, responses, ownership and contract version

What the entry points read and write, and the two storage libraries they call (`cw-ownable`, `cw2`).
-/
namespace Ica

/-- `/repo/src/types/keys.rs` 6. -/
def CONTRACT_NAME : String := "crates.io:cw-ica-controller"
/-- `/repo/src/types/keys.rs` 9 with `version = "0.20.0"` of `/repo/Cargo.toml` 3. -/
def CONTRACT_VERSION : String := "0.20.0"
/-- `/repo/src/types/keys.rs` 16. -/
def SEND_QUERY_PACKET : UInt64 := 1
/-- `/repo/src/ibc/types/keys.rs` 4. -/
def ICA_VERSION : String := "ics27-1"
/-- `/repo/src/ibc/types/keys.rs` 7. -/
def HOST_PORT_ID : String := "icahost"
/-- `/repo/src/ibc/types/packet.rs` 16. -/
def DEFAULT_TIMEOUT_SECONDS : Nat := 600

/-- The paths of the queries of one packet, with the stargate flag
(`/repo/src/types/state.rs` 37, 42). -/
abbrev QueryPaths := List (String × Bool)

/-- The contract's storage: one field per `Item` and one function per `Map`
(`/repo/src/types/state.rs` 15-43; the items "contract_info" of cw2 and "ownership" of cw-ownable).
Simplification: items hold typed values; their JSON bytes are in `Model/RawStore.lean`. -/
structure Store where
  /-- cw2's item "contract_info". -/
  version : Option ContractVersion
  /-- cw-ownable's item "ownership". -/
  ownership : Option Ownership
  /-- `STATE` -/
  state : Option ContractState
  /-- `CHANNEL_STATE` -/
  channel : Option ChannelState
  /-- `CHANNEL_OPEN_INIT_OPTIONS` -/
  options : Option ChannelOpenInitOptions
  /-- `ALLOW_CHANNEL_OPEN_INIT` -/
  allowOpenInit : Option Bool
  /-- `ALLOW_CHANNEL_CLOSE_INIT` -/
  allowCloseInit : Option Bool
  /-- `QUERY` -/
  query : Option QueryPaths
  /-- `PENDING_QUERIES` -/
  pending : String → UInt64 → Option QueryPaths

/-- Storage before `instantiate` (`/repo/src/types/state.rs` 14-42). -/
def Store.empty : Store := ⟨none, none, none, none, none, none, none, none, fun _ _ => none⟩

/-- Change one entry of `PENDING_QUERIES` (`Map::save`, `Map::remove` of cw-storage-plus, not in /repo). -/
def setPending (p : String → UInt64 → Option QueryPaths) (c : String) (n : UInt64) (v : Option QueryPaths) :
    String → UInt64 → Option QueryPaths :=
  fun c' n' => if c' = c ∧ n' = n then v else p c' n'

/-- What the chain provides to the contract (`deps.api`) and Rust's Unicode table: which strings are valid
addresses (`addr_validate`), and which non-ASCII characters are alphanumeric (`char::is_alphanumeric`).
Both are arbitrary in all theorems (not in /repo). -/
structure Api where
  validAddr : String → Bool
  alnumNonAscii : Char → Bool

/-- `Env` (cosmwasm-std, not in /repo): the contract's address and the current block. -/
structure Env where
  contractAddr : String
  height : UInt64
  /-- block time in nanoseconds -/
  time : UInt64

/-- `ReplyOn` (cosmwasm-std, not in /repo). -/
inductive ReplyOn where
  | always
  | error
  | success
  | never
  deriving DecidableEq

/-- `SubMsg` (cosmwasm-std, not in /repo). -/
structure SubMsg where
  id : UInt64
  msg : CosmosMsg
  replyOn : ReplyOn
  deriving DecidableEq

/-- `SubMsg::new` (also what `Response::add_message` adds; not in /repo): id 0, no reply. -/
def SubMsg.new (m : CosmosMsg) : SubMsg := ⟨0, m, .never⟩

/-- `Event` (cosmwasm-std, not in /repo). -/
structure Event where
  ty : String
  attributes : List (String × String)
  deriving DecidableEq

/-- `Response` and `IbcBasicResponse` (not in /repo): the submessages to dispatch and the events; the contract sets no
attributes and no data. -/
structure Response where
  messages : List SubMsg
  events : List Event
  deriving DecidableEq

/-- `Response::default()`, `Response::new()` (not in /repo). -/
def Response.empty : Response := ⟨[], []⟩

/-- `Item::load` (cw-storage-plus, not in /repo): error `NotFound` if absent. -/
def load {α : Type} (o : Option α) : Res α :=
  match o with
  | some x => .ok x
  | none => .err (.std "not found")

/-- `deps.api.addr_validate` (not in /repo). -/
def addrValidate (api : Api) (s : String) : Res String :=
  if api.validAddr s then .ok s else .err (.std "invalid address")

/-- `opt.map(|a| addr_validate(a)).transpose()?` (`/repo/src/contract.rs` 26-29, 254-256). -/
def addrValidateOpt (api : Api) (o : Option String) : Res (Option String) :=
  match o with
  | none => .ok none
  | some s => (addrValidate api s).bind fun a => .ok (some a)

/-! ## cw-ownable 2.0.0 (not in /repo) -/

/-- `Expiration::is_expired`. -/
def Expiration.isExpired (e : Expiration) (env : Env) : Bool :=
  match e with
  | .atHeight h => h ≤ env.height
  | .atTime t => t ≤ env.time
  | .never => false

/-- `cw_ownable::initialize_owner(.., Some(owner))`, called at `/repo/src/contract.rs` 24. -/
def initializeOwner (api : Api) (s : Store) (owner : String) : Res Store :=
  (addrValidate api owner).bind fun o => .ok { s with ownership := some ⟨some o, none, none⟩ }

/-- `cw_ownable::check_owner`. -/
def checkOwner (ow : Ownership) (sender : String) : Res Unit :=
  match ow.owner with
  | none => .err (.ownership .noOwner)
  | some o => if sender = o then .ok () else .err (.ownership .notOwner)

/-- `cw_ownable::assert_owner`, called at `/repo/src/contract.rs` 142, 170, 200, 250. -/
def assertOwner (s : Store) (sender : String) : Res Unit :=
  (load s.ownership).bind fun ow => checkOwner ow sender

/-- `cw_ownable::update_ownership`, called at `/repo/src/contract.rs` 238. The renounce branch is modelled
although the contract never reaches it. -/
def cwUpdateOwnership (api : Api) (env : Env) (s : Store) (sender : String) (a : Action) : Res Store :=
  match a with
  | .transferOwnership newOwner expiry =>
    (load s.ownership).bind fun ow =>
    (checkOwner ow sender).bind fun _ =>
    (addrValidate api newOwner).bind fun p =>
    .ok { s with ownership := some { ow with pendingOwner := some p, pendingExpiry := expiry } }
  | .acceptOwnership =>
    (load s.ownership).bind fun ow =>
    match ow.pendingOwner with
    | none => .err (.ownership .transferNotFound)
    | some p =>
      if sender = p then
        match ow.pendingExpiry with
        | some e =>
          if e.isExpired env then .err (.ownership .transferExpired)
          else .ok { s with ownership := some ⟨some p, none, none⟩ }
        | none => .ok { s with ownership := some ⟨some p, none, none⟩ }
      else .err (.ownership .notPendingOwner)
  | .renounceOwnership =>
    (load s.ownership).bind fun ow =>
    (checkOwner ow sender).bind fun _ =>
    .ok { s with ownership := some ⟨none, none, none⟩ }

/-- `cw2::set_contract_version`, called at `/repo/src/contract.rs` 21, 113. -/
def setContractVersion (s : Store) : Store := { s with version := some ⟨CONTRACT_NAME, CONTRACT_VERSION⟩ }

end Ica
