import Verif.Model.Contract

/-!
# The helpers for calling contracts (`/repo/src/helpers.rs`)

`impl Into<String>` and `impl Into<msg::..>` arguments are the values they convert to. `to_json_binary` does not fail on
these types.
-/
namespace Ica.Helpers

/-- The parts of `Api` the helpers use: `addr_canonicalize`, `addr_humanize`, and the hash function inside cosmwasm-std. -/
structure AddrApi where
  canonicalize : String → Option Bytes
  humanize : Bytes → Option String
  sha256 : Bytes → Bytes

/-- The parts of `QuerierWrapper` the helpers use: a smart query of a contract, and the checksum in a code's info. -/
structure Querier where
  smart : String → Bytes → Option Bytes
  checksum : UInt64 → Option Bytes

/-- `CwIcaControllerContract` (`/repo/src/helpers.rs` 18-21). -/
structure Contract where
  addr : String

/-- `CwIcaControllerCode` (`/repo/src/helpers.rs` 23-26). -/
structure Code where
  codeId : UInt64

/-- `CwIcaControllerContract::execute` (`/repo/src/helpers.rs` 53-61). -/
def Contract.execute (c : Contract) (msg : ExecuteMsg) : CosmosMsg :=
  .wasm (.execute c.addr (ExecuteMsg.jc.toBytes msg) [])

/-- `CwIcaControllerContract::update_admin` (`/repo/src/helpers.rs` 70-76). -/
def Contract.updateAdmin (c : Contract) (admin : String) : CosmosMsg := .wasm (.updateAdmin c.addr admin)

/-- `CwIcaControllerContract::clear_admin` (`/repo/src/helpers.rs` 79-85). -/
def Contract.clearAdmin (c : Contract) : CosmosMsg := .wasm (.clearAdmin c.addr)

/-- `CwIcaControllerContract::migrate` (`/repo/src/helpers.rs` 92-104). -/
def Contract.migrate (c : Contract) (msg : MigrateMsg) (newCodeId : UInt64) : CosmosMsg :=
  .wasm (.migrate c.addr newCodeId (MigrateMsg.jc.toBytes msg))

/-- `CwIcaControllerCode::instantiate` (`/repo/src/helpers.rs` 125-140). -/
def Code.instantiate (c : Code) (msg : InstantiateMsg) (label : String) (admin : Option String) : CosmosMsg :=
  .wasm (.instantiate admin c.codeId (InstantiateMsg.jc.toBytes msg) [] label)

/-- `u64::to_be_bytes` of a length. -/
def be64 (n : Nat) : Bytes :=
  [UInt8.ofNat (n / 72057594037927936), UInt8.ofNat (n / 281474976710656), UInt8.ofNat (n / 1099511627776),
   UInt8.ofNat (n / 4294967296), UInt8.ofNat (n / 16777216), UInt8.ofNat (n / 65536), UInt8.ofNat (n / 256),
   UInt8.ofNat n]

/-- `instantiate2_address` (cosmwasm-std 2.1.3, not in /repo; used at `/repo/src/helpers.rs` 168-173). -/
def instantiate2Address (api : AddrApi) (checksum creator salt : Bytes) : Option Bytes :=
  if checksum.length ≠ 32 then none
  else if salt = [] ∨ salt.length > 64 then none
  else
    let key := utf8 "wasm" ++ [0] ++ be64 checksum.length ++ checksum ++ be64 creator.length ++ creator ++
      be64 salt.length ++ salt ++ be64 0
    some (api.sha256 (api.sha256 (utf8 "module") ++ key))

/-- `CwIcaControllerCode::instantiate2` (`/repo/src/helpers.rs` 153-186); `self` is `env.contract.address`. -/
def Code.instantiate2 (c : Code) (api : AddrApi) (querier : Querier) (self : String) (msg : InstantiateMsg) (label : String)
    (admin : Option String) (salt : String) : Option (CosmosMsg × String) :=
  match querier.checksum c.codeId with
  | none => none
  | some checksum =>
    match api.canonicalize self with
    | none => none
    | some creator =>
      match instantiate2Address api checksum creator (utf8 salt) with
      | none => none
      | some a =>
        match api.humanize a with
        | none => none
        | some addr =>
          some (.wasm (.instantiate2 admin c.codeId label (InstantiateMsg.jc.toBytes msg) [] (utf8 salt)), addr)

/-- `QuerierWrapper::query_wasm_smart` (cosmwasm-std, not in /repo): ask, then decode the answer. -/
def Querier.query {α : Type} (q : Querier) (jc : JC α) (addr : String) (msg : QueryMsg) : Option α :=
  match q.smart addr (QueryMsg.jc.toBytes msg) with
  | none => none
  | some b => jc.ofBytes b

/-- `CwIcaControllerContractQuerier::get_channel` (`/repo/src/helpers.rs` 201-204). -/
def Contract.getChannel (c : Contract) (q : Querier) : Option ChannelState := q.query ChannelState.jc c.addr .getChannel

/-- `CwIcaControllerContractQuerier::get_contract_state` (`/repo/src/helpers.rs` 211-214). -/
def Contract.getContractState (c : Contract) (q : Querier) : Option ContractState :=
  q.query ContractState.jc c.addr .getContractState

/-- `CwIcaControllerContractQuerier::ownership` (`/repo/src/helpers.rs` 220-223); `Ownership<String>` and
`Ownership<Addr>` have the same JSON. -/
def Contract.ownership (c : Contract) (q : Querier) : Option Ownership := q.query Ownership.jc c.addr .ownership

end Ica.Helpers
