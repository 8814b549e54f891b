import Verif.Model.Contract

/-!
# The entry points on raw key-value storage

The contract as it runs in the VM: storage maps byte strings to byte strings, items and maps of `cw-storage-plus` 2.0.0
(not in /repo) hold JSON under their raw keys, and entry points read and write one key after the other. A computation that
fails leaves behind what it wrote so far; it is the chain that discards it. `Facts/RawStore.lean` proves that the handlers
of `Model/Contract.lean` are what these do.
-/
namespace Ica.Raw

/-- The contract's storage in the VM (not in /repo). -/
abbrev RawStore := Bytes → Option Bytes

/-- Storage of a contract that has not run (not in /repo). -/
def RawStore.empty : RawStore := fun _ => none

/-- `Storage::set` and `Storage::remove` (cosmwasm-std, not in /repo). -/
def setKey (raw : RawStore) (k : Bytes) (v : Option Bytes) : RawStore := fun k' => if k' = k then v else raw k'

/-- A computation with access to storage: its outcome and the storage it leaves (Rust functions with `deps.storage`; not in /repo). -/
def RM (α : Type) := RawStore → Res α × RawStore

/-- Return a value (Rust, not in /repo). -/
def RM.pure {α : Type} (a : α) : RM α := fun raw => (.ok a, raw)

/-- Rust's sequencing with `?` (not in /repo): a failure ends the computation. -/
def RM.bind {α β : Type} (m : RM α) (f : α → RM β) : RM β := fun raw =>
  match m raw with
  | (.ok a, raw') => f a raw'
  | (.err e, raw') => (.err e, raw')
  | (.panic w, raw') => (.panic w, raw')

instance : Monad RM where
  pure := RM.pure
  bind := RM.bind

/-- A computation that does not touch storage (Rust, not in /repo). -/
def lift {α : Type} (r : Res α) : RM α := fun raw => (r, raw)

/-- `return Err(e)` (Rust, not in /repo). -/
def fail {α : Type} (e : Err) : RM α := lift (.err e)

/-- `load(..)` used as a `Result` instead of with `?` (`/repo/src/ibc/handshake.rs` 101-104, 211-214): a failure becomes a value. -/
def attempt {α : Type} (m : RM α) : RM (Option α) := fun raw =>
  match m raw with
  | (.ok a, raw') => (.ok (some a), raw')
  | (.err _, raw') => (.ok none, raw')
  | (.panic w, raw') => (.panic w, raw')

/-! ## cw-storage-plus 2.0.0 (not in /repo) -/

/-- `Item<T>`: the raw key is the text itself. -/
structure Item (α : Type) where
  key : String
  jc : JC α

/-- `Item::load`. -/
def Item.load {α : Type} (i : Item α) : RM α := fun raw =>
  match raw (utf8 i.key) with
  | none => (.err (.std "not found"), raw)
  | some b =>
    match i.jc.ofBytes b with
    | none => (.err (.std "Error parsing into type"), raw)
    | some x => (.ok x, raw)

/-- `Item::may_load`. -/
def Item.mayLoad {α : Type} (i : Item α) : RM (Option α) := fun raw =>
  match raw (utf8 i.key) with
  | none => (.ok none, raw)
  | some b =>
    match i.jc.ofBytes b with
    | none => (.err (.std "Error parsing into type"), raw)
    | some x => (.ok (some x), raw)

/-- `Item::save`. -/
def Item.save {α : Type} (i : Item α) (x : α) : RM Unit := fun raw =>
  (.ok (), setKey raw (utf8 i.key) (some (i.jc.toBytes x)))

/-- `Item::remove`. -/
def Item.remove {α : Type} (i : Item α) : RM Unit := fun raw => (.ok (), setKey raw (utf8 i.key) none)

/-- Two bytes, most significant first. -/
def be16 (n : Nat) : Bytes := [UInt8.ofNat (n / 256), UInt8.ofNat n]

/-- `u64::to_be_bytes`: eight bytes, most significant first. -/
def be64 (n : UInt64) : Bytes :=
  [UInt8.ofNat (n.toNat / 72057594037927936), UInt8.ofNat (n.toNat / 281474976710656),
   UInt8.ofNat (n.toNat / 1099511627776), UInt8.ofNat (n.toNat / 4294967296),
   UInt8.ofNat (n.toNat / 16777216), UInt8.ofNat (n.toNat / 65536),
   UInt8.ofNat (n.toNat / 256), UInt8.ofNat n.toNat]

/-- A namespace or a key part that is not the last: its length in two bytes, then itself. -/
def prefixed (b : Bytes) : Bytes := be16 b.length ++ b

/-- The raw key of a `Map<(&str, u64), _>`; `encode_length` aborts when a part is longer than 65535 bytes. -/
def mapKey (ns channel : String) (n : UInt64) : Res Bytes :=
  if (utf8 ns).length > 65535 ∨ (utf8 channel).length > 65535 then
    .panic "only supports namespaces up to length 0xFFFF"
  else .ok (prefixed (utf8 ns) ++ prefixed (utf8 channel) ++ be64 n)

/-- `Map<(&str, u64), T>`. -/
structure Map2 (α : Type) where
  ns : String
  jc : JC α

/-- `Map::may_load`. -/
def Map2.mayLoad {α : Type} (m : Map2 α) (channel : String) (n : UInt64) : RM (Option α) := fun raw =>
  match mapKey m.ns channel n with
  | .ok k =>
    match raw k with
    | none => (.ok none, raw)
    | some b =>
      match m.jc.ofBytes b with
      | none => (.err (.std "Error parsing into type"), raw)
      | some x => (.ok (some x), raw)
  | .err e => (.err e, raw)
  | .panic w => (.panic w, raw)

/-- Write or delete one entry. -/
def Map2.put {α : Type} (m : Map2 α) (channel : String) (n : UInt64) (v : Option α) : RM Unit := fun raw =>
  match mapKey m.ns channel n with
  | .ok k => (.ok (), setKey raw k (v.map m.jc.toBytes))
  | .err e => (.err e, raw)
  | .panic w => (.panic w, raw)

/-- `Map::save`. -/
def Map2.save {α : Type} (m : Map2 α) (channel : String) (n : UInt64) (x : α) : RM Unit := m.put channel n (some x)

/-- `Map::remove`. -/
def Map2.remove {α : Type} (m : Map2 α) (channel : String) (n : UInt64) : RM Unit := m.put channel n none

/-! ## The contract's storage (`/repo/src/types/state.rs` 15-43) -/

/-- `Vec<(String, bool)>` (`/repo/src/types/state.rs` 37, 42). -/
def QueryPaths.jc : JC QueryPaths := jcList (jcPair jcStr jcBool)

/-- `/repo/src/types/state.rs` 15. -/
def STATE : Item ContractState := ⟨"state", ContractState.jc⟩
/-- `/repo/src/types/state.rs` 18. -/
def CHANNEL_STATE : Item ChannelState := ⟨"ica_channel", ChannelState.jc⟩
/-- `/repo/src/types/state.rs` 21-22. -/
def CHANNEL_OPEN_INIT_OPTIONS : Item ChannelOpenInitOptions :=
  ⟨"channel_open_init_options", ChannelOpenInitOptions.jc⟩
/-- `/repo/src/types/state.rs` 26. -/
def ALLOW_CHANNEL_OPEN_INIT : Item Bool := ⟨"allow_channel_open_init", jcBool⟩
/-- `/repo/src/types/state.rs` 30. -/
def ALLOW_CHANNEL_CLOSE_INIT : Item Bool := ⟨"allow_channel_close_init", jcBool⟩
/-- `/repo/src/types/state.rs` 37. -/
def QUERY : Item QueryPaths := ⟨"pending_query", QueryPaths.jc⟩
/-- `/repo/src/types/state.rs` 42-43. -/
def PENDING_QUERIES : Map2 QueryPaths := ⟨"pending_queries", QueryPaths.jc⟩
/-- cw2's item (not in /repo). -/
def CONTRACT : Item ContractVersion := ⟨"contract_info", ContractVersion.jc⟩
/-- cw-ownable's item (not in /repo). -/
def OWNERSHIP : Item Ownership := ⟨"ownership", Ownership.jc⟩

/-! ## Libraries -/

/-- `cw2::set_contract_version` (not in /repo). -/
def setContractVersion : RM Unit := CONTRACT.save ⟨CONTRACT_NAME, CONTRACT_VERSION⟩

/-- `cw_ownable::initialize_owner` (not in /repo). -/
def initializeOwner (api : Api) (owner : String) : RM Unit := do
  let o ← lift (addrValidate api owner)
  OWNERSHIP.save ⟨some o, none, none⟩

/-- `cw_ownable::assert_owner` (not in /repo). -/
def assertOwner (sender : String) : RM Unit := do
  let ow ← OWNERSHIP.load
  lift (checkOwner ow sender)

/-- `accept_ownership` of cw-ownable on the loaded record (not in /repo). -/
def acceptStep (env : Env) (ow : Ownership) (sender : String) : Res Ownership :=
  match ow.pendingOwner with
  | none => .err (.ownership .transferNotFound)
  | some p =>
    if sender = p then
      match ow.pendingExpiry with
      | some e =>
        if e.isExpired env then .err (.ownership .transferExpired) else .ok ⟨some p, none, none⟩
      | none => .ok ⟨some p, none, none⟩
    else .err (.ownership .notPendingOwner)

/-- `cw_ownable::update_ownership` (not in /repo): each action is an `OWNERSHIP.update`. -/
def cwUpdateOwnership (api : Api) (env : Env) (sender : String) (a : Action) : RM Unit :=
  match a with
  | .transferOwnership newOwner expiry => do
    let ow ← OWNERSHIP.load
    let _ ← lift (checkOwner ow sender)
    let p ← lift (addrValidate api newOwner)
    OWNERSHIP.save { ow with pendingOwner := some p, pendingExpiry := expiry }
  | .acceptOwnership => do
    let ow ← OWNERSHIP.load
    let ow' ← lift (acceptStep env ow sender)
    OWNERSHIP.save ow'
  | .renounceOwnership => do
    let ow ← OWNERSHIP.load
    let _ ← lift (checkOwner ow sender)
    OWNERSHIP.save ⟨none, none, none⟩

/-! ## contract.rs -/

/-- `instantiate` (`/repo/src/contract.rs` 15-48). -/
def instantiate (api : Api) (env : Env) (sender : String) (msg : InstantiateMsg) : RM Response := do
  let _ ← setContractVersion
  let _ ← initializeOwner api (msg.owner.getD sender)
  let cb ← lift (addrValidateOpt api msg.sendCallbacksTo)
  let _ ← STATE.save ⟨none, cb⟩
  let _ ← CHANNEL_OPEN_INIT_OPTIONS.save msg.channelOpenInitOptions
  let _ ← ALLOW_CHANNEL_OPEN_INIT.save true
  let o := msg.channelOpenInitOptions
  pure ⟨[.new (newIcaChannelOpenInitCosmosMsg env.contractAddr o.connectionId o.counterpartyPortId
    o.counterpartyConnectionId none o.channelOrdering)], []⟩

/-- The options used by `create_channel` (`/repo/src/contract.rs` 144-151). -/
def chooseOptions (options : Option ChannelOpenInitOptions) : RM ChannelOpenInitOptions :=
  match options with
  | some o => do
    let _ ← CHANNEL_OPEN_INIT_OPTIONS.save o
    pure o
  | none => do
    let o ← CHANNEL_OPEN_INIT_OPTIONS.mayLoad
    match o with
    | some o => pure o
    | none => fail .noChannelInitOptions

/-- `execute::create_channel` (`/repo/src/contract.rs` 136-165). -/
def createChannel (env : Env) (sender : String) (options : Option ChannelOpenInitOptions) : RM Response := do
  let _ ← assertOwner sender
  let o ← chooseOptions options
  let _ ← ALLOW_CHANNEL_OPEN_INIT.save true
  pure ⟨[.new (newIcaChannelOpenInitCosmosMsg env.contractAddr o.connectionId o.counterpartyPortId
    o.counterpartyConnectionId none o.channelOrdering)], []⟩

/-- `execute::close_channel` (`/repo/src/contract.rs` 169-187). -/
def closeChannel (sender : String) : RM Response := do
  let _ ← assertOwner sender
  let c ← CHANNEL_STATE.load
  if ¬ c.isOpen then fail (notOpenErr c)
  else do
    let _ ← ALLOW_CHANNEL_CLOSE_INIT.save true
    pure ⟨[.new (.ibc (.closeChannel c.channel.endpoint.channelId))], []⟩

/-- `IcaPacketData::from_cosmos_msgs` (`/repo/src/ibc/types/packet.rs` 80-134). -/
def fromCosmosMsgs (messages : List CosmosMsg) (queries : List QueryRequest) (encoding : TxEncoding)
    (memo : Option String) (icaAddress : String) : RM IcaPacketData :=
  match encoding with
  | .proto3Json => fail (.std "Generic error: unsupported encoding: proto3json")
  | .protobuf => do
    let anys ← lift (mapRes (fun m => convertToProtoAny m icaAddress) messages)
    if queries = [] then pure (.fromProtoAnys anys memo)
    else do
      let qs ← lift (mapRes queryToProtobuf queries)
      let _ ← QUERY.save (qs.map fun q => (q.1, q.2.2))
      let a ← lift (mkAny "/ibc.applications.interchain_accounts.host.v1.MsgModuleQuerySafe"
        (P.MsgModuleQuerySafe.toBytes ⟨icaAddress, qs.map fun q => ⟨q.1, q.2.1⟩⟩))
      pure (.fromProtoAnys (anys ++ [a]) memo)

/-- `execute::send_cosmos_msgs` (`/repo/src/contract.rs` 191-224). -/
def sendCosmosMsgs (env : Env) (sender : String) (messages : List CosmosMsg) (queries : List QueryRequest)
    (memo : Option String) (timeoutSeconds : Option UInt64) : RM Response := do
  let _ ← assertOwner sender
  let cs ← STATE.load
  let info ← lift cs.getIcaInfo
  let packet ← fromCosmosMsgs messages queries info.encoding memo info.icaAddress
  let m ← lift (packet.toIbcMsg env info.channelId timeoutSeconds)
  pure ⟨[if queries = [] then .new (.ibc m) else ⟨SEND_QUERY_PACKET, .ibc m, .success⟩], []⟩

/-- `execute::update_ownership` (`/repo/src/contract.rs` 228-241). -/
def updateOwnership (api : Api) (env : Env) (sender : String) (a : Action) : RM Response :=
  if a = .renounceOwnership then fail .ownershipCannotBeRenounced
  else do
    let _ ← cwUpdateOwnership api env sender a
    pure .empty

/-- `execute::update_callback_address` (`/repo/src/contract.rs` 245-261). -/
def updateCallbackAddress (api : Api) (sender : String) (addr : Option String) : RM Response := do
  let _ ← assertOwner sender
  let cs ← STATE.load
  let a ← lift (addrValidateOpt api addr)
  let _ ← STATE.save { cs with callbackAddress := a }
  pure .empty

/-- `execute` (`/repo/src/contract.rs` 53-83). -/
def execute (api : Api) (env : Env) (sender : String) (msg : ExecuteMsg) : RM Response :=
  match msg with
  | .createChannel o => createChannel env sender o
  | .closeChannel => closeChannel sender
  | .updateCallbackAddress a => updateCallbackAddress api sender a
  | .sendCosmosMsgs ms qs memo t => sendCosmosMsgs env sender ms qs memo t
  | .updateOwnership a => updateOwnership api env sender a

/-- `reply::send_query_packet` (`/repo/src/contract.rs` 271-292). -/
def replySendQueryPacket (r : SubMsgResult) : RM Response :=
  match r with
  | .ok data => do
    let sequence ← lift (bufanyUint64 (data.getD []))
    let cs ← STATE.load
    let info ← lift cs.getIcaInfo
    let paths ← QUERY.load
    let _ ← QUERY.remove
    let _ ← PENDING_QUERIES.save info.channelId sequence paths
    pure .empty
  | .err e => lift (.panic ("query packet failed: " ++ e))

/-- `reply` (`/repo/src/contract.rs` 88-93). -/
def reply (id : UInt64) (r : SubMsgResult) : RM Response :=
  if id = SEND_QUERY_PACKET then replySendQueryPacket r else fail (.unknownReplyId id)

/-- `query` (`/repo/src/contract.rs` 98-104, 295-307). -/
def query (msg : QueryMsg) : RM Bytes :=
  match msg with
  | .getContractState => do
    let x ← STATE.load
    pure (ContractState.jc.toBytes x)
  | .getChannel => do
    let x ← CHANNEL_STATE.load
    pure (ChannelState.jc.toBytes x)
  | .ownership => do
    let x ← OWNERSHIP.load
    pure (Ownership.jc.toBytes x)

/-- `migrate::validate_semver` after the stored version is loaded (`/repo/src/contract.rs` 316-331). -/
def checkSemver (prev : ContractVersion) : Res Unit :=
  if prev.contract ≠ CONTRACT_NAME then .err (.invalidMigrationVersion CONTRACT_NAME prev.contract)
  else
    match Semver.parse CONTRACT_VERSION with
    | none => .err .semver
    | some v =>
      match Semver.parse prev.version with
      | none => .err .semver
      | some p =>
        if Semver.ge p v then .err (.invalidMigrationVersion ("> " ++ prev.version) CONTRACT_VERSION) else .ok ()

/-- `migrate::validate_channel_encoding` after the state is loaded (`/repo/src/contract.rs` 337-348). -/
def checkEncoding (cs : ContractState) : Res Unit :=
  match cs.icaInfo with
  | none => .ok ()
  | some i =>
    match i.encoding with
    | .protobuf => .ok ()
    | .proto3Json => .err (.unsupportedPacketEncoding i.encoding.display)

/-- `migrate` (`/repo/src/contract.rs` 109-118, 314-349). -/
def migrate : RM Response := do
  let prev ← CONTRACT.load
  let _ ← lift (checkSemver prev)
  let cs ← STATE.load
  let _ ← lift (checkEncoding cs)
  let _ ← setContractVersion
  pure .empty

/-! ## handshake.rs -/

/-- `IcaMetadata::from_channel` (`/repo/src/ibc/types/metadata.rs` 84-112). -/
def fromChannel (ch : IbcChannel) : RM IcaMetadata := do
  let c ← attempt CHANNEL_STATE.load
  match c.bind fun cs => IcaMetadata.parse cs.channel.version with
  | some m => pure m
  | none => do
    let o ← CHANNEL_OPEN_INIT_OPTIONS.load
    if o.connectionId ≠ ch.connectionId then fail .invalidConnection else pure (IcaMetadata.ofOptions o)

/-- The metadata of a proposed version (`/repo/src/ibc/handshake.rs` 116-125). -/
def openInitMetadata (ch : IbcChannel) : RM IcaMetadata :=
  if ch.version = "" then fromChannel ch
  else
    match IcaMetadata.parse ch.version with
    | some m => pure m
    | none => fail (.unknownDataType "cannot unmarshal ICS-27 interchain accounts metadata")

/-- `ibc_channel_open::init` (`/repo/src/ibc/handshake.rs` 97-141). -/
def channelOpenInit (api : Api) (ch : IbcChannel) : RM String := do
  let allowed ← attempt ALLOW_CHANNEL_OPEN_INIT.load
  if ¬ allowed.getD false then fail .channelOpenInitNotAllowed
  else do
    let _ ← ALLOW_CHANNEL_OPEN_INIT.save false
    if ch.counterpartyEndpoint.portId ≠ HOST_PORT_ID then fail .invalidHostPort
    else do
      let m ← openInitMetadata ch
      let _ ← lift (m.validate api ch)
      let c ← CHANNEL_STATE.mayLoad
      match c with
      | some cs => if cs.isOpen then fail .activeChannelAlreadySet else pure m.display
      | none => pure m.display

/-- The response of OpenAck (`/repo/src/ibc/handshake.rs` 188-200). -/
def openAckResponse (cb : Option String) (ch : IbcChannel) (m : IcaMetadata) : Response :=
  match cb with
  | some cb => ⟨[.new ((CallbackMsg.onChannelOpenAckCallback ch m.address m.encoding).intoCosmosMsg cb)], []⟩
  | none => .empty

/-- `ibc_channel_open::on_acknowledgement` (`/repo/src/ibc/handshake.rs` 145-202). -/
def channelOpenAck (api : Api) (ch : IbcChannel) (counterpartyVersion : String) : RM Response := do
  let st ← STATE.load
  if ch.endpoint.portId = HOST_PORT_ID then fail .invalidControllerPort
  else
    match IcaMetadata.parse counterpartyVersion with
    | none => fail (.unknownDataType "cannot unmarshal ICS-27 interchain accounts metadata")
    | some m => do
      let _ ← lift (m.validate api ch)
      if m.address = "" then fail .invalidIcaAddress
      else do
        let _ ← STATE.save { st with icaInfo := some ⟨m.address, ch.endpoint.channelId, m.encoding⟩ }
        let _ ← CHANNEL_STATE.save ⟨{ ch with version := counterpartyVersion }, .opened⟩
        pure (openAckResponse st.callbackAddress { ch with version := counterpartyVersion } m)

/-- `ibc_channel_close::confirm` (`/repo/src/ibc/handshake.rs` 242-261); also the end of `init` (219-237). -/
def channelCloseConfirm (ch : IbcChannel) : RM Response := do
  let c ← CHANNEL_STATE.load
  if c.channel ≠ ch then fail .invalidChannelInContractState
  else if ¬ c.isOpen then fail (notOpenErr c)
  else do
    let _ ← CHANNEL_STATE.save c.close
    pure .empty

/-- `ibc_channel_close::init` (`/repo/src/ibc/handshake.rs` 210-238). -/
def channelCloseInit (ch : IbcChannel) : RM Response := do
  let allowed ← attempt ALLOW_CHANNEL_CLOSE_INIT.load
  if ¬ allowed.getD false then fail .channelCloseInitNotAllowed
  else do
    let _ ← ALLOW_CHANNEL_CLOSE_INIT.save false
    channelCloseConfirm ch

/-- `ibc_channel_open` (`/repo/src/ibc/handshake.rs` 28-37). -/
def ibcChannelOpen (api : Api) (m : OpenMsg) : RM String :=
  match m with
  | .openInit ch => channelOpenInit api ch
  | .openTry _ _ => lift (.panic "internal error: entered unreachable code")

/-- `ibc_channel_connect` (`/repo/src/ibc/handshake.rs` 51-63). -/
def ibcChannelConnect (api : Api) (m : ConnectMsg) : RM Response :=
  match m with
  | .openAck ch v => channelOpenAck api ch v
  | .openConfirm _ => lift (.panic "internal error: entered unreachable code")

/-- `ibc_channel_close` (`/repo/src/ibc/handshake.rs` 76-85). -/
def ibcChannelClose (m : CloseMsg) : RM Response :=
  match m with
  | .closeInit ch => channelCloseInit ch
  | .closeConfirm ch => channelCloseConfirm ch

/-! ## relay.rs -/

/-- The query result of a success acknowledgement (`/repo/src/ibc/relay.rs` 104-112). -/
def ackQueries (o : Option QueryPaths) (res : Bytes) : Res (Option IcaQueryResult) :=
  match o with
  | none => .ok none
  | some paths =>
    (decodeModuleQuerySafeRespLast (.result res)).bind fun m =>
    (resultFromResponse paths m).bind fun r => .ok (some r)

/-- `ibc_packet_ack::success` (`/repo/src/ibc/relay.rs` 95-131). -/
def ackSuccess (p : IbcPacket) (relayer : String) (res : Bytes) : RM Response := do
  let o ← PENDING_QUERIES.mayLoad p.src.channelId p.sequence
  let q ← lift (ackQueries o res)
  let _ ← PENDING_QUERIES.remove p.src.channelId p.sequence
  let st ← STATE.load
  pure (ackResponse st.callbackAddress (.onAcknowledgementPacketCallback (.result res) p relayer q)
    (ackSuccessEvent p res))

/-- `ibc_packet_ack::error` (`/repo/src/ibc/relay.rs` 136-160). -/
def ackError (p : IbcPacket) (relayer e : String) : RM Response := do
  let st ← STATE.load
  pure (ackResponse st.callbackAddress (.onAcknowledgementPacketCallback (.error e) p relayer (some (.error e)))
    (ackErrorEvent p e))

/-- `ibc_packet_ack` (`/repo/src/ibc/relay.rs` 26-40). -/
def ibcPacketAck (ack : Bytes) (p : IbcPacket) (relayer : String) : RM Response :=
  match AckData.jc.ofBytes ack with
  | none => fail (.std "Error parsing into type")
  | some (.result res) => ackSuccess p relayer res
  | some (.error e) => ackError p relayer e

/-- The response of a timeout (`/repo/src/ibc/relay.rs` 181-191). -/
def timeoutResponse (cb : Option String) (p : IbcPacket) (relayer : String) : Response :=
  match cb with
  | some a => ⟨[.new ((CallbackMsg.onTimeoutPacketCallback p relayer).intoCosmosMsg a)], []⟩
  | none => .empty

/-- `ibc_packet_timeout::callback` (`/repo/src/ibc/relay.rs` 172-192). -/
def timeoutCallback (p : IbcPacket) (relayer : String) : RM Response := do
  let st ← STATE.load
  let _ ← PENDING_QUERIES.remove p.src.channelId p.sequence
  pure (timeoutResponse st.callbackAddress p relayer)

/-- `ibc_packet_timeout` (`/repo/src/ibc/relay.rs` 52-65). -/
def ibcPacketTimeout (p : IbcPacket) (relayer : String) : RM Response := do
  let c ← CHANNEL_STATE.load
  if c.isOrdered then do
    let _ ← CHANNEL_STATE.save c.close
    timeoutCallback p relayer
  else timeoutCallback p relayer

/-- `ibc_packet_receive` (`/repo/src/ibc/relay.rs` 73-81). -/
def ibcPacketReceive (_p : IbcPacket) : RM Response :=
  lift (.panic "internal error: entered unreachable code: ICA controller cannot receive packets")

/-! ## The VM's entry points: messages arrive as JSON bytes (cosmwasm-std's `do_execute` etc., not in /repo) -/

/-- Parse the message, then run. -/
def withMsg {α β : Type} (jc : JC α) (bytes : Bytes) (f : α → RM β) : RM β :=
  match jc.ofBytes bytes with
  | some m => f m
  | none => fail (.std "Error parsing into type")

/-- The exported `instantiate`. -/
def vmInstantiate (api : Api) (env : Env) (sender : String) (bytes : Bytes) : RM Response :=
  withMsg InstantiateMsg.jc bytes (instantiate api env sender)
/-- The exported `execute`. -/
def vmExecute (api : Api) (env : Env) (sender : String) (bytes : Bytes) : RM Response :=
  withMsg ExecuteMsg.jc bytes (execute api env sender)
/-- The exported `query`; queries run on a read-only view, so their storage is dropped. -/
def vmQuery (bytes : Bytes) (raw : RawStore) : Res Bytes := (withMsg QueryMsg.jc bytes query raw).1
/-- The exported `migrate`. -/
def vmMigrate (bytes : Bytes) : RM Response := withMsg MigrateMsg.jc bytes (fun _ => migrate)

end Ica.Raw
