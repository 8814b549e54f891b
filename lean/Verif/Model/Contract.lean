import Verif.Model.Packet
import Verif.Model.Semver

/-!
# Entry points of `/repo/src/contract.rs`, `/repo/src/ibc/handshake.rs`, `/repo/src/ibc/relay.rs`

Every handler takes the storage and returns the new storage and a response, an error, or an abort. On an
error or abort the chain discards all writes, so no storage is returned.
-/
namespace Ica

/-! ## contract.rs -/

/-- `instantiate` (`/repo/src/contract.rs` 15-48). -/
def instantiate (api : Api) (env : Env) (s : Store) (sender : String) (msg : InstantiateMsg) :
    Res (Store × Response) :=
  let s := setContractVersion s
  let owner := msg.owner.getD sender
  (initializeOwner api s owner).bind fun s =>
  (addrValidateOpt api msg.sendCallbacksTo).bind fun cb =>
  let s := { s with
    state := some ⟨none, cb⟩, options := some msg.channelOpenInitOptions, allowOpenInit := some true }
  let o := msg.channelOpenInitOptions
  .ok (s, ⟨[.new (newIcaChannelOpenInitCosmosMsg env.contractAddr o.connectionId o.counterpartyPortId
    o.counterpartyConnectionId none o.channelOrdering)], []⟩)

/-- `execute::create_channel` (`/repo/src/contract.rs` 136-165). -/
def createChannel (env : Env) (s : Store) (sender : String) (options : Option ChannelOpenInitOptions) :
    Res (Store × Response) :=
  (assertOwner s sender).bind fun _ =>
  (match options with
    | some o => Res.ok ({ s with options := some o }, o)
    | none =>
      match s.options with
      | some o => Res.ok (s, o)
      | none => .err .noChannelInitOptions).bind fun (s, o) =>
  .ok ({ s with allowOpenInit := some true },
    ⟨[.new (newIcaChannelOpenInitCosmosMsg env.contractAddr o.connectionId o.counterpartyPortId
      o.counterpartyConnectionId none o.channelOrdering)], []⟩)

/-- `Display for ChannelStatus` (`/repo/src/types/state.rs` 199-211). -/
def ChannelStatus.display (c : ChannelStatus) : String :=
  match c with
  | .uninitialized => "STATE_UNINITIALIZED_UNSPECIFIED"
  | .init => "STATE_INIT"
  | .tryOpen => "STATE_TRYOPEN"
  | .opened => "STATE_OPEN"
  | .closed => "STATE_CLOSED"
  | .flushing => "STATE_FLUSHING"
  | .flushComplete => "STATE_FLUSHCOMPLETE"

/-- `ChannelState::is_open` (`/repo/src/types/state.rs` 183-185). -/
def ChannelState.isOpen (c : ChannelState) : Bool :=
  match c.channelStatus with
  | .opened => true
  | _ => false

/-- `ChannelState::close` (`/repo/src/types/state.rs` 188-190). -/
def ChannelState.close (c : ChannelState) : ChannelState := { c with channelStatus := .closed }

/-- `ChannelState::is_ordered` (`/repo/src/types/state.rs` 194-196). -/
def ChannelState.isOrdered (c : ChannelState) : Bool :=
  match c.channel.order with
  | .ordered => true
  | .unordered => false

/-- The error for a channel that is not open (`/repo/src/contract.rs` 174-177, `/repo/src/ibc/handshake.rs`
226-229, 249-252). -/
def notOpenErr (c : ChannelState) : Err := .invalidChannelStatus "STATE_OPEN" c.channelStatus.display

/-- `execute::close_channel` (`/repo/src/contract.rs` 169-187). -/
def closeChannel (s : Store) (sender : String) : Res (Store × Response) :=
  (assertOwner s sender).bind fun _ =>
  (load s.channel).bind fun c =>
  if ¬ c.isOpen then .err (notOpenErr c)
  else
    .ok ({ s with allowCloseInit := some true },
      ⟨[.new (.ibc (.closeChannel c.channel.endpoint.channelId))], []⟩)

/-- `State::get_ica_info` (`/repo/src/types/state.rs` 81-85). -/
def ContractState.getIcaInfo (c : ContractState) : Res IcaInfo :=
  match c.icaInfo with
  | some i => .ok i
  | none => .err .icaInfoNotSet

/-- `execute::send_cosmos_msgs` (`/repo/src/contract.rs` 191-224). -/
def sendCosmosMsgs (env : Env) (s : Store) (sender : String) (messages : List CosmosMsg)
    (queries : List QueryRequest) (memo : Option String) (timeoutSeconds : Option UInt64) :
    Res (Store × Response) :=
  (assertOwner s sender).bind fun _ =>
  (load s.state).bind fun cs =>
  (cs.getIcaInfo).bind fun info =>
  (fromCosmosMsgs s messages queries info.encoding memo info.icaAddress).bind fun (s, packet) =>
  (packet.toIbcMsg env info.channelId timeoutSeconds).bind fun m =>
  .ok (s, ⟨[if queries = [] then .new (.ibc m) else ⟨SEND_QUERY_PACKET, .ibc m, .success⟩], []⟩)

/-- `execute::update_ownership` (`/repo/src/contract.rs` 228-241). -/
def updateOwnership (api : Api) (env : Env) (s : Store) (sender : String) (a : Action) :
    Res (Store × Response) :=
  if a = .renounceOwnership then .err .ownershipCannotBeRenounced
  else (cwUpdateOwnership api env s sender a).bind fun s => .ok (s, .empty)

/-- `execute::update_callback_address` (`/repo/src/contract.rs` 245-261). -/
def updateCallbackAddress (api : Api) (s : Store) (sender : String) (addr : Option String) :
    Res (Store × Response) :=
  (assertOwner s sender).bind fun _ =>
  (load s.state).bind fun cs =>
  (addrValidateOpt api addr).bind fun a =>
  .ok ({ s with state := some { cs with callbackAddress := a } }, .empty)

/-- `execute` (`/repo/src/contract.rs` 53-83). -/
def execute (api : Api) (env : Env) (s : Store) (sender : String) (msg : ExecuteMsg) : Res (Store × Response) :=
  match msg with
  | .createChannel o => createChannel env s sender o
  | .closeChannel => closeChannel s sender
  | .updateCallbackAddress a => updateCallbackAddress api s sender a
  | .sendCosmosMsgs ms qs memo t => sendCosmosMsgs env s sender ms qs memo t
  | .updateOwnership a => updateOwnership api env s sender a

/-- `SubMsgResult`: the data of a successful submessage, or an error. -/
inductive SubMsgResult where
  | ok (data : Option Bytes)
  | err (e : String)

/-- anybuf's `Bufany::deserialize(..)?.uint64(1).unwrap()` (`/repo/src/contract.rs` 279-281): the last value of
field 1, 0 if absent, abort if it is not a varint. -/
def bufanyUint64 (data : Bytes) : Res UInt64 :=
  match parseWire data with
  | none => .err .bufany
  | some fs =>
    match (sel 1 fs).getLast? with
    | none => .ok 0
    | some (.varint n) => .ok n
    | some _ => .panic "called `Option::unwrap()` on a `None` value"

/-- `reply::send_query_packet` (`/repo/src/contract.rs` 271-292). -/
def replySendQueryPacket (s : Store) (r : SubMsgResult) : Res (Store × Response) :=
  match r with
  | .ok data =>
    (bufanyUint64 (data.getD [])).bind fun sequence =>
    (load s.state).bind fun cs =>
    (cs.getIcaInfo).bind fun info =>
    (load s.query).bind fun paths =>
    .ok ({ s with query := none, pending := setPending s.pending info.channelId sequence (some paths) }, .empty)
  | .err e => .panic ("query packet failed: " ++ e)

/-- `reply` (`/repo/src/contract.rs` 88-93). -/
def reply (s : Store) (id : UInt64) (r : SubMsgResult) : Res (Store × Response) :=
  if id = SEND_QUERY_PACKET then replySendQueryPacket s r else .err (.unknownReplyId id)

/-- `query` (`/repo/src/contract.rs` 98-104, 295-307). -/
def query (s : Store) (msg : QueryMsg) : Res Bytes :=
  match msg with
  | .getContractState => (load s.state).bind fun x => .ok (ContractState.jc.toBytes x)
  | .getChannel => (load s.channel).bind fun x => .ok (ChannelState.jc.toBytes x)
  | .ownership => (load s.ownership).bind fun x => .ok (Ownership.jc.toBytes x)

/-- `migrate::validate_semver` (`/repo/src/contract.rs` 314-332); the text of the version in the error is the
stored text. -/
def validateSemver (s : Store) : Res Unit :=
  (load s.version).bind fun prev =>
  if prev.contract ≠ CONTRACT_NAME then .err (.invalidMigrationVersion CONTRACT_NAME prev.contract)
  else
    match Semver.parse CONTRACT_VERSION with
    | none => .err .semver
    | some v =>
      match Semver.parse prev.version with
      | none => .err .semver
      | some p =>
        if Semver.ge p v then .err (.invalidMigrationVersion ("> " ++ prev.version) CONTRACT_VERSION) else .ok ()

/-- `migrate::validate_channel_encoding` (`/repo/src/contract.rs` 335-349). -/
def validateChannelEncoding (s : Store) : Res Unit :=
  (load s.state).bind fun cs =>
  match cs.icaInfo with
  | none => .ok ()
  | some i =>
    match i.encoding with
    | .protobuf => .ok ()
    | .proto3Json => .err (.unsupportedPacketEncoding i.encoding.display)

/-- `migrate` (`/repo/src/contract.rs` 109-118). -/
def migrate (s : Store) : Res (Store × Response) :=
  (validateSemver s).bind fun _ =>
  (validateChannelEncoding s).bind fun _ =>
  .ok (setContractVersion s, .empty)

/-! ## handshake.rs -/

/-- `ibc_channel_open::init` (`/repo/src/ibc/handshake.rs` 97-141): the new storage and the version. -/
def channelOpenInit (api : Api) (s : Store) (ch : IbcChannel) : Res (Store × String) :=
  if ¬ s.allowOpenInit.getD false then .err .channelOpenInitNotAllowed
  else
    let s := { s with allowOpenInit := some false }
    if ch.counterpartyEndpoint.portId ≠ HOST_PORT_ID then .err .invalidHostPort
    else
      (if ch.version = "" then IcaMetadata.fromChannel s ch
       else
        match IcaMetadata.parse ch.version with
        | some m => .ok m
        | none => .err (.unknownDataType "cannot unmarshal ICS-27 interchain accounts metadata")).bind fun m =>
      (m.validate api ch).bind fun _ =>
      match s.channel with
      | some cs => if cs.isOpen then .err .activeChannelAlreadySet else .ok (s, m.display)
      | none => .ok (s, m.display)

/-- `ibc_channel_open::on_acknowledgement` (`/repo/src/ibc/handshake.rs` 145-202). -/
def channelOpenAck (api : Api) (s : Store) (ch : IbcChannel) (counterpartyVersion : String) :
    Res (Store × Response) :=
  (load s.state).bind fun st =>
  if ch.endpoint.portId = HOST_PORT_ID then .err .invalidControllerPort
  else
    match IcaMetadata.parse counterpartyVersion with
    | none => .err (.unknownDataType "cannot unmarshal ICS-27 interchain accounts metadata")
    | some m =>
      (m.validate api ch).bind fun _ =>
      if m.address = "" then .err .invalidIcaAddress
      else
        let st := { st with icaInfo := some ⟨m.address, ch.endpoint.channelId, m.encoding⟩ }
        let ch := { ch with version := counterpartyVersion }
        let s := { s with state := some st, channel := some ⟨ch, .opened⟩ }
        match st.callbackAddress with
        | some cb =>
          .ok (s, ⟨[.new ((CallbackMsg.onChannelOpenAckCallback ch m.address m.encoding).intoCosmosMsg cb)], []⟩)
        | none => .ok (s, .empty)

/-- `ibc_channel_close::confirm` (`/repo/src/ibc/handshake.rs` 242-261). -/
def channelCloseConfirm (s : Store) (ch : IbcChannel) : Res (Store × Response) :=
  (load s.channel).bind fun c =>
  if c.channel ≠ ch then .err .invalidChannelInContractState
  else if ¬ c.isOpen then .err (notOpenErr c)
  else .ok ({ s with channel := some c.close }, .empty)

/-- `ibc_channel_close::init` (`/repo/src/ibc/handshake.rs` 210-238). -/
def channelCloseInit (s : Store) (ch : IbcChannel) : Res (Store × Response) :=
  if ¬ s.allowCloseInit.getD false then .err .channelCloseInitNotAllowed
  else
    let s := { s with allowCloseInit := some false }
    (load s.channel).bind fun c =>
    if c.channel ≠ ch then .err .invalidChannelInContractState
    else if ¬ c.isOpen then .err (notOpenErr c)
    else .ok ({ s with channel := some c.close }, .empty)

/-- `IbcChannelOpenMsg` (cosmwasm-std). -/
inductive OpenMsg where
  | openInit (channel : IbcChannel)
  | openTry (channel : IbcChannel) (counterpartyVersion : String)

/-- `IbcChannelConnectMsg` (cosmwasm-std). -/
inductive ConnectMsg where
  | openAck (channel : IbcChannel) (counterpartyVersion : String)
  | openConfirm (channel : IbcChannel)

/-- `IbcChannelCloseMsg` (cosmwasm-std). -/
inductive CloseMsg where
  | closeInit (channel : IbcChannel)
  | closeConfirm (channel : IbcChannel)

/-- `ibc_channel_open` (`/repo/src/ibc/handshake.rs` 28-37). -/
def ibcChannelOpen (api : Api) (s : Store) (m : OpenMsg) : Res (Store × String) :=
  match m with
  | .openInit ch => channelOpenInit api s ch
  | .openTry _ _ => .panic "internal error: entered unreachable code"

/-- `ibc_channel_connect` (`/repo/src/ibc/handshake.rs` 51-63). -/
def ibcChannelConnect (api : Api) (s : Store) (m : ConnectMsg) : Res (Store × Response) :=
  match m with
  | .openAck ch v => channelOpenAck api s ch v
  | .openConfirm _ => .panic "internal error: entered unreachable code"

/-- `ibc_channel_close` (`/repo/src/ibc/handshake.rs` 76-85). -/
def ibcChannelClose (s : Store) (m : CloseMsg) : Res (Store × Response) :=
  match m with
  | .closeInit ch => channelCloseInit s ch
  | .closeConfirm ch => channelCloseConfirm s ch

/-! ## relay.rs -/

/-- The callback message and the event of an acknowledgement (`/repo/src/ibc/relay.rs` 116-130, 145-159). -/
def ackResponse (cb : Option String) (m : CallbackMsg) (e : Event) : Response :=
  match cb with
  | some a => ⟨[.new (m.intoCosmosMsg a)], [e]⟩
  | none => ⟨[], [e]⟩

/-- `ibc_packet_ack::success` (`/repo/src/ibc/relay.rs` 95-131). -/
def ackSuccess (s : Store) (p : IbcPacket) (relayer : String) (res : Bytes) : Res (Store × Response) :=
  (match s.pending p.src.channelId p.sequence with
    | none => Res.ok none
    | some paths =>
      (decodeModuleQuerySafeRespLast (.result res)).bind fun m =>
      (resultFromResponse paths m).bind fun r => .ok (some r)).bind fun queryResult =>
  let s := { s with pending := setPending s.pending p.src.channelId p.sequence none }
  (load s.state).bind fun st =>
  .ok (s, ackResponse st.callbackAddress
    (.onAcknowledgementPacketCallback (.result res) p relayer queryResult) (ackSuccessEvent p res))

/-- `ibc_packet_ack::error` (`/repo/src/ibc/relay.rs` 136-160). -/
def ackError (s : Store) (p : IbcPacket) (relayer : String) (e : String) : Res (Store × Response) :=
  (load s.state).bind fun st =>
  .ok (s, ackResponse st.callbackAddress
    (.onAcknowledgementPacketCallback (.error e) p relayer (some (.error e))) (ackErrorEvent p e))

/-- `ibc_packet_ack` (`/repo/src/ibc/relay.rs` 26-40). -/
def ibcPacketAck (s : Store) (ack : Bytes) (p : IbcPacket) (relayer : String) : Res (Store × Response) :=
  match AckData.jc.ofBytes ack with
  | none => .err (.std "Error parsing into type")
  | some (.result res) => ackSuccess s p relayer res
  | some (.error e) => ackError s p relayer e

/-- `ibc_packet_timeout::callback` (`/repo/src/ibc/relay.rs` 172-192). -/
def timeoutCallback (s : Store) (p : IbcPacket) (relayer : String) : Res (Store × Response) :=
  (load s.state).bind fun st =>
  let s := { s with pending := setPending s.pending p.src.channelId p.sequence none }
  match st.callbackAddress with
  | some a => .ok (s, ⟨[.new ((CallbackMsg.onTimeoutPacketCallback p relayer).intoCosmosMsg a)], []⟩)
  | none => .ok (s, .empty)

/-- `ibc_packet_timeout` (`/repo/src/ibc/relay.rs` 52-65). -/
def ibcPacketTimeout (s : Store) (p : IbcPacket) (relayer : String) : Res (Store × Response) :=
  (load s.channel).bind fun c =>
  timeoutCallback (if c.isOrdered then { s with channel := some c.close } else s) p relayer

/-- `ibc_packet_receive` (`/repo/src/ibc/relay.rs` 73-81). -/
def ibcPacketReceive (_s : Store) (_p : IbcPacket) : Res (Store × Response) :=
  .panic "internal error: entered unreachable code: ICA controller cannot receive packets"

end Ica
