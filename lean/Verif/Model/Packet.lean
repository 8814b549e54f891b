import Verif.Model.Metadata
import Verif.Model.CosmosMsg
import Verif.Model.QueryMsg

/-!
# Packets, acknowledgements, callbacks, events

`/repo/src/ibc/types/packet.rs`, `/repo/src/types/callbacks.rs`, `/repo/src/ibc/types/events.rs`.
-/
namespace Ica

/-- `IcaPacketData::new` (`/repo/src/ibc/types/packet.rs` 51-57). -/
def IcaPacketData.new (data : Bytes) (memo : Option String) : IcaPacketData := ⟨1, data, memo⟩

/-- `IcaPacketData::from_proto_anys` (`/repo/src/ibc/types/packet.rs` 61-65). -/
def IcaPacketData.fromProtoAnys (anys : List P.Any) (memo : Option String) : IcaPacketData :=
  .new (P.CosmosTx.toBytes ⟨anys⟩) memo

/-- `IcaPacketData::from_cosmos_msgs` (`/repo/src/ibc/types/packet.rs` 80-134, features `query`, `export`). -/
def fromCosmosMsgs (s : Store) (messages : List CosmosMsg) (queries : List QueryRequest)
    (encoding : TxEncoding) (memo : Option String) (icaAddress : String) : Res (Store × IcaPacketData) :=
  match encoding with
  | .proto3Json => .err (.std "Generic error: unsupported encoding: proto3json")
  | .protobuf =>
    (mapRes (fun m => convertToProtoAny m icaAddress) messages).bind fun anys =>
    if queries = [] then .ok (s, .fromProtoAnys anys memo)
    else
      (mapRes queryToProtobuf queries).bind fun qs =>
      let requests : List P.AbciQueryRequest := qs.map fun q => ⟨q.1, q.2.1⟩
      let paths : QueryPaths := qs.map fun q => (q.1, q.2.2)
      (mkAny "/ibc.applications.interchain_accounts.host.v1.MsgModuleQuerySafe"
        (P.MsgModuleQuerySafe.toBytes ⟨icaAddress, requests⟩)).bind fun a =>
      .ok ({ s with query := some paths }, .fromProtoAnys (anys ++ [a]) memo)

/-- `Timestamp::plus_seconds` (cosmwasm-std): overflow aborts. -/
def plusSeconds (time : UInt64) (secs : Nat) : Res UInt64 :=
  if time.toNat + secs * 1000000000 < 18446744073709551616 then
    .ok (UInt64.ofNat (time.toNat + secs * 1000000000))
  else .panic "attempt to add with overflow"

/-- `IcaPacketData::to_ibc_msg` (`/repo/src/ibc/types/packet.rs` 178-193). -/
def IcaPacketData.toIbcMsg (p : IcaPacketData) (env : Env) (channelId : String)
    (timeoutSeconds : Option UInt64) : Res IbcMsg :=
  (plusSeconds env.time ((timeoutSeconds.map (·.toNat)).getD DEFAULT_TIMEOUT_SECONDS)).bind fun t =>
  .ok (.sendPacket channelId (IcaPacketData.jc.toBytes p) ⟨none, some t⟩)

/-- `Data::to_tx_msg_data` on a result (`/repo/src/ibc/types/packet.rs` 225-230). -/
def toTxMsgData (a : AckData) : Res P.TxMsgData :=
  match a with
  | .result data => decodeOr (P.TxMsgData.ofBytes data)
  | .error e => .err (.std ("Generic error: " ++ e))

/-- `Data::decode_module_query_safe_resp_last_index` (`/repo/src/ibc/types/packet.rs` 257-268). -/
def decodeModuleQuerySafeRespLast (a : AckData) : Res P.MsgModuleQuerySafeResponse :=
  (toTxMsgData a).bind fun t =>
  match t.msgResponses.getLast? with
  | none => .err (.std "Generic error: no MsgData found at the given index")
  | some m => decodeOr (P.MsgModuleQuerySafeResponse.ofBytes m.value)

/-- `Data::decode_module_query_safe_resp` (`/repo/src/ibc/types/packet.rs` 237-249). -/
def decodeModuleQuerySafeResp (a : AckData) (index : Nat) : Res P.MsgModuleQuerySafeResponse :=
  (toTxMsgData a).bind fun t =>
  match t.msgResponses[index]? with
  | none => .err (.std "Generic error: no MsgData found at the given index")
  | some m => decodeOr (P.MsgModuleQuerySafeResponse.ofBytes m.value)

/-- `IcaControllerCallbackMsg::into_json_binary` (`/repo/src/types/callbacks.rs` 67-70). -/
def CallbackMsg.intoJsonBinary (m : CallbackMsg) : Bytes := ReceiverExecuteMsg.jc.toBytes (.receiveIcaCallback m)

/-- `IcaControllerCallbackMsg::into_cosmos_msg` (`/repo/src/types/callbacks.rs` 78-89). -/
def CallbackMsg.intoCosmosMsg (m : CallbackMsg) (contractAddr : String) : CosmosMsg :=
  .wasm (.execute contractAddr m.intoJsonBinary [])

/-- `attributes::from_packet` (`/repo/src/ibc/types/events.rs` 56-62). -/
def packetAttributes (p : IbcPacket) : List (String × String) :=
  [("packet_sequence", decString p.sequence.toNat), ("packet_src_port", p.src.portId),
   ("packet_src_channel", p.src.channelId)]

/-- `packet_ack::success` (`/repo/src/ibc/types/events.rs` 29-33). -/
def ackSuccessEvent (p : IbcPacket) (res : Bytes) : Event :=
  ⟨"acknowledge_packet", packetAttributes p ++ [("packet_ack_base64", String.ofList (b64Enc res))]⟩

/-- `packet_ack::error` (`/repo/src/ibc/types/events.rs` 37-41). -/
def ackErrorEvent (p : IbcPacket) (e : String) : Event :=
  ⟨"acknowledge_packet", packetAttributes p ++ [("error", e)]⟩

end Ica
