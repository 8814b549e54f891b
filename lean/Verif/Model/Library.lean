import Verif.Model.Packet

/-!
# The crate as a library

Other crates use this one as a library, built without the feature `export` and possibly without `query` or `staking`
(`/repo/Cargo.toml` 28-33). `Model/Packet.lean` models the functions as the contract has them; here they are as a library
has them. `staking` is a parameter: whether the feature is on.
-/
namespace Ica.Lib

/-- `convert_to_proto_any` (`/repo/src/types/cosmos_msg.rs` 38-57): without the feature `staking` the arms of lines 49-54
are not compiled, and staking and distribution messages fall to the last arm. -/
def convertToProtoAny (staking : Bool) (m : CosmosMsg) (fromAddress : String) : Res P.Any :=
  match m with
  | .stargate typeUrl value => .ok ⟨typeUrl, value⟩
  | .bank b => anyBank b fromAddress
  | .ibc i => anyIbc i fromAddress
  | .wasm w => anyWasm w fromAddress
  | .gov g => anyGov g fromAddress
  | .staking s => if staking then anyStaking s fromAddress else .panic "Unsupported CosmosMsg"
  | .distribution d => if staking then anyDistribution d fromAddress else .panic "Unsupported CosmosMsg"
  | .custom _ => .panic "Unsupported CosmosMsg"

/-- `query_to_protobuf` (`/repo/src/types/query_msg.rs` 13-29): without the feature `staking` the arms of lines 21-26 are
not compiled. -/
def queryToProtobuf (staking : Bool) (q : QueryRequest) : Res (String × Bytes × Bool) :=
  match q with
  | .bank b => bankToProtobuf b
  | .stargate path data => .ok (path, data, true)
  | .wasm w => wasmToProtobuf w
  | .ibc _ => .panic "ibc-go queries are not marked module safe (yet)"
  | .custom _ => .panic "custom queries are not supported"
  | .staking s => if staking then stakingToProtobuf s else .panic "Unsupported QueryRequest"
  | .distribution _ =>
    if staking then .panic "distribution queries are not marked module safe (yet)" else .panic "Unsupported QueryRequest"

/-- `IcaPacketData::from_cosmos_msgs` with the feature `query` but not `export`
(`/repo/src/ibc/types/packet.rs` 80-134): no storage, nothing is recorded. -/
def fromCosmosMsgs (staking : Bool) (messages : List CosmosMsg) (queries : List QueryRequest) (encoding : TxEncoding)
    (memo : Option String) (icaAddress : String) : Res IcaPacketData :=
  match encoding with
  | .proto3Json => .err (.std "Generic error: unsupported encoding: proto3json")
  | .protobuf =>
    (mapRes (fun m => convertToProtoAny staking m icaAddress) messages).bind fun anys =>
    if queries = [] then .ok (.fromProtoAnys anys memo)
    else
      (mapRes (queryToProtobuf staking) queries).bind fun qs =>
      let requests : List P.AbciQueryRequest := qs.map fun q => ⟨q.1, q.2.1⟩
      (mkAny "/ibc.applications.interchain_accounts.host.v1.MsgModuleQuerySafe"
        (P.MsgModuleQuerySafe.toBytes ⟨icaAddress, requests⟩)).bind fun a =>
      .ok (.fromProtoAnys (anys ++ [a]) memo)

/-- `IcaPacketData::from_cosmos_msgs` without the feature `query` (`/repo/src/ibc/types/packet.rs` 149-171). -/
def fromCosmosMsgsPlain (staking : Bool) (messages : List CosmosMsg) (encoding : TxEncoding) (memo : Option String)
    (icaAddress : String) : Res IcaPacketData :=
  match encoding with
  | .proto3Json => .err (.std "Generic error: unsupported encoding: proto3json")
  | .protobuf =>
    (mapRes (fun m => convertToProtoAny staking m icaAddress) messages).bind fun anys =>
    .ok (.fromProtoAnys anys memo)

end Ica.Lib
