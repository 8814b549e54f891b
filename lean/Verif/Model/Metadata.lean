import Verif.Model.Store

/-!
# Version metadata and the channel open message

`/repo/src/ibc/types/metadata.rs` and `/repo/src/ibc/types/stargate.rs`.
-/
namespace Ica

/-- `Display for TxEncoding`: the JSON string, quotes included (`/repo/src/ibc/types/metadata.rs` 151-155). -/
def TxEncoding.display (e : TxEncoding) : String := TxEncoding.jc.toStr e

/-- `Display for IcaMetadata` (`/repo/src/ibc/types/metadata.rs` 145-149). -/
def IcaMetadata.display (m : IcaMetadata) : String := IcaMetadata.jc.toStr m

/-- `serde_json_wasm::from_str::<IcaMetadata>` (`/repo/src/ibc/types/metadata.rs` 90,
`/repo/src/ibc/handshake.rs` 120, 161). -/
def IcaMetadata.parse (s : String) : Option IcaMetadata := IcaMetadata.jc.ofStr s

/-- `char::is_alphanumeric`: exact on ASCII, given by `Api` elsewhere. -/
def isAlphanumeric (api : Api) (c : Char) : Bool :=
  if c.toNat < 128 then
    (48 ≤ c.toNat && c.toNat ≤ 57) || (65 ≤ c.toNat && c.toNat ≤ 90) || (97 ≤ c.toNat && c.toNat ≤ 122)
  else api.alnumNonAscii c

/-- `validate_ica_address` (`/repo/src/ibc/types/metadata.rs` 162-168); `len` is the byte length. -/
def validateIcaAddress (api : Api) (a : String) : Res Unit :=
  if (utf8 a).length > 128 ∨ ¬ a.toList.all (isAlphanumeric api) then .err .invalidIcaAddress else .ok ()

/-- `IcaMetadata::validate` (`/repo/src/ibc/types/metadata.rs` 119-142). -/
def IcaMetadata.validate (api : Api) (m : IcaMetadata) (ch : IbcChannel) : Res Unit :=
  if m.version ≠ ICA_VERSION then .err (.invalidVersion ICA_VERSION m.version)
  else if m.controllerConnectionId ≠ ch.connectionId then .err .invalidConnection
  else if m.encoding ≠ .protobuf then .err (.unsupportedPacketEncoding m.encoding.display)
  else
    (if m.address ≠ "" then validateIcaAddress api m.address else .ok ()).bind fun _ =>
    if m.txType ≠ "sdk_multi_msg" then .err (.unsupportedTxType m.txType) else .ok ()

/-- The metadata made from stored options (`/repo/src/ibc/types/metadata.rs` 101-111). -/
def IcaMetadata.ofOptions (o : ChannelOpenInitOptions) : IcaMetadata :=
  { version := ICA_VERSION, controllerConnectionId := o.connectionId,
    hostConnectionId := o.counterpartyConnectionId, address := "", encoding := .protobuf,
    txType := "sdk_multi_msg" }

/-- `IcaMetadata::from_channel` (`/repo/src/ibc/types/metadata.rs` 84-112). -/
def IcaMetadata.fromChannel (s : Store) (ch : IbcChannel) : Res IcaMetadata :=
  match s.channel.bind fun cs => IcaMetadata.parse cs.channel.version with
  | some m => .ok m
  | none =>
    (load s.options).bind fun o =>
    if o.connectionId ≠ ch.connectionId then .err .invalidConnection
    else .ok (IcaMetadata.ofOptions o)

/-- `ibc.core.channel.v1.Order` numbers (`/repo/src/ibc/types/stargate.rs` 71-74). -/
def orderNum (o : Option IbcOrder) : UInt64 :=
  match o with
  | none => 2
  | some .ordered => 2
  | some .unordered => 1

/-- `new_msg_channel_open_init` (`/repo/src/ibc/types/stargate.rs` 60-90). -/
def newMsgChannelOpenInit (signer portId connectionId : String) (counterpartyPortId : Option String)
    (version : String) (ordering : Option IbcOrder) : P.MsgChannelOpenInit :=
  { portId := portId
    channel := some {
      state := 1
      ordering := orderNum ordering
      counterparty := some { portId := counterpartyPortId.getD HOST_PORT_ID, channelId := "" }
      connectionHops := [connectionId]
      version := version }
    signer := signer }

/-- `new_ica_channel_open_init_cosmos_msg` (`/repo/src/ibc/types/stargate.rs` 22-56), called at
`/repo/src/contract.rs` 38-45, 155-162. -/
def newIcaChannelOpenInitCosmosMsg (contractAddr connectionId : String) (counterpartyPortId : Option String)
    (counterpartyConnectionId : String) (txEncoding : Option TxEncoding) (ordering : Option IbcOrder) :
    CosmosMsg :=
  let metadata : IcaMetadata :=
    { version := ICA_VERSION, controllerConnectionId := connectionId,
      hostConnectionId := counterpartyConnectionId, address := "",
      encoding := txEncoding.getD .protobuf, txType := "sdk_multi_msg" }
  .stargate "/ibc.core.channel.v1.MsgChannelOpenInit"
    (newMsgChannelOpenInit contractAddr ("wasm." ++ contractAddr) connectionId counterpartyPortId
      metadata.display ordering).toBytes

end Ica
