import Verif.Model.GoController

/-!
# The message types of the Go client

`/repo/e2e/interchaintestv8/types/cwicaowner/msgs.go`, generated by `tools/gen_go.py`: the structures of the Go
programs that drive the contract and the JSON tree that Go's `encoding/json` makes of them (`toString`,
`/repo/e2e/interchaintestv8/types/contract.go` 105-113). A pointer is an `Option`, a slice an `Option` of a list (`nil`
is not the empty slice). Simplifications: an `int` is a natural number (a negative one is text the contract refuses), a
`string` is valid Unicode.
-/
namespace Ica

/-! ## `cwicaowner` -/

namespace GoOwner

/-- `/repo/e2e/interchaintestv8/types/cwicaowner/msgs.go` 4-7. -/
structure InstantiateMsg where
  Admin : Option String := none
  IcaControllerCodeId : Nat
/-- JSON of `InstantiateMsg`. -/
def InstantiateMsg.json (g : InstantiateMsg) : Json := .obj (present [("admin", g.Admin.map Json.str), ("ica_controller_code_id", some (Json.num g.IcaControllerCodeId))])

/-- `/repo/e2e/interchaintestv8/types/cwicaowner/msgs.go` 36. -/
abbrev IbcOrder := String
/-- JSON of `IbcOrder`. -/
abbrev IbcOrder.json : IbcOrder → Json := Json.str

/-- `/repo/e2e/interchaintestv8/types/cwicaowner/msgs.go` 122-131. -/
structure ChannelOpenInitOptions where
  CounterpartyConnectionId : String
  CounterpartyPortId : Option String := none
  ChannelOrdering : Option IbcOrder := none
  ConnectionId : String
/-- JSON of `ChannelOpenInitOptions`. -/
def ChannelOpenInitOptions.json (g : ChannelOpenInitOptions) : Json := .obj (present [("counterparty_connection_id", some (Json.str g.CounterpartyConnectionId)), ("counterparty_port_id", g.CounterpartyPortId.map Json.str), ("channel_ordering", g.ChannelOrdering.map IbcOrder.json), ("connection_id", some (Json.str g.ConnectionId))])

/-- `/repo/e2e/interchaintestv8/types/cwicaowner/msgs.go` 30-33. -/
structure ExecuteMsg_CreateIcaContract where
  ChannelOpenInitOptions : ChannelOpenInitOptions
  Salt : Option String := none
/-- JSON of `ExecuteMsg_CreateIcaContract`. -/
def ExecuteMsg_CreateIcaContract.json (g : ExecuteMsg_CreateIcaContract) : Json := .obj (present [("channel_open_init_options", some (ChannelOpenInitOptions.json g.ChannelOpenInitOptions)), ("salt", g.Salt.map Json.str)])

/-- `/repo/e2e/interchaintestv8/types/cwicaowner/msgs.go` 103-108. -/
structure ExecuteMsg_SendPredefinedAction where
  IcaId : Nat
  ToAddress : String
/-- JSON of `ExecuteMsg_SendPredefinedAction`. -/
def ExecuteMsg_SendPredefinedAction.json (g : ExecuteMsg_SendPredefinedAction) : Json := .obj (present [("ica_id", some (Json.num g.IcaId)), ("to_address", some (Json.str g.ToAddress))])

/-- `/repo/e2e/interchaintestv8/types/cwicaowner/msgs.go` 193. -/
abbrev Binary := String
/-- JSON of `Binary`. -/
abbrev Binary.json : Binary → Json := Json.str

/-- `/repo/e2e/interchaintestv8/types/cwicaowner/msgs.go` 250. -/
abbrev Data_Result := Binary
/-- JSON of `Data_Result`. -/
abbrev Data_Result.json : Data_Result → Json := Binary.json

/-- `/repo/e2e/interchaintestv8/types/cwicaowner/msgs.go` 252. -/
abbrev Data_Error := String
/-- JSON of `Data_Error`. -/
abbrev Data_Error.json : Data_Error → Json := Json.str

/-- `/repo/e2e/interchaintestv8/types/cwicaowner/msgs.go` 196-201. -/
structure Data where
  Result : Option Data_Result := none
  Error : Option Data_Error := none
/-- JSON of `Data`. -/
def Data.json (g : Data) : Json := .obj (present [("result", g.Result.map Data_Result.json), ("error", g.Error.map Data_Error.json)])

/-- `/repo/e2e/interchaintestv8/types/cwicaowner/msgs.go` 77-80. -/
structure IbcEndpoint where
  ChannelId : String
  PortId : String
/-- JSON of `IbcEndpoint`. -/
def IbcEndpoint.json (g : IbcEndpoint) : Json := .obj (present [("channel_id", some (Json.str g.ChannelId)), ("port_id", some (Json.str g.PortId))])

/-- `/repo/e2e/interchaintestv8/types/cwicaowner/msgs.go` 70-75. -/
structure IbcTimeoutBlock where
  Height : Nat
  Revision : Nat
/-- JSON of `IbcTimeoutBlock`. -/
def IbcTimeoutBlock.json (g : IbcTimeoutBlock) : Json := .obj (present [("height", some (Json.num g.Height)), ("revision", some (Json.num g.Revision))])

/-- `/repo/e2e/interchaintestv8/types/cwicaowner/msgs.go` 67. -/
abbrev Uint64 := String
/-- JSON of `Uint64`. -/
abbrev Uint64.json : Uint64 → Json := Json.str

/-- `/repo/e2e/interchaintestv8/types/cwicaowner/msgs.go` 154. -/
abbrev Timestamp := Uint64
/-- JSON of `Timestamp`. -/
abbrev Timestamp.json : Timestamp → Json := Uint64.json

/-- `/repo/e2e/interchaintestv8/types/cwicaowner/msgs.go` 204-207. -/
structure IbcTimeout where
  Block : Option IbcTimeoutBlock := none
  Timestamp : Option Timestamp := none
/-- JSON of `IbcTimeout`. -/
def IbcTimeout.json (g : IbcTimeout) : Json := .obj (present [("block", g.Block.map IbcTimeoutBlock.json), ("timestamp", g.Timestamp.map Timestamp.json)])

/-- `/repo/e2e/interchaintestv8/types/cwicaowner/msgs.go` 43-53. -/
structure IbcPacket where
  Src : IbcEndpoint
  Timeout : IbcTimeout
  Data : Binary
  Dest : IbcEndpoint
  Sequence : Nat
/-- JSON of `IbcPacket`. -/
def IbcPacket.json (g : IbcPacket) : Json := .obj (present [("src", some (IbcEndpoint.json g.Src)), ("timeout", some (IbcTimeout.json g.Timeout)), ("data", some (Binary.json g.Data)), ("dest", some (IbcEndpoint.json g.Dest)), ("sequence", some (Json.num g.Sequence))])

/-- `/repo/e2e/interchaintestv8/types/cwicaowner/msgs.go` 119. -/
abbrev Addr := String
/-- JSON of `Addr`. -/
abbrev Addr.json : Addr → Json := Json.str

/-- `/repo/e2e/interchaintestv8/types/cwicaowner/msgs.go` 254-261. -/
structure IcaControllerCallbackMsg_OnAcknowledgementPacketCallback where
  IcaAcknowledgement : Data
  OriginalPacket : IbcPacket
  Relayer : Addr
/-- JSON of `IcaControllerCallbackMsg_OnAcknowledgementPacketCallback`. -/
def IcaControllerCallbackMsg_OnAcknowledgementPacketCallback.json (g : IcaControllerCallbackMsg_OnAcknowledgementPacketCallback) : Json := .obj (present [("ica_acknowledgement", some (Data.json g.IcaAcknowledgement)), ("original_packet", some (IbcPacket.json g.OriginalPacket)), ("relayer", some (Addr.json g.Relayer))])

/-- `/repo/e2e/interchaintestv8/types/cwicaowner/msgs.go` 235-240. -/
structure IcaControllerCallbackMsg_OnTimeoutPacketCallback where
  OriginalPacket : IbcPacket
  Relayer : Addr
/-- JSON of `IcaControllerCallbackMsg_OnTimeoutPacketCallback`. -/
def IcaControllerCallbackMsg_OnTimeoutPacketCallback.json (g : IcaControllerCallbackMsg_OnTimeoutPacketCallback) : Json := .obj (present [("original_packet", some (IbcPacket.json g.OriginalPacket)), ("relayer", some (Addr.json g.Relayer))])

/-- `/repo/e2e/interchaintestv8/types/cwicaowner/msgs.go` 83-91. -/
structure IbcChannel where
  Version : String
  ConnectionId : String
  CounterpartyEndpoint : IbcEndpoint
  Endpoint : IbcEndpoint
  Order : IbcOrder
/-- JSON of `IbcChannel`. -/
def IbcChannel.json (g : IbcChannel) : Json := .obj (present [("version", some (Json.str g.Version)), ("connection_id", some (Json.str g.ConnectionId)), ("counterparty_endpoint", some (IbcEndpoint.json g.CounterpartyEndpoint)), ("endpoint", some (IbcEndpoint.json g.Endpoint)), ("order", some (IbcOrder.json g.Order))])

/-- `/repo/e2e/interchaintestv8/types/cwicaowner/msgs.go` 157. -/
abbrev TxEncoding := String
/-- JSON of `TxEncoding`. -/
abbrev TxEncoding.json : TxEncoding → Json := Json.str

/-- `/repo/e2e/interchaintestv8/types/cwicaowner/msgs.go` 242-249. -/
structure IcaControllerCallbackMsg_OnChannelOpenAckCallback where
  Channel : IbcChannel
  IcaAddress : String
  TxEncoding : TxEncoding
/-- JSON of `IcaControllerCallbackMsg_OnChannelOpenAckCallback`. -/
def IcaControllerCallbackMsg_OnChannelOpenAckCallback.json (g : IcaControllerCallbackMsg_OnChannelOpenAckCallback) : Json := .obj (present [("channel", some (IbcChannel.json g.Channel)), ("ica_address", some (Json.str g.IcaAddress)), ("tx_encoding", some (TxEncoding.json g.TxEncoding))])

/-- `/repo/e2e/interchaintestv8/types/cwicaowner/msgs.go` 134-141. -/
structure IcaControllerCallbackMsg where
  OnAcknowledgementPacketCallback : Option IcaControllerCallbackMsg_OnAcknowledgementPacketCallback := none
  OnTimeoutPacketCallback : Option IcaControllerCallbackMsg_OnTimeoutPacketCallback := none
  OnChannelOpenAckCallback : Option IcaControllerCallbackMsg_OnChannelOpenAckCallback := none
/-- JSON of `IcaControllerCallbackMsg`. -/
def IcaControllerCallbackMsg.json (g : IcaControllerCallbackMsg) : Json := .obj (present [("on_acknowledgement_packet_callback", g.OnAcknowledgementPacketCallback.map IcaControllerCallbackMsg_OnAcknowledgementPacketCallback.json), ("on_timeout_packet_callback", g.OnTimeoutPacketCallback.map IcaControllerCallbackMsg_OnTimeoutPacketCallback.json), ("on_channel_open_ack_callback", g.OnChannelOpenAckCallback.map IcaControllerCallbackMsg_OnChannelOpenAckCallback.json)])

/-- `/repo/e2e/interchaintestv8/types/cwicaowner/msgs.go` 54. -/
abbrev ExecuteMsg_ReceiveIcaCallback := IcaControllerCallbackMsg
/-- JSON of `ExecuteMsg_ReceiveIcaCallback`. -/
abbrev ExecuteMsg_ReceiveIcaCallback.json : ExecuteMsg_ReceiveIcaCallback → Json := IcaControllerCallbackMsg.json

/-- `/repo/e2e/interchaintestv8/types/cwicaowner/msgs.go` 9-19. -/
structure ExecuteMsg where
  CreateIcaContract : Option ExecuteMsg_CreateIcaContract := none
  SendPredefinedAction : Option ExecuteMsg_SendPredefinedAction := none
  ReceiveIcaCallback : Option ExecuteMsg_ReceiveIcaCallback := none
/-- JSON of `ExecuteMsg`. -/
def ExecuteMsg.json (g : ExecuteMsg) : Json := .obj (present [("create_ica_contract", g.CreateIcaContract.map ExecuteMsg_CreateIcaContract.json), ("send_predefined_action", g.SendPredefinedAction.map ExecuteMsg_SendPredefinedAction.json), ("receive_ica_callback", g.ReceiveIcaCallback.map ExecuteMsg_ReceiveIcaCallback.json)])

/-- `/repo/e2e/interchaintestv8/types/cwicaowner/msgs.go` 166. -/
structure QueryMsg_GetContractState where
/-- JSON of `QueryMsg_GetContractState`. -/
def QueryMsg_GetContractState.json (_ : QueryMsg_GetContractState) : Json := .obj (present [])

/-- `/repo/e2e/interchaintestv8/types/cwicaowner/msgs.go` 209-211. -/
structure QueryMsg_GetIcaContractState where
  IcaId : Nat
/-- JSON of `QueryMsg_GetIcaContractState`. -/
def QueryMsg_GetIcaContractState.json (g : QueryMsg_GetIcaContractState) : Json := .obj (present [("ica_id", some (Json.num g.IcaId))])

/-- `/repo/e2e/interchaintestv8/types/cwicaowner/msgs.go` 93. -/
structure QueryMsg_GetIcaCount where
/-- JSON of `QueryMsg_GetIcaCount`. -/
def QueryMsg_GetIcaCount.json (_ : QueryMsg_GetIcaCount) : Json := .obj (present [])

/-- `/repo/e2e/interchaintestv8/types/cwicaowner/msgs.go` 21-28. -/
structure QueryMsg where
  GetContractState : Option QueryMsg_GetContractState := none
  GetIcaContractState : Option QueryMsg_GetIcaContractState := none
  GetIcaCount : Option QueryMsg_GetIcaCount := none
/-- JSON of `QueryMsg`. -/
def QueryMsg.json (g : QueryMsg) : Json := .obj (present [("get_contract_state", g.GetContractState.map QueryMsg_GetContractState.json), ("get_ica_contract_state", g.GetIcaContractState.map QueryMsg_GetIcaContractState.json), ("get_ica_count", g.GetIcaCount.map QueryMsg_GetIcaCount.json)])

end GoOwner

end Ica
