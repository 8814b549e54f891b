import Verif.Model.GoOwner

/-!
# How the Go client reads answers

`/repo/e2e/interchaintestv8/types/*/msgs.go`, generated by `tools/gen_go.py`: the structures that the Go client fills in
from the answers to queries, and how Go's `encoding/json` (Go 1.22, not in /repo) fills them in from the JSON tree of an
answer. What is absent or `null` leaves the zero value. An error (`none`) is a value of another type or a number that does not
fit. Simplifications: `int` has 64 bits, numbers are natural numbers (no contract answers with others), of several members
of one name only the last counts, and letters are compared without case only by `Char.toLower`.
-/
namespace Ica

/-- The value of a field: the member of this name, or the member that is not the name of any field and is this name without
regard to case. -/
def goField (names : List String) (k : String) (fs : List (String × Json)) : Json :=
  ((fs.filter fun p => p.1 = k || (!names.contains p.1 && p.1.toList.map Char.toLower = k.toList.map Char.toLower)).getLast?.map
    (·.2)).getD .null

/-- A structure. -/
def goStruct {α : Type} (j : Json) (f : List (String × Json) → Option α) : Option α :=
  match j with
  | .null => f []
  | .obj fs => f fs
  | _ => none

/-- A pointer. -/
def goPointer {α : Type} (f : Json → Option α) (j : Json) : Option (Option α) :=
  match j with
  | .null => some none
  | j => (f j).map some

/-- The elements of an array. -/
def goElements {α : Type} (f : Json → Option α) : List Json → Option (List α)
  | [] => some []
  | j :: js => (f j).bind fun x => (goElements f js).map (x :: ·)

/-- A slice. -/
def goSlice {α : Type} (f : Json → Option α) (j : Json) : Option (Option (List α)) :=
  match j with
  | .null => some none
  | .arr l => (goElements f l).map some
  | _ => none

/-- A `string`. -/
def goString (j : Json) : Option String :=
  match j with
  | .null => some ""
  | .str s => some s
  | _ => none

/-- An `int`. -/
def goInt (j : Json) : Option Nat :=
  match j with
  | .null => some 0
  | .num n => if n < 9223372036854775808 then some n else none
  | _ => none

/-- A `bool`. -/
def goBool (j : Json) : Option Bool :=
  match j with
  | .null => some false
  | .bool b => some b
  | _ => none

/-! ## `cwicacontroller` -/

namespace GoController

/-- `/repo/e2e/interchaintestv8/types/cwicacontroller/msgs.go` 469. -/
abbrev Addr := String
/-- Reading `Addr`. -/
abbrev Addr.ofJson : Json → Option Addr := goString

/-- `/repo/e2e/interchaintestv8/types/cwicacontroller/msgs.go` 142. -/
abbrev TxEncoding := String
/-- Reading `TxEncoding`. -/
abbrev TxEncoding.ofJson : Json → Option TxEncoding := goString

/-- `/repo/e2e/interchaintestv8/types/cwicacontroller/msgs.go` 544-548. -/
structure IcaInfo where
  ChannelId : String
  Encoding : TxEncoding
  IcaAddress : String
/-- Reading `IcaInfo`. -/
def IcaInfo.ofJson (j : Json) : Option IcaInfo :=
  goStruct j fun fs =>
  (goString (goField ["channel_id", "encoding", "ica_address"] "channel_id" fs)).bind fun x_ChannelId =>
  (TxEncoding.ofJson (goField ["channel_id", "encoding", "ica_address"] "encoding" fs)).bind fun x_Encoding =>
  (goString (goField ["channel_id", "encoding", "ica_address"] "ica_address" fs)).bind fun x_IcaAddress =>
  some { ChannelId := x_ChannelId, Encoding := x_Encoding, IcaAddress := x_IcaAddress }

/-- `/repo/e2e/interchaintestv8/types/cwicacontroller/msgs.go` 551-556. -/
structure State where
  CallbackAddress : Option Addr := none
  IcaInfo : Option IcaInfo := none
/-- Reading `State`. -/
def State.ofJson (j : Json) : Option State :=
  goStruct j fun fs =>
  ((goPointer Addr.ofJson) (goField ["callback_address", "ica_info"] "callback_address" fs)).bind fun x_CallbackAddress =>
  ((goPointer IcaInfo.ofJson) (goField ["callback_address", "ica_info"] "ica_info" fs)).bind fun x_IcaInfo =>
  some { CallbackAddress := x_CallbackAddress, IcaInfo := x_IcaInfo }

/-- Reading `IbcOrder`. -/
abbrev IbcOrder.ofJson : Json → Option IbcOrder := goString

/-- `/repo/e2e/interchaintestv8/types/cwicacontroller/msgs.go` 136-139. -/
structure IbcEndpoint where
  ChannelId : String
  PortId : String
/-- Reading `IbcEndpoint`. -/
def IbcEndpoint.ofJson (j : Json) : Option IbcEndpoint :=
  goStruct j fun fs =>
  (goString (goField ["channel_id", "port_id"] "channel_id" fs)).bind fun x_ChannelId =>
  (goString (goField ["channel_id", "port_id"] "port_id" fs)).bind fun x_PortId =>
  some { ChannelId := x_ChannelId, PortId := x_PortId }

/-- `/repo/e2e/interchaintestv8/types/cwicacontroller/msgs.go` 241-249. -/
structure IbcChannel where
  Order : IbcOrder
  Version : String
  ConnectionId : String
  CounterpartyEndpoint : IbcEndpoint
  Endpoint : IbcEndpoint
/-- Reading `IbcChannel`. -/
def IbcChannel.ofJson (j : Json) : Option IbcChannel :=
  goStruct j fun fs =>
  (IbcOrder.ofJson (goField ["order", "version", "connection_id", "counterparty_endpoint", "endpoint"] "order" fs)).bind fun x_Order =>
  (goString (goField ["order", "version", "connection_id", "counterparty_endpoint", "endpoint"] "version" fs)).bind fun x_Version =>
  (goString (goField ["order", "version", "connection_id", "counterparty_endpoint", "endpoint"] "connection_id" fs)).bind fun x_ConnectionId =>
  (IbcEndpoint.ofJson (goField ["order", "version", "connection_id", "counterparty_endpoint", "endpoint"] "counterparty_endpoint" fs)).bind fun x_CounterpartyEndpoint =>
  (IbcEndpoint.ofJson (goField ["order", "version", "connection_id", "counterparty_endpoint", "endpoint"] "endpoint" fs)).bind fun x_Endpoint =>
  some { Order := x_Order, Version := x_Version, ConnectionId := x_ConnectionId, CounterpartyEndpoint := x_CounterpartyEndpoint, Endpoint := x_Endpoint }

/-- `/repo/e2e/interchaintestv8/types/cwicacontroller/msgs.go` 370. -/
abbrev ChannelStatus := String
/-- Reading `ChannelStatus`. -/
abbrev ChannelStatus.ofJson : Json → Option ChannelStatus := goString

/-- `/repo/e2e/interchaintestv8/types/cwicacontroller/msgs.go` 129-134. -/
structure ChannelState where
  Channel : IbcChannel
  ChannelStatus : ChannelStatus
/-- Reading `ChannelState`. -/
def ChannelState.ofJson (j : Json) : Option ChannelState :=
  goStruct j fun fs =>
  (IbcChannel.ofJson (goField ["channel", "channel_status"] "channel" fs)).bind fun x_Channel =>
  (ChannelStatus.ofJson (goField ["channel", "channel_status"] "channel_status" fs)).bind fun x_ChannelStatus =>
  some { Channel := x_Channel, ChannelStatus := x_ChannelStatus }

/-- Reading `Expiration_AtHeight`. -/
abbrev Expiration_AtHeight.ofJson : Json → Option Expiration_AtHeight := goInt

/-- Reading `Uint64`. -/
abbrev Uint64.ofJson : Json → Option Uint64 := goString

/-- Reading `Timestamp`. -/
abbrev Timestamp.ofJson : Json → Option Timestamp := Uint64.ofJson

/-- Reading `Expiration_AtTime`. -/
abbrev Expiration_AtTime.ofJson : Json → Option Expiration_AtTime := Timestamp.ofJson

/-- Reading `Expiration_Never`. -/
def Expiration_Never.ofJson (j : Json) : Option Expiration_Never :=
  goStruct j fun _ =>
  some {}

/-- Reading `Expiration`. -/
def Expiration.ofJson (j : Json) : Option Expiration :=
  goStruct j fun fs =>
  ((goPointer Expiration_AtHeight.ofJson) (goField ["at_height", "at_time", "never"] "at_height" fs)).bind fun x_AtHeight =>
  ((goPointer Expiration_AtTime.ofJson) (goField ["at_height", "at_time", "never"] "at_time" fs)).bind fun x_AtTime =>
  ((goPointer Expiration_Never.ofJson) (goField ["at_height", "at_time", "never"] "never" fs)).bind fun x_Never =>
  some { AtHeight := x_AtHeight, AtTime := x_AtTime, Never := x_Never }

/-- `/repo/e2e/interchaintestv8/types/cwicacontroller/msgs.go` 444-451. -/
structure Ownership_for_String where
  PendingOwner : Option String := none
  Owner : Option String := none
  PendingExpiry : Option Expiration := none
/-- Reading `Ownership_for_String`. -/
def Ownership_for_String.ofJson (j : Json) : Option Ownership_for_String :=
  goStruct j fun fs =>
  ((goPointer goString) (goField ["pending_owner", "owner", "pending_expiry"] "pending_owner" fs)).bind fun x_PendingOwner =>
  ((goPointer goString) (goField ["pending_owner", "owner", "pending_expiry"] "owner" fs)).bind fun x_Owner =>
  ((goPointer Expiration.ofJson) (goField ["pending_owner", "owner", "pending_expiry"] "pending_expiry" fs)).bind fun x_PendingExpiry =>
  some { PendingOwner := x_PendingOwner, Owner := x_Owner, PendingExpiry := x_PendingExpiry }

end GoController

/-! ## `cwicaowner` -/

namespace GoOwner

/-- Reading `Addr`. -/
abbrev Addr.ofJson : Json → Option Addr := goString

/-- `/repo/e2e/interchaintestv8/types/cwicaowner/msgs.go` 228-233. -/
structure ContractState where
  Admin : Addr
  IcaControllerCodeId : Nat
/-- Reading `ContractState`. -/
def ContractState.ofJson (j : Json) : Option ContractState :=
  goStruct j fun fs =>
  (Addr.ofJson (goField ["admin", "ica_controller_code_id"] "admin" fs)).bind fun x_Admin =>
  (goInt (goField ["admin", "ica_controller_code_id"] "ica_controller_code_id" fs)).bind fun x_IcaControllerCodeId =>
  some { Admin := x_Admin, IcaControllerCodeId := x_IcaControllerCodeId }

/-- Reading `TxEncoding`. -/
abbrev TxEncoding.ofJson : Json → Option TxEncoding := goString

/-- `/repo/e2e/interchaintestv8/types/cwicaowner/msgs.go` 169. -/
abbrev ChannelStatus := String
/-- Reading `ChannelStatus`. -/
abbrev ChannelStatus.ofJson : Json → Option ChannelStatus := goString

/-- Reading `IbcEndpoint`. -/
def IbcEndpoint.ofJson (j : Json) : Option IbcEndpoint :=
  goStruct j fun fs =>
  (goString (goField ["channel_id", "port_id"] "channel_id" fs)).bind fun x_ChannelId =>
  (goString (goField ["channel_id", "port_id"] "port_id" fs)).bind fun x_PortId =>
  some { ChannelId := x_ChannelId, PortId := x_PortId }

/-- Reading `IbcOrder`. -/
abbrev IbcOrder.ofJson : Json → Option IbcOrder := goString

/-- Reading `IbcChannel`. -/
def IbcChannel.ofJson (j : Json) : Option IbcChannel :=
  goStruct j fun fs =>
  (goString (goField ["version", "connection_id", "counterparty_endpoint", "endpoint", "order"] "version" fs)).bind fun x_Version =>
  (goString (goField ["version", "connection_id", "counterparty_endpoint", "endpoint", "order"] "connection_id" fs)).bind fun x_ConnectionId =>
  (IbcEndpoint.ofJson (goField ["version", "connection_id", "counterparty_endpoint", "endpoint", "order"] "counterparty_endpoint" fs)).bind fun x_CounterpartyEndpoint =>
  (IbcEndpoint.ofJson (goField ["version", "connection_id", "counterparty_endpoint", "endpoint", "order"] "endpoint" fs)).bind fun x_Endpoint =>
  (IbcOrder.ofJson (goField ["version", "connection_id", "counterparty_endpoint", "endpoint", "order"] "order" fs)).bind fun x_Order =>
  some { Version := x_Version, ConnectionId := x_ConnectionId, CounterpartyEndpoint := x_CounterpartyEndpoint, Endpoint := x_Endpoint, Order := x_Order }

/-- `/repo/e2e/interchaintestv8/types/cwicaowner/msgs.go` 214-219. -/
structure ChannelState where
  ChannelStatus : ChannelStatus
  Channel : IbcChannel
/-- Reading `ChannelState`. -/
def ChannelState.ofJson (j : Json) : Option ChannelState :=
  goStruct j fun fs =>
  (ChannelStatus.ofJson (goField ["channel_status", "channel"] "channel_status" fs)).bind fun x_ChannelStatus =>
  (IbcChannel.ofJson (goField ["channel_status", "channel"] "channel" fs)).bind fun x_Channel =>
  some { ChannelStatus := x_ChannelStatus, Channel := x_Channel }

/-- `/repo/e2e/interchaintestv8/types/cwicaowner/msgs.go` 96-101. -/
structure IcaState where
  TxEncoding : TxEncoding
  ChannelState : ChannelState
  IcaAddr : String
  IcaId : Nat
/-- Reading `IcaState`. -/
def IcaState.ofJson (j : Json) : Option IcaState :=
  goStruct j fun fs =>
  (TxEncoding.ofJson (goField ["tx_encoding", "channel_state", "ica_addr", "ica_id"] "tx_encoding" fs)).bind fun x_TxEncoding =>
  (ChannelState.ofJson (goField ["tx_encoding", "channel_state", "ica_addr", "ica_id"] "channel_state" fs)).bind fun x_ChannelState =>
  (goString (goField ["tx_encoding", "channel_state", "ica_addr", "ica_id"] "ica_addr" fs)).bind fun x_IcaAddr =>
  (goInt (goField ["tx_encoding", "channel_state", "ica_addr", "ica_id"] "ica_id" fs)).bind fun x_IcaId =>
  some { TxEncoding := x_TxEncoding, ChannelState := x_ChannelState, IcaAddr := x_IcaAddr, IcaId := x_IcaId }

/-- `/repo/e2e/interchaintestv8/types/cwicaowner/msgs.go` 222-225. -/
structure IcaContractState where
  IcaState : Option IcaState := none
  ContractAddr : Addr
/-- Reading `IcaContractState`. -/
def IcaContractState.ofJson (j : Json) : Option IcaContractState :=
  goStruct j fun fs =>
  ((goPointer IcaState.ofJson) (goField ["ica_state", "contract_addr"] "ica_state" fs)).bind fun x_IcaState =>
  (Addr.ofJson (goField ["ica_state", "contract_addr"] "contract_addr" fs)).bind fun x_ContractAddr =>
  some { IcaState := x_IcaState, ContractAddr := x_ContractAddr }

end GoOwner

/-! ## `callbackcounter` -/

namespace GoCounter

/-- `/repo/e2e/interchaintestv8/types/callbackcounter/msgs.go` 225. -/
abbrev Binary := String
/-- Reading `Binary`. -/
abbrev Binary.ofJson : Json → Option Binary := goString

/-- `/repo/e2e/interchaintestv8/types/callbackcounter/msgs.go` 421. -/
abbrev Data_Result := Binary
/-- Reading `Data_Result`. -/
abbrev Data_Result.ofJson : Json → Option Data_Result := Binary.ofJson

/-- `/repo/e2e/interchaintestv8/types/callbackcounter/msgs.go` 436. -/
abbrev Data_Error := String
/-- Reading `Data_Error`. -/
abbrev Data_Error.ofJson : Json → Option Data_Error := goString

/-- `/repo/e2e/interchaintestv8/types/callbackcounter/msgs.go` 245-250. -/
structure Data where
  Result : Option Data_Result := none
  Error : Option Data_Error := none
/-- Reading `Data`. -/
def Data.ofJson (j : Json) : Option Data :=
  goStruct j fun fs =>
  ((goPointer Data_Result.ofJson) (goField ["result", "error"] "result" fs)).bind fun x_Result =>
  ((goPointer Data_Error.ofJson) (goField ["result", "error"] "error" fs)).bind fun x_Error =>
  some { Result := x_Result, Error := x_Error }

/-- `/repo/e2e/interchaintestv8/types/callbackcounter/msgs.go` 294-297. -/
structure IbcEndpoint where
  ChannelId : String
  PortId : String
/-- Reading `IbcEndpoint`. -/
def IbcEndpoint.ofJson (j : Json) : Option IbcEndpoint :=
  goStruct j fun fs =>
  (goString (goField ["channel_id", "port_id"] "channel_id" fs)).bind fun x_ChannelId =>
  (goString (goField ["channel_id", "port_id"] "port_id" fs)).bind fun x_PortId =>
  some { ChannelId := x_ChannelId, PortId := x_PortId }

/-- `/repo/e2e/interchaintestv8/types/callbackcounter/msgs.go` 117-122. -/
structure IbcTimeoutBlock where
  Revision : Nat
  Height : Nat
/-- Reading `IbcTimeoutBlock`. -/
def IbcTimeoutBlock.ofJson (j : Json) : Option IbcTimeoutBlock :=
  goStruct j fun fs =>
  (goInt (goField ["revision", "height"] "revision" fs)).bind fun x_Revision =>
  (goInt (goField ["revision", "height"] "height" fs)).bind fun x_Height =>
  some { Revision := x_Revision, Height := x_Height }

/-- `/repo/e2e/interchaintestv8/types/callbackcounter/msgs.go` 218. -/
abbrev Uint64 := String
/-- Reading `Uint64`. -/
abbrev Uint64.ofJson : Json → Option Uint64 := goString

/-- `/repo/e2e/interchaintestv8/types/callbackcounter/msgs.go` 181. -/
abbrev Timestamp := Uint64
/-- Reading `Timestamp`. -/
abbrev Timestamp.ofJson : Json → Option Timestamp := Uint64.ofJson

/-- `/repo/e2e/interchaintestv8/types/callbackcounter/msgs.go` 111-114. -/
structure IbcTimeout where
  Block : Option IbcTimeoutBlock := none
  Timestamp : Option Timestamp := none
/-- Reading `IbcTimeout`. -/
def IbcTimeout.ofJson (j : Json) : Option IbcTimeout :=
  goStruct j fun fs =>
  ((goPointer IbcTimeoutBlock.ofJson) (goField ["block", "timestamp"] "block" fs)).bind fun x_Block =>
  ((goPointer Timestamp.ofJson) (goField ["block", "timestamp"] "timestamp" fs)).bind fun x_Timestamp =>
  some { Block := x_Block, Timestamp := x_Timestamp }

/-- `/repo/e2e/interchaintestv8/types/callbackcounter/msgs.go` 282-292. -/
structure IbcPacket where
  Sequence : Nat
  Src : IbcEndpoint
  Timeout : IbcTimeout
  Data : Binary
  Dest : IbcEndpoint
/-- Reading `IbcPacket`. -/
def IbcPacket.ofJson (j : Json) : Option IbcPacket :=
  goStruct j fun fs =>
  (goInt (goField ["sequence", "src", "timeout", "data", "dest"] "sequence" fs)).bind fun x_Sequence =>
  (IbcEndpoint.ofJson (goField ["sequence", "src", "timeout", "data", "dest"] "src" fs)).bind fun x_Src =>
  (IbcTimeout.ofJson (goField ["sequence", "src", "timeout", "data", "dest"] "timeout" fs)).bind fun x_Timeout =>
  (Binary.ofJson (goField ["sequence", "src", "timeout", "data", "dest"] "data" fs)).bind fun x_Data =>
  (IbcEndpoint.ofJson (goField ["sequence", "src", "timeout", "data", "dest"] "dest" fs)).bind fun x_Dest =>
  some { Sequence := x_Sequence, Src := x_Src, Timeout := x_Timeout, Data := x_Data, Dest := x_Dest }

/-- `/repo/e2e/interchaintestv8/types/callbackcounter/msgs.go` 56. -/
abbrev Uint128 := String
/-- Reading `Uint128`. -/
abbrev Uint128.ofJson : Json → Option Uint128 := goString

/-- `/repo/e2e/interchaintestv8/types/callbackcounter/msgs.go` 58-61. -/
structure Coin where
  Amount : Uint128
  Denom : String
/-- Reading `Coin`. -/
def Coin.ofJson (j : Json) : Option Coin :=
  goStruct j fun fs =>
  (Uint128.ofJson (goField ["amount", "denom"] "amount" fs)).bind fun x_Amount =>
  (goString (goField ["amount", "denom"] "denom" fs)).bind fun x_Denom =>
  some { Amount := x_Amount, Denom := x_Denom }

/-- `/repo/e2e/interchaintestv8/types/callbackcounter/msgs.go` 183-186. -/
structure SupplyResponse where
  Amount : Coin
/-- Reading `SupplyResponse`. -/
def SupplyResponse.ofJson (j : Json) : Option SupplyResponse :=
  goStruct j fun fs =>
  (Coin.ofJson (goField ["amount"] "amount" fs)).bind fun x_Amount =>
  some { Amount := x_Amount }

/-- `/repo/e2e/interchaintestv8/types/callbackcounter/msgs.go` 395. -/
abbrev BankQueryResponse_Supply := SupplyResponse
/-- Reading `BankQueryResponse_Supply`. -/
abbrev BankQueryResponse_Supply.ofJson : Json → Option BankQueryResponse_Supply := SupplyResponse.ofJson

/-- `/repo/e2e/interchaintestv8/types/callbackcounter/msgs.go` 73-76. -/
structure BalanceResponse where
  Amount : Coin
/-- Reading `BalanceResponse`. -/
def BalanceResponse.ofJson (j : Json) : Option BalanceResponse :=
  goStruct j fun fs =>
  (Coin.ofJson (goField ["amount"] "amount" fs)).bind fun x_Amount =>
  some { Amount := x_Amount }

/-- `/repo/e2e/interchaintestv8/types/callbackcounter/msgs.go` 390. -/
abbrev BankQueryResponse_Balance := BalanceResponse
/-- Reading `BankQueryResponse_Balance`. -/
abbrev BankQueryResponse_Balance.ofJson : Json → Option BankQueryResponse_Balance := BalanceResponse.ofJson

/-- `/repo/e2e/interchaintestv8/types/callbackcounter/msgs.go` 341-344. -/
structure AllBalanceResponse where
  Amount : Option (List Coin) := none
/-- Reading `AllBalanceResponse`. -/
def AllBalanceResponse.ofJson (j : Json) : Option AllBalanceResponse :=
  goStruct j fun fs =>
  ((goSlice Coin.ofJson) (goField ["amount"] "amount" fs)).bind fun x_Amount =>
  some { Amount := x_Amount }

/-- `/repo/e2e/interchaintestv8/types/callbackcounter/msgs.go` 434. -/
abbrev BankQueryResponse_AllBalances := AllBalanceResponse
/-- Reading `BankQueryResponse_AllBalances`. -/
abbrev BankQueryResponse_AllBalances.ofJson : Json → Option BankQueryResponse_AllBalances := AllBalanceResponse.ofJson

/-- `/repo/e2e/interchaintestv8/types/callbackcounter/msgs.go` 156-160. -/
structure DenomUnit where
  Denom : String
  Exponent : Nat
  Aliases : Option (List String) := none
/-- Reading `DenomUnit`. -/
def DenomUnit.ofJson (j : Json) : Option DenomUnit :=
  goStruct j fun fs =>
  (goString (goField ["denom", "exponent", "aliases"] "denom" fs)).bind fun x_Denom =>
  (goInt (goField ["denom", "exponent", "aliases"] "exponent" fs)).bind fun x_Exponent =>
  ((goSlice goString) (goField ["denom", "exponent", "aliases"] "aliases" fs)).bind fun x_Aliases =>
  some { Denom := x_Denom, Exponent := x_Exponent, Aliases := x_Aliases }

/-- `/repo/e2e/interchaintestv8/types/callbackcounter/msgs.go` 79-88. -/
structure DenomMetadata where
  Name : String
  Symbol : String
  Uri : String
  UriHash : String
  Base : String
  DenomUnits : Option (List DenomUnit) := none
  Description : String
  Display : String
/-- Reading `DenomMetadata`. -/
def DenomMetadata.ofJson (j : Json) : Option DenomMetadata :=
  goStruct j fun fs =>
  (goString (goField ["name", "symbol", "uri", "uri_hash", "base", "denom_units", "description", "display"] "name" fs)).bind fun x_Name =>
  (goString (goField ["name", "symbol", "uri", "uri_hash", "base", "denom_units", "description", "display"] "symbol" fs)).bind fun x_Symbol =>
  (goString (goField ["name", "symbol", "uri", "uri_hash", "base", "denom_units", "description", "display"] "uri" fs)).bind fun x_Uri =>
  (goString (goField ["name", "symbol", "uri", "uri_hash", "base", "denom_units", "description", "display"] "uri_hash" fs)).bind fun x_UriHash =>
  (goString (goField ["name", "symbol", "uri", "uri_hash", "base", "denom_units", "description", "display"] "base" fs)).bind fun x_Base =>
  ((goSlice DenomUnit.ofJson) (goField ["name", "symbol", "uri", "uri_hash", "base", "denom_units", "description", "display"] "denom_units" fs)).bind fun x_DenomUnits =>
  (goString (goField ["name", "symbol", "uri", "uri_hash", "base", "denom_units", "description", "display"] "description" fs)).bind fun x_Description =>
  (goString (goField ["name", "symbol", "uri", "uri_hash", "base", "denom_units", "description", "display"] "display" fs)).bind fun x_Display =>
  some { Name := x_Name, Symbol := x_Symbol, Uri := x_Uri, UriHash := x_UriHash, Base := x_Base, DenomUnits := x_DenomUnits, Description := x_Description, Display := x_Display }

/-- `/repo/e2e/interchaintestv8/types/callbackcounter/msgs.go` 188-191. -/
structure DenomMetadataResponse where
  Metadata : DenomMetadata
/-- Reading `DenomMetadataResponse`. -/
def DenomMetadataResponse.ofJson (j : Json) : Option DenomMetadataResponse :=
  goStruct j fun fs =>
  (DenomMetadata.ofJson (goField ["metadata"] "metadata" fs)).bind fun x_Metadata =>
  some { Metadata := x_Metadata }

/-- `/repo/e2e/interchaintestv8/types/callbackcounter/msgs.go` 378. -/
abbrev BankQueryResponse_DenomMetadata := DenomMetadataResponse
/-- Reading `BankQueryResponse_DenomMetadata`. -/
abbrev BankQueryResponse_DenomMetadata.ofJson : Json → Option BankQueryResponse_DenomMetadata := DenomMetadataResponse.ofJson

/-- `/repo/e2e/interchaintestv8/types/callbackcounter/msgs.go` 276-280. -/
structure AllDenomMetadataResponse where
  Metadata : Option (List DenomMetadata) := none
  NextKey : Option Binary := none
/-- Reading `AllDenomMetadataResponse`. -/
def AllDenomMetadataResponse.ofJson (j : Json) : Option AllDenomMetadataResponse :=
  goStruct j fun fs =>
  ((goSlice DenomMetadata.ofJson) (goField ["metadata", "next_key"] "metadata" fs)).bind fun x_Metadata =>
  ((goPointer Binary.ofJson) (goField ["metadata", "next_key"] "next_key" fs)).bind fun x_NextKey =>
  some { Metadata := x_Metadata, NextKey := x_NextKey }

/-- `/repo/e2e/interchaintestv8/types/callbackcounter/msgs.go` 437. -/
abbrev BankQueryResponse_AllDenomMetadata := AllDenomMetadataResponse
/-- Reading `BankQueryResponse_AllDenomMetadata`. -/
abbrev BankQueryResponse_AllDenomMetadata.ofJson : Json → Option BankQueryResponse_AllDenomMetadata := AllDenomMetadataResponse.ofJson

/-- `/repo/e2e/interchaintestv8/types/callbackcounter/msgs.go` 125-136. -/
structure BankQueryResponse where
  Supply : Option BankQueryResponse_Supply := none
  Balance : Option BankQueryResponse_Balance := none
  AllBalances : Option BankQueryResponse_AllBalances := none
  DenomMetadata : Option BankQueryResponse_DenomMetadata := none
  AllDenomMetadata : Option BankQueryResponse_AllDenomMetadata := none
/-- Reading `BankQueryResponse`. -/
def BankQueryResponse.ofJson (j : Json) : Option BankQueryResponse :=
  goStruct j fun fs =>
  ((goPointer BankQueryResponse_Supply.ofJson) (goField ["supply", "balance", "all_balances", "denom_metadata", "all_denom_metadata"] "supply" fs)).bind fun x_Supply =>
  ((goPointer BankQueryResponse_Balance.ofJson) (goField ["supply", "balance", "all_balances", "denom_metadata", "all_denom_metadata"] "balance" fs)).bind fun x_Balance =>
  ((goPointer BankQueryResponse_AllBalances.ofJson) (goField ["supply", "balance", "all_balances", "denom_metadata", "all_denom_metadata"] "all_balances" fs)).bind fun x_AllBalances =>
  ((goPointer BankQueryResponse_DenomMetadata.ofJson) (goField ["supply", "balance", "all_balances", "denom_metadata", "all_denom_metadata"] "denom_metadata" fs)).bind fun x_DenomMetadata =>
  ((goPointer BankQueryResponse_AllDenomMetadata.ofJson) (goField ["supply", "balance", "all_balances", "denom_metadata", "all_denom_metadata"] "all_denom_metadata" fs)).bind fun x_AllDenomMetadata =>
  some { Supply := x_Supply, Balance := x_Balance, AllBalances := x_AllBalances, DenomMetadata := x_DenomMetadata, AllDenomMetadata := x_AllDenomMetadata }

/-- `/repo/e2e/interchaintestv8/types/callbackcounter/msgs.go` 433. -/
abbrev IcaQueryResponse_Bank := BankQueryResponse
/-- Reading `IcaQueryResponse_Bank`. -/
abbrev IcaQueryResponse_Bank.ofJson : Json → Option IcaQueryResponse_Bank := BankQueryResponse.ofJson

/-- `/repo/e2e/interchaintestv8/types/callbackcounter/msgs.go` 427-432. -/
structure IcaQueryResponse_Stargate where
  Data : Binary
  Path : String
/-- Reading `IcaQueryResponse_Stargate`. -/
def IcaQueryResponse_Stargate.ofJson (j : Json) : Option IcaQueryResponse_Stargate :=
  goStruct j fun fs =>
  (Binary.ofJson (goField ["data", "path"] "data" fs)).bind fun x_Data =>
  (goString (goField ["data", "path"] "path" fs)).bind fun x_Path =>
  some { Data := x_Data, Path := x_Path }

/-- `/repo/e2e/interchaintestv8/types/callbackcounter/msgs.go` 242. -/
abbrev Addr := String
/-- Reading `Addr`. -/
abbrev Addr.ofJson : Json → Option Addr := goString

/-- `/repo/e2e/interchaintestv8/types/callbackcounter/msgs.go` 353-363. -/
structure ContractInfoResponse where
  Creator : Addr
  IbcPort : Option String := none
  Pinned : Bool
  Admin : Option Addr := none
  CodeId : Nat
/-- Reading `ContractInfoResponse`. -/
def ContractInfoResponse.ofJson (j : Json) : Option ContractInfoResponse :=
  goStruct j fun fs =>
  (Addr.ofJson (goField ["creator", "ibc_port", "pinned", "admin", "code_id"] "creator" fs)).bind fun x_Creator =>
  ((goPointer goString) (goField ["creator", "ibc_port", "pinned", "admin", "code_id"] "ibc_port" fs)).bind fun x_IbcPort =>
  (goBool (goField ["creator", "ibc_port", "pinned", "admin", "code_id"] "pinned" fs)).bind fun x_Pinned =>
  ((goPointer Addr.ofJson) (goField ["creator", "ibc_port", "pinned", "admin", "code_id"] "admin" fs)).bind fun x_Admin =>
  (goInt (goField ["creator", "ibc_port", "pinned", "admin", "code_id"] "code_id" fs)).bind fun x_CodeId =>
  some { Creator := x_Creator, IbcPort := x_IbcPort, Pinned := x_Pinned, Admin := x_Admin, CodeId := x_CodeId }

/-- `/repo/e2e/interchaintestv8/types/callbackcounter/msgs.go` 328. -/
abbrev Checksum := String
/-- Reading `Checksum`. -/
abbrev Checksum.ofJson : Json → Option Checksum := goString

/-- `/repo/e2e/interchaintestv8/types/callbackcounter/msgs.go` 145-151. -/
structure CodeInfoResponse where
  Checksum : Checksum
  CodeId : Nat
  Creator : Addr
/-- Reading `CodeInfoResponse`. -/
def CodeInfoResponse.ofJson (j : Json) : Option CodeInfoResponse :=
  goStruct j fun fs =>
  (Checksum.ofJson (goField ["checksum", "code_id", "creator"] "checksum" fs)).bind fun x_Checksum =>
  (goInt (goField ["checksum", "code_id", "creator"] "code_id" fs)).bind fun x_CodeId =>
  (Addr.ofJson (goField ["checksum", "code_id", "creator"] "creator" fs)).bind fun x_Creator =>
  some { Checksum := x_Checksum, CodeId := x_CodeId, Creator := x_Creator }

/-- `/repo/e2e/interchaintestv8/types/callbackcounter/msgs.go` 370. -/
abbrev WasmQueryResponse_SmartContractState := Binary
/-- Reading `WasmQueryResponse_SmartContractState`. -/
abbrev WasmQueryResponse_SmartContractState.ofJson : Json → Option WasmQueryResponse_SmartContractState := Binary.ofJson

/-- `/repo/e2e/interchaintestv8/types/callbackcounter/msgs.go` 253-262. -/
structure WasmQueryResponse where
  ContractInfo : Option ContractInfoResponse := none
  CodeInfo : Option CodeInfoResponse := none
  RawContractState : Option Binary := none
  SmartContractState : Option WasmQueryResponse_SmartContractState := none
/-- Reading `WasmQueryResponse`. -/
def WasmQueryResponse.ofJson (j : Json) : Option WasmQueryResponse :=
  goStruct j fun fs =>
  ((goPointer ContractInfoResponse.ofJson) (goField ["contract_info", "code_info", "raw_contract_state", "smart_contract_state"] "contract_info" fs)).bind fun x_ContractInfo =>
  ((goPointer CodeInfoResponse.ofJson) (goField ["contract_info", "code_info", "raw_contract_state", "smart_contract_state"] "code_info" fs)).bind fun x_CodeInfo =>
  ((goPointer Binary.ofJson) (goField ["contract_info", "code_info", "raw_contract_state", "smart_contract_state"] "raw_contract_state" fs)).bind fun x_RawContractState =>
  ((goPointer WasmQueryResponse_SmartContractState.ofJson) (goField ["contract_info", "code_info", "raw_contract_state", "smart_contract_state"] "smart_contract_state" fs)).bind fun x_SmartContractState =>
  some { ContractInfo := x_ContractInfo, CodeInfo := x_CodeInfo, RawContractState := x_RawContractState, SmartContractState := x_SmartContractState }

/-- `/repo/e2e/interchaintestv8/types/callbackcounter/msgs.go` 379. -/
abbrev IcaQueryResponse_Wasm := WasmQueryResponse
/-- Reading `IcaQueryResponse_Wasm`. -/
abbrev IcaQueryResponse_Wasm.ofJson : Json → Option IcaQueryResponse_Wasm := WasmQueryResponse.ofJson

/-- `/repo/e2e/interchaintestv8/types/callbackcounter/msgs.go` 331-333. -/
structure BondedDenomResponse where
  Denom : String
/-- Reading `BondedDenomResponse`. -/
def BondedDenomResponse.ofJson (j : Json) : Option BondedDenomResponse :=
  goStruct j fun fs =>
  (goString (goField ["denom"] "denom" fs)).bind fun x_Denom =>
  some { Denom := x_Denom }

/-- `/repo/e2e/interchaintestv8/types/callbackcounter/msgs.go` 382. -/
abbrev StakingQueryResponse_BondedDenom := BondedDenomResponse
/-- Reading `StakingQueryResponse_BondedDenom`. -/
abbrev StakingQueryResponse_BondedDenom.ofJson : Json → Option StakingQueryResponse_BondedDenom := BondedDenomResponse.ofJson

/-- `/repo/e2e/interchaintestv8/types/callbackcounter/msgs.go` 34-41. -/
structure Delegation where
  Amount : Coin
  Delegator : String
  Validator : String
/-- Reading `Delegation`. -/
def Delegation.ofJson (j : Json) : Option Delegation :=
  goStruct j fun fs =>
  (Coin.ofJson (goField ["amount", "delegator", "validator"] "amount" fs)).bind fun x_Amount =>
  (goString (goField ["amount", "delegator", "validator"] "delegator" fs)).bind fun x_Delegator =>
  (goString (goField ["amount", "delegator", "validator"] "validator" fs)).bind fun x_Validator =>
  some { Amount := x_Amount, Delegator := x_Delegator, Validator := x_Validator }

/-- `/repo/e2e/interchaintestv8/types/callbackcounter/msgs.go` 228-231. -/
structure IcaAllDelegationsResponse where
  Delegations : Option (List Delegation) := none
/-- Reading `IcaAllDelegationsResponse`. -/
def IcaAllDelegationsResponse.ofJson (j : Json) : Option IcaAllDelegationsResponse :=
  goStruct j fun fs =>
  ((goSlice Delegation.ofJson) (goField ["delegations"] "delegations" fs)).bind fun x_Delegations =>
  some { Delegations := x_Delegations }

/-- `/repo/e2e/interchaintestv8/types/callbackcounter/msgs.go` 369. -/
abbrev StakingQueryResponse_AllDelegations := IcaAllDelegationsResponse
/-- Reading `StakingQueryResponse_AllDelegations`. -/
abbrev StakingQueryResponse_AllDelegations.ofJson : Json → Option StakingQueryResponse_AllDelegations := IcaAllDelegationsResponse.ofJson

/-- `/repo/e2e/interchaintestv8/types/callbackcounter/msgs.go` 336-339. -/
structure IcaDelegationResponse where
  Delegation : Option Delegation := none
/-- Reading `IcaDelegationResponse`. -/
def IcaDelegationResponse.ofJson (j : Json) : Option IcaDelegationResponse :=
  goStruct j fun fs =>
  ((goPointer Delegation.ofJson) (goField ["delegation"] "delegation" fs)).bind fun x_Delegation =>
  some { Delegation := x_Delegation }

/-- `/repo/e2e/interchaintestv8/types/callbackcounter/msgs.go` 399. -/
abbrev StakingQueryResponse_Delegation := IcaDelegationResponse
/-- Reading `StakingQueryResponse_Delegation`. -/
abbrev StakingQueryResponse_Delegation.ofJson : Json → Option StakingQueryResponse_Delegation := IcaDelegationResponse.ofJson

/-- `/repo/e2e/interchaintestv8/types/callbackcounter/msgs.go` 351. -/
abbrev Decimal := String
/-- Reading `Decimal`. -/
abbrev Decimal.ofJson : Json → Option Decimal := goString

/-- `/repo/e2e/interchaintestv8/types/callbackcounter/msgs.go` 194-205. -/
structure Validator where
  Address : String
  Commission : Decimal
  MaxChangeRate : Decimal
  MaxCommission : Decimal
/-- Reading `Validator`. -/
def Validator.ofJson (j : Json) : Option Validator :=
  goStruct j fun fs =>
  (goString (goField ["address", "commission", "max_change_rate", "max_commission"] "address" fs)).bind fun x_Address =>
  (Decimal.ofJson (goField ["address", "commission", "max_change_rate", "max_commission"] "commission" fs)).bind fun x_Commission =>
  (Decimal.ofJson (goField ["address", "commission", "max_change_rate", "max_commission"] "max_change_rate" fs)).bind fun x_MaxChangeRate =>
  (Decimal.ofJson (goField ["address", "commission", "max_change_rate", "max_commission"] "max_commission" fs)).bind fun x_MaxCommission =>
  some { Address := x_Address, Commission := x_Commission, MaxChangeRate := x_MaxChangeRate, MaxCommission := x_MaxCommission }

/-- `/repo/e2e/interchaintestv8/types/callbackcounter/msgs.go` 366-368. -/
structure AllValidatorsResponse where
  Validators : Option (List Validator) := none
/-- Reading `AllValidatorsResponse`. -/
def AllValidatorsResponse.ofJson (j : Json) : Option AllValidatorsResponse :=
  goStruct j fun fs =>
  ((goSlice Validator.ofJson) (goField ["validators"] "validators" fs)).bind fun x_Validators =>
  some { Validators := x_Validators }

/-- `/repo/e2e/interchaintestv8/types/callbackcounter/msgs.go` 425. -/
abbrev StakingQueryResponse_AllValidators := AllValidatorsResponse
/-- Reading `StakingQueryResponse_AllValidators`. -/
abbrev StakingQueryResponse_AllValidators.ofJson : Json → Option StakingQueryResponse_AllValidators := AllValidatorsResponse.ofJson

/-- `/repo/e2e/interchaintestv8/types/callbackcounter/msgs.go` 29-31. -/
structure ValidatorResponse where
  Validator : Option Validator := none
/-- Reading `ValidatorResponse`. -/
def ValidatorResponse.ofJson (j : Json) : Option ValidatorResponse :=
  goStruct j fun fs =>
  ((goPointer Validator.ofJson) (goField ["validator"] "validator" fs)).bind fun x_Validator =>
  some { Validator := x_Validator }

/-- `/repo/e2e/interchaintestv8/types/callbackcounter/msgs.go` 409. -/
abbrev StakingQueryResponse_Validator := ValidatorResponse
/-- Reading `StakingQueryResponse_Validator`. -/
abbrev StakingQueryResponse_Validator.ofJson : Json → Option StakingQueryResponse_Validator := ValidatorResponse.ofJson

/-- `/repo/e2e/interchaintestv8/types/callbackcounter/msgs.go` 300-311. -/
structure StakingQueryResponse where
  BondedDenom : Option StakingQueryResponse_BondedDenom := none
  AllDelegations : Option StakingQueryResponse_AllDelegations := none
  Delegation : Option StakingQueryResponse_Delegation := none
  AllValidators : Option StakingQueryResponse_AllValidators := none
  Validator : Option StakingQueryResponse_Validator := none
/-- Reading `StakingQueryResponse`. -/
def StakingQueryResponse.ofJson (j : Json) : Option StakingQueryResponse :=
  goStruct j fun fs =>
  ((goPointer StakingQueryResponse_BondedDenom.ofJson) (goField ["bonded_denom", "all_delegations", "delegation", "all_validators", "validator"] "bonded_denom" fs)).bind fun x_BondedDenom =>
  ((goPointer StakingQueryResponse_AllDelegations.ofJson) (goField ["bonded_denom", "all_delegations", "delegation", "all_validators", "validator"] "all_delegations" fs)).bind fun x_AllDelegations =>
  ((goPointer StakingQueryResponse_Delegation.ofJson) (goField ["bonded_denom", "all_delegations", "delegation", "all_validators", "validator"] "delegation" fs)).bind fun x_Delegation =>
  ((goPointer StakingQueryResponse_AllValidators.ofJson) (goField ["bonded_denom", "all_delegations", "delegation", "all_validators", "validator"] "all_validators" fs)).bind fun x_AllValidators =>
  ((goPointer StakingQueryResponse_Validator.ofJson) (goField ["bonded_denom", "all_delegations", "delegation", "all_validators", "validator"] "validator" fs)).bind fun x_Validator =>
  some { BondedDenom := x_BondedDenom, AllDelegations := x_AllDelegations, Delegation := x_Delegation, AllValidators := x_AllValidators, Validator := x_Validator }

/-- `/repo/e2e/interchaintestv8/types/callbackcounter/msgs.go` 391. -/
abbrev IcaQueryResponse_Staking := StakingQueryResponse
/-- Reading `IcaQueryResponse_Staking`. -/
abbrev IcaQueryResponse_Staking.ofJson : Json → Option IcaQueryResponse_Staking := StakingQueryResponse.ofJson

/-- `/repo/e2e/interchaintestv8/types/callbackcounter/msgs.go` 91-100. -/
structure IcaQueryResponse where
  Bank : Option IcaQueryResponse_Bank := none
  Stargate : Option IcaQueryResponse_Stargate := none
  Wasm : Option IcaQueryResponse_Wasm := none
  Staking : Option IcaQueryResponse_Staking := none
/-- Reading `IcaQueryResponse`. -/
def IcaQueryResponse.ofJson (j : Json) : Option IcaQueryResponse :=
  goStruct j fun fs =>
  ((goPointer IcaQueryResponse_Bank.ofJson) (goField ["bank", "stargate", "wasm", "staking"] "bank" fs)).bind fun x_Bank =>
  ((goPointer IcaQueryResponse_Stargate.ofJson) (goField ["bank", "stargate", "wasm", "staking"] "stargate" fs)).bind fun x_Stargate =>
  ((goPointer IcaQueryResponse_Wasm.ofJson) (goField ["bank", "stargate", "wasm", "staking"] "wasm" fs)).bind fun x_Wasm =>
  ((goPointer IcaQueryResponse_Staking.ofJson) (goField ["bank", "stargate", "wasm", "staking"] "staking" fs)).bind fun x_Staking =>
  some { Bank := x_Bank, Stargate := x_Stargate, Wasm := x_Wasm, Staking := x_Staking }

/-- `/repo/e2e/interchaintestv8/types/callbackcounter/msgs.go` 372-377. -/
structure IcaQueryResult_Success where
  Height : Nat
  Responses : Option (List IcaQueryResponse) := none
/-- Reading `IcaQueryResult_Success`. -/
def IcaQueryResult_Success.ofJson (j : Json) : Option IcaQueryResult_Success :=
  goStruct j fun fs =>
  (goInt (goField ["height", "responses"] "height" fs)).bind fun x_Height =>
  ((goSlice IcaQueryResponse.ofJson) (goField ["height", "responses"] "responses" fs)).bind fun x_Responses =>
  some { Height := x_Height, Responses := x_Responses }

/-- `/repo/e2e/interchaintestv8/types/callbackcounter/msgs.go` 381. -/
abbrev IcaQueryResult_Error := String
/-- Reading `IcaQueryResult_Error`. -/
abbrev IcaQueryResult_Error.ofJson : Json → Option IcaQueryResult_Error := goString

/-- `/repo/e2e/interchaintestv8/types/callbackcounter/msgs.go` 103-108. -/
structure IcaQueryResult where
  Success : Option IcaQueryResult_Success := none
  Error : Option IcaQueryResult_Error := none
/-- Reading `IcaQueryResult`. -/
def IcaQueryResult.ofJson (j : Json) : Option IcaQueryResult :=
  goStruct j fun fs =>
  ((goPointer IcaQueryResult_Success.ofJson) (goField ["success", "error"] "success" fs)).bind fun x_Success =>
  ((goPointer IcaQueryResult_Error.ofJson) (goField ["success", "error"] "error" fs)).bind fun x_Error =>
  some { Success := x_Success, Error := x_Error }

/-- `/repo/e2e/interchaintestv8/types/callbackcounter/msgs.go` 411-420. -/
structure IcaControllerCallbackMsg_OnAcknowledgementPacketCallback where
  IcaAcknowledgement : Data
  OriginalPacket : IbcPacket
  QueryResult : Option IcaQueryResult := none
  Relayer : Addr
/-- Reading `IcaControllerCallbackMsg_OnAcknowledgementPacketCallback`. -/
def IcaControllerCallbackMsg_OnAcknowledgementPacketCallback.ofJson (j : Json) : Option IcaControllerCallbackMsg_OnAcknowledgementPacketCallback :=
  goStruct j fun fs =>
  (Data.ofJson (goField ["ica_acknowledgement", "original_packet", "query_result", "relayer"] "ica_acknowledgement" fs)).bind fun x_IcaAcknowledgement =>
  (IbcPacket.ofJson (goField ["ica_acknowledgement", "original_packet", "query_result", "relayer"] "original_packet" fs)).bind fun x_OriginalPacket =>
  ((goPointer IcaQueryResult.ofJson) (goField ["ica_acknowledgement", "original_packet", "query_result", "relayer"] "query_result" fs)).bind fun x_QueryResult =>
  (Addr.ofJson (goField ["ica_acknowledgement", "original_packet", "query_result", "relayer"] "relayer" fs)).bind fun x_Relayer =>
  some { IcaAcknowledgement := x_IcaAcknowledgement, OriginalPacket := x_OriginalPacket, QueryResult := x_QueryResult, Relayer := x_Relayer }

/-- `/repo/e2e/interchaintestv8/types/callbackcounter/msgs.go` 384-389. -/
structure IcaControllerCallbackMsg_OnTimeoutPacketCallback where
  OriginalPacket : IbcPacket
  Relayer : Addr
/-- Reading `IcaControllerCallbackMsg_OnTimeoutPacketCallback`. -/
def IcaControllerCallbackMsg_OnTimeoutPacketCallback.ofJson (j : Json) : Option IcaControllerCallbackMsg_OnTimeoutPacketCallback :=
  goStruct j fun fs =>
  (IbcPacket.ofJson (goField ["original_packet", "relayer"] "original_packet" fs)).bind fun x_OriginalPacket =>
  (Addr.ofJson (goField ["original_packet", "relayer"] "relayer" fs)).bind fun x_Relayer =>
  some { OriginalPacket := x_OriginalPacket, Relayer := x_Relayer }

/-- `/repo/e2e/interchaintestv8/types/callbackcounter/msgs.go` 265. -/
abbrev TxEncoding := String
/-- Reading `TxEncoding`. -/
abbrev TxEncoding.ofJson : Json → Option TxEncoding := goString

/-- `/repo/e2e/interchaintestv8/types/callbackcounter/msgs.go` 163. -/
abbrev IbcOrder := String
/-- Reading `IbcOrder`. -/
abbrev IbcOrder.ofJson : Json → Option IbcOrder := goString

/-- `/repo/e2e/interchaintestv8/types/callbackcounter/msgs.go` 18-26. -/
structure IbcChannel where
  ConnectionId : String
  CounterpartyEndpoint : IbcEndpoint
  Endpoint : IbcEndpoint
  Order : IbcOrder
  Version : String
/-- Reading `IbcChannel`. -/
def IbcChannel.ofJson (j : Json) : Option IbcChannel :=
  goStruct j fun fs =>
  (goString (goField ["connection_id", "counterparty_endpoint", "endpoint", "order", "version"] "connection_id" fs)).bind fun x_ConnectionId =>
  (IbcEndpoint.ofJson (goField ["connection_id", "counterparty_endpoint", "endpoint", "order", "version"] "counterparty_endpoint" fs)).bind fun x_CounterpartyEndpoint =>
  (IbcEndpoint.ofJson (goField ["connection_id", "counterparty_endpoint", "endpoint", "order", "version"] "endpoint" fs)).bind fun x_Endpoint =>
  (IbcOrder.ofJson (goField ["connection_id", "counterparty_endpoint", "endpoint", "order", "version"] "order" fs)).bind fun x_Order =>
  (goString (goField ["connection_id", "counterparty_endpoint", "endpoint", "order", "version"] "version" fs)).bind fun x_Version =>
  some { ConnectionId := x_ConnectionId, CounterpartyEndpoint := x_CounterpartyEndpoint, Endpoint := x_Endpoint, Order := x_Order, Version := x_Version }

/-- `/repo/e2e/interchaintestv8/types/callbackcounter/msgs.go` 401-408. -/
structure IcaControllerCallbackMsg_OnChannelOpenAckCallback where
  TxEncoding : TxEncoding
  Channel : IbcChannel
  IcaAddress : String
/-- Reading `IcaControllerCallbackMsg_OnChannelOpenAckCallback`. -/
def IcaControllerCallbackMsg_OnChannelOpenAckCallback.ofJson (j : Json) : Option IcaControllerCallbackMsg_OnChannelOpenAckCallback :=
  goStruct j fun fs =>
  (TxEncoding.ofJson (goField ["tx_encoding", "channel", "ica_address"] "tx_encoding" fs)).bind fun x_TxEncoding =>
  (IbcChannel.ofJson (goField ["tx_encoding", "channel", "ica_address"] "channel" fs)).bind fun x_Channel =>
  (goString (goField ["tx_encoding", "channel", "ica_address"] "ica_address" fs)).bind fun x_IcaAddress =>
  some { TxEncoding := x_TxEncoding, Channel := x_Channel, IcaAddress := x_IcaAddress }

/-- `/repo/e2e/interchaintestv8/types/callbackcounter/msgs.go` 64-71. -/
structure IcaControllerCallbackMsg where
  OnAcknowledgementPacketCallback : Option IcaControllerCallbackMsg_OnAcknowledgementPacketCallback := none
  OnTimeoutPacketCallback : Option IcaControllerCallbackMsg_OnTimeoutPacketCallback := none
  OnChannelOpenAckCallback : Option IcaControllerCallbackMsg_OnChannelOpenAckCallback := none
/-- Reading `IcaControllerCallbackMsg`. -/
def IcaControllerCallbackMsg.ofJson (j : Json) : Option IcaControllerCallbackMsg :=
  goStruct j fun fs =>
  ((goPointer IcaControllerCallbackMsg_OnAcknowledgementPacketCallback.ofJson) (goField ["on_acknowledgement_packet_callback", "on_timeout_packet_callback", "on_channel_open_ack_callback"] "on_acknowledgement_packet_callback" fs)).bind fun x_OnAcknowledgementPacketCallback =>
  ((goPointer IcaControllerCallbackMsg_OnTimeoutPacketCallback.ofJson) (goField ["on_acknowledgement_packet_callback", "on_timeout_packet_callback", "on_channel_open_ack_callback"] "on_timeout_packet_callback" fs)).bind fun x_OnTimeoutPacketCallback =>
  ((goPointer IcaControllerCallbackMsg_OnChannelOpenAckCallback.ofJson) (goField ["on_acknowledgement_packet_callback", "on_timeout_packet_callback", "on_channel_open_ack_callback"] "on_channel_open_ack_callback" fs)).bind fun x_OnChannelOpenAckCallback =>
  some { OnAcknowledgementPacketCallback := x_OnAcknowledgementPacketCallback, OnTimeoutPacketCallback := x_OnTimeoutPacketCallback, OnChannelOpenAckCallback := x_OnChannelOpenAckCallback }

/-- `/repo/e2e/interchaintestv8/types/callbackcounter/msgs.go` 314-321. -/
structure CallbackCounter where
  Error : Option (List IcaControllerCallbackMsg) := none
  Success : Option (List IcaControllerCallbackMsg) := none
  Timeout : Option (List IcaControllerCallbackMsg) := none
/-- Reading `CallbackCounter`. -/
def CallbackCounter.ofJson (j : Json) : Option CallbackCounter :=
  goStruct j fun fs =>
  ((goSlice IcaControllerCallbackMsg.ofJson) (goField ["error", "success", "timeout"] "error" fs)).bind fun x_Error =>
  ((goSlice IcaControllerCallbackMsg.ofJson) (goField ["error", "success", "timeout"] "success" fs)).bind fun x_Success =>
  ((goSlice IcaControllerCallbackMsg.ofJson) (goField ["error", "success", "timeout"] "timeout" fs)).bind fun x_Timeout =>
  some { Error := x_Error, Success := x_Success, Timeout := x_Timeout }

end GoCounter

end Ica
