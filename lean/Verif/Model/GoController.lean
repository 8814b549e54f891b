import Verif.Json

/-!
# The message types of the Go client

`/repo/e2e/interchaintestv8/types/cwicacontroller/msgs.go`, generated by `tools/gen_go.py`: the structures of the Go
programs that drive the contract and the JSON tree that Go's `encoding/json` makes of them (`toString`,
`/repo/e2e/interchaintestv8/types/contract.go` 105-113). A pointer is an `Option`, a slice an `Option` of a list (`nil`
is not the empty slice). Simplifications: an `int` is a natural number (a negative one is text the contract refuses), a
`string` is valid Unicode.
-/
namespace Ica

/-- The members of a structure that are written: `omitempty` leaves out nil pointers. -/
def present : List (String × Option Json) → List (String × Json)
  | [] => []
  | (_, none) :: l => present l
  | (k, some j) :: l => (k, j) :: present l

/-- A slice: `nil` is `null`. -/
def sliceJson {α : Type} (f : α → Json) : Option (List α) → Json
  | none => .null
  | some l => .arr (l.map f)

/-! ## `cwicacontroller` -/

namespace GoController

/-- `/repo/e2e/interchaintestv8/types/cwicacontroller/msgs.go` 472. -/
abbrev IbcOrder := String
/-- JSON of `IbcOrder`. -/
abbrev IbcOrder.json : IbcOrder → Json := Json.str

/-- `/repo/e2e/interchaintestv8/types/cwicacontroller/msgs.go` 43-52. -/
structure ChannelOpenInitOptions where
  ConnectionId : String
  CounterpartyConnectionId : String
  CounterpartyPortId : Option String := none
  ChannelOrdering : Option IbcOrder := none
/-- JSON of `ChannelOpenInitOptions`. -/
def ChannelOpenInitOptions.json (g : ChannelOpenInitOptions) : Json := .obj (present [("connection_id", some (Json.str g.ConnectionId)), ("counterparty_connection_id", some (Json.str g.CounterpartyConnectionId)), ("counterparty_port_id", g.CounterpartyPortId.map Json.str), ("channel_ordering", g.ChannelOrdering.map IbcOrder.json)])

/-- `/repo/e2e/interchaintestv8/types/cwicacontroller/msgs.go` 5-12. -/
structure InstantiateMsg where
  ChannelOpenInitOptions : ChannelOpenInitOptions
  Owner : Option String := none
  SendCallbacksTo : Option String := none
/-- JSON of `InstantiateMsg`. -/
def InstantiateMsg.json (g : InstantiateMsg) : Json := .obj (present [("channel_open_init_options", some (ChannelOpenInitOptions.json g.ChannelOpenInitOptions)), ("owner", g.Owner.map Json.str), ("send_callbacks_to", g.SendCallbacksTo.map Json.str)])

/-- `/repo/e2e/interchaintestv8/types/cwicacontroller/msgs.go` 190-193. -/
structure ExecuteMsg_CreateChannel where
  ChannelOpenInitOptions : Option ChannelOpenInitOptions := none
/-- JSON of `ExecuteMsg_CreateChannel`. -/
def ExecuteMsg_CreateChannel.json (g : ExecuteMsg_CreateChannel) : Json := .obj (present [("channel_open_init_options", g.ChannelOpenInitOptions.map ChannelOpenInitOptions.json)])

/-- `/repo/e2e/interchaintestv8/types/cwicacontroller/msgs.go` 103. -/
structure ExecuteMsg_CloseChannel where
/-- JSON of `ExecuteMsg_CloseChannel`. -/
def ExecuteMsg_CloseChannel.json (_ : ExecuteMsg_CloseChannel) : Json := .obj (present [])

/-- `/repo/e2e/interchaintestv8/types/cwicacontroller/msgs.go` 494. -/
abbrev Uint128 := String
/-- JSON of `Uint128`. -/
abbrev Uint128.json : Uint128 → Json := Json.str

/-- `/repo/e2e/interchaintestv8/types/cwicacontroller/msgs.go` 324-327. -/
structure Coin where
  Amount : Uint128
  Denom : String
/-- JSON of `Coin`. -/
def Coin.json (g : Coin) : Json := .obj (present [("amount", some (Uint128.json g.Amount)), ("denom", some (Json.str g.Denom))])

/-- `/repo/e2e/interchaintestv8/types/cwicacontroller/msgs.go` 734-737. -/
structure BankMsg_Send where
  Amount : Option (List Coin) := none
  ToAddress : String
/-- JSON of `BankMsg_Send`. -/
def BankMsg_Send.json (g : BankMsg_Send) : Json := .obj (present [("amount", some ((sliceJson Coin.json) g.Amount)), ("to_address", some (Json.str g.ToAddress))])

/-- `/repo/e2e/interchaintestv8/types/cwicacontroller/msgs.go` 782-784. -/
structure BankMsg_Burn where
  Amount : Option (List Coin) := none
/-- JSON of `BankMsg_Burn`. -/
def BankMsg_Burn.json (g : BankMsg_Burn) : Json := .obj (present [("amount", some ((sliceJson Coin.json) g.Amount))])

/-- `/repo/e2e/interchaintestv8/types/cwicacontroller/msgs.go` 229-238. -/
structure BankMsg where
  Send : Option BankMsg_Send := none
  Burn : Option BankMsg_Burn := none
/-- JSON of `BankMsg`. -/
def BankMsg.json (g : BankMsg) : Json := .obj (present [("send", g.Send.map BankMsg_Send.json), ("burn", g.Burn.map BankMsg_Burn.json)])

/-- `/repo/e2e/interchaintestv8/types/cwicacontroller/msgs.go` 640. -/
abbrev CosmosMsg_for_Empty_Bank := BankMsg
/-- JSON of `CosmosMsg_for_Empty_Bank`. -/
abbrev CosmosMsg_for_Empty_Bank.json : CosmosMsg_for_Empty_Bank → Json := BankMsg.json

/-- `/repo/e2e/interchaintestv8/types/cwicacontroller/msgs.go` 298. -/
structure Empty where
/-- JSON of `Empty`. -/
def Empty.json (_ : Empty) : Json := .obj (present [])

/-- `/repo/e2e/interchaintestv8/types/cwicacontroller/msgs.go` 663. -/
abbrev CosmosMsg_for_Empty_Custom := Empty
/-- JSON of `CosmosMsg_for_Empty_Custom`. -/
abbrev CosmosMsg_for_Empty_Custom.json : CosmosMsg_for_Empty_Custom → Json := Empty.json

/-- `/repo/e2e/interchaintestv8/types/cwicacontroller/msgs.go` 704-707. -/
structure StakingMsg_Delegate where
  Amount : Coin
  Validator : String
/-- JSON of `StakingMsg_Delegate`. -/
def StakingMsg_Delegate.json (g : StakingMsg_Delegate) : Json := .obj (present [("amount", some (Coin.json g.Amount)), ("validator", some (Json.str g.Validator))])

/-- `/repo/e2e/interchaintestv8/types/cwicacontroller/msgs.go` 723-726. -/
structure StakingMsg_Undelegate where
  Amount : Coin
  Validator : String
/-- JSON of `StakingMsg_Undelegate`. -/
def StakingMsg_Undelegate.json (g : StakingMsg_Undelegate) : Json := .obj (present [("amount", some (Coin.json g.Amount)), ("validator", some (Json.str g.Validator))])

/-- `/repo/e2e/interchaintestv8/types/cwicacontroller/msgs.go` 728-732. -/
structure StakingMsg_Redelegate where
  Amount : Coin
  DstValidator : String
  SrcValidator : String
/-- JSON of `StakingMsg_Redelegate`. -/
def StakingMsg_Redelegate.json (g : StakingMsg_Redelegate) : Json := .obj (present [("amount", some (Coin.json g.Amount)), ("dst_validator", some (Json.str g.DstValidator)), ("src_validator", some (Json.str g.SrcValidator))])

/-- `/repo/e2e/interchaintestv8/types/cwicacontroller/msgs.go` 356-363. -/
structure StakingMsg where
  Delegate : Option StakingMsg_Delegate := none
  Undelegate : Option StakingMsg_Undelegate := none
  Redelegate : Option StakingMsg_Redelegate := none
/-- JSON of `StakingMsg`. -/
def StakingMsg.json (g : StakingMsg) : Json := .obj (present [("delegate", g.Delegate.map StakingMsg_Delegate.json), ("undelegate", g.Undelegate.map StakingMsg_Undelegate.json), ("redelegate", g.Redelegate.map StakingMsg_Redelegate.json)])

/-- `/repo/e2e/interchaintestv8/types/cwicacontroller/msgs.go` 662. -/
abbrev CosmosMsg_for_Empty_Staking := StakingMsg
/-- JSON of `CosmosMsg_for_Empty_Staking`. -/
abbrev CosmosMsg_for_Empty_Staking.json : CosmosMsg_for_Empty_Staking → Json := StakingMsg.json

/-- `/repo/e2e/interchaintestv8/types/cwicacontroller/msgs.go` 691-694. -/
structure DistributionMsg_SetWithdrawAddress where
  Address : String
/-- JSON of `DistributionMsg_SetWithdrawAddress`. -/
def DistributionMsg_SetWithdrawAddress.json (g : DistributionMsg_SetWithdrawAddress) : Json := .obj (present [("address", some (Json.str g.Address))])

/-- `/repo/e2e/interchaintestv8/types/cwicacontroller/msgs.go` 636-639. -/
structure DistributionMsg_WithdrawDelegatorReward where
  Validator : String
/-- JSON of `DistributionMsg_WithdrawDelegatorReward`. -/
def DistributionMsg_WithdrawDelegatorReward.json (g : DistributionMsg_WithdrawDelegatorReward) : Json := .obj (present [("validator", some (Json.str g.Validator))])

/-- `/repo/e2e/interchaintestv8/types/cwicacontroller/msgs.go` 562-565. -/
structure DistributionMsg_FundCommunityPool where
  Amount : Option (List Coin) := none
/-- JSON of `DistributionMsg_FundCommunityPool`. -/
def DistributionMsg_FundCommunityPool.json (g : DistributionMsg_FundCommunityPool) : Json := .obj (present [("amount", some ((sliceJson Coin.json) g.Amount))])

/-- `/repo/e2e/interchaintestv8/types/cwicacontroller/msgs.go` 394-401. -/
structure DistributionMsg where
  SetWithdrawAddress : Option DistributionMsg_SetWithdrawAddress := none
  WithdrawDelegatorReward : Option DistributionMsg_WithdrawDelegatorReward := none
  FundCommunityPool : Option DistributionMsg_FundCommunityPool := none
/-- JSON of `DistributionMsg`. -/
def DistributionMsg.json (g : DistributionMsg) : Json := .obj (present [("set_withdraw_address", g.SetWithdrawAddress.map DistributionMsg_SetWithdrawAddress.json), ("withdraw_delegator_reward", g.WithdrawDelegatorReward.map DistributionMsg_WithdrawDelegatorReward.json), ("fund_community_pool", g.FundCommunityPool.map DistributionMsg_FundCommunityPool.json)])

/-- `/repo/e2e/interchaintestv8/types/cwicacontroller/msgs.go` 566. -/
abbrev CosmosMsg_for_Empty_Distribution := DistributionMsg
/-- JSON of `CosmosMsg_for_Empty_Distribution`. -/
abbrev CosmosMsg_for_Empty_Distribution.json : CosmosMsg_for_Empty_Distribution → Json := DistributionMsg.json

/-- `/repo/e2e/interchaintestv8/types/cwicacontroller/msgs.go` 174. -/
abbrev Binary := String
/-- JSON of `Binary`. -/
abbrev Binary.json : Binary → Json := Json.str

/-- `/repo/e2e/interchaintestv8/types/cwicacontroller/msgs.go` 770-773. -/
structure CosmosMsg_for_Empty_Stargate where
  TypeUrl : String
  Value : Binary
/-- JSON of `CosmosMsg_for_Empty_Stargate`. -/
def CosmosMsg_for_Empty_Stargate.json (g : CosmosMsg_for_Empty_Stargate) : Json := .obj (present [("type_url", some (Json.str g.TypeUrl)), ("value", some (Binary.json g.Value))])

/-- `/repo/e2e/interchaintestv8/types/cwicacontroller/msgs.go` 183-188. -/
structure IbcTimeoutBlock where
  Revision : Nat
  Height : Nat
/-- JSON of `IbcTimeoutBlock`. -/
def IbcTimeoutBlock.json (g : IbcTimeoutBlock) : Json := .obj (present [("revision", some (Json.num g.Revision)), ("height", some (Json.num g.Height))])

/-- `/repo/e2e/interchaintestv8/types/cwicacontroller/msgs.go` 311. -/
abbrev Uint64 := String
/-- JSON of `Uint64`. -/
abbrev Uint64.json : Uint64 → Json := Json.str

/-- `/repo/e2e/interchaintestv8/types/cwicacontroller/msgs.go` 126. -/
abbrev Timestamp := Uint64
/-- JSON of `Timestamp`. -/
abbrev Timestamp.json : Timestamp → Json := Uint64.json

/-- `/repo/e2e/interchaintestv8/types/cwicacontroller/msgs.go` 177-180. -/
structure IbcTimeout where
  Block : Option IbcTimeoutBlock := none
  Timestamp : Option Timestamp := none
/-- JSON of `IbcTimeout`. -/
def IbcTimeout.json (g : IbcTimeout) : Json := .obj (present [("block", g.Block.map IbcTimeoutBlock.json), ("timestamp", g.Timestamp.map Timestamp.json)])

/-- `/repo/e2e/interchaintestv8/types/cwicacontroller/msgs.go` 584-601. -/
structure IbcMsg_Transfer where
  Timeout : IbcTimeout
  ToAddress : String
  Amount : Coin
  ChannelId : String
  Memo : Option String := none
/-- JSON of `IbcMsg_Transfer`. -/
def IbcMsg_Transfer.json (g : IbcMsg_Transfer) : Json := .obj (present [("timeout", some (IbcTimeout.json g.Timeout)), ("to_address", some (Json.str g.ToAddress)), ("amount", some (Coin.json g.Amount)), ("channel_id", some (Json.str g.ChannelId)), ("memo", g.Memo.map Json.str)])

/-- `/repo/e2e/interchaintestv8/types/cwicacontroller/msgs.go` 802-807. -/
structure IbcMsg_SendPacket where
  ChannelId : String
  Data : Binary
  Timeout : IbcTimeout
/-- JSON of `IbcMsg_SendPacket`. -/
def IbcMsg_SendPacket.json (g : IbcMsg_SendPacket) : Json := .obj (present [("channel_id", some (Json.str g.ChannelId)), ("data", some (Binary.json g.Data)), ("timeout", some (IbcTimeout.json g.Timeout))])

/-- `/repo/e2e/interchaintestv8/types/cwicacontroller/msgs.go` 665-667. -/
structure IbcMsg_CloseChannel where
  ChannelId : String
/-- JSON of `IbcMsg_CloseChannel`. -/
def IbcMsg_CloseChannel.json (g : IbcMsg_CloseChannel) : Json := .obj (present [("channel_id", some (Json.str g.ChannelId))])

/-- `/repo/e2e/interchaintestv8/types/cwicacontroller/msgs.go` 434-441. -/
structure IbcMsg where
  Transfer : Option IbcMsg_Transfer := none
  SendPacket : Option IbcMsg_SendPacket := none
  CloseChannel : Option IbcMsg_CloseChannel := none
/-- JSON of `IbcMsg`. -/
def IbcMsg.json (g : IbcMsg) : Json := .obj (present [("transfer", g.Transfer.map IbcMsg_Transfer.json), ("send_packet", g.SendPacket.map IbcMsg_SendPacket.json), ("close_channel", g.CloseChannel.map IbcMsg_CloseChannel.json)])

/-- `/repo/e2e/interchaintestv8/types/cwicacontroller/msgs.go` 649. -/
abbrev CosmosMsg_for_Empty_Ibc := IbcMsg
/-- JSON of `CosmosMsg_for_Empty_Ibc`. -/
abbrev CosmosMsg_for_Empty_Ibc.json : CosmosMsg_for_Empty_Ibc → Json := IbcMsg.json

/-- `/repo/e2e/interchaintestv8/types/cwicacontroller/msgs.go` 743-748. -/
structure WasmMsg_Execute where
  ContractAddr : String
  Funds : Option (List Coin) := none
  Msg : Binary
/-- JSON of `WasmMsg_Execute`. -/
def WasmMsg_Execute.json (g : WasmMsg_Execute) : Json := .obj (present [("contract_addr", some (Json.str g.ContractAddr)), ("funds", some ((sliceJson Coin.json) g.Funds)), ("msg", some (Binary.json g.Msg))])

/-- `/repo/e2e/interchaintestv8/types/cwicacontroller/msgs.go` 756-768. -/
structure WasmMsg_Instantiate where
  CodeId : Nat
  Funds : Option (List Coin) := none
  Label : String
  Msg : Binary
  Admin : Option String := none
/-- JSON of `WasmMsg_Instantiate`. -/
def WasmMsg_Instantiate.json (g : WasmMsg_Instantiate) : Json := .obj (present [("code_id", some (Json.num g.CodeId)), ("funds", some ((sliceJson Coin.json) g.Funds)), ("label", some (Json.str g.Label)), ("msg", some (Binary.json g.Msg)), ("admin", g.Admin.map Json.str)])

/-- `/repo/e2e/interchaintestv8/types/cwicacontroller/msgs.go` 786-799. -/
structure WasmMsg_Instantiate2 where
  CodeId : Nat
  Funds : Option (List Coin) := none
  Label : String
  Msg : Binary
  Salt : Binary
  Admin : Option String := none
/-- JSON of `WasmMsg_Instantiate2`. -/
def WasmMsg_Instantiate2.json (g : WasmMsg_Instantiate2) : Json := .obj (present [("code_id", some (Json.num g.CodeId)), ("funds", some ((sliceJson Coin.json) g.Funds)), ("label", some (Json.str g.Label)), ("msg", some (Binary.json g.Msg)), ("salt", some (Binary.json g.Salt)), ("admin", g.Admin.map Json.str)])

/-- `/repo/e2e/interchaintestv8/types/cwicacontroller/msgs.go` 572-578. -/
structure WasmMsg_Migrate where
  ContractAddr : String
  Msg : Binary
  NewCodeId : Nat
/-- JSON of `WasmMsg_Migrate`. -/
def WasmMsg_Migrate.json (g : WasmMsg_Migrate) : Json := .obj (present [("contract_addr", some (Json.str g.ContractAddr)), ("msg", some (Binary.json g.Msg)), ("new_code_id", some (Json.num g.NewCodeId))])

/-- `/repo/e2e/interchaintestv8/types/cwicacontroller/msgs.go` 775-778. -/
structure WasmMsg_UpdateAdmin where
  Admin : String
  ContractAddr : String
/-- JSON of `WasmMsg_UpdateAdmin`. -/
def WasmMsg_UpdateAdmin.json (g : WasmMsg_UpdateAdmin) : Json := .obj (present [("admin", some (Json.str g.Admin)), ("contract_addr", some (Json.str g.ContractAddr))])

/-- `/repo/e2e/interchaintestv8/types/cwicacontroller/msgs.go` 719-721. -/
structure WasmMsg_ClearAdmin where
  ContractAddr : String
/-- JSON of `WasmMsg_ClearAdmin`. -/
def WasmMsg_ClearAdmin.json (g : WasmMsg_ClearAdmin) : Json := .obj (present [("contract_addr", some (Json.str g.ContractAddr))])

/-- `/repo/e2e/interchaintestv8/types/cwicacontroller/msgs.go` 68-101. -/
structure WasmMsg where
  Execute : Option WasmMsg_Execute := none
  Instantiate : Option WasmMsg_Instantiate := none
  Instantiate2 : Option WasmMsg_Instantiate2 := none
  Migrate : Option WasmMsg_Migrate := none
  UpdateAdmin : Option WasmMsg_UpdateAdmin := none
  ClearAdmin : Option WasmMsg_ClearAdmin := none
/-- JSON of `WasmMsg`. -/
def WasmMsg.json (g : WasmMsg) : Json := .obj (present [("execute", g.Execute.map WasmMsg_Execute.json), ("instantiate", g.Instantiate.map WasmMsg_Instantiate.json), ("instantiate2", g.Instantiate2.map WasmMsg_Instantiate2.json), ("migrate", g.Migrate.map WasmMsg_Migrate.json), ("update_admin", g.UpdateAdmin.map WasmMsg_UpdateAdmin.json), ("clear_admin", g.ClearAdmin.map WasmMsg_ClearAdmin.json)])

/-- `/repo/e2e/interchaintestv8/types/cwicacontroller/msgs.go` 669. -/
abbrev CosmosMsg_for_Empty_Wasm := WasmMsg
/-- JSON of `CosmosMsg_for_Empty_Wasm`. -/
abbrev CosmosMsg_for_Empty_Wasm.json : CosmosMsg_for_Empty_Wasm → Json := WasmMsg.json

/-- `/repo/e2e/interchaintestv8/types/cwicacontroller/msgs.go` 54. -/
abbrev VoteOption := String
/-- JSON of `VoteOption`. -/
abbrev VoteOption.json : VoteOption → Json := Json.str

/-- `/repo/e2e/interchaintestv8/types/cwicacontroller/msgs.go` 675-683. -/
structure GovMsg_Vote where
  ProposalId : Nat
  Option : VoteOption
/-- JSON of `GovMsg_Vote`. -/
def GovMsg_Vote.json (g : GovMsg_Vote) : Json := .obj (present [("proposal_id", some (Json.num g.ProposalId)), ("option", some (VoteOption.json g.Option))])

/-- `/repo/e2e/interchaintestv8/types/cwicacontroller/msgs.go` 200. -/
abbrev Decimal := String
/-- JSON of `Decimal`. -/
abbrev Decimal.json : Decimal → Json := Json.str

/-- `/repo/e2e/interchaintestv8/types/cwicacontroller/msgs.go` 453-456. -/
structure WeightedVoteOption where
  Option : VoteOption
  Weight : Decimal
/-- JSON of `WeightedVoteOption`. -/
def WeightedVoteOption.json (g : WeightedVoteOption) : Json := .obj (present [("option", some (VoteOption.json g.Option)), ("weight", some (Decimal.json g.Weight))])

/-- `/repo/e2e/interchaintestv8/types/cwicacontroller/msgs.go` 645-648. -/
structure GovMsg_VoteWeighted where
  Options : Option (List WeightedVoteOption) := none
  ProposalId : Nat
/-- JSON of `GovMsg_VoteWeighted`. -/
def GovMsg_VoteWeighted.json (g : GovMsg_VoteWeighted) : Json := .obj (present [("options", some ((sliceJson WeightedVoteOption.json) g.Options)), ("proposal_id", some (Json.num g.ProposalId))])

/-- `/repo/e2e/interchaintestv8/types/cwicacontroller/msgs.go` 515-520. -/
structure GovMsg where
  Vote : Option GovMsg_Vote := none
  VoteWeighted : Option GovMsg_VoteWeighted := none
/-- JSON of `GovMsg`. -/
def GovMsg.json (g : GovMsg) : Json := .obj (present [("vote", g.Vote.map GovMsg_Vote.json), ("vote_weighted", g.VoteWeighted.map GovMsg_VoteWeighted.json)])

/-- `/repo/e2e/interchaintestv8/types/cwicacontroller/msgs.go` 779. -/
abbrev CosmosMsg_for_Empty_Gov := GovMsg
/-- JSON of `CosmosMsg_for_Empty_Gov`. -/
abbrev CosmosMsg_for_Empty_Gov.json : CosmosMsg_for_Empty_Gov → Json := GovMsg.json

/-- `/repo/e2e/interchaintestv8/types/cwicacontroller/msgs.go` 403-413. -/
structure CosmosMsg_for_Empty where
  Bank : Option CosmosMsg_for_Empty_Bank := none
  Custom : Option CosmosMsg_for_Empty_Custom := none
  Staking : Option CosmosMsg_for_Empty_Staking := none
  Distribution : Option CosmosMsg_for_Empty_Distribution := none
  Stargate : Option CosmosMsg_for_Empty_Stargate := none
  Ibc : Option CosmosMsg_for_Empty_Ibc := none
  Wasm : Option CosmosMsg_for_Empty_Wasm := none
  Gov : Option CosmosMsg_for_Empty_Gov := none
/-- JSON of `CosmosMsg_for_Empty`. -/
def CosmosMsg_for_Empty.json (g : CosmosMsg_for_Empty) : Json := .obj (present [("bank", g.Bank.map CosmosMsg_for_Empty_Bank.json), ("custom", g.Custom.map CosmosMsg_for_Empty_Custom.json), ("staking", g.Staking.map CosmosMsg_for_Empty_Staking.json), ("distribution", g.Distribution.map CosmosMsg_for_Empty_Distribution.json), ("stargate", g.Stargate.map CosmosMsg_for_Empty_Stargate.json), ("ibc", g.Ibc.map CosmosMsg_for_Empty_Ibc.json), ("wasm", g.Wasm.map CosmosMsg_for_Empty_Wasm.json), ("gov", g.Gov.map CosmosMsg_for_Empty_Gov.json)])

/-- `/repo/e2e/interchaintestv8/types/cwicacontroller/msgs.go` 715-717. -/
structure BankQuery_Supply where
  Denom : String
/-- JSON of `BankQuery_Supply`. -/
def BankQuery_Supply.json (g : BankQuery_Supply) : Json := .obj (present [("denom", some (Json.str g.Denom))])

/-- `/repo/e2e/interchaintestv8/types/cwicacontroller/msgs.go` 686-689. -/
structure BankQuery_Balance where
  Address : String
  Denom : String
/-- JSON of `BankQuery_Balance`. -/
def BankQuery_Balance.json (g : BankQuery_Balance) : Json := .obj (present [("address", some (Json.str g.Address)), ("denom", some (Json.str g.Denom))])

/-- `/repo/e2e/interchaintestv8/types/cwicacontroller/msgs.go` 671-673. -/
structure BankQuery_AllBalances where
  Address : String
/-- JSON of `BankQuery_AllBalances`. -/
def BankQuery_AllBalances.json (g : BankQuery_AllBalances) : Json := .obj (present [("address", some (Json.str g.Address))])

/-- `/repo/e2e/interchaintestv8/types/cwicacontroller/msgs.go` 809-811. -/
structure BankQuery_DenomMetadata where
  Denom : String
/-- JSON of `BankQuery_DenomMetadata`. -/
def BankQuery_DenomMetadata.json (g : BankQuery_DenomMetadata) : Json := .obj (present [("denom", some (Json.str g.Denom))])

/-- `/repo/e2e/interchaintestv8/types/cwicacontroller/msgs.go` 416-420. -/
structure PageRequest where
  Key : Option Binary := none
  Limit : Nat
  Reverse : Bool
/-- JSON of `PageRequest`. -/
def PageRequest.json (g : PageRequest) : Json := .obj (present [("key", g.Key.map Binary.json), ("limit", some (Json.num g.Limit)), ("reverse", some (Json.bool g.Reverse))])

/-- `/repo/e2e/interchaintestv8/types/cwicacontroller/msgs.go` 558-560. -/
structure BankQuery_AllDenomMetadata where
  Pagination : Option PageRequest := none
/-- JSON of `BankQuery_AllDenomMetadata`. -/
def BankQuery_AllDenomMetadata.json (g : BankQuery_AllDenomMetadata) : Json := .obj (present [("pagination", g.Pagination.map PageRequest.json)])

/-- `/repo/e2e/interchaintestv8/types/cwicacontroller/msgs.go` 156-167. -/
structure BankQuery where
  Supply : Option BankQuery_Supply := none
  Balance : Option BankQuery_Balance := none
  AllBalances : Option BankQuery_AllBalances := none
  DenomMetadata : Option BankQuery_DenomMetadata := none
  AllDenomMetadata : Option BankQuery_AllDenomMetadata := none
/-- JSON of `BankQuery`. -/
def BankQuery.json (g : BankQuery) : Json := .obj (present [("supply", g.Supply.map BankQuery_Supply.json), ("balance", g.Balance.map BankQuery_Balance.json), ("all_balances", g.AllBalances.map BankQuery_AllBalances.json), ("denom_metadata", g.DenomMetadata.map BankQuery_DenomMetadata.json), ("all_denom_metadata", g.AllDenomMetadata.map BankQuery_AllDenomMetadata.json)])

/-- `/repo/e2e/interchaintestv8/types/cwicacontroller/msgs.go` 641. -/
abbrev QueryRequest_for_Empty_Bank := BankQuery
/-- JSON of `QueryRequest_for_Empty_Bank`. -/
abbrev QueryRequest_for_Empty_Bank.json : QueryRequest_for_Empty_Bank → Json := BankQuery.json

/-- `/repo/e2e/interchaintestv8/types/cwicacontroller/msgs.go` 668. -/
abbrev QueryRequest_for_Empty_Custom := Empty
/-- JSON of `QueryRequest_for_Empty_Custom`. -/
abbrev QueryRequest_for_Empty_Custom.json : QueryRequest_for_Empty_Custom → Json := Empty.json

/-- `/repo/e2e/interchaintestv8/types/cwicacontroller/msgs.go` 656. -/
structure StakingQuery_BondedDenom where
/-- JSON of `StakingQuery_BondedDenom`. -/
def StakingQuery_BondedDenom.json (_ : StakingQuery_BondedDenom) : Json := .obj (present [])

/-- `/repo/e2e/interchaintestv8/types/cwicacontroller/msgs.go` 627-629. -/
structure StakingQuery_AllDelegations where
  Delegator : String
/-- JSON of `StakingQuery_AllDelegations`. -/
def StakingQuery_AllDelegations.json (g : StakingQuery_AllDelegations) : Json := .obj (present [("delegator", some (Json.str g.Delegator))])

/-- `/repo/e2e/interchaintestv8/types/cwicacontroller/msgs.go` 658-661. -/
structure StakingQuery_Delegation where
  Delegator : String
  Validator : String
/-- JSON of `StakingQuery_Delegation`. -/
def StakingQuery_Delegation.json (g : StakingQuery_Delegation) : Json := .obj (present [("delegator", some (Json.str g.Delegator)), ("validator", some (Json.str g.Validator))])

/-- `/repo/e2e/interchaintestv8/types/cwicacontroller/msgs.go` 603. -/
structure StakingQuery_AllValidators where
/-- JSON of `StakingQuery_AllValidators`. -/
def StakingQuery_AllValidators.json (_ : StakingQuery_AllValidators) : Json := .obj (present [])

/-- `/repo/e2e/interchaintestv8/types/cwicacontroller/msgs.go` 651-654. -/
structure StakingQuery_Validator where
  Address : String
/-- JSON of `StakingQuery_Validator`. -/
def StakingQuery_Validator.json (g : StakingQuery_Validator) : Json := .obj (present [("address", some (Json.str g.Address))])

/-- `/repo/e2e/interchaintestv8/types/cwicacontroller/msgs.go` 522-541. -/
structure StakingQuery where
  BondedDenom : Option StakingQuery_BondedDenom := none
  AllDelegations : Option StakingQuery_AllDelegations := none
  Delegation : Option StakingQuery_Delegation := none
  AllValidators : Option StakingQuery_AllValidators := none
  Validator : Option StakingQuery_Validator := none
/-- JSON of `StakingQuery`. -/
def StakingQuery.json (g : StakingQuery) : Json := .obj (present [("bonded_denom", g.BondedDenom.map StakingQuery_BondedDenom.json), ("all_delegations", g.AllDelegations.map StakingQuery_AllDelegations.json), ("delegation", g.Delegation.map StakingQuery_Delegation.json), ("all_validators", g.AllValidators.map StakingQuery_AllValidators.json), ("validator", g.Validator.map StakingQuery_Validator.json)])

/-- `/repo/e2e/interchaintestv8/types/cwicacontroller/msgs.go` 800. -/
abbrev QueryRequest_for_Empty_Staking := StakingQuery
/-- JSON of `QueryRequest_for_Empty_Staking`. -/
abbrev QueryRequest_for_Empty_Staking.json : QueryRequest_for_Empty_Staking → Json := StakingQuery.json

/-- `/repo/e2e/interchaintestv8/types/cwicacontroller/msgs.go` 568-570. -/
structure DistributionQuery_DelegatorWithdrawAddress where
  DelegatorAddress : String
/-- JSON of `DistributionQuery_DelegatorWithdrawAddress`. -/
def DistributionQuery_DelegatorWithdrawAddress.json (g : DistributionQuery_DelegatorWithdrawAddress) : Json := .obj (present [("delegator_address", some (Json.str g.DelegatorAddress))])

/-- `/repo/e2e/interchaintestv8/types/cwicacontroller/msgs.go` 631-634. -/
structure DistributionQuery_DelegationRewards where
  DelegatorAddress : String
  ValidatorAddress : String
/-- JSON of `DistributionQuery_DelegationRewards`. -/
def DistributionQuery_DelegationRewards.json (g : DistributionQuery_DelegationRewards) : Json := .obj (present [("delegator_address", some (Json.str g.DelegatorAddress)), ("validator_address", some (Json.str g.ValidatorAddress))])

/-- `/repo/e2e/interchaintestv8/types/cwicacontroller/msgs.go` 610-612. -/
structure DistributionQuery_DelegationTotalRewards where
  DelegatorAddress : String
/-- JSON of `DistributionQuery_DelegationTotalRewards`. -/
def DistributionQuery_DelegationTotalRewards.json (g : DistributionQuery_DelegationTotalRewards) : Json := .obj (present [("delegator_address", some (Json.str g.DelegatorAddress))])

/-- `/repo/e2e/interchaintestv8/types/cwicacontroller/msgs.go` 606-608. -/
structure DistributionQuery_DelegatorValidators where
  DelegatorAddress : String
/-- JSON of `DistributionQuery_DelegatorValidators`. -/
def DistributionQuery_DelegatorValidators.json (g : DistributionQuery_DelegatorValidators) : Json := .obj (present [("delegator_address", some (Json.str g.DelegatorAddress))])

/-- `/repo/e2e/interchaintestv8/types/cwicacontroller/msgs.go` 422-431. -/
structure DistributionQuery where
  DelegatorWithdrawAddress : Option DistributionQuery_DelegatorWithdrawAddress := none
  DelegationRewards : Option DistributionQuery_DelegationRewards := none
  DelegationTotalRewards : Option DistributionQuery_DelegationTotalRewards := none
  DelegatorValidators : Option DistributionQuery_DelegatorValidators := none
/-- JSON of `DistributionQuery`. -/
def DistributionQuery.json (g : DistributionQuery) : Json := .obj (present [("delegator_withdraw_address", g.DelegatorWithdrawAddress.map DistributionQuery_DelegatorWithdrawAddress.json), ("delegation_rewards", g.DelegationRewards.map DistributionQuery_DelegationRewards.json), ("delegation_total_rewards", g.DelegationTotalRewards.map DistributionQuery_DelegationTotalRewards.json), ("delegator_validators", g.DelegatorValidators.map DistributionQuery_DelegatorValidators.json)])

/-- `/repo/e2e/interchaintestv8/types/cwicacontroller/msgs.go` 684. -/
abbrev QueryRequest_for_Empty_Distribution := DistributionQuery
/-- JSON of `QueryRequest_for_Empty_Distribution`. -/
abbrev QueryRequest_for_Empty_Distribution.json : QueryRequest_for_Empty_Distribution → Json := DistributionQuery.json

/-- `/repo/e2e/interchaintestv8/types/cwicacontroller/msgs.go` 614-619. -/
structure QueryRequest_for_Empty_Stargate where
  Data : Binary
  Path : String
/-- JSON of `QueryRequest_for_Empty_Stargate`. -/
def QueryRequest_for_Empty_Stargate.json (g : QueryRequest_for_Empty_Stargate) : Json := .obj (present [("data", some (Binary.json g.Data)), ("path", some (Json.str g.Path))])

/-- `/repo/e2e/interchaintestv8/types/cwicacontroller/msgs.go` 697. -/
structure IbcQuery_PortId where
/-- JSON of `IbcQuery_PortId`. -/
def IbcQuery_PortId.json (_ : IbcQuery_PortId) : Json := .obj (present [])

/-- `/repo/e2e/interchaintestv8/types/cwicacontroller/msgs.go` 580-582. -/
structure IbcQuery_ListChannels where
  PortId : Option String := none
/-- JSON of `IbcQuery_ListChannels`. -/
def IbcQuery_ListChannels.json (g : IbcQuery_ListChannels) : Json := .obj (present [("port_id", g.PortId.map Json.str)])

/-- `/repo/e2e/interchaintestv8/types/cwicacontroller/msgs.go` 699-702. -/
structure IbcQuery_Channel where
  ChannelId : String
  PortId : Option String := none
/-- JSON of `IbcQuery_Channel`. -/
def IbcQuery_Channel.json (g : IbcQuery_Channel) : Json := .obj (present [("channel_id", some (Json.str g.ChannelId)), ("port_id", g.PortId.map Json.str)])

/-- `/repo/e2e/interchaintestv8/types/cwicacontroller/msgs.go` 203-222. -/
structure IbcQuery where
  PortId : Option IbcQuery_PortId := none
  ListChannels : Option IbcQuery_ListChannels := none
  Channel : Option IbcQuery_Channel := none
/-- JSON of `IbcQuery`. -/
def IbcQuery.json (g : IbcQuery) : Json := .obj (present [("port_id", g.PortId.map IbcQuery_PortId.json), ("list_channels", g.ListChannels.map IbcQuery_ListChannels.json), ("channel", g.Channel.map IbcQuery_Channel.json)])

/-- `/repo/e2e/interchaintestv8/types/cwicacontroller/msgs.go` 695. -/
abbrev QueryRequest_for_Empty_Ibc := IbcQuery
/-- JSON of `QueryRequest_for_Empty_Ibc`. -/
abbrev QueryRequest_for_Empty_Ibc.json : QueryRequest_for_Empty_Ibc → Json := IbcQuery.json

/-- `/repo/e2e/interchaintestv8/types/cwicacontroller/msgs.go` 750-754. -/
structure WasmQuery_Smart where
  ContractAddr : String
  Msg : Binary
/-- JSON of `WasmQuery_Smart`. -/
def WasmQuery_Smart.json (g : WasmQuery_Smart) : Json := .obj (present [("contract_addr", some (Json.str g.ContractAddr)), ("msg", some (Binary.json g.Msg))])

/-- `/repo/e2e/interchaintestv8/types/cwicacontroller/msgs.go` 621-625. -/
structure WasmQuery_Raw where
  ContractAddr : String
  Key : Binary
/-- JSON of `WasmQuery_Raw`. -/
def WasmQuery_Raw.json (g : WasmQuery_Raw) : Json := .obj (present [("contract_addr", some (Json.str g.ContractAddr)), ("key", some (Binary.json g.Key))])

/-- `/repo/e2e/interchaintestv8/types/cwicacontroller/msgs.go` 711-713. -/
structure WasmQuery_ContractInfo where
  ContractAddr : String
/-- JSON of `WasmQuery_ContractInfo`. -/
def WasmQuery_ContractInfo.json (g : WasmQuery_ContractInfo) : Json := .obj (present [("contract_addr", some (Json.str g.ContractAddr))])

/-- `/repo/e2e/interchaintestv8/types/cwicacontroller/msgs.go` 739-741. -/
structure WasmQuery_CodeInfo where
  CodeId : Nat
/-- JSON of `WasmQuery_CodeInfo`. -/
def WasmQuery_CodeInfo.json (g : WasmQuery_CodeInfo) : Json := .obj (present [("code_id", some (Json.num g.CodeId))])

/-- `/repo/e2e/interchaintestv8/types/cwicacontroller/msgs.go` 340-349. -/
structure WasmQuery where
  Smart : Option WasmQuery_Smart := none
  Raw : Option WasmQuery_Raw := none
  ContractInfo : Option WasmQuery_ContractInfo := none
  CodeInfo : Option WasmQuery_CodeInfo := none
/-- JSON of `WasmQuery`. -/
def WasmQuery.json (g : WasmQuery) : Json := .obj (present [("smart", g.Smart.map WasmQuery_Smart.json), ("raw", g.Raw.map WasmQuery_Raw.json), ("contract_info", g.ContractInfo.map WasmQuery_ContractInfo.json), ("code_info", g.CodeInfo.map WasmQuery_CodeInfo.json)])

/-- `/repo/e2e/interchaintestv8/types/cwicacontroller/msgs.go` 780. -/
abbrev QueryRequest_for_Empty_Wasm := WasmQuery
/-- JSON of `QueryRequest_for_Empty_Wasm`. -/
abbrev QueryRequest_for_Empty_Wasm.json : QueryRequest_for_Empty_Wasm → Json := WasmQuery.json

/-- `/repo/e2e/interchaintestv8/types/cwicacontroller/msgs.go` 329-338. -/
structure QueryRequest_for_Empty where
  Bank : Option QueryRequest_for_Empty_Bank := none
  Custom : Option QueryRequest_for_Empty_Custom := none
  Staking : Option QueryRequest_for_Empty_Staking := none
  Distribution : Option QueryRequest_for_Empty_Distribution := none
  Stargate : Option QueryRequest_for_Empty_Stargate := none
  Ibc : Option QueryRequest_for_Empty_Ibc := none
  Wasm : Option QueryRequest_for_Empty_Wasm := none
/-- JSON of `QueryRequest_for_Empty`. -/
def QueryRequest_for_Empty.json (g : QueryRequest_for_Empty) : Json := .obj (present [("bank", g.Bank.map QueryRequest_for_Empty_Bank.json), ("custom", g.Custom.map QueryRequest_for_Empty_Custom.json), ("staking", g.Staking.map QueryRequest_for_Empty_Staking.json), ("distribution", g.Distribution.map QueryRequest_for_Empty_Distribution.json), ("stargate", g.Stargate.map QueryRequest_for_Empty_Stargate.json), ("ibc", g.Ibc.map QueryRequest_for_Empty_Ibc.json), ("wasm", g.Wasm.map QueryRequest_for_Empty_Wasm.json)])

/-- `/repo/e2e/interchaintestv8/types/cwicacontroller/msgs.go` 313-322. -/
structure ExecuteMsg_SendCosmosMsgs where
  Messages : Option (List CosmosMsg_for_Empty) := none
  PacketMemo : Option String := none
  Queries : Option (List QueryRequest_for_Empty) := none
  TimeoutSeconds : Option Nat := none
/-- JSON of `ExecuteMsg_SendCosmosMsgs`. -/
def ExecuteMsg_SendCosmosMsgs.json (g : ExecuteMsg_SendCosmosMsgs) : Json := .obj (present [("messages", some ((sliceJson CosmosMsg_for_Empty.json) g.Messages)), ("packet_memo", g.PacketMemo.map Json.str), ("queries", some ((sliceJson QueryRequest_for_Empty.json) g.Queries)), ("timeout_seconds", g.TimeoutSeconds.map Json.num)])

/-- `/repo/e2e/interchaintestv8/types/cwicacontroller/msgs.go` 151-154. -/
structure ExecuteMsg_UpdateCallbackAddress where
  CallbackAddress : Option String := none
/-- JSON of `ExecuteMsg_UpdateCallbackAddress`. -/
def ExecuteMsg_UpdateCallbackAddress.json (g : ExecuteMsg_UpdateCallbackAddress) : Json := .obj (present [("callback_address", g.CallbackAddress.map Json.str)])

/-- `/repo/e2e/interchaintestv8/types/cwicacontroller/msgs.go` 709. -/
abbrev Expiration_AtHeight := Nat
/-- JSON of `Expiration_AtHeight`. -/
abbrev Expiration_AtHeight.json : Expiration_AtHeight → Json := Json.num

/-- `/repo/e2e/interchaintestv8/types/cwicacontroller/msgs.go` 604. -/
abbrev Expiration_AtTime := Timestamp
/-- JSON of `Expiration_AtTime`. -/
abbrev Expiration_AtTime.json : Expiration_AtTime → Json := Timestamp.json

/-- `/repo/e2e/interchaintestv8/types/cwicacontroller/msgs.go` 643. -/
structure Expiration_Never where
/-- JSON of `Expiration_Never`. -/
def Expiration_Never.json (_ : Expiration_Never) : Json := .obj (present [])

/-- `/repo/e2e/interchaintestv8/types/cwicacontroller/msgs.go` 106-113. -/
structure Expiration where
  AtHeight : Option Expiration_AtHeight := none
  AtTime : Option Expiration_AtTime := none
  Never : Option Expiration_Never := none
/-- JSON of `Expiration`. -/
def Expiration.json (g : Expiration) : Json := .obj (present [("at_height", g.AtHeight.map Expiration_AtHeight.json), ("at_time", g.AtTime.map Expiration_AtTime.json), ("never", g.Never.map Expiration_Never.json)])

/-- `/repo/e2e/interchaintestv8/types/cwicacontroller/msgs.go` 258-261. -/
structure Action_TransferOwnership where
  NewOwner : String
  Expiry : Option Expiration := none
/-- JSON of `Action_TransferOwnership`. -/
def Action_TransferOwnership.json (g : Action_TransferOwnership) : Json := .obj (present [("new_owner", some (Json.str g.NewOwner)), ("expiry", g.Expiry.map Expiration.json)])

/-- `/repo/e2e/interchaintestv8/types/cwicacontroller/msgs.go` 267. -/
abbrev Action_AcceptOwnership := String
/-- JSON of `Action_AcceptOwnership`. -/
abbrev Action_AcceptOwnership.json : Action_AcceptOwnership → Json := Json.str

/-- `/repo/e2e/interchaintestv8/types/cwicacontroller/msgs.go` 280. -/
abbrev Action_RenounceOwnership := String
/-- JSON of `Action_RenounceOwnership`. -/
abbrev Action_RenounceOwnership.json : Action_RenounceOwnership → Json := Json.str

/-- `/repo/e2e/interchaintestv8/types/cwicacontroller/msgs.go` 252-254: an interface and the types that implement it (`nil` is the interface without a value). Marshalling an
interface marshals what is in it, without the name of its type. -/
inductive Action where
  | nil
  | transferOwnership (x : Action_TransferOwnership)
  | acceptOwnership (x : Action_AcceptOwnership)
  | renounceOwnership (x : Action_RenounceOwnership)
/-- JSON of `Action`. -/
def Action.json : Action → Json
  | .nil => .null
  | .transferOwnership x => Action_TransferOwnership.json x
  | .acceptOwnership x => Action_AcceptOwnership.json x
  | .renounceOwnership x => Action_RenounceOwnership.json x

/-- `/repo/e2e/interchaintestv8/types/cwicacontroller/msgs.go` 479. -/
abbrev ExecuteMsg_UpdateOwnership := Action
/-- JSON of `ExecuteMsg_UpdateOwnership`. -/
abbrev ExecuteMsg_UpdateOwnership.json : ExecuteMsg_UpdateOwnership → Json := Action.json

/-- `/repo/e2e/interchaintestv8/types/cwicacontroller/msgs.go` 15-30. -/
structure ExecuteMsg where
  CreateChannel : Option ExecuteMsg_CreateChannel := none
  CloseChannel : Option ExecuteMsg_CloseChannel := none
  SendCosmosMsgs : Option ExecuteMsg_SendCosmosMsgs := none
  UpdateCallbackAddress : Option ExecuteMsg_UpdateCallbackAddress := none
  UpdateOwnership : Option ExecuteMsg_UpdateOwnership := none
/-- JSON of `ExecuteMsg`. -/
def ExecuteMsg.json (g : ExecuteMsg) : Json := .obj (present [("create_channel", g.CreateChannel.map ExecuteMsg_CreateChannel.json), ("close_channel", g.CloseChannel.map ExecuteMsg_CloseChannel.json), ("send_cosmos_msgs", g.SendCosmosMsgs.map ExecuteMsg_SendCosmosMsgs.json), ("update_callback_address", g.UpdateCallbackAddress.map ExecuteMsg_UpdateCallbackAddress.json), ("update_ownership", g.UpdateOwnership.map ExecuteMsg_UpdateOwnership.json)])

/-- `/repo/e2e/interchaintestv8/types/cwicacontroller/msgs.go` 458. -/
structure QueryMsg_GetChannel where
/-- JSON of `QueryMsg_GetChannel`. -/
def QueryMsg_GetChannel.json (_ : QueryMsg_GetChannel) : Json := .obj (present [])

/-- `/repo/e2e/interchaintestv8/types/cwicacontroller/msgs.go` 365. -/
structure QueryMsg_GetContractState where
/-- JSON of `QueryMsg_GetContractState`. -/
def QueryMsg_GetContractState.json (_ : QueryMsg_GetContractState) : Json := .obj (present [])

/-- `/repo/e2e/interchaintestv8/types/cwicacontroller/msgs.go` 367. -/
structure QueryMsg_Ownership where
/-- JSON of `QueryMsg_Ownership`. -/
def QueryMsg_Ownership.json (_ : QueryMsg_Ownership) : Json := .obj (present [])

/-- `/repo/e2e/interchaintestv8/types/cwicacontroller/msgs.go` 33-40. -/
structure QueryMsg where
  GetChannel : Option QueryMsg_GetChannel := none
  GetContractState : Option QueryMsg_GetContractState := none
  Ownership : Option QueryMsg_Ownership := none
/-- JSON of `QueryMsg`. -/
def QueryMsg.json (g : QueryMsg) : Json := .obj (present [("get_channel", g.GetChannel.map QueryMsg_GetChannel.json), ("get_contract_state", g.GetContractState.map QueryMsg_GetContractState.json), ("ownership", g.Ownership.map QueryMsg_Ownership.json)])

end GoController

end Ica
