import Verif.Spec.OwnerApi
import Verif.Model.GoOwner

/-!
# What a program that uses the Go client means

Which message of the contract a Go value stands for: exactly one pointer of a union is set, numbers are the same numbers,
strings of digits and base64 stand for what they spell. Only the Go structures and the messages of the contract are
mentioned, not their JSON; the spellings of numbers and bytes inside strings are those of `Spec/Api.lean`.
-/
namespace Ica.GoMeans

/-- The string spells the value. -/
def Spelled {β : Type} (r : Api.Shape β) (s : String) (x : β) : Prop := r (.str s) x
/-- A slice that is not `nil`. -/
def Slice {α β : Type} (r : α → β → Prop) (o : Option (List α)) (l : List β) : Prop := ∃ xs, o = some xs ∧ List.Forall₂ r xs l
/-- A slice; `nil` is empty. -/
def SliceOrNil {α β : Type} (r : α → β → Prop) (o : Option (List α)) (l : List β) : Prop :=
  (o = none ∧ l = []) ∨ Slice r o l
/-- A pointer. -/
def Pointer {α β : Type} (r : α → β → Prop) (o : Option α) (x : Option β) : Prop :=
  (o = none ∧ x = none) ∨ ∃ a b, o = some a ∧ x = some b ∧ r a b

section
open GoController

/-- A 64-bit number. -/
def Num (i : Nat) (n : UInt64) : Prop := i = n.toNat
/-- A coin. -/
def Coins (g : GoController.Coin) (c : Ica.Coin) : Prop := g.Denom = c.denom ∧ Spelled Api.Quoted128 g.Amount c.amount
/-- The order of a channel: one of the two constants. -/
def Order (s : String) : Ica.IbcOrder → Prop
  | .unordered => s = "ORDER_UNORDERED"
  | .ordered => s = "ORDER_ORDERED"
/-- The options of a channel. -/
def Options (g : GoController.ChannelOpenInitOptions) (o : Ica.ChannelOpenInitOptions) : Prop :=
  g.ConnectionId = o.connectionId ∧ g.CounterpartyConnectionId = o.counterpartyConnectionId ∧
  g.CounterpartyPortId = o.counterpartyPortId ∧ Pointer Order g.ChannelOrdering o.channelOrdering

/-- Bank messages. -/
def Bank (g : GoController.BankMsg) : Ica.BankMsg → Prop
  | .send a l => ∃ x, g = { Send := some x } ∧ x.ToAddress = a ∧ Slice Coins x.Amount l
  | .burn l => ∃ x, g = { Burn := some x } ∧ Slice Coins x.Amount l
/-- Staking messages. -/
def Staking (g : GoController.StakingMsg) : Ica.StakingMsg → Prop
  | .delegate v c => ∃ x, g = { Delegate := some x } ∧ x.Validator = v ∧ Coins x.Amount c
  | .undelegate v c => ∃ x, g = { Undelegate := some x } ∧ x.Validator = v ∧ Coins x.Amount c
  | .redelegate s d c => ∃ x, g = { Redelegate := some x } ∧ x.SrcValidator = s ∧ x.DstValidator = d ∧ Coins x.Amount c
/-- Distribution messages. -/
def Distribution (g : GoController.DistributionMsg) : Ica.DistributionMsg → Prop
  | .setWithdrawAddress a => ∃ x, g = { SetWithdrawAddress := some x } ∧ x.Address = a
  | .withdrawDelegatorReward v => ∃ x, g = { WithdrawDelegatorReward := some x } ∧ x.Validator = v
  | .fundCommunityPool l => ∃ x, g = { FundCommunityPool := some x } ∧ Slice Coins x.Amount l
/-- A timeout. -/
def Timeout (g : GoController.IbcTimeout) (t : Ica.IbcTimeout) : Prop :=
  Pointer (fun (b : GoController.IbcTimeoutBlock) (c : Ica.IbcTimeoutBlock) => Num b.Revision c.revision ∧ Num b.Height c.height)
    g.Block t.block ∧
  Pointer (Spelled Api.Quoted64) g.Timestamp t.timestamp
/-- IBC messages. -/
def Ibc (g : GoController.IbcMsg) : Ica.IbcMsg → Prop
  | .transfer c a m t memo => ∃ x, g = { Transfer := some x } ∧ x.ChannelId = c ∧ x.ToAddress = a ∧ Coins x.Amount m ∧
      Timeout x.Timeout t ∧ x.Memo = memo
  | .sendPacket c d t => ∃ x, g = { SendPacket := some x } ∧ x.ChannelId = c ∧ Spelled Api.Base64 x.Data d ∧ Timeout x.Timeout t
  | .closeChannel c => ∃ x, g = { CloseChannel := some x } ∧ x.ChannelId = c
/-- Wasm messages. -/
def Wasm (g : GoController.WasmMsg) : Ica.WasmMsg → Prop
  | .execute c m f => ∃ x, g = { Execute := some x } ∧ x.ContractAddr = c ∧ Spelled Api.Base64 x.Msg m ∧ Slice Coins x.Funds f
  | .instantiate a c m f l => ∃ x, g = { Instantiate := some x } ∧ x.Admin = a ∧ Num x.CodeId c ∧ Spelled Api.Base64 x.Msg m ∧
      Slice Coins x.Funds f ∧ x.Label = l
  | .instantiate2 a c l m f s => ∃ x, g = { Instantiate2 := some x } ∧ x.Admin = a ∧ Num x.CodeId c ∧ x.Label = l ∧
      Spelled Api.Base64 x.Msg m ∧ Slice Coins x.Funds f ∧ Spelled Api.Base64 x.Salt s
  | .migrate c n m => ∃ x, g = { Migrate := some x } ∧ x.ContractAddr = c ∧ Num x.NewCodeId n ∧ Spelled Api.Base64 x.Msg m
  | .updateAdmin c a => ∃ x, g = { UpdateAdmin := some x } ∧ x.ContractAddr = c ∧ x.Admin = a
  | .clearAdmin c => ∃ x, g = { ClearAdmin := some x } ∧ x.ContractAddr = c
/-- A vote: one of the four constants. -/
def Vote (s : String) : Ica.VoteOption → Prop
  | .yes => s = "yes"
  | .no => s = "no"
  | .abstain => s = "abstain"
  | .noWithVeto => s = "no_with_veto"
/-- Governance messages. -/
def Gov (g : GoController.GovMsg) : Ica.GovMsg → Prop
  | .vote p o => ∃ x, g = { Vote := some x } ∧ Num x.ProposalId p ∧ Vote x.Option o
  | .voteWeighted p os => ∃ x, g = { VoteWeighted := some x } ∧ Num x.ProposalId p ∧
      Slice (fun (a : GoController.WeightedVoteOption) (b : Ica.WeightedVoteOption) =>
        Vote a.Option b.option ∧ Spelled Api.QuotedDecimal a.Weight b.weight) x.Options os
/-- Messages for the host. -/
def Cosmos (g : CosmosMsg_for_Empty) : Ica.CosmosMsg → Prop
  | .bank m => ∃ x, g = { Bank := some x } ∧ Bank x m
  | .custom _ => ∃ x, g = { Custom := some x }
  | .staking m => ∃ x, g = { Staking := some x } ∧ Staking x m
  | .distribution m => ∃ x, g = { Distribution := some x } ∧ Distribution x m
  | .stargate u v => ∃ x, g = { Stargate := some x } ∧ x.TypeUrl = u ∧ Spelled Api.Base64 x.Value v
  | .ibc m => ∃ x, g = { Ibc := some x } ∧ Ibc x m
  | .wasm m => ∃ x, g = { Wasm := some x } ∧ Wasm x m
  | .gov m => ∃ x, g = { Gov := some x } ∧ Gov x m

/-- Bank queries. -/
def BankQ (g : GoController.BankQuery) : Ica.BankQuery → Prop
  | .supply d => ∃ x, g = { Supply := some x } ∧ x.Denom = d
  | .balance a d => ∃ x, g = { Balance := some x } ∧ x.Address = a ∧ x.Denom = d
  | .allBalances a => ∃ x, g = { AllBalances := some x } ∧ x.Address = a
  | .denomMetadata d => ∃ x, g = { DenomMetadata := some x } ∧ x.Denom = d
  | .allDenomMetadata p => ∃ x, g = { AllDenomMetadata := some x } ∧
      Pointer (fun (a : GoController.PageRequest) (b : Ica.PageRequest) => Pointer (Spelled Api.Base64) a.Key b.key ∧
        a.Limit = b.limit.toNat ∧ a.Reverse = b.reverse) x.Pagination p
/-- Staking queries. -/
def StakingQ (g : GoController.StakingQuery) : Ica.StakingQuery → Prop
  | .bondedDenom => ∃ x, g = { BondedDenom := some x }
  | .allDelegations d => ∃ x, g = { AllDelegations := some x } ∧ x.Delegator = d
  | .delegation d v => ∃ x, g = { Delegation := some x } ∧ x.Delegator = d ∧ x.Validator = v
  | .allValidators => ∃ x, g = { AllValidators := some x }
  | .validator a => ∃ x, g = { Validator := some x } ∧ x.Address = a
/-- Distribution queries. -/
def DistributionQ (g : GoController.DistributionQuery) : Ica.DistributionQuery → Prop
  | .delegatorWithdrawAddress d => ∃ x, g = { DelegatorWithdrawAddress := some x } ∧ x.DelegatorAddress = d
  | .delegationRewards d v => ∃ x, g = { DelegationRewards := some x } ∧ x.DelegatorAddress = d ∧ x.ValidatorAddress = v
  | .delegationTotalRewards d => ∃ x, g = { DelegationTotalRewards := some x } ∧ x.DelegatorAddress = d
  | .delegatorValidators d => ∃ x, g = { DelegatorValidators := some x } ∧ x.DelegatorAddress = d
/-- IBC queries. -/
def IbcQ (g : GoController.IbcQuery) : Ica.IbcQuery → Prop
  | .portId => ∃ x, g = { PortId := some x }
  | .listChannels p => ∃ x, g = { ListChannels := some x } ∧ x.PortId = p
  | .channel c p => ∃ x, g = { Channel := some x } ∧ x.ChannelId = c ∧ x.PortId = p
/-- Wasm queries. -/
def WasmQ (g : GoController.WasmQuery) : Ica.WasmQuery → Prop
  | .smart c m => ∃ x, g = { Smart := some x } ∧ x.ContractAddr = c ∧ Spelled Api.Base64 x.Msg m
  | .raw c k => ∃ x, g = { Raw := some x } ∧ x.ContractAddr = c ∧ Spelled Api.Base64 x.Key k
  | .contractInfo c => ∃ x, g = { ContractInfo := some x } ∧ x.ContractAddr = c
  | .codeInfo c => ∃ x, g = { CodeInfo := some x } ∧ Num x.CodeId c
/-- Queries for the host. -/
def Query (g : QueryRequest_for_Empty) : Ica.QueryRequest → Prop
  | .bank q => ∃ x, g = { Bank := some x } ∧ BankQ x q
  | .custom _ => ∃ x, g = { Custom := some x }
  | .staking q => ∃ x, g = { Staking := some x } ∧ StakingQ x q
  | .distribution q => ∃ x, g = { Distribution := some x } ∧ DistributionQ x q
  | .stargate p d => ∃ x, g = { Stargate := some x } ∧ x.Path = p ∧ Spelled Api.Base64 x.Data d
  | .ibc q => ∃ x, g = { Ibc := some x } ∧ IbcQ x q
  | .wasm q => ∃ x, g = { Wasm := some x } ∧ WasmQ x q

/-- When an offer ends. -/
def Expiry (g : GoController.Expiration) : Ica.Expiration → Prop
  | .atHeight h => ∃ x, g = { AtHeight := some x } ∧ Num x h
  | .atTime t => ∃ x, g = { AtTime := some x } ∧ Spelled Api.Quoted64 x t
  | .never => ∃ x, g = { Never := some x }
/-- What is to happen to the ownership: the structure or one of the constants, which are strings (of which of the two string
types does not matter). -/
def Ownership (g : GoController.Action) : Ica.Action → Prop
  | .transferOwnership o e => ∃ x, g = .transferOwnership x ∧ x.NewOwner = o ∧ Pointer Expiry x.Expiry e
  | .acceptOwnership => ∃ s, (g = .acceptOwnership s ∨ g = .renounceOwnership s) ∧ s = "accept_ownership"
  | .renounceOwnership => ∃ s, (g = .acceptOwnership s ∨ g = .renounceOwnership s) ∧ s = "renounce_ownership"

/-- The message that creates the contract. -/
def Instantiate (g : GoController.InstantiateMsg) (m : Ica.InstantiateMsg) : Prop :=
  g.Owner = m.owner ∧ Options g.ChannelOpenInitOptions m.channelOpenInitOptions ∧ g.SendCallbacksTo = m.sendCallbacksTo
/-- A call that offers the ownership to somebody. -/
def Offers (g : GoController.ExecuteMsg) : Prop := ∃ x, g.UpdateOwnership = some (.transferOwnership x)
/-- The messages of the contract. -/
def Execute (g : GoController.ExecuteMsg) : Ica.ExecuteMsg → Prop
  | .createChannel o => ∃ x, g = { CreateChannel := some x } ∧ Pointer Options x.ChannelOpenInitOptions o
  | .closeChannel => ∃ x, g = { CloseChannel := some x }
  | .sendCosmosMsgs ms qs memo timeout => ∃ x, g = { SendCosmosMsgs := some x } ∧ SliceOrNil Cosmos x.Messages ms ∧
      SliceOrNil Query x.Queries qs ∧ x.PacketMemo = memo ∧ Pointer Num x.TimeoutSeconds timeout
  | .updateCallbackAddress a => ∃ x, g = { UpdateCallbackAddress := some x } ∧ x.CallbackAddress = a
  | .updateOwnership a => ∃ x, g = { UpdateOwnership := some x } ∧ Ownership x a
/-- The queries of the contract. -/
def QueryMessage (g : GoController.QueryMsg) : Ica.QueryMsg → Prop
  | .getChannel => ∃ x, g = { GetChannel := some x }
  | .getContractState => ∃ x, g = { GetContractState := some x }
  | .ownership => ∃ x, g = { Ownership := some x }
end

/-! ## The owner contract -/

/-- The options of a channel. -/
def OwnerOptions (g : GoOwner.ChannelOpenInitOptions) (o : Ica.ChannelOpenInitOptions) : Prop :=
  g.ConnectionId = o.connectionId ∧ g.CounterpartyConnectionId = o.counterpartyConnectionId ∧
  g.CounterpartyPortId = o.counterpartyPortId ∧ Pointer Order g.ChannelOrdering o.channelOrdering
/-- The message that creates the owner contract. -/
def OwnerInstantiate (g : GoOwner.InstantiateMsg) (m : Owner.InstantiateMsg) : Prop :=
  g.Admin = m.admin ∧ Num g.IcaControllerCodeId m.codeId
/-- The calls of the owner contract, besides the callbacks. -/
def OwnerCall (g : GoOwner.ExecuteMsg) : Owner.OwnMsg → Prop
  | .createIcaContract s o => ∃ x, g = { CreateIcaContract := some x } ∧ x.Salt = s ∧ OwnerOptions x.ChannelOpenInitOptions o
  | .sendPredefinedAction i a => ∃ x, g = { SendPredefinedAction := some x } ∧ Num x.IcaId i ∧ x.ToAddress = a
/-- The queries of the owner contract. -/
def OwnerQuery (g : GoOwner.QueryMsg) : Owner.QueryMsg → Prop
  | .getContractState => ∃ x, g = { GetContractState := some x }
  | .getIcaContractState i => ∃ x, g = { GetIcaContractState := some x } ∧ Num x.IcaId i
  | .getIcaCount => ∃ x, g = { GetIcaCount := some x }

end Ica.GoMeans
