import Verif.Model.Store

/-!
# Conversion of messages to protobuf

`/repo/src/types/cosmos_msg.rs`. `Any::from_msg` cannot fail: encoding into a growing buffer is infallible.
-/
namespace Ica

/-- `Any::from_msg` with the type's URL. -/
def mkAny (typeUrl : String) (value : Bytes) : Res P.Any := .ok ⟨typeUrl, value⟩

/-- `ProtoCoin { denom, amount: amount.to_string() }` (`/repo/src/types/cosmos_msg.rs` 91-94). -/
def protoCoin (c : Coin) : P.Coin := ⟨c.denom, decString c.amount.val⟩

/-- `convert_to_any::bank` (`/repo/src/types/cosmos_msg.rs` 84-99). -/
def anyBank (m : BankMsg) (sender : String) : Res P.Any :=
  match m with
  | .send toAddr amount =>
    mkAny "/cosmos.bank.v1beta1.MsgSend" (P.MsgSend.toBytes ⟨sender, toAddr, amount.map protoCoin⟩)
  | .burn _ => .panic "Unsupported BankMsg"

/-- `convert_to_any::ibc` (`/repo/src/types/cosmos_msg.rs` 101-127). -/
def anyIbc (m : IbcMsg) (sender : String) : Res P.Any :=
  match m with
  | .transfer channelId toAddress amount timeout memo =>
    mkAny "/ibc.applications.transfer.v1.MsgTransfer" (P.MsgTransfer.toBytes
      { sourcePort := "transfer", sourceChannel := channelId, token := some (protoCoin amount),
        sender := sender, receiver := toAddress,
        timeoutHeight := timeout.block.map fun b => ⟨b.revision, b.height⟩,
        timeoutTimestamp := timeout.timestamp.getD 0, memo := memo.getD "" })
  | .sendPacket _ _ _ => .panic "Unsupported IbcMsg"
  | .closeChannel _ => .panic "Unsupported IbcMsg"

/-- `convert_to_any::wasm` (`/repo/src/types/cosmos_msg.rs` 129-214). -/
def anyWasm (m : WasmMsg) (sender : String) : Res P.Any :=
  match m with
  | .execute contractAddr msg funds =>
    mkAny "/cosmwasm.wasm.v1.MsgExecuteContract" (P.MsgExecuteContract.toBytes
      ⟨sender, contractAddr, msg, funds.map protoCoin⟩)
  | .instantiate admin codeId msg funds label =>
    mkAny "/cosmwasm.wasm.v1.MsgInstantiateContract" (P.MsgInstantiateContract.toBytes
      ⟨sender, admin.getD "", codeId, label, msg, funds.map protoCoin⟩)
  | .migrate contractAddr newCodeId msg =>
    mkAny "/cosmwasm.wasm.v1.MsgMigrateContract" (P.MsgMigrateContract.toBytes
      ⟨sender, contractAddr, newCodeId, msg⟩)
  | .updateAdmin contractAddr admin =>
    mkAny "/cosmwasm.wasm.v1.MsgUpdateAdmin" (P.MsgUpdateAdmin.toBytes ⟨sender, admin, contractAddr⟩)
  | .clearAdmin contractAddr =>
    mkAny "/cosmwasm.wasm.v1.MsgClearAdmin" (P.MsgClearAdmin.toBytes ⟨sender, contractAddr⟩)
  | .instantiate2 admin codeId label msg funds salt =>
    mkAny "/cosmwasm.wasm.v1.MsgInstantiateContract2" (P.MsgInstantiateContract2.toBytes
      ⟨sender, admin.getD "", codeId, label, msg, funds.map protoCoin, salt, false⟩)

/-- `convert_to_proto_vote_option` with the numbers of `cosmos.gov.v1beta1.VoteOption`
(`/repo/src/types/cosmos_msg.rs` 217-224). -/
def voteNum (o : VoteOption) : UInt64 :=
  match o with
  | .yes => 1
  | .abstain => 2
  | .no => 3
  | .noWithVeto => 4

/-- `convert_to_any::gov` (`/repo/src/types/cosmos_msg.rs` 216-257). -/
def anyGov (m : GovMsg) (voter : String) : Res P.Any :=
  match m with
  | .vote proposalId option =>
    mkAny "/cosmos.gov.v1beta1.MsgVote" (P.MsgVote.toBytes ⟨proposalId, voter, voteNum option⟩)
  | .voteWeighted proposalId options =>
    mkAny "/cosmos.gov.v1.MsgVoteWeighted" (P.MsgVoteWeighted.toBytes
      ⟨proposalId, voter, options.map fun o => ⟨voteNum o.option, o.weight.toString⟩, ""⟩)

/-- `convert_to_any::staking` (`/repo/src/types/cosmos_msg.rs` 260-299). -/
def anyStaking (m : StakingMsg) (delegator : String) : Res P.Any :=
  match m with
  | .delegate validator amount =>
    mkAny "/cosmos.staking.v1beta1.MsgDelegate" (P.MsgDelegate.toBytes
      ⟨delegator, validator, some (protoCoin amount)⟩)
  | .undelegate validator amount =>
    mkAny "/cosmos.staking.v1beta1.MsgUndelegate" (P.MsgUndelegate.toBytes
      ⟨delegator, validator, some (protoCoin amount)⟩)
  | .redelegate src dst amount =>
    mkAny "/cosmos.staking.v1beta1.MsgBeginRedelegate" (P.MsgBeginRedelegate.toBytes
      ⟨delegator, src, dst, some (protoCoin amount)⟩)

/-- `convert_to_any::distribution` (`/repo/src/types/cosmos_msg.rs` 302-330). -/
def anyDistribution (m : DistributionMsg) (sender : String) : Res P.Any :=
  match m with
  | .withdrawDelegatorReward validator =>
    mkAny "/cosmos.distribution.v1beta1.MsgWithdrawDelegatorReward"
      (P.MsgWithdrawDelegatorReward.toBytes ⟨sender, validator⟩)
  | .setWithdrawAddress address =>
    mkAny "/cosmos.distribution.v1beta1.MsgSetWithdrawAddress"
      (P.MsgSetWithdrawAddress.toBytes ⟨sender, address⟩)
  | .fundCommunityPool amount =>
    mkAny "/cosmos.distribution.v1beta1.MsgFundCommunityPool"
      (P.MsgFundCommunityPool.toBytes ⟨amount.map protoCoin, sender⟩)

/-- `convert_to_proto_any` (`/repo/src/types/cosmos_msg.rs` 38-57, with feature `staking`). -/
def convertToProtoAny (m : CosmosMsg) (fromAddress : String) : Res P.Any :=
  match m with
  | .stargate typeUrl value => .ok ⟨typeUrl, value⟩
  | .bank b => anyBank b fromAddress
  | .ibc i => anyIbc i fromAddress
  | .wasm w => anyWasm w fromAddress
  | .gov g => anyGov g fromAddress
  | .staking s => anyStaking s fromAddress
  | .distribution d => anyDistribution d fromAddress
  | .custom _ => .panic "Unsupported CosmosMsg"

end Ica
