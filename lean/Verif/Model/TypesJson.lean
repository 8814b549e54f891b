import Verif.JsonCodec
import Verif.Model.Types

/-!
# JSON codecs of the types in `Types.lean`

serde derives; generated by `tools/gen.py`. `getObj true` is `deny_unknown_fields`.
-/
set_option linter.unusedSimpArgs false
set_option linter.unusedVariables false
namespace Ica

/-- JSON of `Coin`: `Coin` (cosmwasm-std 2.1.3, not in /repo); used at `/repo/src/types/cosmos_msg.rs` 84-330, `/repo/src/types/query_msg.rs` 396-401. -/
def Coin.jc : JC Coin where
  enc m := .obj ([("denom", jcStr.enc m.denom), ("amount", jcUint128.enc m.amount)])
  dec j :=
    match getObj false ["denom", "amount"] j with
    | none => none
    | some fs =>
      match reqF jcStr "denom" fs with
      | none => none
      | some x_denom =>
      match reqF jcUint128 "amount" fs with
      | none => none
      | some x_amount =>
      some ⟨x_denom, x_amount⟩

theorem Coin.jc_law : Coin.jc.Law := by
  rintro ⟨x0, x1⟩
  all_goals simp [Coin.jc, getObj, countKey, lookupKey, reqF, optF, nullListF, defListF, skipNone, skipEmpty, (jcStr_law) _, (jcUint128_law) _]
theorem Coin.jc_nn : Coin.jc.NonNull := fun _ h => by cases h

/-- JSON of `IbcOrder`: `IbcOrder` (cosmwasm-std 2.1.3, not in /repo); used at `/repo/src/ibc/types/stargate.rs` 71-74, `/repo/src/types/state.rs` 194-196. -/
def IbcOrder.jc : JC IbcOrder where
  enc m := match m with
    | .unordered => .str "ORDER_UNORDERED"
    | .ordered => .str "ORDER_ORDERED"
  dec j := match j with
    | .str s =>
      if s = "ORDER_UNORDERED" then some .unordered else
      if s = "ORDER_ORDERED" then some .ordered else
      none
    | _ => none

theorem IbcOrder.jc_law : IbcOrder.jc.Law := by
  intro x; cases x with
  | unordered => simp [IbcOrder.jc]
  | ordered => simp [IbcOrder.jc]
theorem IbcOrder.jc_nn : IbcOrder.jc.NonNull := fun x h => by cases x <;> cases h

/-- JSON of `IbcEndpoint`: `IbcEndpoint` (cosmwasm-std 2.1.3, not in /repo). -/
def IbcEndpoint.jc : JC IbcEndpoint where
  enc m := .obj ([("port_id", jcStr.enc m.portId), ("channel_id", jcStr.enc m.channelId)])
  dec j :=
    match getObj false ["port_id", "channel_id"] j with
    | none => none
    | some fs =>
      match reqF jcStr "port_id" fs with
      | none => none
      | some x_portId =>
      match reqF jcStr "channel_id" fs with
      | none => none
      | some x_channelId =>
      some ⟨x_portId, x_channelId⟩

theorem IbcEndpoint.jc_law : IbcEndpoint.jc.Law := by
  rintro ⟨x0, x1⟩
  all_goals simp [IbcEndpoint.jc, getObj, countKey, lookupKey, reqF, optF, nullListF, defListF, skipNone, skipEmpty, (jcStr_law) _]
theorem IbcEndpoint.jc_nn : IbcEndpoint.jc.NonNull := fun _ h => by cases h

/-- JSON of `IbcChannel`: `IbcChannel` (cosmwasm-std 2.1.3, not in /repo); used at `/repo/src/ibc/handshake.rs` 97-261. -/
def IbcChannel.jc : JC IbcChannel where
  enc m := .obj ([("endpoint", IbcEndpoint.jc.enc m.endpoint), ("counterparty_endpoint", IbcEndpoint.jc.enc m.counterpartyEndpoint), ("order", IbcOrder.jc.enc m.order), ("version", jcStr.enc m.version), ("connection_id", jcStr.enc m.connectionId)])
  dec j :=
    match getObj false ["endpoint", "counterparty_endpoint", "order", "version", "connection_id"] j with
    | none => none
    | some fs =>
      match reqF IbcEndpoint.jc "endpoint" fs with
      | none => none
      | some x_endpoint =>
      match reqF IbcEndpoint.jc "counterparty_endpoint" fs with
      | none => none
      | some x_counterpartyEndpoint =>
      match reqF IbcOrder.jc "order" fs with
      | none => none
      | some x_order =>
      match reqF jcStr "version" fs with
      | none => none
      | some x_version =>
      match reqF jcStr "connection_id" fs with
      | none => none
      | some x_connectionId =>
      some ⟨x_endpoint, x_counterpartyEndpoint, x_order, x_version, x_connectionId⟩

theorem IbcChannel.jc_law : IbcChannel.jc.Law := by
  rintro ⟨x0, x1, x2, x3, x4⟩
  all_goals simp [IbcChannel.jc, getObj, countKey, lookupKey, reqF, optF, nullListF, defListF, skipNone, skipEmpty, (IbcEndpoint.jc_law) _, (IbcOrder.jc_law) _, (jcStr_law) _]
theorem IbcChannel.jc_nn : IbcChannel.jc.NonNull := fun _ h => by cases h

/-- JSON of `IbcTimeoutBlock`: `IbcTimeoutBlock` (cosmwasm-std 2.1.3, not in /repo); used at `/repo/src/types/cosmos_msg.rs` 118-121. -/
def IbcTimeoutBlock.jc : JC IbcTimeoutBlock where
  enc m := .obj ([("revision", jcU64.enc m.revision), ("height", jcU64.enc m.height)])
  dec j :=
    match getObj false ["revision", "height"] j with
    | none => none
    | some fs =>
      match reqF jcU64 "revision" fs with
      | none => none
      | some x_revision =>
      match reqF jcU64 "height" fs with
      | none => none
      | some x_height =>
      some ⟨x_revision, x_height⟩

theorem IbcTimeoutBlock.jc_law : IbcTimeoutBlock.jc.Law := by
  rintro ⟨x0, x1⟩
  all_goals simp [IbcTimeoutBlock.jc, getObj, countKey, lookupKey, reqF, optF, nullListF, defListF, skipNone, skipEmpty, (jcU64_law) _]
theorem IbcTimeoutBlock.jc_nn : IbcTimeoutBlock.jc.NonNull := fun _ h => by cases h

/-- JSON of `IbcTimeout`: `IbcTimeout` (cosmwasm-std 2.1.3, not in /repo); used at `/repo/src/ibc/types/packet.rs` 191, `/repo/src/types/cosmos_msg.rs` 118-122. -/
def IbcTimeout.jc : JC IbcTimeout where
  enc m := .obj ([("block", (jcOpt IbcTimeoutBlock.jc).enc m.block), ("timestamp", (jcOpt jcUint64).enc m.timestamp)])
  dec j :=
    match getObj false ["block", "timestamp"] j with
    | none => none
    | some fs =>
      match optF IbcTimeoutBlock.jc "block" fs with
      | none => none
      | some x_block =>
      match optF jcUint64 "timestamp" fs with
      | none => none
      | some x_timestamp =>
      some ⟨x_block, x_timestamp⟩

theorem IbcTimeout.jc_law : IbcTimeout.jc.Law := by
  rintro ⟨x0, x1⟩
  all_goals simp [IbcTimeout.jc, getObj, countKey, lookupKey, reqF, optF, nullListF, defListF, skipNone, skipEmpty, (jcOpt_law IbcTimeoutBlock.jc_law IbcTimeoutBlock.jc_nn) _, (jcOpt_law jcUint64_law jcUint64_nn) _]
theorem IbcTimeout.jc_nn : IbcTimeout.jc.NonNull := fun _ h => by cases h

/-- JSON of `IbcPacket`: `IbcPacket` (cosmwasm-std 2.1.3, not in /repo); used at `/repo/src/ibc/relay.rs` 26-192. -/
def IbcPacket.jc : JC IbcPacket where
  enc m := .obj ([("data", jcBin.enc m.data), ("src", IbcEndpoint.jc.enc m.src), ("dest", IbcEndpoint.jc.enc m.dest), ("sequence", jcU64.enc m.sequence), ("timeout", IbcTimeout.jc.enc m.timeout)])
  dec j :=
    match getObj false ["data", "src", "dest", "sequence", "timeout"] j with
    | none => none
    | some fs =>
      match reqF jcBin "data" fs with
      | none => none
      | some x_data =>
      match reqF IbcEndpoint.jc "src" fs with
      | none => none
      | some x_src =>
      match reqF IbcEndpoint.jc "dest" fs with
      | none => none
      | some x_dest =>
      match reqF jcU64 "sequence" fs with
      | none => none
      | some x_sequence =>
      match reqF IbcTimeout.jc "timeout" fs with
      | none => none
      | some x_timeout =>
      some ⟨x_data, x_src, x_dest, x_sequence, x_timeout⟩

theorem IbcPacket.jc_law : IbcPacket.jc.Law := by
  rintro ⟨x0, x1, x2, x3, x4⟩
  all_goals simp [IbcPacket.jc, getObj, countKey, lookupKey, reqF, optF, nullListF, defListF, skipNone, skipEmpty, (jcBin_law) _, (IbcEndpoint.jc_law) _, (jcU64_law) _, (IbcTimeout.jc_law) _]
theorem IbcPacket.jc_nn : IbcPacket.jc.NonNull := fun _ h => by cases h

/-- JSON of `BankMsg`: `BankMsg` (cosmwasm-std 2.1.3, not in /repo); matched at `/repo/src/types/cosmos_msg.rs` 84-99. -/
def BankMsg.jc : JC BankMsg where
  enc m := match m with
    | .send x_toAddress x_amount => .obj [("send", .obj ([("to_address", jcStr.enc x_toAddress), ("amount", (jcList Coin.jc).enc x_amount)]))]
    | .burn x_amount => .obj [("burn", .obj ([("amount", (jcList Coin.jc).enc x_amount)]))]
  dec j := match j with
    | .obj [(k, v)] =>
      if k = "send" then
        match getObj false ["to_address", "amount"] v with
        | none => none
        | some fs =>
          match reqF jcStr "to_address" fs with
          | none => none
          | some x_toAddress =>
          match reqF (jcList Coin.jc) "amount" fs with
          | none => none
          | some x_amount =>
          some (.send x_toAddress x_amount)
      else
      if k = "burn" then
        match getObj false ["amount"] v with
        | none => none
        | some fs =>
          match reqF (jcList Coin.jc) "amount" fs with
          | none => none
          | some x_amount =>
          some (.burn x_amount)
      else
      none
    | _ => none

theorem BankMsg.jc_law : BankMsg.jc.Law := by
  intro x; cases x with
  | send x0 x1 =>
    all_goals simp [BankMsg.jc, getObj, countKey, lookupKey, reqF, optF, nullListF, defListF, skipNone, skipEmpty, (jcStr_law) _, (jcList_law Coin.jc_law) _]
  | burn x0 =>
    all_goals simp [BankMsg.jc, getObj, countKey, lookupKey, reqF, optF, nullListF, defListF, skipNone, skipEmpty, (jcList_law Coin.jc_law) _]
theorem BankMsg.jc_nn : BankMsg.jc.NonNull := fun x h => by cases x <;> cases h

/-- JSON of `StakingMsg`: `StakingMsg` (cosmwasm-std 2.1.3, not in /repo); matched at `/repo/src/types/cosmos_msg.rs` 260-299. -/
def StakingMsg.jc : JC StakingMsg where
  enc m := match m with
    | .delegate x_validator x_amount => .obj [("delegate", .obj ([("validator", jcStr.enc x_validator), ("amount", Coin.jc.enc x_amount)]))]
    | .undelegate x_validator x_amount => .obj [("undelegate", .obj ([("validator", jcStr.enc x_validator), ("amount", Coin.jc.enc x_amount)]))]
    | .redelegate x_srcValidator x_dstValidator x_amount => .obj [("redelegate", .obj ([("src_validator", jcStr.enc x_srcValidator), ("dst_validator", jcStr.enc x_dstValidator), ("amount", Coin.jc.enc x_amount)]))]
  dec j := match j with
    | .obj [(k, v)] =>
      if k = "delegate" then
        match getObj false ["validator", "amount"] v with
        | none => none
        | some fs =>
          match reqF jcStr "validator" fs with
          | none => none
          | some x_validator =>
          match reqF Coin.jc "amount" fs with
          | none => none
          | some x_amount =>
          some (.delegate x_validator x_amount)
      else
      if k = "undelegate" then
        match getObj false ["validator", "amount"] v with
        | none => none
        | some fs =>
          match reqF jcStr "validator" fs with
          | none => none
          | some x_validator =>
          match reqF Coin.jc "amount" fs with
          | none => none
          | some x_amount =>
          some (.undelegate x_validator x_amount)
      else
      if k = "redelegate" then
        match getObj false ["src_validator", "dst_validator", "amount"] v with
        | none => none
        | some fs =>
          match reqF jcStr "src_validator" fs with
          | none => none
          | some x_srcValidator =>
          match reqF jcStr "dst_validator" fs with
          | none => none
          | some x_dstValidator =>
          match reqF Coin.jc "amount" fs with
          | none => none
          | some x_amount =>
          some (.redelegate x_srcValidator x_dstValidator x_amount)
      else
      none
    | _ => none

theorem StakingMsg.jc_law : StakingMsg.jc.Law := by
  intro x; cases x with
  | delegate x0 x1 =>
    all_goals simp [StakingMsg.jc, getObj, countKey, lookupKey, reqF, optF, nullListF, defListF, skipNone, skipEmpty, (jcStr_law) _, (Coin.jc_law) _]
  | undelegate x0 x1 =>
    all_goals simp [StakingMsg.jc, getObj, countKey, lookupKey, reqF, optF, nullListF, defListF, skipNone, skipEmpty, (jcStr_law) _, (Coin.jc_law) _]
  | redelegate x0 x1 x2 =>
    all_goals simp [StakingMsg.jc, getObj, countKey, lookupKey, reqF, optF, nullListF, defListF, skipNone, skipEmpty, (jcStr_law) _, (Coin.jc_law) _]
theorem StakingMsg.jc_nn : StakingMsg.jc.NonNull := fun x h => by cases x <;> cases h

/-- JSON of `DistributionMsg`: `DistributionMsg` (cosmwasm-std 2.1.3, not in /repo); matched at `/repo/src/types/cosmos_msg.rs` 302-330. -/
def DistributionMsg.jc : JC DistributionMsg where
  enc m := match m with
    | .setWithdrawAddress x_address => .obj [("set_withdraw_address", .obj ([("address", jcStr.enc x_address)]))]
    | .withdrawDelegatorReward x_validator => .obj [("withdraw_delegator_reward", .obj ([("validator", jcStr.enc x_validator)]))]
    | .fundCommunityPool x_amount => .obj [("fund_community_pool", .obj ([("amount", (jcList Coin.jc).enc x_amount)]))]
  dec j := match j with
    | .obj [(k, v)] =>
      if k = "set_withdraw_address" then
        match getObj false ["address"] v with
        | none => none
        | some fs =>
          match reqF jcStr "address" fs with
          | none => none
          | some x_address =>
          some (.setWithdrawAddress x_address)
      else
      if k = "withdraw_delegator_reward" then
        match getObj false ["validator"] v with
        | none => none
        | some fs =>
          match reqF jcStr "validator" fs with
          | none => none
          | some x_validator =>
          some (.withdrawDelegatorReward x_validator)
      else
      if k = "fund_community_pool" then
        match getObj false ["amount"] v with
        | none => none
        | some fs =>
          match reqF (jcList Coin.jc) "amount" fs with
          | none => none
          | some x_amount =>
          some (.fundCommunityPool x_amount)
      else
      none
    | _ => none

theorem DistributionMsg.jc_law : DistributionMsg.jc.Law := by
  intro x; cases x with
  | setWithdrawAddress x0 =>
    all_goals simp [DistributionMsg.jc, getObj, countKey, lookupKey, reqF, optF, nullListF, defListF, skipNone, skipEmpty, (jcStr_law) _]
  | withdrawDelegatorReward x0 =>
    all_goals simp [DistributionMsg.jc, getObj, countKey, lookupKey, reqF, optF, nullListF, defListF, skipNone, skipEmpty, (jcStr_law) _]
  | fundCommunityPool x0 =>
    all_goals simp [DistributionMsg.jc, getObj, countKey, lookupKey, reqF, optF, nullListF, defListF, skipNone, skipEmpty, (jcList_law Coin.jc_law) _]
theorem DistributionMsg.jc_nn : DistributionMsg.jc.NonNull := fun x h => by cases x <;> cases h

/-- JSON of `IbcMsg`: `IbcMsg` (cosmwasm-std 2.1.3, not in /repo); matched at `/repo/src/types/cosmos_msg.rs` 101-127, built at `/repo/src/ibc/types/packet.rs` 188-192 and `/repo/src/contract.rs` 182-184. -/
def IbcMsg.jc : JC IbcMsg where
  enc m := match m with
    | .transfer x_channelId x_toAddress x_amount x_timeout x_memo => .obj [("transfer", .obj ([("channel_id", jcStr.enc x_channelId), ("to_address", jcStr.enc x_toAddress), ("amount", Coin.jc.enc x_amount), ("timeout", IbcTimeout.jc.enc x_timeout), ("memo", (jcOpt jcStr).enc x_memo)]))]
    | .sendPacket x_channelId x_data x_timeout => .obj [("send_packet", .obj ([("channel_id", jcStr.enc x_channelId), ("data", jcBin.enc x_data), ("timeout", IbcTimeout.jc.enc x_timeout)]))]
    | .closeChannel x_channelId => .obj [("close_channel", .obj ([("channel_id", jcStr.enc x_channelId)]))]
  dec j := match j with
    | .obj [(k, v)] =>
      if k = "transfer" then
        match getObj false ["channel_id", "to_address", "amount", "timeout", "memo"] v with
        | none => none
        | some fs =>
          match reqF jcStr "channel_id" fs with
          | none => none
          | some x_channelId =>
          match reqF jcStr "to_address" fs with
          | none => none
          | some x_toAddress =>
          match reqF Coin.jc "amount" fs with
          | none => none
          | some x_amount =>
          match reqF IbcTimeout.jc "timeout" fs with
          | none => none
          | some x_timeout =>
          match optF jcStr "memo" fs with
          | none => none
          | some x_memo =>
          some (.transfer x_channelId x_toAddress x_amount x_timeout x_memo)
      else
      if k = "send_packet" then
        match getObj false ["channel_id", "data", "timeout"] v with
        | none => none
        | some fs =>
          match reqF jcStr "channel_id" fs with
          | none => none
          | some x_channelId =>
          match reqF jcBin "data" fs with
          | none => none
          | some x_data =>
          match reqF IbcTimeout.jc "timeout" fs with
          | none => none
          | some x_timeout =>
          some (.sendPacket x_channelId x_data x_timeout)
      else
      if k = "close_channel" then
        match getObj false ["channel_id"] v with
        | none => none
        | some fs =>
          match reqF jcStr "channel_id" fs with
          | none => none
          | some x_channelId =>
          some (.closeChannel x_channelId)
      else
      none
    | _ => none

theorem IbcMsg.jc_law : IbcMsg.jc.Law := by
  intro x; cases x with
  | transfer x0 x1 x2 x3 x4 =>
    all_goals simp [IbcMsg.jc, getObj, countKey, lookupKey, reqF, optF, nullListF, defListF, skipNone, skipEmpty, (jcStr_law) _, (Coin.jc_law) _, (IbcTimeout.jc_law) _, (jcOpt_law jcStr_law jcStr_nn) _]
  | sendPacket x0 x1 x2 =>
    all_goals simp [IbcMsg.jc, getObj, countKey, lookupKey, reqF, optF, nullListF, defListF, skipNone, skipEmpty, (jcStr_law) _, (jcBin_law) _, (IbcTimeout.jc_law) _]
  | closeChannel x0 =>
    all_goals simp [IbcMsg.jc, getObj, countKey, lookupKey, reqF, optF, nullListF, defListF, skipNone, skipEmpty, (jcStr_law) _]
theorem IbcMsg.jc_nn : IbcMsg.jc.NonNull := fun x h => by cases x <;> cases h

/-- JSON of `WasmMsg`: `WasmMsg` (cosmwasm-std 2.1.3, not in /repo); matched at `/repo/src/types/cosmos_msg.rs` 129-214, built at `/repo/src/types/callbacks.rs` 82-86 and `/repo/src/helpers.rs` 53-183. -/
def WasmMsg.jc : JC WasmMsg where
  enc m := match m with
    | .execute x_contractAddr x_msg x_funds => .obj [("execute", .obj ([("contract_addr", jcStr.enc x_contractAddr), ("msg", jcBin.enc x_msg), ("funds", (jcList Coin.jc).enc x_funds)]))]
    | .instantiate x_admin x_codeId x_msg x_funds x_label => .obj [("instantiate", .obj ([("admin", (jcOpt jcStr).enc x_admin), ("code_id", jcU64.enc x_codeId), ("msg", jcBin.enc x_msg), ("funds", (jcList Coin.jc).enc x_funds), ("label", jcStr.enc x_label)]))]
    | .instantiate2 x_admin x_codeId x_label x_msg x_funds x_salt => .obj [("instantiate2", .obj ([("admin", (jcOpt jcStr).enc x_admin), ("code_id", jcU64.enc x_codeId), ("label", jcStr.enc x_label), ("msg", jcBin.enc x_msg), ("funds", (jcList Coin.jc).enc x_funds), ("salt", jcBin.enc x_salt)]))]
    | .migrate x_contractAddr x_newCodeId x_msg => .obj [("migrate", .obj ([("contract_addr", jcStr.enc x_contractAddr), ("new_code_id", jcU64.enc x_newCodeId), ("msg", jcBin.enc x_msg)]))]
    | .updateAdmin x_contractAddr x_admin => .obj [("update_admin", .obj ([("contract_addr", jcStr.enc x_contractAddr), ("admin", jcStr.enc x_admin)]))]
    | .clearAdmin x_contractAddr => .obj [("clear_admin", .obj ([("contract_addr", jcStr.enc x_contractAddr)]))]
  dec j := match j with
    | .obj [(k, v)] =>
      if k = "execute" then
        match getObj false ["contract_addr", "msg", "funds"] v with
        | none => none
        | some fs =>
          match reqF jcStr "contract_addr" fs with
          | none => none
          | some x_contractAddr =>
          match reqF jcBin "msg" fs with
          | none => none
          | some x_msg =>
          match reqF (jcList Coin.jc) "funds" fs with
          | none => none
          | some x_funds =>
          some (.execute x_contractAddr x_msg x_funds)
      else
      if k = "instantiate" then
        match getObj false ["admin", "code_id", "msg", "funds", "label"] v with
        | none => none
        | some fs =>
          match optF jcStr "admin" fs with
          | none => none
          | some x_admin =>
          match reqF jcU64 "code_id" fs with
          | none => none
          | some x_codeId =>
          match reqF jcBin "msg" fs with
          | none => none
          | some x_msg =>
          match reqF (jcList Coin.jc) "funds" fs with
          | none => none
          | some x_funds =>
          match reqF jcStr "label" fs with
          | none => none
          | some x_label =>
          some (.instantiate x_admin x_codeId x_msg x_funds x_label)
      else
      if k = "instantiate2" then
        match getObj false ["admin", "code_id", "label", "msg", "funds", "salt"] v with
        | none => none
        | some fs =>
          match optF jcStr "admin" fs with
          | none => none
          | some x_admin =>
          match reqF jcU64 "code_id" fs with
          | none => none
          | some x_codeId =>
          match reqF jcStr "label" fs with
          | none => none
          | some x_label =>
          match reqF jcBin "msg" fs with
          | none => none
          | some x_msg =>
          match reqF (jcList Coin.jc) "funds" fs with
          | none => none
          | some x_funds =>
          match reqF jcBin "salt" fs with
          | none => none
          | some x_salt =>
          some (.instantiate2 x_admin x_codeId x_label x_msg x_funds x_salt)
      else
      if k = "migrate" then
        match getObj false ["contract_addr", "new_code_id", "msg"] v with
        | none => none
        | some fs =>
          match reqF jcStr "contract_addr" fs with
          | none => none
          | some x_contractAddr =>
          match reqF jcU64 "new_code_id" fs with
          | none => none
          | some x_newCodeId =>
          match reqF jcBin "msg" fs with
          | none => none
          | some x_msg =>
          some (.migrate x_contractAddr x_newCodeId x_msg)
      else
      if k = "update_admin" then
        match getObj false ["contract_addr", "admin"] v with
        | none => none
        | some fs =>
          match reqF jcStr "contract_addr" fs with
          | none => none
          | some x_contractAddr =>
          match reqF jcStr "admin" fs with
          | none => none
          | some x_admin =>
          some (.updateAdmin x_contractAddr x_admin)
      else
      if k = "clear_admin" then
        match getObj false ["contract_addr"] v with
        | none => none
        | some fs =>
          match reqF jcStr "contract_addr" fs with
          | none => none
          | some x_contractAddr =>
          some (.clearAdmin x_contractAddr)
      else
      none
    | _ => none

theorem WasmMsg.jc_law : WasmMsg.jc.Law := by
  intro x; cases x with
  | execute x0 x1 x2 =>
    all_goals simp [WasmMsg.jc, getObj, countKey, lookupKey, reqF, optF, nullListF, defListF, skipNone, skipEmpty, (jcStr_law) _, (jcBin_law) _, (jcList_law Coin.jc_law) _]
  | instantiate x0 x1 x2 x3 x4 =>
    all_goals simp [WasmMsg.jc, getObj, countKey, lookupKey, reqF, optF, nullListF, defListF, skipNone, skipEmpty, (jcOpt_law jcStr_law jcStr_nn) _, (jcU64_law) _, (jcBin_law) _, (jcList_law Coin.jc_law) _, (jcStr_law) _]
  | instantiate2 x0 x1 x2 x3 x4 x5 =>
    all_goals simp [WasmMsg.jc, getObj, countKey, lookupKey, reqF, optF, nullListF, defListF, skipNone, skipEmpty, (jcOpt_law jcStr_law jcStr_nn) _, (jcU64_law) _, (jcStr_law) _, (jcBin_law) _, (jcList_law Coin.jc_law) _]
  | migrate x0 x1 x2 =>
    all_goals simp [WasmMsg.jc, getObj, countKey, lookupKey, reqF, optF, nullListF, defListF, skipNone, skipEmpty, (jcStr_law) _, (jcU64_law) _, (jcBin_law) _]
  | updateAdmin x0 x1 =>
    all_goals simp [WasmMsg.jc, getObj, countKey, lookupKey, reqF, optF, nullListF, defListF, skipNone, skipEmpty, (jcStr_law) _]
  | clearAdmin x0 =>
    all_goals simp [WasmMsg.jc, getObj, countKey, lookupKey, reqF, optF, nullListF, defListF, skipNone, skipEmpty, (jcStr_law) _]
theorem WasmMsg.jc_nn : WasmMsg.jc.NonNull := fun x h => by cases x <;> cases h

/-- JSON of `VoteOption`: `VoteOption` (cosmwasm-std 2.1.3, not in /repo); matched at `/repo/src/types/cosmos_msg.rs` 217-224. -/
def VoteOption.jc : JC VoteOption where
  enc m := match m with
    | .yes => .str "yes"
    | .no => .str "no"
    | .abstain => .str "abstain"
    | .noWithVeto => .str "no_with_veto"
  dec j := match j with
    | .str s =>
      if s = "yes" then some .yes else
      if s = "no" then some .no else
      if s = "abstain" then some .abstain else
      if s = "no_with_veto" then some .noWithVeto else
      none
    | _ => none

theorem VoteOption.jc_law : VoteOption.jc.Law := by
  intro x; cases x with
  | yes => simp [VoteOption.jc]
  | no => simp [VoteOption.jc]
  | abstain => simp [VoteOption.jc]
  | noWithVeto => simp [VoteOption.jc]
theorem VoteOption.jc_nn : VoteOption.jc.NonNull := fun x h => by cases x <;> cases h

/-- JSON of `WeightedVoteOption`: `WeightedVoteOption` (cosmwasm-std 2.1.3, not in /repo); used at `/repo/src/types/cosmos_msg.rs` 239-247. -/
def WeightedVoteOption.jc : JC WeightedVoteOption where
  enc m := .obj ([("option", VoteOption.jc.enc m.option), ("weight", jcDecimal.enc m.weight)])
  dec j :=
    match getObj false ["option", "weight"] j with
    | none => none
    | some fs =>
      match reqF VoteOption.jc "option" fs with
      | none => none
      | some x_option =>
      match reqF jcDecimal "weight" fs with
      | none => none
      | some x_weight =>
      some ⟨x_option, x_weight⟩

theorem WeightedVoteOption.jc_law : WeightedVoteOption.jc.Law := by
  rintro ⟨x0, x1⟩
  all_goals simp [WeightedVoteOption.jc, getObj, countKey, lookupKey, reqF, optF, nullListF, defListF, skipNone, skipEmpty, (VoteOption.jc_law) _, (jcDecimal_law) _]
theorem WeightedVoteOption.jc_nn : WeightedVoteOption.jc.NonNull := fun _ h => by cases h

/-- JSON of `GovMsg`: `GovMsg` (cosmwasm-std 2.1.3, not in /repo); matched at `/repo/src/types/cosmos_msg.rs` 226-257. -/
def GovMsg.jc : JC GovMsg where
  enc m := match m with
    | .vote x_proposalId x_option => .obj [("vote", .obj ([("proposal_id", jcU64.enc x_proposalId), ("option", VoteOption.jc.enc x_option)]))]
    | .voteWeighted x_proposalId x_options => .obj [("vote_weighted", .obj ([("proposal_id", jcU64.enc x_proposalId), ("options", (jcList WeightedVoteOption.jc).enc x_options)]))]
  dec j := match j with
    | .obj [(k, v)] =>
      if k = "vote" then
        match getObj false ["proposal_id", "option"] v with
        | none => none
        | some fs =>
          match reqF jcU64 "proposal_id" fs with
          | none => none
          | some x_proposalId =>
          match reqF VoteOption.jc "option" fs with
          | none => none
          | some x_option =>
          some (.vote x_proposalId x_option)
      else
      if k = "vote_weighted" then
        match getObj false ["proposal_id", "options"] v with
        | none => none
        | some fs =>
          match reqF jcU64 "proposal_id" fs with
          | none => none
          | some x_proposalId =>
          match reqF (jcList WeightedVoteOption.jc) "options" fs with
          | none => none
          | some x_options =>
          some (.voteWeighted x_proposalId x_options)
      else
      none
    | _ => none

theorem GovMsg.jc_law : GovMsg.jc.Law := by
  intro x; cases x with
  | vote x0 x1 =>
    all_goals simp [GovMsg.jc, getObj, countKey, lookupKey, reqF, optF, nullListF, defListF, skipNone, skipEmpty, (jcU64_law) _, (VoteOption.jc_law) _]
  | voteWeighted x0 x1 =>
    all_goals simp [GovMsg.jc, getObj, countKey, lookupKey, reqF, optF, nullListF, defListF, skipNone, skipEmpty, (jcU64_law) _, (jcList_law WeightedVoteOption.jc_law) _]
theorem GovMsg.jc_nn : GovMsg.jc.NonNull := fun x h => by cases x <;> cases h

/-- JSON of `Empty`: `Empty` (cosmwasm-std 2.1.3, not in /repo). -/
def Empty.jc : JC Empty where
  enc m := .obj ([])
  dec j :=
    match getObj false [] j with
    | none => none
    | some _ =>
      some ⟨⟩

theorem Empty.jc_law : Empty.jc.Law := by
  rintro ⟨⟩
  all_goals simp [Empty.jc, getObj, countKey, lookupKey, reqF, optF, nullListF, defListF, skipNone, skipEmpty]
theorem Empty.jc_nn : Empty.jc.NonNull := fun _ h => by cases h

/-- JSON of `CosmosMsg`: `CosmosMsg<Empty>` (cosmwasm-std 2.1.3, not in /repo); matched at `/repo/src/types/cosmos_msg.rs` 38-57. -/
def CosmosMsg.jc : JC CosmosMsg where
  enc m := match m with
    | .bank x => .obj [("bank", BankMsg.jc.enc x)]
    | .custom x => .obj [("custom", Empty.jc.enc x)]
    | .staking x => .obj [("staking", StakingMsg.jc.enc x)]
    | .distribution x => .obj [("distribution", DistributionMsg.jc.enc x)]
    | .stargate x_typeUrl x_value => .obj [("stargate", .obj ([("type_url", jcStr.enc x_typeUrl), ("value", jcBin.enc x_value)]))]
    | .ibc x => .obj [("ibc", IbcMsg.jc.enc x)]
    | .wasm x => .obj [("wasm", WasmMsg.jc.enc x)]
    | .gov x => .obj [("gov", GovMsg.jc.enc x)]
  dec j := match j with
    | .obj [(k, v)] =>
      if k = "bank" then (BankMsg.jc.dec v).map .bank else
      if k = "custom" then (Empty.jc.dec v).map .custom else
      if k = "staking" then (StakingMsg.jc.dec v).map .staking else
      if k = "distribution" then (DistributionMsg.jc.dec v).map .distribution else
      if k = "stargate" then
        match getObj false ["type_url", "value"] v with
        | none => none
        | some fs =>
          match reqF jcStr "type_url" fs with
          | none => none
          | some x_typeUrl =>
          match reqF jcBin "value" fs with
          | none => none
          | some x_value =>
          some (.stargate x_typeUrl x_value)
      else
      if k = "ibc" then (IbcMsg.jc.dec v).map .ibc else
      if k = "wasm" then (WasmMsg.jc.dec v).map .wasm else
      if k = "gov" then (GovMsg.jc.dec v).map .gov else
      none
    | _ => none

theorem CosmosMsg.jc_law : CosmosMsg.jc.Law := by
  intro x; cases x with
  | bank x => simp [CosmosMsg.jc, (BankMsg.jc_law) x]
  | custom x => simp [CosmosMsg.jc, (Empty.jc_law) x]
  | staking x => simp [CosmosMsg.jc, (StakingMsg.jc_law) x]
  | distribution x => simp [CosmosMsg.jc, (DistributionMsg.jc_law) x]
  | stargate x0 x1 =>
    all_goals simp [CosmosMsg.jc, getObj, countKey, lookupKey, reqF, optF, nullListF, defListF, skipNone, skipEmpty, (jcStr_law) _, (jcBin_law) _]
  | ibc x => simp [CosmosMsg.jc, (IbcMsg.jc_law) x]
  | wasm x => simp [CosmosMsg.jc, (WasmMsg.jc_law) x]
  | gov x => simp [CosmosMsg.jc, (GovMsg.jc_law) x]
theorem CosmosMsg.jc_nn : CosmosMsg.jc.NonNull := fun x h => by cases x <;> cases h

/-- JSON of `PageRequest`: `PageRequest` (cosmwasm-std 2.1.3, not in /repo); used at `/repo/src/types/query_msg.rs` 254-260. -/
def PageRequest.jc : JC PageRequest where
  enc m := .obj ([("key", (jcOpt jcBin).enc m.key), ("limit", jcU32.enc m.limit), ("reverse", jcBool.enc m.reverse)])
  dec j :=
    match getObj false ["key", "limit", "reverse"] j with
    | none => none
    | some fs =>
      match optF jcBin "key" fs with
      | none => none
      | some x_key =>
      match reqF jcU32 "limit" fs with
      | none => none
      | some x_limit =>
      match reqF jcBool "reverse" fs with
      | none => none
      | some x_reverse =>
      some ⟨x_key, x_limit, x_reverse⟩

theorem PageRequest.jc_law : PageRequest.jc.Law := by
  rintro ⟨x0, x1, x2⟩
  all_goals simp [PageRequest.jc, getObj, countKey, lookupKey, reqF, optF, nullListF, defListF, skipNone, skipEmpty, (jcOpt_law jcBin_law jcBin_nn) _, (jcU32_law) _, (jcBool_law) _]
theorem PageRequest.jc_nn : PageRequest.jc.NonNull := fun _ h => by cases h

/-- JSON of `BankQuery`: `BankQuery` (cosmwasm-std 2.1.3, not in /repo); matched at `/repo/src/types/query_msg.rs` 232-275. -/
def BankQuery.jc : JC BankQuery where
  enc m := match m with
    | .supply x_denom => .obj [("supply", .obj ([("denom", jcStr.enc x_denom)]))]
    | .balance x_address x_denom => .obj [("balance", .obj ([("address", jcStr.enc x_address), ("denom", jcStr.enc x_denom)]))]
    | .allBalances x_address => .obj [("all_balances", .obj ([("address", jcStr.enc x_address)]))]
    | .denomMetadata x_denom => .obj [("denom_metadata", .obj ([("denom", jcStr.enc x_denom)]))]
    | .allDenomMetadata x_pagination => .obj [("all_denom_metadata", .obj ([("pagination", (jcOpt PageRequest.jc).enc x_pagination)]))]
  dec j := match j with
    | .obj [(k, v)] =>
      if k = "supply" then
        match getObj false ["denom"] v with
        | none => none
        | some fs =>
          match reqF jcStr "denom" fs with
          | none => none
          | some x_denom =>
          some (.supply x_denom)
      else
      if k = "balance" then
        match getObj false ["address", "denom"] v with
        | none => none
        | some fs =>
          match reqF jcStr "address" fs with
          | none => none
          | some x_address =>
          match reqF jcStr "denom" fs with
          | none => none
          | some x_denom =>
          some (.balance x_address x_denom)
      else
      if k = "all_balances" then
        match getObj false ["address"] v with
        | none => none
        | some fs =>
          match reqF jcStr "address" fs with
          | none => none
          | some x_address =>
          some (.allBalances x_address)
      else
      if k = "denom_metadata" then
        match getObj false ["denom"] v with
        | none => none
        | some fs =>
          match reqF jcStr "denom" fs with
          | none => none
          | some x_denom =>
          some (.denomMetadata x_denom)
      else
      if k = "all_denom_metadata" then
        match getObj false ["pagination"] v with
        | none => none
        | some fs =>
          match optF PageRequest.jc "pagination" fs with
          | none => none
          | some x_pagination =>
          some (.allDenomMetadata x_pagination)
      else
      none
    | _ => none

theorem BankQuery.jc_law : BankQuery.jc.Law := by
  intro x; cases x with
  | supply x0 =>
    all_goals simp [BankQuery.jc, getObj, countKey, lookupKey, reqF, optF, nullListF, defListF, skipNone, skipEmpty, (jcStr_law) _]
  | balance x0 x1 =>
    all_goals simp [BankQuery.jc, getObj, countKey, lookupKey, reqF, optF, nullListF, defListF, skipNone, skipEmpty, (jcStr_law) _]
  | allBalances x0 =>
    all_goals simp [BankQuery.jc, getObj, countKey, lookupKey, reqF, optF, nullListF, defListF, skipNone, skipEmpty, (jcStr_law) _]
  | denomMetadata x0 =>
    all_goals simp [BankQuery.jc, getObj, countKey, lookupKey, reqF, optF, nullListF, defListF, skipNone, skipEmpty, (jcStr_law) _]
  | allDenomMetadata x0 =>
    all_goals simp [BankQuery.jc, getObj, countKey, lookupKey, reqF, optF, nullListF, defListF, skipNone, skipEmpty, (jcOpt_law PageRequest.jc_law PageRequest.jc_nn) _]
theorem BankQuery.jc_nn : BankQuery.jc.NonNull := fun x h => by cases x <;> cases h

/-- JSON of `StakingQuery`: `StakingQuery` (cosmwasm-std 2.1.3, not in /repo); matched at `/repo/src/types/query_msg.rs` 312-365. -/
def StakingQuery.jc : JC StakingQuery where
  enc m := match m with
    | .bondedDenom => .obj [("bonded_denom", .obj ([]))]
    | .allDelegations x_delegator => .obj [("all_delegations", .obj ([("delegator", jcStr.enc x_delegator)]))]
    | .delegation x_delegator x_validator => .obj [("delegation", .obj ([("delegator", jcStr.enc x_delegator), ("validator", jcStr.enc x_validator)]))]
    | .allValidators => .obj [("all_validators", .obj ([]))]
    | .validator x_address => .obj [("validator", .obj ([("address", jcStr.enc x_address)]))]
  dec j := match j with
    | .obj [(k, v)] =>
      if k = "bonded_denom" then
        match getObj false [] v with
        | none => none
        | some _ =>
          some (.bondedDenom)
      else
      if k = "all_delegations" then
        match getObj false ["delegator"] v with
        | none => none
        | some fs =>
          match reqF jcStr "delegator" fs with
          | none => none
          | some x_delegator =>
          some (.allDelegations x_delegator)
      else
      if k = "delegation" then
        match getObj false ["delegator", "validator"] v with
        | none => none
        | some fs =>
          match reqF jcStr "delegator" fs with
          | none => none
          | some x_delegator =>
          match reqF jcStr "validator" fs with
          | none => none
          | some x_validator =>
          some (.delegation x_delegator x_validator)
      else
      if k = "all_validators" then
        match getObj false [] v with
        | none => none
        | some _ =>
          some (.allValidators)
      else
      if k = "validator" then
        match getObj false ["address"] v with
        | none => none
        | some fs =>
          match reqF jcStr "address" fs with
          | none => none
          | some x_address =>
          some (.validator x_address)
      else
      none
    | _ => none

theorem StakingQuery.jc_law : StakingQuery.jc.Law := by
  intro x; cases x with
  | bondedDenom =>
    all_goals simp [StakingQuery.jc, getObj, countKey, lookupKey, reqF, optF, nullListF, defListF, skipNone, skipEmpty]
  | allDelegations x0 =>
    all_goals simp [StakingQuery.jc, getObj, countKey, lookupKey, reqF, optF, nullListF, defListF, skipNone, skipEmpty, (jcStr_law) _]
  | delegation x0 x1 =>
    all_goals simp [StakingQuery.jc, getObj, countKey, lookupKey, reqF, optF, nullListF, defListF, skipNone, skipEmpty, (jcStr_law) _]
  | allValidators =>
    all_goals simp [StakingQuery.jc, getObj, countKey, lookupKey, reqF, optF, nullListF, defListF, skipNone, skipEmpty]
  | validator x0 =>
    all_goals simp [StakingQuery.jc, getObj, countKey, lookupKey, reqF, optF, nullListF, defListF, skipNone, skipEmpty, (jcStr_law) _]
theorem StakingQuery.jc_nn : StakingQuery.jc.NonNull := fun x h => by cases x <;> cases h

/-- JSON of `DistributionQuery`: `DistributionQuery` (cosmwasm-std 2.1.3, not in /repo); rejected at `/repo/src/types/query_msg.rs` 24-26. -/
def DistributionQuery.jc : JC DistributionQuery where
  enc m := match m with
    | .delegatorWithdrawAddress x_delegatorAddress => .obj [("delegator_withdraw_address", .obj ([("delegator_address", jcStr.enc x_delegatorAddress)]))]
    | .delegationRewards x_delegatorAddress x_validatorAddress => .obj [("delegation_rewards", .obj ([("delegator_address", jcStr.enc x_delegatorAddress), ("validator_address", jcStr.enc x_validatorAddress)]))]
    | .delegationTotalRewards x_delegatorAddress => .obj [("delegation_total_rewards", .obj ([("delegator_address", jcStr.enc x_delegatorAddress)]))]
    | .delegatorValidators x_delegatorAddress => .obj [("delegator_validators", .obj ([("delegator_address", jcStr.enc x_delegatorAddress)]))]
  dec j := match j with
    | .obj [(k, v)] =>
      if k = "delegator_withdraw_address" then
        match getObj false ["delegator_address"] v with
        | none => none
        | some fs =>
          match reqF jcStr "delegator_address" fs with
          | none => none
          | some x_delegatorAddress =>
          some (.delegatorWithdrawAddress x_delegatorAddress)
      else
      if k = "delegation_rewards" then
        match getObj false ["delegator_address", "validator_address"] v with
        | none => none
        | some fs =>
          match reqF jcStr "delegator_address" fs with
          | none => none
          | some x_delegatorAddress =>
          match reqF jcStr "validator_address" fs with
          | none => none
          | some x_validatorAddress =>
          some (.delegationRewards x_delegatorAddress x_validatorAddress)
      else
      if k = "delegation_total_rewards" then
        match getObj false ["delegator_address"] v with
        | none => none
        | some fs =>
          match reqF jcStr "delegator_address" fs with
          | none => none
          | some x_delegatorAddress =>
          some (.delegationTotalRewards x_delegatorAddress)
      else
      if k = "delegator_validators" then
        match getObj false ["delegator_address"] v with
        | none => none
        | some fs =>
          match reqF jcStr "delegator_address" fs with
          | none => none
          | some x_delegatorAddress =>
          some (.delegatorValidators x_delegatorAddress)
      else
      none
    | _ => none

theorem DistributionQuery.jc_law : DistributionQuery.jc.Law := by
  intro x; cases x with
  | delegatorWithdrawAddress x0 =>
    all_goals simp [DistributionQuery.jc, getObj, countKey, lookupKey, reqF, optF, nullListF, defListF, skipNone, skipEmpty, (jcStr_law) _]
  | delegationRewards x0 x1 =>
    all_goals simp [DistributionQuery.jc, getObj, countKey, lookupKey, reqF, optF, nullListF, defListF, skipNone, skipEmpty, (jcStr_law) _]
  | delegationTotalRewards x0 =>
    all_goals simp [DistributionQuery.jc, getObj, countKey, lookupKey, reqF, optF, nullListF, defListF, skipNone, skipEmpty, (jcStr_law) _]
  | delegatorValidators x0 =>
    all_goals simp [DistributionQuery.jc, getObj, countKey, lookupKey, reqF, optF, nullListF, defListF, skipNone, skipEmpty, (jcStr_law) _]
theorem DistributionQuery.jc_nn : DistributionQuery.jc.NonNull := fun x h => by cases x <;> cases h

/-- JSON of `IbcQuery`: `IbcQuery` (cosmwasm-std 2.1.3, not in /repo); rejected at `/repo/src/types/query_msg.rs` 19. -/
def IbcQuery.jc : JC IbcQuery where
  enc m := match m with
    | .portId => .obj [("port_id", .obj ([]))]
    | .listChannels x_portId => .obj [("list_channels", .obj ([("port_id", (jcOpt jcStr).enc x_portId)]))]
    | .channel x_channelId x_portId => .obj [("channel", .obj ([("channel_id", jcStr.enc x_channelId), ("port_id", (jcOpt jcStr).enc x_portId)]))]
  dec j := match j with
    | .obj [(k, v)] =>
      if k = "port_id" then
        match getObj false [] v with
        | none => none
        | some _ =>
          some (.portId)
      else
      if k = "list_channels" then
        match getObj false ["port_id"] v with
        | none => none
        | some fs =>
          match optF jcStr "port_id" fs with
          | none => none
          | some x_portId =>
          some (.listChannels x_portId)
      else
      if k = "channel" then
        match getObj false ["channel_id", "port_id"] v with
        | none => none
        | some fs =>
          match reqF jcStr "channel_id" fs with
          | none => none
          | some x_channelId =>
          match optF jcStr "port_id" fs with
          | none => none
          | some x_portId =>
          some (.channel x_channelId x_portId)
      else
      none
    | _ => none

theorem IbcQuery.jc_law : IbcQuery.jc.Law := by
  intro x; cases x with
  | portId =>
    all_goals simp [IbcQuery.jc, getObj, countKey, lookupKey, reqF, optF, nullListF, defListF, skipNone, skipEmpty]
  | listChannels x0 =>
    all_goals simp [IbcQuery.jc, getObj, countKey, lookupKey, reqF, optF, nullListF, defListF, skipNone, skipEmpty, (jcOpt_law jcStr_law jcStr_nn) _]
  | channel x0 x1 =>
    all_goals simp [IbcQuery.jc, getObj, countKey, lookupKey, reqF, optF, nullListF, defListF, skipNone, skipEmpty, (jcStr_law) _, (jcOpt_law jcStr_law jcStr_nn) _]
theorem IbcQuery.jc_nn : IbcQuery.jc.NonNull := fun x h => by cases x <;> cases h

/-- JSON of `WasmQuery`: `WasmQuery` (cosmwasm-std 2.1.3, not in /repo); matched at `/repo/src/types/query_msg.rs` 277-310. -/
def WasmQuery.jc : JC WasmQuery where
  enc m := match m with
    | .smart x_contractAddr x_msg => .obj [("smart", .obj ([("contract_addr", jcStr.enc x_contractAddr), ("msg", jcBin.enc x_msg)]))]
    | .raw x_contractAddr x_key => .obj [("raw", .obj ([("contract_addr", jcStr.enc x_contractAddr), ("key", jcBin.enc x_key)]))]
    | .contractInfo x_contractAddr => .obj [("contract_info", .obj ([("contract_addr", jcStr.enc x_contractAddr)]))]
    | .codeInfo x_codeId => .obj [("code_info", .obj ([("code_id", jcU64.enc x_codeId)]))]
  dec j := match j with
    | .obj [(k, v)] =>
      if k = "smart" then
        match getObj false ["contract_addr", "msg"] v with
        | none => none
        | some fs =>
          match reqF jcStr "contract_addr" fs with
          | none => none
          | some x_contractAddr =>
          match reqF jcBin "msg" fs with
          | none => none
          | some x_msg =>
          some (.smart x_contractAddr x_msg)
      else
      if k = "raw" then
        match getObj false ["contract_addr", "key"] v with
        | none => none
        | some fs =>
          match reqF jcStr "contract_addr" fs with
          | none => none
          | some x_contractAddr =>
          match reqF jcBin "key" fs with
          | none => none
          | some x_key =>
          some (.raw x_contractAddr x_key)
      else
      if k = "contract_info" then
        match getObj false ["contract_addr"] v with
        | none => none
        | some fs =>
          match reqF jcStr "contract_addr" fs with
          | none => none
          | some x_contractAddr =>
          some (.contractInfo x_contractAddr)
      else
      if k = "code_info" then
        match getObj false ["code_id"] v with
        | none => none
        | some fs =>
          match reqF jcU64 "code_id" fs with
          | none => none
          | some x_codeId =>
          some (.codeInfo x_codeId)
      else
      none
    | _ => none

theorem WasmQuery.jc_law : WasmQuery.jc.Law := by
  intro x; cases x with
  | smart x0 x1 =>
    all_goals simp [WasmQuery.jc, getObj, countKey, lookupKey, reqF, optF, nullListF, defListF, skipNone, skipEmpty, (jcStr_law) _, (jcBin_law) _]
  | raw x0 x1 =>
    all_goals simp [WasmQuery.jc, getObj, countKey, lookupKey, reqF, optF, nullListF, defListF, skipNone, skipEmpty, (jcStr_law) _, (jcBin_law) _]
  | contractInfo x0 =>
    all_goals simp [WasmQuery.jc, getObj, countKey, lookupKey, reqF, optF, nullListF, defListF, skipNone, skipEmpty, (jcStr_law) _]
  | codeInfo x0 =>
    all_goals simp [WasmQuery.jc, getObj, countKey, lookupKey, reqF, optF, nullListF, defListF, skipNone, skipEmpty, (jcU64_law) _]
theorem WasmQuery.jc_nn : WasmQuery.jc.NonNull := fun x h => by cases x <;> cases h

/-- JSON of `QueryRequest`: `QueryRequest<Empty>` (cosmwasm-std 2.1.3, not in /repo); matched at `/repo/src/types/query_msg.rs` 13-29. -/
def QueryRequest.jc : JC QueryRequest where
  enc m := match m with
    | .bank x => .obj [("bank", BankQuery.jc.enc x)]
    | .custom x => .obj [("custom", Empty.jc.enc x)]
    | .staking x => .obj [("staking", StakingQuery.jc.enc x)]
    | .distribution x => .obj [("distribution", DistributionQuery.jc.enc x)]
    | .stargate x_path x_data => .obj [("stargate", .obj ([("path", jcStr.enc x_path), ("data", jcBin.enc x_data)]))]
    | .ibc x => .obj [("ibc", IbcQuery.jc.enc x)]
    | .wasm x => .obj [("wasm", WasmQuery.jc.enc x)]
  dec j := match j with
    | .obj [(k, v)] =>
      if k = "bank" then (BankQuery.jc.dec v).map .bank else
      if k = "custom" then (Empty.jc.dec v).map .custom else
      if k = "staking" then (StakingQuery.jc.dec v).map .staking else
      if k = "distribution" then (DistributionQuery.jc.dec v).map .distribution else
      if k = "stargate" then
        match getObj false ["path", "data"] v with
        | none => none
        | some fs =>
          match reqF jcStr "path" fs with
          | none => none
          | some x_path =>
          match reqF jcBin "data" fs with
          | none => none
          | some x_data =>
          some (.stargate x_path x_data)
      else
      if k = "ibc" then (IbcQuery.jc.dec v).map .ibc else
      if k = "wasm" then (WasmQuery.jc.dec v).map .wasm else
      none
    | _ => none

theorem QueryRequest.jc_law : QueryRequest.jc.Law := by
  intro x; cases x with
  | bank x => simp [QueryRequest.jc, (BankQuery.jc_law) x]
  | custom x => simp [QueryRequest.jc, (Empty.jc_law) x]
  | staking x => simp [QueryRequest.jc, (StakingQuery.jc_law) x]
  | distribution x => simp [QueryRequest.jc, (DistributionQuery.jc_law) x]
  | stargate x0 x1 =>
    all_goals simp [QueryRequest.jc, getObj, countKey, lookupKey, reqF, optF, nullListF, defListF, skipNone, skipEmpty, (jcStr_law) _, (jcBin_law) _]
  | ibc x => simp [QueryRequest.jc, (IbcQuery.jc_law) x]
  | wasm x => simp [QueryRequest.jc, (WasmQuery.jc_law) x]
theorem QueryRequest.jc_nn : QueryRequest.jc.NonNull := fun x h => by cases x <;> cases h

/-- JSON of `ChannelOpenInitOptions`: `/repo/src/types/msg.rs` 95-118 (plain serde derive: unknown members are ignored). -/
def ChannelOpenInitOptions.jc : JC ChannelOpenInitOptions where
  enc m := .obj ([("connection_id", jcStr.enc m.connectionId), ("counterparty_connection_id", jcStr.enc m.counterpartyConnectionId), ("counterparty_port_id", (jcOpt jcStr).enc m.counterpartyPortId), ("channel_ordering", (jcOpt IbcOrder.jc).enc m.channelOrdering)])
  dec j :=
    match getObj false ["connection_id", "counterparty_connection_id", "counterparty_port_id", "channel_ordering"] j with
    | none => none
    | some fs =>
      match reqF jcStr "connection_id" fs with
      | none => none
      | some x_connectionId =>
      match reqF jcStr "counterparty_connection_id" fs with
      | none => none
      | some x_counterpartyConnectionId =>
      match optF jcStr "counterparty_port_id" fs with
      | none => none
      | some x_counterpartyPortId =>
      match optF IbcOrder.jc "channel_ordering" fs with
      | none => none
      | some x_channelOrdering =>
      some ⟨x_connectionId, x_counterpartyConnectionId, x_counterpartyPortId, x_channelOrdering⟩

theorem ChannelOpenInitOptions.jc_law : ChannelOpenInitOptions.jc.Law := by
  rintro ⟨x0, x1, x2, x3⟩
  all_goals simp [ChannelOpenInitOptions.jc, getObj, countKey, lookupKey, reqF, optF, nullListF, defListF, skipNone, skipEmpty, (jcStr_law) _, (jcOpt_law jcStr_law jcStr_nn) _, (jcOpt_law IbcOrder.jc_law IbcOrder.jc_nn) _]
theorem ChannelOpenInitOptions.jc_nn : ChannelOpenInitOptions.jc.NonNull := fun _ h => by cases h

/-- JSON of `TxEncoding`: `/repo/src/ibc/types/metadata.rs` 42-50. -/
def TxEncoding.jc : JC TxEncoding where
  enc m := match m with
    | .protobuf => .str "proto3"
    | .proto3Json => .str "proto3json"
  dec j := match j with
    | .str s =>
      if s = "proto3" then some .protobuf else
      if s = "proto3json" then some .proto3Json else
      none
    | _ => none

theorem TxEncoding.jc_law : TxEncoding.jc.Law := by
  intro x; cases x with
  | protobuf => simp [TxEncoding.jc]
  | proto3Json => simp [TxEncoding.jc]
theorem TxEncoding.jc_nn : TxEncoding.jc.NonNull := fun x h => by cases x <;> cases h

/-- JSON of `IcaInfo`: `/repo/src/types/state.rs` 104-109. -/
def IcaInfo.jc : JC IcaInfo where
  enc m := .obj ([("ica_address", jcStr.enc m.icaAddress), ("channel_id", jcStr.enc m.channelId), ("encoding", TxEncoding.jc.enc m.encoding)])
  dec j :=
    match getObj true ["ica_address", "channel_id", "encoding"] j with
    | none => none
    | some fs =>
      match reqF jcStr "ica_address" fs with
      | none => none
      | some x_icaAddress =>
      match reqF jcStr "channel_id" fs with
      | none => none
      | some x_channelId =>
      match reqF TxEncoding.jc "encoding" fs with
      | none => none
      | some x_encoding =>
      some ⟨x_icaAddress, x_channelId, x_encoding⟩

theorem IcaInfo.jc_law : IcaInfo.jc.Law := by
  rintro ⟨x0, x1, x2⟩
  all_goals simp [IcaInfo.jc, getObj, countKey, lookupKey, reqF, optF, nullListF, defListF, skipNone, skipEmpty, (jcStr_law) _, (TxEncoding.jc_law) _]
theorem IcaInfo.jc_nn : IcaInfo.jc.NonNull := fun _ h => by cases h

/-- JSON of `ContractState`: `/repo/src/types/state.rs` 53-63 (plain serde derive with defaults). -/
def ContractState.jc : JC ContractState where
  enc m := .obj ([("ica_info", (jcOpt IcaInfo.jc).enc m.icaInfo), ("callback_address", (jcOpt jcStr).enc m.callbackAddress)])
  dec j :=
    match getObj false ["ica_info", "callback_address"] j with
    | none => none
    | some fs =>
      match optF IcaInfo.jc "ica_info" fs with
      | none => none
      | some x_icaInfo =>
      match optF jcStr "callback_address" fs with
      | none => none
      | some x_callbackAddress =>
      some ⟨x_icaInfo, x_callbackAddress⟩

theorem ContractState.jc_law : ContractState.jc.Law := by
  rintro ⟨x0, x1⟩
  all_goals simp [ContractState.jc, getObj, countKey, lookupKey, reqF, optF, nullListF, defListF, skipNone, skipEmpty, (jcOpt_law IcaInfo.jc_law IcaInfo.jc_nn) _, (jcOpt_law jcStr_law jcStr_nn) _]
theorem ContractState.jc_nn : ContractState.jc.NonNull := fun _ h => by cases h

/-- JSON of `ChannelStatus`: `/repo/src/types/state.rs` 134-159. -/
def ChannelStatus.jc : JC ChannelStatus where
  enc m := match m with
    | .uninitialized => .str "STATE_UNINITIALIZED_UNSPECIFIED"
    | .init => .str "STATE_INIT"
    | .tryOpen => .str "STATE_TRYOPEN"
    | .opened => .str "STATE_OPEN"
    | .closed => .str "STATE_CLOSED"
    | .flushing => .str "STATE_FLUSHING"
    | .flushComplete => .str "STATE_FLUSHCOMPLETE"
  dec j := match j with
    | .str s =>
      if s = "STATE_UNINITIALIZED_UNSPECIFIED" then some .uninitialized else
      if s = "STATE_INIT" then some .init else
      if s = "STATE_TRYOPEN" then some .tryOpen else
      if s = "STATE_OPEN" then some .opened else
      if s = "STATE_CLOSED" then some .closed else
      if s = "STATE_FLUSHING" then some .flushing else
      if s = "STATE_FLUSHCOMPLETE" then some .flushComplete else
      none
    | _ => none

theorem ChannelStatus.jc_law : ChannelStatus.jc.Law := by
  intro x; cases x with
  | uninitialized => simp [ChannelStatus.jc]
  | init => simp [ChannelStatus.jc]
  | tryOpen => simp [ChannelStatus.jc]
  | opened => simp [ChannelStatus.jc]
  | closed => simp [ChannelStatus.jc]
  | flushing => simp [ChannelStatus.jc]
  | flushComplete => simp [ChannelStatus.jc]
theorem ChannelStatus.jc_nn : ChannelStatus.jc.NonNull := fun x h => by cases x <;> cases h

/-- JSON of `ChannelState`: `/repo/src/types/state.rs` 163-169. -/
def ChannelState.jc : JC ChannelState where
  enc m := .obj ([("channel", IbcChannel.jc.enc m.channel), ("channel_status", ChannelStatus.jc.enc m.channelStatus)])
  dec j :=
    match getObj true ["channel", "channel_status"] j with
    | none => none
    | some fs =>
      match reqF IbcChannel.jc "channel" fs with
      | none => none
      | some x_channel =>
      match reqF ChannelStatus.jc "channel_status" fs with
      | none => none
      | some x_channelStatus =>
      some ⟨x_channel, x_channelStatus⟩

theorem ChannelState.jc_law : ChannelState.jc.Law := by
  rintro ⟨x0, x1⟩
  all_goals simp [ChannelState.jc, getObj, countKey, lookupKey, reqF, optF, nullListF, defListF, skipNone, skipEmpty, (IbcChannel.jc_law) _, (ChannelStatus.jc_law) _]
theorem ChannelState.jc_nn : ChannelState.jc.NonNull := fun _ h => by cases h

/-- JSON of `Expiration`: `cw_utils::Expiration` (cw-ownable 2.0.0, not in /repo); used by `cw_ownable::Action` at `/repo/src/contract.rs` 228-241. -/
def Expiration.jc : JC Expiration where
  enc m := match m with
    | .atHeight x => .obj [("at_height", jcU64.enc x)]
    | .atTime x => .obj [("at_time", jcUint64.enc x)]
    | .never => .obj [("never", .obj ([]))]
  dec j := match j with
    | .obj [(k, v)] =>
      if k = "at_height" then (jcU64.dec v).map .atHeight else
      if k = "at_time" then (jcUint64.dec v).map .atTime else
      if k = "never" then
        match getObj true [] v with
        | none => none
        | some _ =>
          some (.never)
      else
      none
    | _ => none

theorem Expiration.jc_law : Expiration.jc.Law := by
  intro x; cases x with
  | atHeight x => simp [Expiration.jc, (jcU64_law) x]
  | atTime x => simp [Expiration.jc, (jcUint64_law) x]
  | never =>
    all_goals simp [Expiration.jc, getObj, countKey, lookupKey, reqF, optF, nullListF, defListF, skipNone, skipEmpty]
theorem Expiration.jc_nn : Expiration.jc.NonNull := fun x h => by cases x <;> cases h

/-- JSON of `Ownership`: `cw_ownable::Ownership` (not in /repo); returned at `/repo/src/contract.rs` 102. -/
def Ownership.jc : JC Ownership where
  enc m := .obj ([("owner", (jcOpt jcStr).enc m.owner), ("pending_owner", (jcOpt jcStr).enc m.pendingOwner), ("pending_expiry", (jcOpt Expiration.jc).enc m.pendingExpiry)])
  dec j :=
    match getObj true ["owner", "pending_owner", "pending_expiry"] j with
    | none => none
    | some fs =>
      match optF jcStr "owner" fs with
      | none => none
      | some x_owner =>
      match optF jcStr "pending_owner" fs with
      | none => none
      | some x_pendingOwner =>
      match optF Expiration.jc "pending_expiry" fs with
      | none => none
      | some x_pendingExpiry =>
      some ⟨x_owner, x_pendingOwner, x_pendingExpiry⟩

theorem Ownership.jc_law : Ownership.jc.Law := by
  rintro ⟨x0, x1, x2⟩
  all_goals simp [Ownership.jc, getObj, countKey, lookupKey, reqF, optF, nullListF, defListF, skipNone, skipEmpty, (jcOpt_law jcStr_law jcStr_nn) _, (jcOpt_law Expiration.jc_law Expiration.jc_nn) _]
theorem Ownership.jc_nn : Ownership.jc.NonNull := fun _ h => by cases h

/-- JSON of `Action`: `cw_ownable::Action` (not in /repo); `/repo/src/contract.rs` 228-241. -/
def Action.jc : JC Action where
  enc m := match m with
    | .transferOwnership x_newOwner x_expiry => .obj [("transfer_ownership", .obj ([("new_owner", jcStr.enc x_newOwner), ("expiry", (jcOpt Expiration.jc).enc x_expiry)]))]
    | .acceptOwnership => .str "accept_ownership"
    | .renounceOwnership => .str "renounce_ownership"
  dec j := match j with
    | .str s =>
      if s = "accept_ownership" then some .acceptOwnership else
      if s = "renounce_ownership" then some .renounceOwnership else
      none
    | .obj [(k, v)] =>
      if k = "transfer_ownership" then
        match getObj true ["new_owner", "expiry"] v with
        | none => none
        | some fs =>
          match reqF jcStr "new_owner" fs with
          | none => none
          | some x_newOwner =>
          match optF Expiration.jc "expiry" fs with
          | none => none
          | some x_expiry =>
          some (.transferOwnership x_newOwner x_expiry)
      else
      none
    | _ => none

theorem Action.jc_law : Action.jc.Law := by
  intro x; cases x with
  | transferOwnership x0 x1 =>
    all_goals simp [Action.jc, getObj, countKey, lookupKey, reqF, optF, nullListF, defListF, skipNone, skipEmpty, (jcStr_law) _, (jcOpt_law Expiration.jc_law Expiration.jc_nn) _]
  | acceptOwnership => simp [Action.jc]
  | renounceOwnership => simp [Action.jc]
theorem Action.jc_nn : Action.jc.NonNull := fun x h => by cases x <;> cases h

/-- JSON of `ContractVersion`: `cw2::ContractVersion` (not in /repo); written at `/repo/src/contract.rs` 21, 113. -/
def ContractVersion.jc : JC ContractVersion where
  enc m := .obj ([("contract", jcStr.enc m.contract), ("version", jcStr.enc m.version)])
  dec j :=
    match getObj true ["contract", "version"] j with
    | none => none
    | some fs =>
      match reqF jcStr "contract" fs with
      | none => none
      | some x_contract =>
      match reqF jcStr "version" fs with
      | none => none
      | some x_version =>
      some ⟨x_contract, x_version⟩

theorem ContractVersion.jc_law : ContractVersion.jc.Law := by
  rintro ⟨x0, x1⟩
  all_goals simp [ContractVersion.jc, getObj, countKey, lookupKey, reqF, optF, nullListF, defListF, skipNone, skipEmpty, (jcStr_law) _]
theorem ContractVersion.jc_nn : ContractVersion.jc.NonNull := fun _ h => by cases h

/-- JSON of `InstantiateMsg`: `/repo/src/types/msg.rs` 8-21. -/
def InstantiateMsg.jc : JC InstantiateMsg where
  enc m := .obj (skipNone jcStr "owner" m.owner ++ ([("channel_open_init_options", ChannelOpenInitOptions.jc.enc m.channelOpenInitOptions)] ++ (skipNone jcStr "send_callbacks_to" m.sendCallbacksTo)))
  dec j :=
    match getObj true ["owner", "channel_open_init_options", "send_callbacks_to"] j with
    | none => none
    | some fs =>
      match optF jcStr "owner" fs with
      | none => none
      | some x_owner =>
      match reqF ChannelOpenInitOptions.jc "channel_open_init_options" fs with
      | none => none
      | some x_channelOpenInitOptions =>
      match optF jcStr "send_callbacks_to" fs with
      | none => none
      | some x_sendCallbacksTo =>
      some ⟨x_owner, x_channelOpenInitOptions, x_sendCallbacksTo⟩

theorem InstantiateMsg.jc_law : InstantiateMsg.jc.Law := by
  rintro ⟨x0, x1, x2⟩
  all_goals rcases x0 with _ | x0
  all_goals rcases x2 with _ | x2
  all_goals simp [InstantiateMsg.jc, getObj, countKey, lookupKey, reqF, optF, nullListF, defListF, skipNone, skipEmpty, (jcOpt_dec_enc jcStr_law jcStr_nn), (ChannelOpenInitOptions.jc_law) _]
theorem InstantiateMsg.jc_nn : InstantiateMsg.jc.NonNull := fun _ h => by cases h

/-- JSON of `ExecuteMsg`: `/repo/src/types/msg.rs` 23-71 with the variant added by `cw_ownable_execute`. -/
def ExecuteMsg.jc : JC ExecuteMsg where
  enc m := match m with
    | .createChannel x_options => .obj [("create_channel", .obj (skipNone ChannelOpenInitOptions.jc "channel_open_init_options" x_options))]
    | .closeChannel => .obj [("close_channel", .obj ([]))]
    | .sendCosmosMsgs x_messages x_queries x_packetMemo x_timeoutSeconds => .obj [("send_cosmos_msgs", .obj ([("messages", (jcList CosmosMsg.jc).enc x_messages)] ++ (skipEmpty QueryRequest.jc "queries" x_queries ++ (skipNone jcStr "packet_memo" x_packetMemo ++ (skipNone jcU64 "timeout_seconds" x_timeoutSeconds)))))]
    | .updateCallbackAddress x_callbackAddress => .obj [("update_callback_address", .obj ([("callback_address", (jcOpt jcStr).enc x_callbackAddress)]))]
    | .updateOwnership x => .obj [("update_ownership", Action.jc.enc x)]
  dec j := match j with
    | .obj [(k, v)] =>
      if k = "create_channel" then
        match getObj true ["channel_open_init_options"] v with
        | none => none
        | some fs =>
          match optF ChannelOpenInitOptions.jc "channel_open_init_options" fs with
          | none => none
          | some x_options =>
          some (.createChannel x_options)
      else
      if k = "close_channel" then
        match getObj true [] v with
        | none => none
        | some _ =>
          some (.closeChannel)
      else
      if k = "send_cosmos_msgs" then
        match getObj true ["messages", "queries", "packet_memo", "timeout_seconds"] v with
        | none => none
        | some fs =>
          match nullListF CosmosMsg.jc "messages" fs with
          | none => none
          | some x_messages =>
          match defListF QueryRequest.jc "queries" fs with
          | none => none
          | some x_queries =>
          match optF jcStr "packet_memo" fs with
          | none => none
          | some x_packetMemo =>
          match optF jcU64 "timeout_seconds" fs with
          | none => none
          | some x_timeoutSeconds =>
          some (.sendCosmosMsgs x_messages x_queries x_packetMemo x_timeoutSeconds)
      else
      if k = "update_callback_address" then
        match getObj true ["callback_address"] v with
        | none => none
        | some fs =>
          match optF jcStr "callback_address" fs with
          | none => none
          | some x_callbackAddress =>
          some (.updateCallbackAddress x_callbackAddress)
      else
      if k = "update_ownership" then (Action.jc.dec v).map .updateOwnership else
      none
    | _ => none

theorem ExecuteMsg.jc_law : ExecuteMsg.jc.Law := by
  intro x; cases x with
  | createChannel x0 =>
    all_goals rcases x0 with _ | x0
    all_goals simp [ExecuteMsg.jc, getObj, countKey, lookupKey, reqF, optF, nullListF, defListF, skipNone, skipEmpty, (jcOpt_dec_enc ChannelOpenInitOptions.jc_law ChannelOpenInitOptions.jc_nn)]
  | closeChannel =>
    all_goals simp [ExecuteMsg.jc, getObj, countKey, lookupKey, reqF, optF, nullListF, defListF, skipNone, skipEmpty]
  | sendCosmosMsgs x0 x1 x2 x3 =>
    all_goals rcases x1 with _ | ⟨x1a, x1b⟩
    all_goals rcases x2 with _ | x2
    all_goals rcases x3 with _ | x3
    all_goals simp [ExecuteMsg.jc, getObj, countKey, lookupKey, reqF, optF, nullListF, defListF, skipNone, skipEmpty, (jcOpt_dec_enc (jcList_law CosmosMsg.jc_law) (jcList_nn _)), (jcOpt_dec_enc (jcList_law QueryRequest.jc_law) (jcList_nn _)), (jcOpt_dec_enc jcStr_law jcStr_nn), (jcOpt_dec_enc jcU64_law jcU64_nn)]
  | updateCallbackAddress x0 =>
    all_goals simp [ExecuteMsg.jc, getObj, countKey, lookupKey, reqF, optF, nullListF, defListF, skipNone, skipEmpty, (jcOpt_law jcStr_law jcStr_nn) _]
  | updateOwnership x => simp [ExecuteMsg.jc, (Action.jc_law) x]
theorem ExecuteMsg.jc_nn : ExecuteMsg.jc.NonNull := fun x h => by cases x <;> cases h

/-- JSON of `QueryMsg`: `/repo/src/types/msg.rs` 73-85 with the variant added by `cw_ownable_query`. -/
def QueryMsg.jc : JC QueryMsg where
  enc m := match m with
    | .getChannel => .obj [("get_channel", .obj ([]))]
    | .getContractState => .obj [("get_contract_state", .obj ([]))]
    | .ownership => .obj [("ownership", .obj ([]))]
  dec j := match j with
    | .obj [(k, v)] =>
      if k = "get_channel" then
        match getObj true [] v with
        | none => none
        | some _ =>
          some (.getChannel)
      else
      if k = "get_contract_state" then
        match getObj true [] v with
        | none => none
        | some _ =>
          some (.getContractState)
      else
      if k = "ownership" then
        match getObj true [] v with
        | none => none
        | some _ =>
          some (.ownership)
      else
      none
    | _ => none

theorem QueryMsg.jc_law : QueryMsg.jc.Law := by
  intro x; cases x with
  | getChannel =>
    all_goals simp [QueryMsg.jc, getObj, countKey, lookupKey, reqF, optF, nullListF, defListF, skipNone, skipEmpty]
  | getContractState =>
    all_goals simp [QueryMsg.jc, getObj, countKey, lookupKey, reqF, optF, nullListF, defListF, skipNone, skipEmpty]
  | ownership =>
    all_goals simp [QueryMsg.jc, getObj, countKey, lookupKey, reqF, optF, nullListF, defListF, skipNone, skipEmpty]
theorem QueryMsg.jc_nn : QueryMsg.jc.NonNull := fun x h => by cases x <;> cases h

/-- JSON of `MigrateMsg`: `/repo/src/types/msg.rs` 87-89. -/
def MigrateMsg.jc : JC MigrateMsg where
  enc m := .obj ([])
  dec j :=
    match getObj true [] j with
    | none => none
    | some _ =>
      some ⟨⟩

theorem MigrateMsg.jc_law : MigrateMsg.jc.Law := by
  rintro ⟨⟩
  all_goals simp [MigrateMsg.jc, getObj, countKey, lookupKey, reqF, optF, nullListF, defListF, skipNone, skipEmpty]
theorem MigrateMsg.jc_nn : MigrateMsg.jc.NonNull := fun _ h => by cases h

/-- JSON of `IcaMetadata`: `/repo/src/ibc/types/metadata.rs` 21-39. -/
def IcaMetadata.jc : JC IcaMetadata where
  enc m := .obj ([("version", jcStr.enc m.version), ("controller_connection_id", jcStr.enc m.controllerConnectionId), ("host_connection_id", jcStr.enc m.hostConnectionId), ("address", jcStr.enc m.address), ("encoding", TxEncoding.jc.enc m.encoding), ("tx_type", jcStr.enc m.txType)])
  dec j :=
    match getObj true ["version", "controller_connection_id", "host_connection_id", "address", "encoding", "tx_type"] j with
    | none => none
    | some fs =>
      match reqF jcStr "version" fs with
      | none => none
      | some x_version =>
      match reqF jcStr "controller_connection_id" fs with
      | none => none
      | some x_controllerConnectionId =>
      match reqF jcStr "host_connection_id" fs with
      | none => none
      | some x_hostConnectionId =>
      match reqF jcStr "address" fs with
      | none => none
      | some x_address =>
      match reqF TxEncoding.jc "encoding" fs with
      | none => none
      | some x_encoding =>
      match reqF jcStr "tx_type" fs with
      | none => none
      | some x_txType =>
      some ⟨x_version, x_controllerConnectionId, x_hostConnectionId, x_address, x_encoding, x_txType⟩

theorem IcaMetadata.jc_law : IcaMetadata.jc.Law := by
  rintro ⟨x0, x1, x2, x3, x4, x5⟩
  all_goals simp [IcaMetadata.jc, getObj, countKey, lookupKey, reqF, optF, nullListF, defListF, skipNone, skipEmpty, (jcStr_law) _, (TxEncoding.jc_law) _]
theorem IcaMetadata.jc_nn : IcaMetadata.jc.NonNull := fun _ h => by cases h

/-- JSON of `IcaPacketData`: `/repo/src/ibc/types/packet.rs` 27-46 (`data: Vec<u8>` is an array of numbers). -/
def IcaPacketData.jc : JC IcaPacketData where
  enc m := .obj ([("type", jcU32.enc m.«type»), ("data", (jcList jcU8).enc m.data)] ++ (skipNone jcStr "memo" m.memo))
  dec j :=
    match getObj true ["type", "data", "memo"] j with
    | none => none
    | some fs =>
      match reqF jcU32 "type" fs with
      | none => none
      | some x_type =>
      match reqF (jcList jcU8) "data" fs with
      | none => none
      | some x_data =>
      match optF jcStr "memo" fs with
      | none => none
      | some x_memo =>
      some ⟨x_type, x_data, x_memo⟩

theorem IcaPacketData.jc_law : IcaPacketData.jc.Law := by
  rintro ⟨x0, x1, x2⟩
  all_goals rcases x2 with _ | x2
  all_goals simp [IcaPacketData.jc, getObj, countKey, lookupKey, reqF, optF, nullListF, defListF, skipNone, skipEmpty, (jcU32_law) _, (jcList_law jcU8_law) _, (jcOpt_dec_enc jcStr_law jcStr_nn)]
theorem IcaPacketData.jc_nn : IcaPacketData.jc.NonNull := fun _ h => by cases h

/-- JSON of `AckData`: `/repo/src/ibc/types/packet.rs` 211-219. -/
def AckData.jc : JC AckData where
  enc m := match m with
    | .result x => .obj [("result", jcBin.enc x)]
    | .error x => .obj [("error", jcStr.enc x)]
  dec j := match j with
    | .obj [(k, v)] =>
      if k = "result" then (jcBin.dec v).map .result else
      if k = "error" then (jcStr.dec v).map .error else
      none
    | _ => none

theorem AckData.jc_law : AckData.jc.Law := by
  intro x; cases x with
  | result x => simp [AckData.jc, (jcBin_law) x]
  | error x => simp [AckData.jc, (jcStr_law) x]
theorem AckData.jc_nn : AckData.jc.NonNull := fun x h => by cases x <;> cases h

/-- JSON of `DenomUnit`: `DenomUnit` (cosmwasm-std 2.1.3, not in /repo); built at `/repo/src/types/query_msg.rs` 412-420. -/
def DenomUnit.jc : JC DenomUnit where
  enc m := .obj ([("denom", jcStr.enc m.denom), ("exponent", jcU32.enc m.exponent), ("aliases", (jcList jcStr).enc m.aliases)])
  dec j :=
    match getObj false ["denom", "exponent", "aliases"] j with
    | none => none
    | some fs =>
      match reqF jcStr "denom" fs with
      | none => none
      | some x_denom =>
      match reqF jcU32 "exponent" fs with
      | none => none
      | some x_exponent =>
      match reqF (jcList jcStr) "aliases" fs with
      | none => none
      | some x_aliases =>
      some ⟨x_denom, x_exponent, x_aliases⟩

theorem DenomUnit.jc_law : DenomUnit.jc.Law := by
  rintro ⟨x0, x1, x2⟩
  all_goals simp [DenomUnit.jc, getObj, countKey, lookupKey, reqF, optF, nullListF, defListF, skipNone, skipEmpty, (jcStr_law) _, (jcU32_law) _, (jcList_law jcStr_law) _]
theorem DenomUnit.jc_nn : DenomUnit.jc.NonNull := fun _ h => by cases h

/-- JSON of `DenomMetadata`: `DenomMetadata` (cosmwasm-std 2.1.3, not in /repo); built at `/repo/src/types/query_msg.rs` 403-422. -/
def DenomMetadata.jc : JC DenomMetadata where
  enc m := .obj ([("description", jcStr.enc m.description), ("denom_units", (jcList DenomUnit.jc).enc m.denomUnits), ("base", jcStr.enc m.base), ("display", jcStr.enc m.display), ("name", jcStr.enc m.name), ("symbol", jcStr.enc m.symbol), ("uri", jcStr.enc m.uri), ("uri_hash", jcStr.enc m.uriHash)])
  dec j :=
    match getObj false ["description", "denom_units", "base", "display", "name", "symbol", "uri", "uri_hash"] j with
    | none => none
    | some fs =>
      match reqF jcStr "description" fs with
      | none => none
      | some x_description =>
      match reqF (jcList DenomUnit.jc) "denom_units" fs with
      | none => none
      | some x_denomUnits =>
      match reqF jcStr "base" fs with
      | none => none
      | some x_base =>
      match reqF jcStr "display" fs with
      | none => none
      | some x_display =>
      match reqF jcStr "name" fs with
      | none => none
      | some x_name =>
      match reqF jcStr "symbol" fs with
      | none => none
      | some x_symbol =>
      match reqF jcStr "uri" fs with
      | none => none
      | some x_uri =>
      match reqF jcStr "uri_hash" fs with
      | none => none
      | some x_uriHash =>
      some ⟨x_description, x_denomUnits, x_base, x_display, x_name, x_symbol, x_uri, x_uriHash⟩

theorem DenomMetadata.jc_law : DenomMetadata.jc.Law := by
  rintro ⟨x0, x1, x2, x3, x4, x5, x6, x7⟩
  all_goals simp [DenomMetadata.jc, getObj, countKey, lookupKey, reqF, optF, nullListF, defListF, skipNone, skipEmpty, (jcStr_law) _, (jcList_law DenomUnit.jc_law) _]
theorem DenomMetadata.jc_nn : DenomMetadata.jc.NonNull := fun _ h => by cases h

/-- JSON of `CoinResponse`: `SupplyResponse`, `BalanceResponse` (cosmwasm-std 2.1.3, not in /repo): one coin `amount`. -/
def CoinResponse.jc : JC CoinResponse where
  enc m := .obj ([("amount", Coin.jc.enc m.amount)])
  dec j :=
    match getObj false ["amount"] j with
    | none => none
    | some fs =>
      match reqF Coin.jc "amount" fs with
      | none => none
      | some x_amount =>
      some ⟨x_amount⟩

theorem CoinResponse.jc_law : CoinResponse.jc.Law := by
  rintro ⟨x0⟩
  all_goals simp [CoinResponse.jc, getObj, countKey, lookupKey, reqF, optF, nullListF, defListF, skipNone, skipEmpty, (Coin.jc_law) _]
theorem CoinResponse.jc_nn : CoinResponse.jc.NonNull := fun _ h => by cases h

/-- JSON of `AllBalanceResponse`: `AllBalanceResponse` (cosmwasm-std 2.1.3, not in /repo). -/
def AllBalanceResponse.jc : JC AllBalanceResponse where
  enc m := .obj ([("amount", (jcList Coin.jc).enc m.amount)])
  dec j :=
    match getObj false ["amount"] j with
    | none => none
    | some fs =>
      match reqF (jcList Coin.jc) "amount" fs with
      | none => none
      | some x_amount =>
      some ⟨x_amount⟩

theorem AllBalanceResponse.jc_law : AllBalanceResponse.jc.Law := by
  rintro ⟨x0⟩
  all_goals simp [AllBalanceResponse.jc, getObj, countKey, lookupKey, reqF, optF, nullListF, defListF, skipNone, skipEmpty, (jcList_law Coin.jc_law) _]
theorem AllBalanceResponse.jc_nn : AllBalanceResponse.jc.NonNull := fun _ h => by cases h

/-- JSON of `DenomMetadataResponse`: `DenomMetadataResponse` (cosmwasm-std 2.1.3, not in /repo). -/
def DenomMetadataResponse.jc : JC DenomMetadataResponse where
  enc m := .obj ([("metadata", DenomMetadata.jc.enc m.metadata)])
  dec j :=
    match getObj false ["metadata"] j with
    | none => none
    | some fs =>
      match reqF DenomMetadata.jc "metadata" fs with
      | none => none
      | some x_metadata =>
      some ⟨x_metadata⟩

theorem DenomMetadataResponse.jc_law : DenomMetadataResponse.jc.Law := by
  rintro ⟨x0⟩
  all_goals simp [DenomMetadataResponse.jc, getObj, countKey, lookupKey, reqF, optF, nullListF, defListF, skipNone, skipEmpty, (DenomMetadata.jc_law) _]
theorem DenomMetadataResponse.jc_nn : DenomMetadataResponse.jc.NonNull := fun _ h => by cases h

/-- JSON of `AllDenomMetadataResponse`: `AllDenomMetadataResponse` (cosmwasm-std 2.1.3, not in /repo). -/
def AllDenomMetadataResponse.jc : JC AllDenomMetadataResponse where
  enc m := .obj ([("metadata", (jcList DenomMetadata.jc).enc m.metadata), ("next_key", (jcOpt jcBin).enc m.nextKey)])
  dec j :=
    match getObj false ["metadata", "next_key"] j with
    | none => none
    | some fs =>
      match reqF (jcList DenomMetadata.jc) "metadata" fs with
      | none => none
      | some x_metadata =>
      match optF jcBin "next_key" fs with
      | none => none
      | some x_nextKey =>
      some ⟨x_metadata, x_nextKey⟩

theorem AllDenomMetadataResponse.jc_law : AllDenomMetadataResponse.jc.Law := by
  rintro ⟨x0, x1⟩
  all_goals simp [AllDenomMetadataResponse.jc, getObj, countKey, lookupKey, reqF, optF, nullListF, defListF, skipNone, skipEmpty, (jcList_law DenomMetadata.jc_law) _, (jcOpt_law jcBin_law jcBin_nn) _]
theorem AllDenomMetadataResponse.jc_nn : AllDenomMetadataResponse.jc.NonNull := fun _ h => by cases h

/-- JSON of `BankQueryResponse`: `/repo/src/types/query_msg.rs` 138-152. -/
def BankQueryResponse.jc : JC BankQueryResponse where
  enc m := match m with
    | .supply x => .obj [("supply", CoinResponse.jc.enc x)]
    | .balance x => .obj [("balance", CoinResponse.jc.enc x)]
    | .allBalances x => .obj [("all_balances", AllBalanceResponse.jc.enc x)]
    | .denomMetadata x => .obj [("denom_metadata", DenomMetadataResponse.jc.enc x)]
    | .allDenomMetadata x => .obj [("all_denom_metadata", AllDenomMetadataResponse.jc.enc x)]
  dec j := match j with
    | .obj [(k, v)] =>
      if k = "supply" then (CoinResponse.jc.dec v).map .supply else
      if k = "balance" then (CoinResponse.jc.dec v).map .balance else
      if k = "all_balances" then (AllBalanceResponse.jc.dec v).map .allBalances else
      if k = "denom_metadata" then (DenomMetadataResponse.jc.dec v).map .denomMetadata else
      if k = "all_denom_metadata" then (AllDenomMetadataResponse.jc.dec v).map .allDenomMetadata else
      none
    | _ => none

theorem BankQueryResponse.jc_law : BankQueryResponse.jc.Law := by
  intro x; cases x with
  | supply x => simp [BankQueryResponse.jc, (CoinResponse.jc_law) x]
  | balance x => simp [BankQueryResponse.jc, (CoinResponse.jc_law) x]
  | allBalances x => simp [BankQueryResponse.jc, (AllBalanceResponse.jc_law) x]
  | denomMetadata x => simp [BankQueryResponse.jc, (DenomMetadataResponse.jc_law) x]
  | allDenomMetadata x => simp [BankQueryResponse.jc, (AllDenomMetadataResponse.jc_law) x]
theorem BankQueryResponse.jc_nn : BankQueryResponse.jc.NonNull := fun x h => by cases x <;> cases h

/-- JSON of `ContractInfoResponse`: `ContractInfoResponse` (cosmwasm-std 2.1.3, not in /repo); built at `/repo/src/types/query_msg.rs` 532-546. -/
def ContractInfoResponse.jc : JC ContractInfoResponse where
  enc m := .obj ([("code_id", jcU64.enc m.codeId), ("creator", jcStr.enc m.creator), ("admin", (jcOpt jcStr).enc m.admin), ("pinned", jcBool.enc m.pinned), ("ibc_port", (jcOpt jcStr).enc m.ibcPort)])
  dec j :=
    match getObj false ["code_id", "creator", "admin", "pinned", "ibc_port"] j with
    | none => none
    | some fs =>
      match reqF jcU64 "code_id" fs with
      | none => none
      | some x_codeId =>
      match reqF jcStr "creator" fs with
      | none => none
      | some x_creator =>
      match optF jcStr "admin" fs with
      | none => none
      | some x_admin =>
      match reqF jcBool "pinned" fs with
      | none => none
      | some x_pinned =>
      match optF jcStr "ibc_port" fs with
      | none => none
      | some x_ibcPort =>
      some ⟨x_codeId, x_creator, x_admin, x_pinned, x_ibcPort⟩

theorem ContractInfoResponse.jc_law : ContractInfoResponse.jc.Law := by
  rintro ⟨x0, x1, x2, x3, x4⟩
  all_goals simp [ContractInfoResponse.jc, getObj, countKey, lookupKey, reqF, optF, nullListF, defListF, skipNone, skipEmpty, (jcU64_law) _, (jcStr_law) _, (jcOpt_law jcStr_law jcStr_nn) _, (jcBool_law) _]
theorem ContractInfoResponse.jc_nn : ContractInfoResponse.jc.NonNull := fun _ h => by cases h

/-- JSON of `CodeInfoResponse`: `CodeInfoResponse` (cosmwasm-std 2.1.3, not in /repo); used at `/repo/src/types/query_msg.rs` 162-164. -/
def CodeInfoResponse.jc : JC CodeInfoResponse where
  enc m := .obj ([("code_id", jcU64.enc m.codeId), ("creator", jcStr.enc m.creator), ("checksum", jcChecksum.enc m.checksum)])
  dec j :=
    match getObj false ["code_id", "creator", "checksum"] j with
    | none => none
    | some fs =>
      match reqF jcU64 "code_id" fs with
      | none => none
      | some x_codeId =>
      match reqF jcStr "creator" fs with
      | none => none
      | some x_creator =>
      match reqF jcChecksum "checksum" fs with
      | none => none
      | some x_checksum =>
      some ⟨x_codeId, x_creator, x_checksum⟩

theorem CodeInfoResponse.jc_law : CodeInfoResponse.jc.Law := by
  rintro ⟨x0, x1, x2⟩
  all_goals simp [CodeInfoResponse.jc, getObj, countKey, lookupKey, reqF, optF, nullListF, defListF, skipNone, skipEmpty, (jcU64_law) _, (jcStr_law) _, (jcChecksum_law) _]
theorem CodeInfoResponse.jc_nn : CodeInfoResponse.jc.NonNull := fun _ h => by cases h

/-- JSON of `WasmQueryResponse`: `/repo/src/types/query_msg.rs` 154-169 (the contract never produces `CodeInfo`, but a receiver can read it). -/
def WasmQueryResponse.jc : JC WasmQueryResponse where
  enc m := match m with
    | .contractInfo x => .obj [("contract_info", (jcOpt ContractInfoResponse.jc).enc x)]
    | .codeInfo x => .obj [("code_info", (jcOpt CodeInfoResponse.jc).enc x)]
    | .rawContractState x => .obj [("raw_contract_state", (jcOpt jcBin).enc x)]
    | .smartContractState x => .obj [("smart_contract_state", jcBin.enc x)]
  dec j := match j with
    | .obj [(k, v)] =>
      if k = "contract_info" then ((jcOpt ContractInfoResponse.jc).dec v).map .contractInfo else
      if k = "code_info" then ((jcOpt CodeInfoResponse.jc).dec v).map .codeInfo else
      if k = "raw_contract_state" then ((jcOpt jcBin).dec v).map .rawContractState else
      if k = "smart_contract_state" then (jcBin.dec v).map .smartContractState else
      none
    | _ => none

theorem WasmQueryResponse.jc_law : WasmQueryResponse.jc.Law := by
  intro x; cases x with
  | contractInfo x => simp [WasmQueryResponse.jc, (jcOpt_law ContractInfoResponse.jc_law ContractInfoResponse.jc_nn) x]
  | codeInfo x => simp [WasmQueryResponse.jc, (jcOpt_law CodeInfoResponse.jc_law CodeInfoResponse.jc_nn) x]
  | rawContractState x => simp [WasmQueryResponse.jc, (jcOpt_law jcBin_law jcBin_nn) x]
  | smartContractState x => simp [WasmQueryResponse.jc, (jcBin_law) x]
theorem WasmQueryResponse.jc_nn : WasmQueryResponse.jc.NonNull := fun x h => by cases x <;> cases h

/-- JSON of `Delegation`: `/repo/src/types/query_msg.rs` 201-210. -/
def Delegation.jc : JC Delegation where
  enc m := .obj ([("delegator", jcStr.enc m.delegator), ("validator", jcStr.enc m.validator), ("amount", Coin.jc.enc m.amount)])
  dec j :=
    match getObj true ["delegator", "validator", "amount"] j with
    | none => none
    | some fs =>
      match reqF jcStr "delegator" fs with
      | none => none
      | some x_delegator =>
      match reqF jcStr "validator" fs with
      | none => none
      | some x_validator =>
      match reqF Coin.jc "amount" fs with
      | none => none
      | some x_amount =>
      some ⟨x_delegator, x_validator, x_amount⟩

theorem Delegation.jc_law : Delegation.jc.Law := by
  rintro ⟨x0, x1, x2⟩
  all_goals simp [Delegation.jc, getObj, countKey, lookupKey, reqF, optF, nullListF, defListF, skipNone, skipEmpty, (jcStr_law) _, (Coin.jc_law) _]
theorem Delegation.jc_nn : Delegation.jc.NonNull := fun _ h => by cases h

/-- JSON of `IcaDelegationResponse`: `/repo/src/types/query_msg.rs` 187-192. -/
def IcaDelegationResponse.jc : JC IcaDelegationResponse where
  enc m := .obj ([("delegation", (jcOpt Delegation.jc).enc m.delegation)])
  dec j :=
    match getObj true ["delegation"] j with
    | none => none
    | some fs =>
      match optF Delegation.jc "delegation" fs with
      | none => none
      | some x_delegation =>
      some ⟨x_delegation⟩

theorem IcaDelegationResponse.jc_law : IcaDelegationResponse.jc.Law := by
  rintro ⟨x0⟩
  all_goals simp [IcaDelegationResponse.jc, getObj, countKey, lookupKey, reqF, optF, nullListF, defListF, skipNone, skipEmpty, (jcOpt_law Delegation.jc_law Delegation.jc_nn) _]
theorem IcaDelegationResponse.jc_nn : IcaDelegationResponse.jc.NonNull := fun _ h => by cases h

/-- JSON of `IcaAllDelegationsResponse`: `/repo/src/types/query_msg.rs` 194-199. -/
def IcaAllDelegationsResponse.jc : JC IcaAllDelegationsResponse where
  enc m := .obj ([("delegations", (jcList Delegation.jc).enc m.delegations)])
  dec j :=
    match getObj true ["delegations"] j with
    | none => none
    | some fs =>
      match reqF (jcList Delegation.jc) "delegations" fs with
      | none => none
      | some x_delegations =>
      some ⟨x_delegations⟩

theorem IcaAllDelegationsResponse.jc_law : IcaAllDelegationsResponse.jc.Law := by
  rintro ⟨x0⟩
  all_goals simp [IcaAllDelegationsResponse.jc, getObj, countKey, lookupKey, reqF, optF, nullListF, defListF, skipNone, skipEmpty, (jcList_law Delegation.jc_law) _]
theorem IcaAllDelegationsResponse.jc_nn : IcaAllDelegationsResponse.jc.NonNull := fun _ h => by cases h

/-- JSON of `Validator`: `Validator` (cosmwasm-std 2.1.3, not in /repo); built at `/repo/src/types/query_msg.rs` 424-442. -/
def Validator.jc : JC Validator where
  enc m := .obj ([("address", jcStr.enc m.address), ("commission", jcDecimal.enc m.commission), ("max_commission", jcDecimal.enc m.maxCommission), ("max_change_rate", jcDecimal.enc m.maxChangeRate)])
  dec j :=
    match getObj false ["address", "commission", "max_commission", "max_change_rate"] j with
    | none => none
    | some fs =>
      match reqF jcStr "address" fs with
      | none => none
      | some x_address =>
      match reqF jcDecimal "commission" fs with
      | none => none
      | some x_commission =>
      match reqF jcDecimal "max_commission" fs with
      | none => none
      | some x_maxCommission =>
      match reqF jcDecimal "max_change_rate" fs with
      | none => none
      | some x_maxChangeRate =>
      some ⟨x_address, x_commission, x_maxCommission, x_maxChangeRate⟩

theorem Validator.jc_law : Validator.jc.Law := by
  rintro ⟨x0, x1, x2, x3⟩
  all_goals simp [Validator.jc, getObj, countKey, lookupKey, reqF, optF, nullListF, defListF, skipNone, skipEmpty, (jcStr_law) _, (jcDecimal_law) _]
theorem Validator.jc_nn : Validator.jc.NonNull := fun _ h => by cases h

/-- JSON of `AllValidatorsResponse`: `AllValidatorsResponse` (cosmwasm-std 2.1.3, not in /repo). -/
def AllValidatorsResponse.jc : JC AllValidatorsResponse where
  enc m := .obj ([("validators", (jcList Validator.jc).enc m.validators)])
  dec j :=
    match getObj false ["validators"] j with
    | none => none
    | some fs =>
      match reqF (jcList Validator.jc) "validators" fs with
      | none => none
      | some x_validators =>
      some ⟨x_validators⟩

theorem AllValidatorsResponse.jc_law : AllValidatorsResponse.jc.Law := by
  rintro ⟨x0⟩
  all_goals simp [AllValidatorsResponse.jc, getObj, countKey, lookupKey, reqF, optF, nullListF, defListF, skipNone, skipEmpty, (jcList_law Validator.jc_law) _]
theorem AllValidatorsResponse.jc_nn : AllValidatorsResponse.jc.NonNull := fun _ h => by cases h

/-- JSON of `ValidatorResponse`: `ValidatorResponse` (cosmwasm-std 2.1.3, not in /repo). -/
def ValidatorResponse.jc : JC ValidatorResponse where
  enc m := .obj ([("validator", (jcOpt Validator.jc).enc m.validator)])
  dec j :=
    match getObj false ["validator"] j with
    | none => none
    | some fs =>
      match optF Validator.jc "validator" fs with
      | none => none
      | some x_validator =>
      some ⟨x_validator⟩

theorem ValidatorResponse.jc_law : ValidatorResponse.jc.Law := by
  rintro ⟨x0⟩
  all_goals simp [ValidatorResponse.jc, getObj, countKey, lookupKey, reqF, optF, nullListF, defListF, skipNone, skipEmpty, (jcOpt_law Validator.jc_law Validator.jc_nn) _]
theorem ValidatorResponse.jc_nn : ValidatorResponse.jc.NonNull := fun _ h => by cases h

/-- JSON of `BondedDenomResponse`: `BondedDenomResponse` (cosmwasm-std 2.1.3, not in /repo). -/
def BondedDenomResponse.jc : JC BondedDenomResponse where
  enc m := .obj ([("denom", jcStr.enc m.denom)])
  dec j :=
    match getObj false ["denom"] j with
    | none => none
    | some fs =>
      match reqF jcStr "denom" fs with
      | none => none
      | some x_denom =>
      some ⟨x_denom⟩

theorem BondedDenomResponse.jc_law : BondedDenomResponse.jc.Law := by
  rintro ⟨x0⟩
  all_goals simp [BondedDenomResponse.jc, getObj, countKey, lookupKey, reqF, optF, nullListF, defListF, skipNone, skipEmpty, (jcStr_law) _]
theorem BondedDenomResponse.jc_nn : BondedDenomResponse.jc.NonNull := fun _ h => by cases h

/-- JSON of `StakingQueryResponse`: `/repo/src/types/query_msg.rs` 171-185. -/
def StakingQueryResponse.jc : JC StakingQueryResponse where
  enc m := match m with
    | .bondedDenom x => .obj [("bonded_denom", BondedDenomResponse.jc.enc x)]
    | .allDelegations x => .obj [("all_delegations", IcaAllDelegationsResponse.jc.enc x)]
    | .delegation x => .obj [("delegation", IcaDelegationResponse.jc.enc x)]
    | .allValidators x => .obj [("all_validators", AllValidatorsResponse.jc.enc x)]
    | .validator x => .obj [("validator", ValidatorResponse.jc.enc x)]
  dec j := match j with
    | .obj [(k, v)] =>
      if k = "bonded_denom" then (BondedDenomResponse.jc.dec v).map .bondedDenom else
      if k = "all_delegations" then (IcaAllDelegationsResponse.jc.dec v).map .allDelegations else
      if k = "delegation" then (IcaDelegationResponse.jc.dec v).map .delegation else
      if k = "all_validators" then (AllValidatorsResponse.jc.dec v).map .allValidators else
      if k = "validator" then (ValidatorResponse.jc.dec v).map .validator else
      none
    | _ => none

theorem StakingQueryResponse.jc_law : StakingQueryResponse.jc.Law := by
  intro x; cases x with
  | bondedDenom x => simp [StakingQueryResponse.jc, (BondedDenomResponse.jc_law) x]
  | allDelegations x => simp [StakingQueryResponse.jc, (IcaAllDelegationsResponse.jc_law) x]
  | delegation x => simp [StakingQueryResponse.jc, (IcaDelegationResponse.jc_law) x]
  | allValidators x => simp [StakingQueryResponse.jc, (AllValidatorsResponse.jc_law) x]
  | validator x => simp [StakingQueryResponse.jc, (ValidatorResponse.jc_law) x]
theorem StakingQueryResponse.jc_nn : StakingQueryResponse.jc.NonNull := fun x h => by cases x <;> cases h

/-- JSON of `IcaQueryResponse`: `/repo/src/types/query_msg.rs` 118-136. -/
def IcaQueryResponse.jc : JC IcaQueryResponse where
  enc m := match m with
    | .bank x => .obj [("bank", BankQueryResponse.jc.enc x)]
    | .stargate x_data x_path => .obj [("stargate", .obj ([("data", jcBin.enc x_data), ("path", jcStr.enc x_path)]))]
    | .wasm x => .obj [("wasm", WasmQueryResponse.jc.enc x)]
    | .staking x => .obj [("staking", StakingQueryResponse.jc.enc x)]
  dec j := match j with
    | .obj [(k, v)] =>
      if k = "bank" then (BankQueryResponse.jc.dec v).map .bank else
      if k = "stargate" then
        match getObj true ["data", "path"] v with
        | none => none
        | some fs =>
          match reqF jcBin "data" fs with
          | none => none
          | some x_data =>
          match reqF jcStr "path" fs with
          | none => none
          | some x_path =>
          some (.stargate x_data x_path)
      else
      if k = "wasm" then (WasmQueryResponse.jc.dec v).map .wasm else
      if k = "staking" then (StakingQueryResponse.jc.dec v).map .staking else
      none
    | _ => none

theorem IcaQueryResponse.jc_law : IcaQueryResponse.jc.Law := by
  intro x; cases x with
  | bank x => simp [IcaQueryResponse.jc, (BankQueryResponse.jc_law) x]
  | stargate x0 x1 =>
    all_goals simp [IcaQueryResponse.jc, getObj, countKey, lookupKey, reqF, optF, nullListF, defListF, skipNone, skipEmpty, (jcBin_law) _, (jcStr_law) _]
  | wasm x => simp [IcaQueryResponse.jc, (WasmQueryResponse.jc_law) x]
  | staking x => simp [IcaQueryResponse.jc, (StakingQueryResponse.jc_law) x]
theorem IcaQueryResponse.jc_nn : IcaQueryResponse.jc.NonNull := fun x h => by cases x <;> cases h

/-- JSON of `IcaQueryResult`: `/repo/src/types/query_msg.rs` 103-116. -/
def IcaQueryResult.jc : JC IcaQueryResult where
  enc m := match m with
    | .success x_height x_responses => .obj [("success", .obj ([("height", jcU64.enc x_height), ("responses", (jcList IcaQueryResponse.jc).enc x_responses)]))]
    | .error x => .obj [("error", jcStr.enc x)]
  dec j := match j with
    | .obj [(k, v)] =>
      if k = "success" then
        match getObj true ["height", "responses"] v with
        | none => none
        | some fs =>
          match reqF jcU64 "height" fs with
          | none => none
          | some x_height =>
          match reqF (jcList IcaQueryResponse.jc) "responses" fs with
          | none => none
          | some x_responses =>
          some (.success x_height x_responses)
      else
      if k = "error" then (jcStr.dec v).map .error else
      none
    | _ => none

theorem IcaQueryResult.jc_law : IcaQueryResult.jc.Law := by
  intro x; cases x with
  | success x0 x1 =>
    all_goals simp [IcaQueryResult.jc, getObj, countKey, lookupKey, reqF, optF, nullListF, defListF, skipNone, skipEmpty, (jcU64_law) _, (jcList_law IcaQueryResponse.jc_law) _]
  | error x => simp [IcaQueryResult.jc, (jcStr_law) x]
theorem IcaQueryResult.jc_nn : IcaQueryResult.jc.NonNull := fun x h => by cases x <;> cases h

/-- JSON of `CallbackMsg`: `IcaControllerCallbackMsg`, `/repo/src/types/callbacks.rs` 16-59 (plain serde derive). -/
def CallbackMsg.jc : JC CallbackMsg where
  enc m := match m with
    | .onAcknowledgementPacketCallback x_icaAcknowledgement x_originalPacket x_relayer x_queryResult => .obj [("on_acknowledgement_packet_callback", .obj ([("ica_acknowledgement", AckData.jc.enc x_icaAcknowledgement), ("original_packet", IbcPacket.jc.enc x_originalPacket), ("relayer", jcStr.enc x_relayer)] ++ (skipNone IcaQueryResult.jc "query_result" x_queryResult)))]
    | .onTimeoutPacketCallback x_originalPacket x_relayer => .obj [("on_timeout_packet_callback", .obj ([("original_packet", IbcPacket.jc.enc x_originalPacket), ("relayer", jcStr.enc x_relayer)]))]
    | .onChannelOpenAckCallback x_channel x_icaAddress x_txEncoding => .obj [("on_channel_open_ack_callback", .obj ([("channel", IbcChannel.jc.enc x_channel), ("ica_address", jcStr.enc x_icaAddress), ("tx_encoding", TxEncoding.jc.enc x_txEncoding)]))]
  dec j := match j with
    | .obj [(k, v)] =>
      if k = "on_acknowledgement_packet_callback" then
        match getObj false ["ica_acknowledgement", "original_packet", "relayer", "query_result"] v with
        | none => none
        | some fs =>
          match reqF AckData.jc "ica_acknowledgement" fs with
          | none => none
          | some x_icaAcknowledgement =>
          match reqF IbcPacket.jc "original_packet" fs with
          | none => none
          | some x_originalPacket =>
          match reqF jcStr "relayer" fs with
          | none => none
          | some x_relayer =>
          match optF IcaQueryResult.jc "query_result" fs with
          | none => none
          | some x_queryResult =>
          some (.onAcknowledgementPacketCallback x_icaAcknowledgement x_originalPacket x_relayer x_queryResult)
      else
      if k = "on_timeout_packet_callback" then
        match getObj false ["original_packet", "relayer"] v with
        | none => none
        | some fs =>
          match reqF IbcPacket.jc "original_packet" fs with
          | none => none
          | some x_originalPacket =>
          match reqF jcStr "relayer" fs with
          | none => none
          | some x_relayer =>
          some (.onTimeoutPacketCallback x_originalPacket x_relayer)
      else
      if k = "on_channel_open_ack_callback" then
        match getObj false ["channel", "ica_address", "tx_encoding"] v with
        | none => none
        | some fs =>
          match reqF IbcChannel.jc "channel" fs with
          | none => none
          | some x_channel =>
          match reqF jcStr "ica_address" fs with
          | none => none
          | some x_icaAddress =>
          match reqF TxEncoding.jc "tx_encoding" fs with
          | none => none
          | some x_txEncoding =>
          some (.onChannelOpenAckCallback x_channel x_icaAddress x_txEncoding)
      else
      none
    | _ => none

theorem CallbackMsg.jc_law : CallbackMsg.jc.Law := by
  intro x; cases x with
  | onAcknowledgementPacketCallback x0 x1 x2 x3 =>
    all_goals rcases x3 with _ | x3
    all_goals simp [CallbackMsg.jc, getObj, countKey, lookupKey, reqF, optF, nullListF, defListF, skipNone, skipEmpty, (AckData.jc_law) _, (IbcPacket.jc_law) _, (jcStr_law) _, (jcOpt_dec_enc IcaQueryResult.jc_law IcaQueryResult.jc_nn)]
  | onTimeoutPacketCallback x0 x1 =>
    all_goals simp [CallbackMsg.jc, getObj, countKey, lookupKey, reqF, optF, nullListF, defListF, skipNone, skipEmpty, (IbcPacket.jc_law) _, (jcStr_law) _]
  | onChannelOpenAckCallback x0 x1 x2 =>
    all_goals simp [CallbackMsg.jc, getObj, countKey, lookupKey, reqF, optF, nullListF, defListF, skipNone, skipEmpty, (IbcChannel.jc_law) _, (jcStr_law) _, (TxEncoding.jc_law) _]
theorem CallbackMsg.jc_nn : CallbackMsg.jc.NonNull := fun x h => by cases x <;> cases h

/-- JSON of `ReceiverExecuteMsg`: `ReceiverExecuteMsg`, `/repo/src/types/callbacks.rs` 92-97. -/
def ReceiverExecuteMsg.jc : JC ReceiverExecuteMsg where
  enc m := match m with
    | .receiveIcaCallback x => .obj [("receive_ica_callback", CallbackMsg.jc.enc x)]
  dec j := match j with
    | .obj [(k, v)] =>
      if k = "receive_ica_callback" then (CallbackMsg.jc.dec v).map .receiveIcaCallback else
      none
    | _ => none

theorem ReceiverExecuteMsg.jc_law : ReceiverExecuteMsg.jc.Law := by
  intro x; cases x with
  | receiveIcaCallback x => simp [ReceiverExecuteMsg.jc, (CallbackMsg.jc_law) x]
theorem ReceiverExecuteMsg.jc_nn : ReceiverExecuteMsg.jc.NonNull := fun x h => by cases x <;> cases h

end Ica
