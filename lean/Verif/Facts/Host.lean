import Verif.Spec.Host
import Verif.Facts.Step

/-!
# The host's reading of what the contract writes
-/
namespace Ica
open Spec

theorem readAll_map {α β γ : Type} {f : α → Option β} {e : γ → α} {g : γ → β} (h : ∀ x, f (e x) = some (g x))
    (l : List γ) : readAll f (l.map e) = some (l.map g) := by
  induction l with
  | nil => rfl
  | cons x l ih => simp [readAll, h x, ih]

theorem readCoin_enc (c : Coin) : readCoin (protoCoin c).enc = some (hostCoin c) := by
  have h : parseDecChars (decString c.amount.val).toList = some c.amount.val := by
    simp [decString, parseDecChars_decChars]
  simp [readCoin, P.Coin.enc, sel_tagged_ne, protoCoin, h, hostCoin]

theorem readCoins_of {m : Fields} {tag : Nat} {l : List Coin}
    (h : sel tag m = vMsgs ((l.map protoCoin).map P.Coin.enc)) : readCoins m tag = some (l.map hostCoin) := by
  have hd := dMsgs_vMsgs (l := (l.map protoCoin).map P.Coin.enc) (by
    intro fs hfs
    simp only [List.mem_map] at hfs
    obtain ⟨x, -, rfl⟩ := hfs
    exact P.Coin.valid x)
  simp only [readCoins, h, hd, Option.bind_some]
  rw [List.map_map]
  exact readAll_map (f := readCoin) (e := P.Coin.enc ∘ protoCoin) readCoin_enc l

theorem readTheCoin_of {m : Fields} {tag : Nat} {c : Coin}
    (h : sel tag m = vMsg ((some (protoCoin c)).map P.Coin.enc)) : readTheCoin m tag = some (hostCoin c) := by
  have hd := dMsg_vMsg (o := (some (protoCoin c)).map P.Coin.enc) (by
    intro fs hfs
    injection hfs with hfs
    subst hfs
    exact P.Coin.valid _)
  simp only [readTheCoin, h, hd]
  exact readCoin_enc c

theorem readHeight_of {m : Fields} {tag : Nat} {b : Option P.Height}
    (h : sel tag m = vMsg (b.map P.Height.enc)) :
    readHeight m tag = some (b.map fun b => (b.revisionNumber.toNat, b.revisionHeight.toNat)) := by
  have hd := dMsg_vMsg (o := b.map P.Height.enc) (by
    intro fs hfs
    cases b with
    | none => cases hfs
    | some x => injection hfs with hfs; subst hfs; exact P.Height.valid _)
  simp only [readHeight, h, hd]
  cases b with
  | none => rfl
  | some x => simp [P.Height.enc, sel_tagged_ne]

theorem readVoteOption_num (o : VoteOption) : readVoteOption (voteNum o) = some o := by
  cases o <;> rfl

theorem readWeighted_enc (o : WeightedVoteOption) :
    readWeighted (P.WeightedVoteOption.enc ⟨voteNum o.option, o.weight.toString⟩) =
      some (o.option, o.weight.atomics.val) := by
  simp [readWeighted, P.WeightedVoteOption.enc, sel_tagged_ne, readVoteOption_num, parseDecimal_toString]

theorem readRequest_enc (r : P.AbciQueryRequest) : readRequest r.enc = some (r.path, r.data) := by
  simp [readRequest, P.AbciQueryRequest.enc, sel_tagged_ne]

theorem readAny_enc (r : P.Any) : readAny r.enc = some (r.typeUrl, r.value) := by
  simp [readAny, P.Any.enc, sel_tagged_ne]

theorem readByteArray_enc (l : Bytes) : readByteArray (l.map jcU8.enc) = some l := by
  induction l with
  | nil => rfl
  | cons x l ih =>
    have : x.toNat < 256 := x.toNat_lt
    simp [readByteArray, jcU8, this] at ih ⊢
    exact ih

/-- The host reads a packet built by the contract. -/
theorem readPacket_toBytes (anys : List P.Any) (memo : Option String) :
    readPacket (IcaPacketData.jc.toBytes (.fromProtoAnys anys memo)) =
      some ⟨1, memo, anys.map fun a => (a.typeUrl, a.value)⟩ := by
  have hp : parseWire (P.CosmosTx.toBytes ⟨anys⟩) = some (P.CosmosTx.enc ⟨anys⟩) :=
    parseWire_encFields (P.CosmosTx.valid _)
  have hd := dMsgs_vMsgs (l := anys.map P.Any.enc) (by
    intro fs hfs
    simp only [List.mem_map] at hfs
    obtain ⟨x, -, rfl⟩ := hfs
    exact P.Any.valid x)
  have hs : sel 1 (P.CosmosTx.enc ⟨anys⟩) = vMsgs (anys.map P.Any.enc) := by simp [P.CosmosTx.enc]
  have ha : readAll readAny (anys.map P.Any.enc) = some (anys.map fun a => (a.typeUrl, a.value)) :=
    readAll_map readAny_enc anys
  have hb := readByteArray_enc (P.CosmosTx.toBytes ⟨anys⟩)
  simp only [readPacket, JC.toBytes, jsonOfBytes_toBytes, Option.bind_eq_bind, Option.bind_some]
  cases memo with
  | none =>
    simp [IcaPacketData.jc, IcaPacketData.fromProtoAnys, IcaPacketData.new, lookupKey, skipNone, jcList, hb, hp, hs, hd,
      ha, jcU32]
  | some s =>
    simp [IcaPacketData.jc, IcaPacketData.fromProtoAnys, IcaPacketData.new, lookupKey, skipNone, jcList, hb, hp, hs, hd,
      ha, jcU32, jcStr]

/-- The host reads a converted message as what it denotes, and only supported messages are converted. -/
theorem hostReads_convert {m : CosmosMsg} {ica : String} {a : P.Any} (h : convertToProtoAny m ica = .ok a) :
    HostReads ica m (a.typeUrl, a.value) := by
  cases m with
  | stargate u v => simp only [convertToProtoAny] at h; injection h with h; subst h; rfl
  | custom c => cases h
  | bank b =>
    cases b with
    | burn _ => cases h
    | send t am =>
      simp only [convertToProtoAny, anyBank, mkAny] at h; injection h with h; subst h
      refine ⟨_, rfl, ?_⟩
      have h3 := readCoins_of (m := P.MsgSend.enc ⟨ica, t, am.map protoCoin⟩) (tag := 3) (l := am)
        (by simp [P.MsgSend.enc, sel_tagged_ne])
      simp [readHostMsg, P.MsgSend.toBytes, parseWire_encFields (P.MsgSend.valid _), readFields, h3]
      simp [P.MsgSend.enc, sel_tagged_ne]
  | staking s =>
    cases s with
    | delegate v c =>
      simp only [convertToProtoAny, anyStaking, mkAny] at h; injection h with h; subst h
      refine ⟨_, rfl, ?_⟩
      have h3 := readTheCoin_of (m := P.MsgDelegate.enc ⟨ica, v, some (protoCoin c)⟩) (tag := 3) (c := c)
        (by simp [P.MsgDelegate.enc, sel_tagged_ne])
      simp [readHostMsg, P.MsgDelegate.toBytes, parseWire_encFields (P.MsgDelegate.valid _), readFields, h3]
      simp [P.MsgDelegate.enc, sel_tagged_ne]
    | undelegate v c =>
      simp only [convertToProtoAny, anyStaking, mkAny] at h; injection h with h; subst h
      refine ⟨_, rfl, ?_⟩
      have h3 := readTheCoin_of (m := P.MsgUndelegate.enc ⟨ica, v, some (protoCoin c)⟩) (tag := 3) (c := c)
        (by simp [P.MsgUndelegate.enc, sel_tagged_ne])
      simp [readHostMsg, P.MsgUndelegate.toBytes, parseWire_encFields (P.MsgUndelegate.valid _), readFields, h3]
      simp [P.MsgUndelegate.enc, sel_tagged_ne]
    | redelegate v u c =>
      simp only [convertToProtoAny, anyStaking, mkAny] at h; injection h with h; subst h
      refine ⟨_, rfl, ?_⟩
      have h3 := readTheCoin_of (m := P.MsgBeginRedelegate.enc ⟨ica, v, u, some (protoCoin c)⟩) (tag := 4) (c := c)
        (by simp [P.MsgBeginRedelegate.enc, sel_tagged_ne])
      simp [readHostMsg, P.MsgBeginRedelegate.toBytes, parseWire_encFields (P.MsgBeginRedelegate.valid _), readFields, h3]
      simp [P.MsgBeginRedelegate.enc, sel_tagged_ne]
  | distribution d =>
    cases d with
    | setWithdrawAddress x =>
      simp only [convertToProtoAny, anyDistribution, mkAny] at h; injection h with h; subst h
      refine ⟨_, rfl, ?_⟩
      simp [readHostMsg, P.MsgSetWithdrawAddress.toBytes, parseWire_encFields (P.MsgSetWithdrawAddress.valid _), readFields]
      simp [P.MsgSetWithdrawAddress.enc, sel_tagged_ne]
    | withdrawDelegatorReward x =>
      simp only [convertToProtoAny, anyDistribution, mkAny] at h; injection h with h; subst h
      refine ⟨_, rfl, ?_⟩
      simp [readHostMsg, P.MsgWithdrawDelegatorReward.toBytes,
        parseWire_encFields (P.MsgWithdrawDelegatorReward.valid _), readFields]
      simp [P.MsgWithdrawDelegatorReward.enc, sel_tagged_ne]
    | fundCommunityPool am =>
      simp only [convertToProtoAny, anyDistribution, mkAny] at h; injection h with h; subst h
      refine ⟨_, rfl, ?_⟩
      have h3 := readCoins_of (m := P.MsgFundCommunityPool.enc ⟨am.map protoCoin, ica⟩) (tag := 1) (l := am)
        (by simp [P.MsgFundCommunityPool.enc, sel_tagged_ne])
      simp [readHostMsg, P.MsgFundCommunityPool.toBytes, parseWire_encFields (P.MsgFundCommunityPool.valid _),
        readFields, h3]
      simp [P.MsgFundCommunityPool.enc, sel_tagged_ne]
  | ibc i =>
    cases i with
    | sendPacket _ _ _ => cases h
    | closeChannel _ => cases h
    | transfer ch r am tm memo =>
      simp only [convertToProtoAny, anyIbc, mkAny] at h; injection h with h; subst h
      refine ⟨_, rfl, ?_⟩
      generalize hb : tm.block.map (fun b => (⟨b.revision, b.height⟩ : P.Height)) = bo
      have h3 := readTheCoin_of (m := P.MsgTransfer.enc ⟨"transfer", ch, some (protoCoin am), ica, r, bo,
        tm.timestamp.getD 0, memo.getD ""⟩) (tag := 3) (c := am) (by simp [P.MsgTransfer.enc, sel_tagged_ne])
      have h6 := readHeight_of (m := P.MsgTransfer.enc ⟨"transfer", ch, some (protoCoin am), ica, r, bo,
        tm.timestamp.getD 0, memo.getD ""⟩) (tag := 6) (b := bo) (by simp [P.MsgTransfer.enc, sel_tagged_ne])
      simp [readHostMsg, P.MsgTransfer.toBytes, parseWire_encFields (P.MsgTransfer.valid _), readFields, h3, h6]
      have hx : bo.map (fun b => (b.revisionNumber.toNat, b.revisionHeight.toNat)) =
          tm.block.map fun b => (b.revision.toNat, b.height.toNat) := by
        subst hb; cases tm.block <;> rfl
      have hm : memo.getD "" = orEmpty memo := by cases memo <;> rfl
      have ht : (tm.timestamp.getD 0).toNat = orZero tm.timestamp := by cases tm.timestamp <;> rfl
      simp [P.MsgTransfer.enc, sel_tagged_ne, hx, hm, ht]
  | wasm wm =>
    cases wm with
    | execute c m f =>
      simp only [convertToProtoAny, anyWasm, mkAny] at h; injection h with h; subst h
      refine ⟨_, rfl, ?_⟩
      have h3 := readCoins_of (m := P.MsgExecuteContract.enc ⟨ica, c, m, f.map protoCoin⟩) (tag := 5) (l := f)
        (by simp [P.MsgExecuteContract.enc, sel_tagged_ne])
      simp [readHostMsg, P.MsgExecuteContract.toBytes, parseWire_encFields (P.MsgExecuteContract.valid _), readFields, h3]
      simp [P.MsgExecuteContract.enc, sel_tagged_ne]
    | instantiate ad c m f l =>
      simp only [convertToProtoAny, anyWasm, mkAny] at h; injection h with h; subst h
      refine ⟨_, rfl, ?_⟩
      have ha : ad.getD "" = orEmpty ad := by cases ad <;> rfl
      have h3 := readCoins_of (m := P.MsgInstantiateContract.enc ⟨ica, ad.getD "", c, l, m, f.map protoCoin⟩) (tag := 6)
        (l := f) (by simp [P.MsgInstantiateContract.enc, sel_tagged_ne])
      simp [readHostMsg, P.MsgInstantiateContract.toBytes, parseWire_encFields (P.MsgInstantiateContract.valid _),
        readFields, h3]
      simp [P.MsgInstantiateContract.enc, sel_tagged_ne, ha]
    | instantiate2 ad c l m f s =>
      simp only [convertToProtoAny, anyWasm, mkAny] at h; injection h with h; subst h
      refine ⟨_, rfl, ?_⟩
      have ha : ad.getD "" = orEmpty ad := by cases ad <;> rfl
      have h3 := readCoins_of (m := P.MsgInstantiateContract2.enc ⟨ica, ad.getD "", c, l, m, f.map protoCoin, s, false⟩)
        (tag := 6) (l := f) (by simp [P.MsgInstantiateContract2.enc, sel_tagged_ne])
      simp [readHostMsg, P.MsgInstantiateContract2.toBytes, parseWire_encFields (P.MsgInstantiateContract2.valid _),
        readFields, h3]
      simp [P.MsgInstantiateContract2.enc, sel_tagged_ne, ha]
    | migrate c n m =>
      simp only [convertToProtoAny, anyWasm, mkAny] at h; injection h with h; subst h
      refine ⟨_, rfl, ?_⟩
      simp [readHostMsg, P.MsgMigrateContract.toBytes, parseWire_encFields (P.MsgMigrateContract.valid _), readFields]
      simp [P.MsgMigrateContract.enc, sel_tagged_ne]
    | updateAdmin c ad =>
      simp only [convertToProtoAny, anyWasm, mkAny] at h; injection h with h; subst h
      refine ⟨_, rfl, ?_⟩
      simp [readHostMsg, P.MsgUpdateAdmin.toBytes, parseWire_encFields (P.MsgUpdateAdmin.valid _), readFields]
      simp [P.MsgUpdateAdmin.enc, sel_tagged_ne]
    | clearAdmin c =>
      simp only [convertToProtoAny, anyWasm, mkAny] at h; injection h with h; subst h
      refine ⟨_, rfl, ?_⟩
      simp [readHostMsg, P.MsgClearAdmin.toBytes, parseWire_encFields (P.MsgClearAdmin.valid _), readFields]
      simp [P.MsgClearAdmin.enc, sel_tagged_ne]
  | gov g =>
    cases g with
    | vote p o =>
      simp only [convertToProtoAny, anyGov, mkAny] at h; injection h with h; subst h
      refine ⟨_, rfl, ?_⟩
      simp [readHostMsg, P.MsgVote.toBytes, parseWire_encFields (P.MsgVote.valid _), readFields]
      simp [P.MsgVote.enc, sel_tagged_ne, readVoteOption_num]
    | voteWeighted p os =>
      simp only [convertToProtoAny, anyGov, mkAny] at h; injection h with h; subst h
      refine ⟨_, rfl, ?_⟩
      generalize hl : os.map (fun o => (⟨voteNum o.option, o.weight.toString⟩ : P.WeightedVoteOption)) = l
      have hs : sel 3 (P.MsgVoteWeighted.enc ⟨p, ica, l, ""⟩) = vMsgs (l.map P.WeightedVoteOption.enc) := by
        simp [P.MsgVoteWeighted.enc, sel_tagged_ne]
      have hd := dMsgs_vMsgs (l := l.map P.WeightedVoteOption.enc) (by
        intro fs hfs
        simp only [List.mem_map] at hfs
        obtain ⟨x, -, rfl⟩ := hfs
        exact P.WeightedVoteOption.valid x)
      have ha : readAll readWeighted (l.map P.WeightedVoteOption.enc) =
          some (os.map fun o => (o.option, o.weight.atomics.val)) := by
        subst hl
        rw [List.map_map]
        exact readAll_map readWeighted_enc os
      simp [readHostMsg, P.MsgVoteWeighted.toBytes, parseWire_encFields (P.MsgVoteWeighted.valid _), readFields, hs, hd,
        ha]
      simp [P.MsgVoteWeighted.enc, sel_tagged_ne]

/-- The host reads the query message. -/
theorem readHostMsg_querySafe (ica : String) (rs : List P.AbciQueryRequest) :
    readHostMsg "/ibc.applications.interchain_accounts.host.v1.MsgModuleQuerySafe"
      (P.MsgModuleQuerySafe.toBytes ⟨ica, rs⟩) = some (.moduleQuerySafe ica (rs.map fun r => (r.path, r.data))) := by
  have hs : sel 2 (P.MsgModuleQuerySafe.enc ⟨ica, rs⟩) = vMsgs (rs.map P.AbciQueryRequest.enc) := by
    simp [P.MsgModuleQuerySafe.enc, sel_tagged_ne]
  have hd := dMsgs_vMsgs (l := rs.map P.AbciQueryRequest.enc) (by
    intro fs hfs
    simp only [List.mem_map] at hfs
    obtain ⟨x, -, rfl⟩ := hfs
    exact P.AbciQueryRequest.valid x)
  have ha : readAll readRequest (rs.map P.AbciQueryRequest.enc) = some (rs.map fun r => (r.path, r.data)) :=
    readAll_map readRequest_enc rs
  simp [readHostMsg, P.MsgModuleQuerySafe.toBytes, parseWire_encFields (P.MsgModuleQuerySafe.valid _), readFields, hs,
    hd, ha]
  simp [P.MsgModuleQuerySafe.enc, sel_tagged_ne]

/-- A supported message is converted. -/
theorem convert_of_supported {m : CosmosMsg} (h : Supported m) (ica : String) :
    ∃ a, convertToProtoAny m ica = .ok a := by
  rcases h with ⟨u, v, rfl⟩ | ⟨x, hx⟩
  · exact ⟨_, rfl⟩
  · cases m with
    | stargate u v => cases hx
    | custom c => cases hx
    | bank b => cases b with
      | burn _ => cases hx
      | _ => exact ⟨_, rfl⟩
    | ibc b => cases b with
      | transfer _ _ _ _ _ => exact ⟨_, rfl⟩
      | _ => cases hx
    | wasm b => cases b <;> exact ⟨_, rfl⟩
    | staking b => cases b <;> exact ⟨_, rfl⟩
    | gov b => cases b <;> exact ⟨_, rfl⟩
    | distribution b => cases b <;> exact ⟨_, rfl⟩

/-- An unsupported message is not converted: the entry point aborts. -/
theorem not_convert {m : CosmosMsg} (h : ¬ Supported m) (ica : String) :
    ∃ e, convertToProtoAny m ica = .panic e := by
  cases m with
  | stargate u v => exact absurd (.inl ⟨u, v, rfl⟩) h
  | custom c => exact ⟨_, rfl⟩
  | bank b => cases b with
    | burn _ => exact ⟨_, rfl⟩
    | _ => exact absurd (.inr ⟨_, rfl⟩) h
  | ibc b => cases b with
    | transfer _ _ _ _ _ => exact absurd (.inr ⟨_, rfl⟩) h
    | _ => exact ⟨_, rfl⟩
  | wasm b => cases b <;> exact absurd (.inr ⟨_, rfl⟩) h
  | staking b => cases b <;> exact absurd (.inr ⟨_, rfl⟩) h
  | gov b => cases b <;> exact absurd (.inr ⟨_, rfl⟩) h
  | distribution b => cases b <;> exact absurd (.inr ⟨_, rfl⟩) h

theorem readPage_of {m : Fields} {tag : Nat} {b : Option P.PageRequest}
    (h : sel tag m = vMsg (b.map P.PageRequest.enc)) :
    readPage m tag = some (b.map fun b => ⟨b.key, b.offset.toNat, b.limit.toNat, b.countTotal, b.reverse⟩) := by
  have hd := dMsg_vMsg (o := b.map P.PageRequest.enc) (by
    intro fs hfs
    cases b with
    | none => cases hfs
    | some x => injection hfs with hfs; subst hfs; exact P.PageRequest.valid _)
  simp only [readPage, h, hd]
  cases b with
  | none => rfl
  | some x => simp [P.PageRequest.enc, sel_tagged_ne]

/-- The host reads a converted query as what it denotes. -/
theorem queryReads_convert {q : QueryRequest} {r : String × Bytes × Bool} (h : queryToProtobuf q = .ok r) :
    QueryReads q (r.1, r.2.1) := by
  cases q with
  | stargate p d => simp only [queryToProtobuf] at h; injection h with h; subst h; rfl
  | custom c => cases h
  | ibc c => cases h
  | distribution c => cases h
  | bank b =>
    cases b with
    | balance a d =>
      simp only [queryToProtobuf, bankToProtobuf] at h; injection h with h; subst h
      refine ⟨_, rfl, ?_⟩
      simp [readHostQuery, P.QueryBalanceRequest.toBytes, parseWire_encFields (P.QueryBalanceRequest.valid _),
        readQueryFields, Path.balance]
      simp [P.QueryBalanceRequest.enc, sel_tagged_ne]
    | allBalances a =>
      simp only [queryToProtobuf, bankToProtobuf] at h; injection h with h; subst h
      refine ⟨_, rfl, ?_⟩
      have hp := readPage_of (m := P.QueryAllBalancesRequest.enc ⟨a, none⟩) (tag := 2) (b := none)
        (by simp [P.QueryAllBalancesRequest.enc, sel_tagged_ne])
      simp [readHostQuery, P.QueryAllBalancesRequest.toBytes, parseWire_encFields (P.QueryAllBalancesRequest.valid _),
        readQueryFields, Path.allBalances, hp]
      simp [P.QueryAllBalancesRequest.enc, sel_tagged_ne]
    | denomMetadata d =>
      simp only [queryToProtobuf, bankToProtobuf] at h; injection h with h; subst h
      refine ⟨_, rfl, ?_⟩
      simp [readHostQuery, P.QueryDenomMetadataRequest.toBytes, parseWire_encFields (P.QueryDenomMetadataRequest.valid _),
        readQueryFields, Path.denomMetadata]
      simp [P.QueryDenomMetadataRequest.enc]
    | allDenomMetadata p =>
      simp only [queryToProtobuf, bankToProtobuf] at h; injection h with h; subst h
      refine ⟨_, rfl, ?_⟩
      generalize hb : p.map (fun p => (⟨p.key.getD [], 0, p.limit.toUInt64, false, p.reverse⟩ : P.PageRequest)) = bo
      have hp := readPage_of (m := P.QueryDenomsMetadataRequest.enc ⟨bo⟩) (tag := 1) (b := bo)
        (by simp [P.QueryDenomsMetadataRequest.enc])
      have hx : bo.map (fun b => (⟨b.key, b.offset.toNat, b.limit.toNat, b.countTotal, b.reverse⟩ : HostPage)) =
          p.map fun p => ⟨p.key.getD [], 0, p.limit.toNat, false, p.reverse⟩ := by
        subst hb; cases p <;> simp
      simp [readHostQuery, P.QueryDenomsMetadataRequest.toBytes,
        parseWire_encFields (P.QueryDenomsMetadataRequest.valid _), readQueryFields, Path.allDenomMetadata, hp, hx]
    | supply d =>
      simp only [queryToProtobuf, bankToProtobuf] at h; injection h with h; subst h
      refine ⟨_, rfl, ?_⟩
      simp [readHostQuery, P.QuerySupplyOfRequest.toBytes, parseWire_encFields (P.QuerySupplyOfRequest.valid _),
        readQueryFields, Path.supply]
      simp [P.QuerySupplyOfRequest.enc]
  | wasm b =>
    cases b with
    | codeInfo _ => cases h
    | raw a k =>
      simp only [queryToProtobuf, wasmToProtobuf] at h; injection h with h; subst h
      refine ⟨_, rfl, ?_⟩
      simp [readHostQuery, P.QueryRawContractStateRequest.toBytes,
        parseWire_encFields (P.QueryRawContractStateRequest.valid _), readQueryFields, Path.raw]
      simp [P.QueryRawContractStateRequest.enc, sel_tagged_ne]
    | smart a k =>
      simp only [queryToProtobuf, wasmToProtobuf] at h; injection h with h; subst h
      refine ⟨_, rfl, ?_⟩
      simp [readHostQuery, P.QuerySmartContractStateRequest.toBytes,
        parseWire_encFields (P.QuerySmartContractStateRequest.valid _), readQueryFields, Path.smart]
      simp [P.QuerySmartContractStateRequest.enc, sel_tagged_ne]
    | contractInfo a =>
      simp only [queryToProtobuf, wasmToProtobuf] at h; injection h with h; subst h
      refine ⟨_, rfl, ?_⟩
      simp [readHostQuery, P.QueryContractInfoRequest.toBytes,
        parseWire_encFields (P.QueryContractInfoRequest.valid _), readQueryFields, Path.contractInfo]
      simp [P.QueryContractInfoRequest.enc]
  | staking b =>
    cases b with
    | validator a =>
      simp only [queryToProtobuf, stakingToProtobuf] at h; injection h with h; subst h
      refine ⟨_, rfl, ?_⟩
      simp [readHostQuery, P.QueryValidatorRequest.toBytes,
        parseWire_encFields (P.QueryValidatorRequest.valid _), readQueryFields, Path.validator]
      simp [P.QueryValidatorRequest.enc]
    | allValidators =>
      simp only [queryToProtobuf, stakingToProtobuf] at h; injection h with h; subst h
      refine ⟨_, rfl, ?_⟩
      have hp := readPage_of (m := P.QueryValidatorsRequest.enc ⟨"", none⟩) (tag := 2) (b := none)
        (by simp [P.QueryValidatorsRequest.enc, sel_tagged_ne])
      simp [readHostQuery, P.QueryValidatorsRequest.toBytes,
        parseWire_encFields (P.QueryValidatorsRequest.valid _), readQueryFields, Path.allValidators, hp]
      simp [P.QueryValidatorsRequest.enc, sel_tagged_ne]
    | delegation a v =>
      simp only [queryToProtobuf, stakingToProtobuf] at h; injection h with h; subst h
      refine ⟨_, rfl, ?_⟩
      simp [readHostQuery, P.QueryDelegationRequest.toBytes,
        parseWire_encFields (P.QueryDelegationRequest.valid _), readQueryFields, Path.delegation]
      simp [P.QueryDelegationRequest.enc, sel_tagged_ne]
    | allDelegations a =>
      simp only [queryToProtobuf, stakingToProtobuf] at h; injection h with h; subst h
      refine ⟨_, rfl, ?_⟩
      have hp := readPage_of (m := P.QueryDelegatorDelegationsRequest.enc ⟨a, none⟩) (tag := 2) (b := none)
        (by simp [P.QueryDelegatorDelegationsRequest.enc, sel_tagged_ne])
      simp [readHostQuery, P.QueryDelegatorDelegationsRequest.toBytes,
        parseWire_encFields (P.QueryDelegatorDelegationsRequest.valid _), readQueryFields, Path.allDelegations, hp]
      simp [P.QueryDelegatorDelegationsRequest.enc, sel_tagged_ne]
    | bondedDenom =>
      simp only [queryToProtobuf, stakingToProtobuf] at h; injection h with h; subst h
      refine ⟨_, rfl, ?_⟩
      simp [readHostQuery, P.QueryParamsRequest.toBytes,
        parseWire_encFields (P.QueryParamsRequest.valid _), readQueryFields, Path.stakingParams]

/-- A converted query is recorded under its path. -/
theorem recordedAs_convert {q : QueryRequest} {r : String × Bytes × Bool} (h : queryToProtobuf q = .ok r) :
    RecordedAs q (r.1, r.2.2) := by
  cases q with
  | stargate p d => simp only [queryToProtobuf] at h; injection h with h; subst h; rfl
  | custom c => cases h
  | ibc c => cases h
  | distribution c => cases h
  | bank b => cases b <;> (simp only [queryToProtobuf, bankToProtobuf] at h; injection h with h; subst h; exact ⟨_, rfl, rfl⟩)
  | wasm b =>
    cases b with
    | codeInfo _ => cases h
    | _ => simp only [queryToProtobuf, wasmToProtobuf] at h; injection h with h; subst h; exact ⟨_, rfl, rfl⟩
  | staking b =>
    cases b <;> (simp only [queryToProtobuf, stakingToProtobuf] at h; injection h with h; subst h; exact ⟨_, rfl, rfl⟩)

/-- A supported query is converted. -/
theorem convert_of_supportedQuery {q : QueryRequest} (h : SupportedQuery q) : ∃ r, queryToProtobuf q = .ok r := by
  rcases h with ⟨u, v, rfl⟩ | ⟨x, hx⟩
  · exact ⟨_, rfl⟩
  · cases q with
    | stargate u v => cases hx
    | custom c => cases hx
    | ibc c => cases hx
    | distribution c => cases hx
    | bank b => cases b <;> exact ⟨_, rfl⟩
    | wasm b => cases b with
      | codeInfo _ => cases hx
      | _ => exact ⟨_, rfl⟩
    | staking b => cases b <;> exact ⟨_, rfl⟩

/-- An unsupported query is not converted. -/
theorem not_convertQuery {q : QueryRequest} (h : ¬ SupportedQuery q) : ∃ e, queryToProtobuf q = .panic e := by
  cases q with
  | stargate u v => exact absurd (.inl ⟨u, v, rfl⟩) h
  | custom c => exact ⟨_, rfl⟩
  | ibc c => exact ⟨_, rfl⟩
  | distribution c => exact ⟨_, rfl⟩
  | bank b => cases b <;> exact absurd (.inr ⟨_, rfl⟩) h
  | wasm b => cases b with
    | codeInfo _ => exact ⟨_, rfl⟩
    | _ => exact absurd (.inr ⟨_, rfl⟩) h
  | staking b => cases b <;> exact absurd (.inr ⟨_, rfl⟩) h

end Ica
