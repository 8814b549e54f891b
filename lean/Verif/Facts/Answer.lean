import Verif.Facts.Host
import Verif.Spec.Answer
import Verif.Facts.Step

/-!
# The contract's decoders against the host's encoders
-/
namespace Ica
open Spec

theorem readAck_eq (bs : Bytes) : readAck bs = AckData.jc.ofBytes bs := by
  unfold readAck JC.ofBytes
  cases hj : jsonOfBytes bs with
  | none => rfl
  | some j =>
    simp only [Option.bind_some, AckData.jc]
    split
    · rename_i h; injection h with h; subst h; simp [jcBin]
    · rename_i h; injection h with h; subst h; simp [jcStr]
    · rename_i h1 h2
      split
      · rename_i k v
        split
        · subst k
          cases v with
          | str s => exact absurd rfl (h1 s)
          | _ => rfl
        · split
          · subst k
            cases v with
            | str s => exact absurd rfl (h2 s)
            | _ => rfl
          · rfl
      · rfl

theorem decAll_any (l : List Fields) :
    decAll P.Any.dec l = (readAll readAny l).map (List.map fun a => ⟨a.1, a.2⟩) := by
  induction l with
  | nil => rfl
  | cons x l ih =>
    simp only [decAll, ih, readAll, P.Any.dec, readAny]
    cases dStr (sel 1 x) <;> cases dBytes (sel 2 x) <;> cases readAll readAny l <;> simp

theorem decAll_msgData (l : List Fields) :
    decAll P.MsgData.dec l = (readAll readMsgData l).map (List.map fun a => ⟨a.1, a.2⟩) := by
  induction l with
  | nil => rfl
  | cons x l ih =>
    simp only [decAll, ih, readAll, P.MsgData.dec, readMsgData]
    cases dStr (sel 1 x) <;> cases dBytes (sel 2 x) <;> cases readAll readMsgData l <;> simp

theorem decodeSafe_eq_ok {bs : Bytes} {m : P.MsgModuleQuerySafeResponse} :
    decodeOr (P.MsgModuleQuerySafeResponse.ofBytes bs) = .ok m ↔
      ((parseWire bs).bind fun f => (dU64 (sel 1 f)).bind fun h => (dBytess (sel 2 f)).bind fun r => some (h, r)) =
        some (m.height, m.responses) := by
  unfold P.MsgModuleQuerySafeResponse.ofBytes
  cases parseWire bs with
  | none => simp [decodeOr]
  | some fs =>
    simp only [Option.bind_some, P.MsgModuleQuerySafeResponse.dec]
    cases dU64 (sel 1 fs) with
    | none => simp [decodeOr]
    | some x =>
      cases dBytess (sel 2 fs) with
      | none => simp [decodeOr]
      | some y =>
        obtain ⟨a, b⟩ := m
        simp [decodeOr]

/-- The responses as the independent reader finds them. -/
theorem toTxMsgData_eq {res : Bytes} :
    (∃ t, toTxMsgData (.result res) = .ok t ∧
      ((parseWire res).bind fun tx => ((dMsgs (sel 1 tx)).bind (readAll readMsgData)).bind fun _ =>
        (dMsgs (sel 2 tx)).bind (readAll readAny)) = some (t.msgResponses.map fun x => (x.typeUrl, x.value))) ∨
    (∃ e, toTxMsgData (.result res) = .err e) ∧
      ((parseWire res).bind fun tx => ((dMsgs (sel 1 tx)).bind (readAll readMsgData)).bind fun _ =>
        (dMsgs (sel 2 tx)).bind (readAll readAny)) = none := by
  unfold toTxMsgData P.TxMsgData.ofBytes
  dsimp only
  cases parseWire res with
  | none => exact .inr ⟨⟨_, rfl⟩, rfl⟩
  | some tx =>
    simp only [Option.bind_some, P.TxMsgData.dec, dAll]
    cases dMsgs (sel 1 tx) with
    | none => exact .inr ⟨⟨_, rfl⟩, rfl⟩
    | some l1 =>
    simp only [decAll_msgData, Option.bind_some]
    cases readAll readMsgData l1 with
    | none => exact .inr ⟨⟨_, rfl⟩, rfl⟩
    | some ds =>
    simp only [Option.map_some, Option.bind_some]
    cases dMsgs (sel 2 tx) with
    | none => exact .inr ⟨⟨_, rfl⟩, rfl⟩
    | some l =>
      simp only [decAll_any, Option.bind_some]
      cases readAll readAny l with
      | none => exact .inr ⟨⟨_, rfl⟩, rfl⟩
      | some as => exact .inl ⟨_, rfl, by simp [Function.comp_def]⟩

/-- Locating and decoding the query response succeeds exactly when the independent reader finds it. -/
theorem decodeLast_eq_ok {res : Bytes} {m : P.MsgModuleQuerySafeResponse} :
    decodeModuleQuerySafeRespLast (.result res) = .ok m ↔ readQueryAnswer res = some (m.height, m.responses) := by
  have hq : readQueryAnswer res =
      ((parseWire res).bind fun tx => ((dMsgs (sel 1 tx)).bind (readAll readMsgData)).bind fun _ =>
        (dMsgs (sel 2 tx)).bind (readAll readAny)).bind fun as => as.getLast?.bind fun last =>
          (parseWire last.2).bind fun f => (dU64 (sel 1 f)).bind fun h => (dBytess (sel 2 f)).bind fun r => some (h, r) := by
    unfold readQueryAnswer
    simp only [bind, Option.bind_assoc]
  rw [hq]
  unfold decodeModuleQuerySafeRespLast
  rcases toTxMsgData_eq (res := res) with ⟨t, h1, h2⟩ | ⟨⟨e, h1⟩, h2⟩
  · rw [h1, h2]
    simp only [Res.bind, Option.bind_some, List.getLast?_map]
    cases t.msgResponses.getLast? with
    | none => simp
    | some x => simp only [Option.map_some, Option.bind_some]; exact decodeSafe_eq_ok
  · rw [h1, h2]
    simp [Res.bind]

theorem decodeLast_ok_iff {res : Bytes} :
    (∃ m, decodeModuleQuerySafeRespLast (.result res) = .ok m) ↔ (readQueryAnswer res).isSome := by
  constructor
  · rintro ⟨m, hm⟩; rw [decodeLast_eq_ok.1 hm]; rfl
  · intro h
    obtain ⟨⟨a, b⟩, hx⟩ := Option.isSome_iff_exists.1 h
    exact ⟨⟨a, b⟩, decodeLast_eq_ok.2 hx⟩

/-! ## Spec encoders are the encoders of the protobuf types -/

/-- The protobuf coin of a coin. -/
def pc (c : Coin) : P.Coin := ⟨c.denom, decString c.amount.val⟩
theorem coinFields_eq (c : Coin) : coinFields c = (pc c).enc := rfl
theorem convertToCoin_pc (c : Coin) : convertToCoin (pc c) = .ok c := by
  simp [convertToCoin, pc, parseU128_decString]
/-- The protobuf metadata. -/
def pm (m : DenomMetadata) : P.Metadata :=
  ⟨m.description, m.denomUnits.map fun u => ⟨u.denom, u.exponent, u.aliases⟩, m.base, m.display, m.name, m.symbol, m.uri,
    m.uriHash⟩
theorem metadataFields_eq (m : DenomMetadata) : metadataFields m = (pm m).enc := by
  simp only [metadataFields, pm, P.Metadata.enc, List.map_map]
  congr
theorem convertToMetadata_pm (m : DenomMetadata) : convertToMetadata (pm m) = m := by
  have : (fun u : P.DenomUnit => (⟨u.denom, u.exponent, u.aliases⟩ : DenomUnit)) ∘
      (fun u : DenomUnit => (⟨u.denom, u.exponent, u.aliases⟩ : P.DenomUnit)) = id := rfl
  simp [convertToMetadata, pm, this]
theorem pageFields_eq (p : HostPageInfo) : pageFields p = P.PageResponse.enc ⟨p.1, p.2⟩ := rfl

theorem sel_extra {known : List Nat} {rest : Fields} (h : Extra known rest) {t : Nat} (ht : t ∈ known) :
    sel t rest = [] := by
  obtain ⟨-, h⟩ := h
  induction rest with
  | nil => rfl
  | cons p rest ih =>
    have hp : p.1 ≠ t := fun e => h p (by simp) (e ▸ ht)
    have := ih (fun q hq => h q (by simp [hq]))
    unfold sel at this ⊢
    simp only [List.filterMap_cons, hp, if_false, this]

theorem mapRes_map_ok {α β : Type} {f : α → Res β} {g : β → α} (h : ∀ x, f (g x) = .ok x) (l : List β) :
    mapRes f (l.map g) = .ok l := by
  induction l with
  | nil => rfl
  | cons x l ih => simp [mapRes, h x, ih, Res.bind]


/-! ## Each answer -/

theorem dispatch_balance (bs : Bytes) :
    responseFromProtobuf Path.balance bs false = bankResponse Path.balance bs := by
  have h0 : startsWith Path.balance "/cosmos.bank.v1beta1.Query/" = true := by decide +kernel
  simp [responseFromProtobuf, h0]
theorem dispatch_allBalances (bs : Bytes) :
    responseFromProtobuf Path.allBalances bs false = bankResponse Path.allBalances bs := by
  have h0 : startsWith Path.allBalances "/cosmos.bank.v1beta1.Query/" = true := by decide +kernel
  simp [responseFromProtobuf, h0]
theorem dispatch_denomMetadata (bs : Bytes) :
    responseFromProtobuf Path.denomMetadata bs false = bankResponse Path.denomMetadata bs := by
  have h0 : startsWith Path.denomMetadata "/cosmos.bank.v1beta1.Query/" = true := by decide +kernel
  simp [responseFromProtobuf, h0]
theorem dispatch_allDenomMetadata (bs : Bytes) :
    responseFromProtobuf Path.allDenomMetadata bs false = bankResponse Path.allDenomMetadata bs := by
  have h0 : startsWith Path.allDenomMetadata "/cosmos.bank.v1beta1.Query/" = true := by decide +kernel
  simp [responseFromProtobuf, h0]
theorem dispatch_supply (bs : Bytes) :
    responseFromProtobuf Path.supply bs false = bankResponse Path.supply bs := by
  have h0 : startsWith Path.supply "/cosmos.bank.v1beta1.Query/" = true := by decide +kernel
  simp [responseFromProtobuf, h0]
theorem dispatch_contractInfo (bs : Bytes) :
    responseFromProtobuf Path.contractInfo bs false = wasmResponse Path.contractInfo bs := by
  have h0 : startsWith Path.contractInfo "/cosmos.bank.v1beta1.Query/" = false := by decide +kernel
  have h1 : startsWith Path.contractInfo "/cosmwasm.wasm.v1.Query/" = true := by decide +kernel
  simp [responseFromProtobuf, h0, h1]
theorem dispatch_raw (bs : Bytes) :
    responseFromProtobuf Path.raw bs false = wasmResponse Path.raw bs := by
  have h0 : startsWith Path.raw "/cosmos.bank.v1beta1.Query/" = false := by decide +kernel
  have h1 : startsWith Path.raw "/cosmwasm.wasm.v1.Query/" = true := by decide +kernel
  simp [responseFromProtobuf, h0, h1]
theorem dispatch_smart (bs : Bytes) :
    responseFromProtobuf Path.smart bs false = wasmResponse Path.smart bs := by
  have h0 : startsWith Path.smart "/cosmos.bank.v1beta1.Query/" = false := by decide +kernel
  have h1 : startsWith Path.smart "/cosmwasm.wasm.v1.Query/" = true := by decide +kernel
  simp [responseFromProtobuf, h0, h1]
theorem dispatch_validator (bs : Bytes) :
    responseFromProtobuf Path.validator bs false = stakingResponse Path.validator bs := by
  have h0 : startsWith Path.validator "/cosmos.bank.v1beta1.Query/" = false := by decide +kernel
  have h1 : startsWith Path.validator "/cosmwasm.wasm.v1.Query/" = false := by decide +kernel
  have h2 : startsWith Path.validator "/cosmos.staking.v1beta1.Query/" = true := by decide +kernel
  simp [responseFromProtobuf, h0, h1, h2]
theorem dispatch_allValidators (bs : Bytes) :
    responseFromProtobuf Path.allValidators bs false = stakingResponse Path.allValidators bs := by
  have h0 : startsWith Path.allValidators "/cosmos.bank.v1beta1.Query/" = false := by decide +kernel
  have h1 : startsWith Path.allValidators "/cosmwasm.wasm.v1.Query/" = false := by decide +kernel
  have h2 : startsWith Path.allValidators "/cosmos.staking.v1beta1.Query/" = true := by decide +kernel
  simp [responseFromProtobuf, h0, h1, h2]
theorem dispatch_delegation (bs : Bytes) :
    responseFromProtobuf Path.delegation bs false = stakingResponse Path.delegation bs := by
  have h0 : startsWith Path.delegation "/cosmos.bank.v1beta1.Query/" = false := by decide +kernel
  have h1 : startsWith Path.delegation "/cosmwasm.wasm.v1.Query/" = false := by decide +kernel
  have h2 : startsWith Path.delegation "/cosmos.staking.v1beta1.Query/" = true := by decide +kernel
  simp [responseFromProtobuf, h0, h1, h2]
theorem dispatch_allDelegations (bs : Bytes) :
    responseFromProtobuf Path.allDelegations bs false = stakingResponse Path.allDelegations bs := by
  have h0 : startsWith Path.allDelegations "/cosmos.bank.v1beta1.Query/" = false := by decide +kernel
  have h1 : startsWith Path.allDelegations "/cosmwasm.wasm.v1.Query/" = false := by decide +kernel
  have h2 : startsWith Path.allDelegations "/cosmos.staking.v1beta1.Query/" = true := by decide +kernel
  simp [responseFromProtobuf, h0, h1, h2]
theorem dispatch_stakingParams (bs : Bytes) :
    responseFromProtobuf Path.stakingParams bs false = stakingResponse Path.stakingParams bs := by
  have h0 : startsWith Path.stakingParams "/cosmos.bank.v1beta1.Query/" = false := by decide +kernel
  have h1 : startsWith Path.stakingParams "/cosmwasm.wasm.v1.Query/" = false := by decide +kernel
  have h2 : startsWith Path.stakingParams "/cosmos.staking.v1beta1.Query/" = true := by decide +kernel
  simp [responseFromProtobuf, h0, h1, h2]

theorem parse_answer {fs : Fields} (h : Valid fs) : parseWire (encFields fs) = some fs := parseWire_encFields h

theorem dOpt_some {α : Type} {d : Fields → Option α} {fs : Fields} {x : α} (hv : Valid fs) (hd : d fs = some x) :
    dOpt d (vMsg (some fs)) = some (some x) := by
  have h := dMsg_vMsg (o := some fs) (by intro gs hg; injection hg with hg; subst hg; exact hv)
  simp [dOpt, h, hd]

theorem valid_coin (c : Coin) : Valid (coinFields c) := P.Coin.valid (pc c)
theorem dec_coin (c : Coin) : P.Coin.dec (coinFields c) = some (pc c) := P.Coin.dec_enc (pc c)
theorem valid_metadata (m : DenomMetadata) : Valid (metadataFields m) := by
  rw [metadataFields_eq]; exact P.Metadata.valid _
theorem dec_metadata (m : DenomMetadata) : P.Metadata.dec (metadataFields m) = some (pm m) := by
  rw [metadataFields_eq]; exact P.Metadata.dec_enc _
theorem dOpt_page (o : Option HostPageInfo) :
    dOpt P.PageResponse.dec (vMsg (o.map pageFields)) = some (o.map fun p => ⟨p.1, p.2⟩) := by
  cases o with
  | none => simp [vMsg, dOpt, dMsg, dMsgs]
  | some p => exact dOpt_some (P.PageResponse.valid ⟨p.1, p.2⟩) (P.PageResponse.dec_enc ⟨p.1, p.2⟩)
theorem dAll_of {α β : Type} {d : Fields → Option β} {e : α → Fields} {g : α → β} (hv : ∀ x, Valid (e x))
    (hd : ∀ x, d (e x) = some (g x)) (l : List α) : dAll d (vMsgs (l.map e)) = some (l.map g) := by
  have h := dMsgs_vMsgs (l := l.map e) (by
    intro fs hfs; simp only [List.mem_map] at hfs; obtain ⟨x, -, rfl⟩ := hfs; exact hv x)
  simp only [dAll, h]
  clear h
  induction l with
  | nil => rfl
  | cons x l ih => simp [decAll, hd x, ih]

theorem okTag (t : Nat) (h : 0 < t ∧ t < 100) : OkTag t := by
  unfold OkTag; omega

/-- The protobuf pair of numbers, as a position. -/
def pp (p : UInt64 × UInt64) : P.AbsoluteTxPosition := ⟨p.1, p.2⟩
/-- The protobuf pair of numbers, as a time. -/
def pt (p : UInt64 × UInt64) : P.Timestamp := ⟨p.1, p.2⟩
/-- The protobuf any. -/
def pa (p : String × Bytes) : P.Any := ⟨p.1, p.2⟩
theorem dOpt_pos (o : Option (UInt64 × UInt64)) :
    dOpt P.AbsoluteTxPosition.dec (vMsg (o.map pairFields)) = some (o.map pp) := by
  cases o with
  | none => simp [vMsg, dOpt, dMsg, dMsgs]
  | some p => exact dOpt_some (P.AbsoluteTxPosition.valid (pp p)) (P.AbsoluteTxPosition.dec_enc (pp p))
theorem dOpt_time (o : Option (UInt64 × UInt64)) :
    dOpt P.Timestamp.dec (vMsg (o.map pairFields)) = some (o.map pt) := by
  cases o with
  | none => simp [vMsg, dOpt, dMsg, dMsgs]
  | some p => exact dOpt_some (P.Timestamp.valid (pt p)) (P.Timestamp.dec_enc (pt p))
theorem dOpt_any (o : Option (String × Bytes)) :
    dOpt P.Any.dec (vMsg (o.map anyFields)) = some (o.map pa) := by
  cases o with
  | none => simp [vMsg, dOpt, dMsg, dMsgs]
  | some p => exact dOpt_some (P.Any.valid (pa p)) (P.Any.dec_enc (pa p))

/-- The protobuf contract info. -/
def pinfo (i : HostContractInfo) : P.ContractInfo :=
  ⟨i.codeId, i.creator, i.admin, i.label, i.created.map pp, i.ibcPort, i.extension.map pa⟩
theorem valid_info {i : HostContractInfo} (h : Extra [1, 2, 3, 4, 5, 6, 7] i.rest) : Valid i.fields := by
  simp only [HostContractInfo.fields, valid_append]
  refine ⟨⟨⟨⟨⟨⟨⟨?_, ?_⟩, ?_⟩, ?_⟩, ?_⟩, ?_⟩, ?_⟩, h.1⟩
  all_goals exact valid_tagged (okTag _ (by decide)) _
theorem dec_info {i : HostContractInfo} (h : Extra [1, 2, 3, 4, 5, 6, 7] i.rest) :
    P.ContractInfo.dec i.fields = some (pinfo i) := by
  simp [P.ContractInfo.dec, HostContractInfo.fields, sel_tagged_ne, sel_extra h, dOpt_pos, dOpt_any, pinfo]

/-- The protobuf delegation. -/
def pd (d : HostDelegation) : P.DelegationResponse := ⟨some ⟨d.delegator, d.validator, d.shares⟩, some (pc d.balance)⟩
theorem delegation_fields (d : HostDelegation) : d.fields = (pd d).enc := rfl
theorem valid_delegation (d : HostDelegation) : Valid d.fields := P.DelegationResponse.valid (pd d)
theorem dec_delegation (d : HostDelegation) : P.DelegationResponse.dec d.fields = some (pd d) :=
  P.DelegationResponse.dec_enc (pd d)
theorem convert_delegation (d : HostDelegation) :
    convertToDelegation (some (pc d.balance)) ⟨d.delegator, d.validator, d.shares⟩ = .ok d.reported := by
  simp [convertToDelegation, convertToCoin_pc, Res.bind, HostDelegation.reported]
theorem collect_delegations (ds : List HostDelegation) :
    collectDelegations (ds.map pd) = .ok (ds.map HostDelegation.reported) := by
  induction ds with
  | nil => rfl
  | cons d ds ih => simp [collectDelegations, pd, convert_delegation, Res.bind, ih]

/-- The protobuf parameters. -/
def pparams (p : HostParams) : P.Params :=
  ⟨p.unbondingTime.map pt, p.maxValidators, p.maxEntries, p.historicalEntries, p.bondDenom, p.minCommissionRate⟩
theorem valid_params {p : HostParams} (h : Extra [1, 2, 3, 4, 5, 6] p.rest) : Valid p.fields := by
  simp only [HostParams.fields, valid_append]
  refine ⟨⟨⟨⟨⟨⟨?_, ?_⟩, ?_⟩, ?_⟩, ?_⟩, ?_⟩, h.1⟩
  all_goals exact valid_tagged (okTag _ (by decide)) _
theorem dec_params {p : HostParams} (h : Extra [1, 2, 3, 4, 5, 6] p.rest) : P.Params.dec p.fields = some (pparams p) := by
  simp [P.Params.dec, HostParams.fields, sel_tagged_ne, sel_extra h, dOpt_time, dU32_vU64, pparams]

theorem valid_answer {a : HostAnswer} : Valid a.fields := by
  cases a <;> simp only [HostAnswer.fields, valid_append] <;> (repeat' apply And.intro) <;>
    exact valid_tagged (okTag _ (by decide)) _

/-- Every answer is decoded to the value it carries. -/
theorem response_of_answer {a : HostAnswer} (h : a.Wf) :
    responseFromProtobuf a.path a.bytes false = .ok a.reported := by
  have hp := parse_answer (valid_answer (a := a))
  cases a with
  | balance c =>
    have : P.QueryBalanceResponse.ofBytes (HostAnswer.balance c).bytes = some ⟨some (pc c)⟩ := by
      unfold P.QueryBalanceResponse.ofBytes HostAnswer.bytes
      rw [hp]
      simp [P.QueryBalanceResponse.dec, HostAnswer.fields, dOpt_some (valid_coin c) (dec_coin c)]
    refine (dispatch_balance _).trans ?_
    simp only [bankResponse]
    rw [if_pos trivial]
    simp [this, decodeOr, Res.bind, coinOrDefault, convertToCoin_pc, HostAnswer.reported]
  | allBalances cs page =>
    have : P.QueryAllBalancesResponse.ofBytes (HostAnswer.allBalances cs page).bytes =
        some ⟨cs.map pc, page.map fun p => ⟨p.1, p.2⟩⟩ := by
      unfold P.QueryAllBalancesResponse.ofBytes HostAnswer.bytes
      rw [hp]
      simp [P.QueryAllBalancesResponse.dec, HostAnswer.fields, sel_tagged_ne, dAll_of valid_coin dec_coin, dOpt_page]
    refine (dispatch_allBalances _).trans ?_
    simp only [bankResponse]
    rw [if_neg (by decide +kernel), if_pos trivial]
    simp [this, decodeOr, Res.bind, mapRes_map_ok convertToCoin_pc, HostAnswer.reported]
  | denomMetadata m =>
    have : P.QueryDenomMetadataResponse.ofBytes (HostAnswer.denomMetadata m).bytes = some ⟨some (pm m)⟩ := by
      unfold P.QueryDenomMetadataResponse.ofBytes HostAnswer.bytes
      rw [hp]
      simp [P.QueryDenomMetadataResponse.dec, HostAnswer.fields, dOpt_some (valid_metadata m) (dec_metadata m)]
    refine (dispatch_denomMetadata _).trans ?_
    simp only [bankResponse]
    rw [if_neg (by decide +kernel), if_neg (by decide +kernel), if_pos trivial]
    simp [this, decodeOr, Res.bind, convertToMetadata_pm, HostAnswer.reported]
  | denomsMetadata ms page =>
    have : P.QueryDenomsMetadataResponse.ofBytes (HostAnswer.denomsMetadata ms page).bytes =
        some ⟨ms.map pm, page.map fun p => ⟨p.1, p.2⟩⟩ := by
      unfold P.QueryDenomsMetadataResponse.ofBytes HostAnswer.bytes
      rw [hp]
      simp [P.QueryDenomsMetadataResponse.dec, HostAnswer.fields, sel_tagged_ne, dAll_of valid_metadata dec_metadata,
        dOpt_page]
    refine (dispatch_allDenomMetadata _).trans ?_
    simp only [bankResponse]
    rw [if_neg (by decide +kernel), if_neg (by decide +kernel), if_neg (by decide +kernel), if_pos trivial]
    have hm : ms.map (convertToMetadata ∘ pm) = ms := by
      conv_rhs => rw [← List.map_id ms]
      exact List.map_congr_left fun m _ => convertToMetadata_pm m
    cases page <;> simp [this, decodeOr, Res.bind, hm, HostAnswer.reported]
  | supplyOf c =>
    have : P.QuerySupplyOfResponse.ofBytes (HostAnswer.supplyOf c).bytes = some ⟨some (pc c)⟩ := by
      unfold P.QuerySupplyOfResponse.ofBytes HostAnswer.bytes
      rw [hp]
      simp [P.QuerySupplyOfResponse.dec, HostAnswer.fields, dOpt_some (valid_coin c) (dec_coin c)]
    refine (dispatch_supply _).trans ?_
    simp only [bankResponse]
    rw [if_neg (by decide +kernel), if_neg (by decide +kernel), if_neg (by decide +kernel), if_neg (by decide +kernel),
      if_pos trivial]
    simp [this, decodeOr, Res.bind, coinOrDefault, convertToCoin_pc, HostAnswer.reported]
  | contractInfo address i =>
    have : P.QueryContractInfoResponse.ofBytes (HostAnswer.contractInfo address i).bytes =
        some ⟨address, some (pinfo i)⟩ := by
      unfold P.QueryContractInfoResponse.ofBytes HostAnswer.bytes
      rw [hp]
      simp [P.QueryContractInfoResponse.dec, HostAnswer.fields, sel_tagged_ne, dOpt_some (valid_info h) (dec_info h)]
    refine (dispatch_contractInfo _).trans ?_
    simp only [wasmResponse]
    rw [if_pos trivial]
    simp [this, decodeOr, Res.bind, HostAnswer.reported, nonEmpty, unlessEmpty, pinfo]
  | rawState data =>
    have : P.QueryDataResponse.ofBytes (HostAnswer.rawState data).bytes = some ⟨data⟩ := by
      unfold P.QueryDataResponse.ofBytes HostAnswer.bytes
      rw [hp]
      simp [P.QueryDataResponse.dec, HostAnswer.fields]
    refine (dispatch_raw _).trans ?_
    simp only [wasmResponse]
    rw [if_neg (by decide +kernel), if_pos trivial]
    simp [this, decodeOr, Res.bind, HostAnswer.reported, unlessEmpty]
  | smartState data =>
    have : P.QueryDataResponse.ofBytes (HostAnswer.smartState data).bytes = some ⟨data⟩ := by
      unfold P.QueryDataResponse.ofBytes HostAnswer.bytes
      rw [hp]
      simp [P.QueryDataResponse.dec, HostAnswer.fields]
    refine (dispatch_smart _).trans ?_
    simp only [wasmResponse]
    rw [if_neg (by decide +kernel), if_neg (by decide +kernel), if_pos trivial]
    simp [this, decodeOr, Res.bind, HostAnswer.reported]
  | delegation d =>
    have : P.QueryDelegationResponse.ofBytes (HostAnswer.delegation d).bytes = some ⟨some (pd d)⟩ := by
      unfold P.QueryDelegationResponse.ofBytes HostAnswer.bytes
      rw [hp]
      simp [P.QueryDelegationResponse.dec, HostAnswer.fields, dOpt_some (valid_delegation d) (dec_delegation d)]
    refine (dispatch_delegation _).trans ?_
    simp only [stakingResponse]
    rw [if_neg (by decide +kernel), if_neg (by decide +kernel), if_pos trivial]
    simp [this, decodeOr, Res.bind, HostAnswer.reported, pd, optRes, convert_delegation]
  | delegatorDelegations ds page =>
    have : P.QueryDelegatorDelegationsResponse.ofBytes (HostAnswer.delegatorDelegations ds page).bytes =
        some ⟨ds.map pd, page.map fun p => ⟨p.1, p.2⟩⟩ := by
      unfold P.QueryDelegatorDelegationsResponse.ofBytes HostAnswer.bytes
      rw [hp]
      simp [P.QueryDelegatorDelegationsResponse.dec, HostAnswer.fields, sel_tagged_ne,
        dAll_of valid_delegation dec_delegation, dOpt_page]
    refine (dispatch_allDelegations _).trans ?_
    simp only [stakingResponse]
    rw [if_neg (by decide +kernel), if_neg (by decide +kernel), if_neg (by decide +kernel), if_pos trivial]
    simp [this, decodeOr, Res.bind, HostAnswer.reported, collect_delegations]
  | stakingParams p =>
    have : P.QueryParamsResponse.ofBytes (HostAnswer.stakingParams p).bytes = some ⟨some (pparams p)⟩ := by
      unfold P.QueryParamsResponse.ofBytes HostAnswer.bytes
      rw [hp]
      simp [P.QueryParamsResponse.dec, HostAnswer.fields, dOpt_some (valid_params h) (dec_params h)]
    refine (dispatch_stakingParams _).trans ?_
    simp only [stakingResponse]
    rw [if_neg (by decide +kernel), if_neg (by decide +kernel), if_neg (by decide +kernel), if_neg (by decide +kernel),
      if_pos trivial]
    simp [this, decodeOr, Res.bind, HostAnswer.reported, pparams]

end Ica
