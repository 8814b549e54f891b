import Verif.Spec.Forward
import Verif.Facts.FormatWire
import Verif.Facts.Answer

/-! # Readers do not notice what they do not know (helper lemmas) -/
namespace Ica
open Spec

theorem parse_of_isMessage {m : Fields} {bs : Bytes} (h : Format.IsMessage m bs) : parseWire bs = some m :=
  parseWireAux_complete h _ (Nat.le_refl _)

/-- Values of a field that say the same. -/
def SameVal (sub : Option Known) (v v' : WVal) : Prop :=
  v = v' ∨ ∃ k m m' bs bs', sub = some k ∧ v = .len bs ∧ v' = .len bs' ∧ parseWire bs = some m ∧ parseWire bs' = some m' ∧
    SaysSame k m m'

theorem SameVal.symm {sub : Option Known} {v v' : WVal} (h : SameVal sub v v') : SameVal sub v' v := by
  rcases h with rfl | ⟨k, m, m', bs, bs', h1, h2, h3, h4, h5, h6⟩
  · exact .inl rfl
  · exact .inr ⟨k, m', m, bs', bs, h1, h3, h2, h5, h4, h6.symm⟩

theorem SameVal.trans {sub : Option Known} {v v' v'' : WVal} (h : SameVal sub v v') (h' : SameVal sub v' v'') :
    SameVal sub v v'' := by
  rcases h with rfl | ⟨k, m, m', bs, bs', h1, h2, h3, h4, h5, h6⟩
  · exact h'
  · rcases h' with rfl | ⟨k2, m2, m2', cs, cs', g1, g2, g3, g4, g5, g6⟩
    · exact .inr ⟨k, m, m', bs, bs', h1, h2, h3, h4, h5, h6⟩
    · rw [h1] at g1; cases g1
      rw [h3] at g2; cases g2
      rw [h5] at g4; cases g4
      exact .inr ⟨k, m, m2', bs, cs', h1, h2, g3, h4, g5, h6.trans g6⟩

theorem forall₂_symm {α : Type} {R : α → α → Prop} (hR : ∀ a b, R a b → R b a) {l l' : List α}
    (h : List.Forall₂ R l l') : List.Forall₂ R l' l := by
  induction h with
  | nil => exact .nil
  | cons a _ ih => exact .cons (hR _ _ a) ih

theorem forall₂_trans {α : Type} {R : α → α → Prop} (hR : ∀ a b c, R a b → R b c → R a c) {l l' l'' : List α}
    (h : List.Forall₂ R l l') (h' : List.Forall₂ R l' l'') : List.Forall₂ R l l'' := by
  induction h generalizing l'' with
  | nil => cases h'; exact .nil
  | cons a _ ih => cases h' with | cons b t => exact .cons (hR _ _ _ a b) (ih t)

theorem forall₂_refl {α : Type} {R : α → α → Prop} (hR : ∀ a, R a a) (l : List α) : List.Forall₂ R l l := by
  induction l with
  | nil => exact .nil
  | cons a l ih => exact .cons (hR a) ih

theorem forall₂_append {α : Type} {R : α → α → Prop} {a a' b b' : List α} (h : List.Forall₂ R a a')
    (h' : List.Forall₂ R b b') : List.Forall₂ R (a ++ b) (a' ++ b') := by
  induction h with
  | nil => exact h'
  | cons x _ ih => exact .cons x ih

theorem sel_cons (t u : Nat) (v : WVal) (b : Fields) : sel t ((u, v) :: b) = if u = t then v :: sel t b else sel t b := by
  unfold sel
  by_cases h : u = t <;> simp [h]

/-- The values of every known field say the same. -/
theorem sel_same {k : Known} {m m' : Fields} (h : SaysSame k m m') : ∀ {t : Nat} {sub : Option Known},
    k.field t = some sub → List.Forall₂ (SameVal sub) (sel t m) (sel t m') := by
  induction h with
  | refl m => intro t sub _; exact forall₂_refl (fun _ => .inl rfl) _
  | symm _ ih => intro t sub ht; exact forall₂_symm (fun _ _ => SameVal.symm) (ih ht)
  | trans _ _ ih1 ih2 =>
    intro t sub ht
    exact forall₂_trans (R := SameVal sub) (fun _ _ _ h1 h2 => SameVal.trans h1 h2) (ih1 ht) (ih2 ht)
  | @extra k u a b v hu =>
    intro t sub ht
    have hne : u ≠ t := by rintro rfl; rw [hu] at ht; cases ht
    rw [sel_append, sel_append, sel_cons, if_neg hne]
    exact forall₂_refl (fun _ => .inl rfl) _
  | @order k u w a b v x hne =>
    intro t sub _
    have : sel t (a ++ (u, v) :: (w, x) :: b) = sel t (a ++ (w, x) :: (u, v) :: b) := by
      rw [sel_append, sel_append, sel_cons, sel_cons, sel_cons, sel_cons]
      by_cases h1 : u = t <;> by_cases h2 : w = t <;> simp [h1, h2]
      exact absurd (h1.trans h2.symm) hne
    rw [this]
    exact forall₂_refl (fun _ => .inl rfl) _
  | @inner k sub' u m m' bs bs' a b hu h1 h2 h3 _ =>
    intro t sub ht
    rw [sel_append, sel_append, sel_cons, sel_cons]
    refine forall₂_append (forall₂_refl (fun _ => .inl rfl) _) ?_
    by_cases e : u = t
    · subst e
      rw [if_pos rfl, if_pos rfl]
      rw [hu] at ht; cases ht
      exact .cons (.inr ⟨sub', m, m', bs, bs', rfl, rfl, rfl, parse_of_isMessage h1, parse_of_isMessage h2, h3⟩)
        (forall₂_refl (fun _ => .inl rfl) _)
    · rw [if_neg e, if_neg e]
      exact forall₂_refl (fun _ => .inl rfl) _

/-- A scalar field has the same values. -/
theorem sel_scalar {k : Known} {m m' : Fields} (h : SaysSame k m m') {t : Nat} (ht : k.field t = some none) :
    sel t m = sel t m' := by
  have := sel_same h ht
  revert this
  generalize sel t m = l
  generalize sel t m' = l'
  intro h
  induction h with
  | nil => rfl
  | cons a _ ih =>
    rcases a with rfl | ⟨k, m, m', bs, bs', h1, _⟩
    · rw [ih]
    · cases h1

theorem saysSame_append_right {k : Known} {m m' : Fields} (h : SaysSame k m m') (c : Fields) :
    SaysSame k (m ++ c) (m' ++ c) := by
  induction h with
  | refl m => exact .refl _
  | symm _ ih => exact ih.symm
  | trans _ _ ih1 ih2 => exact ih1.trans ih2
  | extra a b v hu => simpa only [List.append_assoc, List.cons_append] using SaysSame.extra a (b ++ c) v hu
  | order a b v w hne => simpa only [List.append_assoc, List.cons_append] using SaysSame.order a (b ++ c) v w hne
  | inner a b hu h1 h2 h3 _ =>
    simpa only [List.append_assoc, List.cons_append] using SaysSame.inner a (b ++ c) hu h1 h2 h3

theorem saysSame_append_left {k : Known} {m m' : Fields} (h : SaysSame k m m') (c : Fields) :
    SaysSame k (c ++ m) (c ++ m') := by
  induction h with
  | refl m => exact .refl _
  | symm _ ih => exact ih.symm
  | trans _ _ ih1 ih2 => exact ih1.trans ih2
  | extra a b v hu => simpa only [List.append_assoc] using SaysSame.extra (c ++ a) b v hu
  | order a b v w hne => simpa only [List.append_assoc] using SaysSame.order (c ++ a) b v w hne
  | inner a b hu h1 h2 h3 _ => simpa only [List.append_assoc] using SaysSame.inner (c ++ a) b hu h1 h2 h3

theorem saysSame_flatten {k : Known} {l l' : List Fields} (h : List.Forall₂ (SaysSame k) l l') :
    SaysSame k l.flatten l'.flatten := by
  induction h with
  | nil => exact .refl _
  | cons a _ ih => exact (saysSame_append_right a _).trans (saysSame_append_left ih _)

/-- Embedded messages: both unreadable, or reading to messages that say the same. -/
theorem dMsgs_same {k : Known} {vs vs' : List WVal} (h : List.Forall₂ (SameVal (some k)) vs vs') :
    (dMsgs vs = none ∧ dMsgs vs' = none) ∨
      ∃ l l', dMsgs vs = some l ∧ dMsgs vs' = some l' ∧ List.Forall₂ (SaysSame k) l l' := by
  induction h with
  | nil => exact .inr ⟨[], [], rfl, rfl, .nil⟩
  | @cons v v' vs vs' a _ ih =>
    rcases a with rfl | ⟨k', m, m', bs, bs', h1, rfl, rfl, h2, h3, h4⟩
    · cases v with
      | len b =>
        cases hp : parseWire b with
        | none => left; simp [dMsgs, hp]
        | some m =>
          rcases ih with ⟨e1, e2⟩ | ⟨l, l', e1, e2, e3⟩
          · left; simp [dMsgs, hp, e1, e2]
          · right; exact ⟨m :: l, m :: l', by simp [dMsgs, hp, e1], by simp [dMsgs, hp, e2], .cons (.refl m) e3⟩
      | _ => left; simp [dMsgs]
    · cases h1
      rcases ih with ⟨e1, e2⟩ | ⟨l, l', e1, e2, e3⟩
      · left; simp [dMsgs, h2, h3, e1, e2]
      · right; exact ⟨m :: l, m' :: l', by simp [dMsgs, h2, e1], by simp [dMsgs, h3, e2], .cons h4 e3⟩

/-- A reader that does not notice the differences. -/
def Blind {α : Type} (k : Known) (d : Fields → Option α) : Prop := ∀ m m', SaysSame k m m' → d m = d m'

theorem dAll_same {α : Type} {k k' : Known} {d : Fields → Option α} (hd : Blind k' d) {m m' : Fields}
    (h : SaysSame k m m') {t : Nat} (ht : k.field t = some (some k')) : dAll d (sel t m) = dAll d (sel t m') := by
  unfold dAll
  rcases dMsgs_same (sel_same h ht) with ⟨e1, e2⟩ | ⟨l, l', e1, e2, e3⟩
  · rw [e1, e2]
  · rw [e1, e2]
    simp only
    clear e1 e2
    induction e3 with
    | nil => rfl
    | cons a _ ih => simp only [decAll, hd _ _ a, ih]

theorem dOpt_same {α : Type} {k k' : Known} {d : Fields → Option α} (hd : Blind k' d) {m m' : Fields}
    (h : SaysSame k m m') {t : Nat} (ht : k.field t = some (some k')) : dOpt d (sel t m) = dOpt d (sel t m') := by
  unfold dOpt dMsg
  rcases dMsgs_same (sel_same h ht) with ⟨e1, e2⟩ | ⟨l, l', e1, e2, e3⟩
  · rw [e1, e2]
  · rw [e1, e2]
    cases e3 with
    | nil => rfl
    | cons a t =>
      have := hd _ _ (saysSame_flatten (.cons a t))
      simp only [Option.map_some, List.cons_ne_nil, if_false]
      rw [this]

/-- From readers of fields to readers of bytes. -/
theorem bytes_same {α : Type} {k : Known} {d : Fields → Option α} (hd : Blind k d) {bs bs' : Bytes}
    (h : BytesSaySame k bs bs') : (parseWire bs).bind d = (parseWire bs').bind d := by
  rcases h with rfl | ⟨m, m', h1, h2, h3⟩
  · rfl
  · rw [parse_of_isMessage h1, parse_of_isMessage h2]
    exact hd m m' h3

namespace P

theorem Any.blind : Blind Known.any Any.dec := by
  intro m m' h
  unfold Any.dec
  rw [sel_scalar h (t := 1) rfl,
    sel_scalar h (t := 2) rfl]

theorem MsgData.blind : Blind (Known.plain [1, 2]) MsgData.dec := by
  intro m m' h
  unfold MsgData.dec
  rw [sel_scalar h (t := 1) rfl,
    sel_scalar h (t := 2) rfl]

theorem MsgModuleQuerySafeResponse.blind : Blind (Known.plain [1, 2]) MsgModuleQuerySafeResponse.dec := by
  intro m m' h
  unfold MsgModuleQuerySafeResponse.dec
  rw [sel_scalar h (t := 1) rfl,
    sel_scalar h (t := 2) rfl]

theorem Coin.blind : Blind Known.coin Coin.dec := by
  intro m m' h
  unfold Coin.dec
  rw [sel_scalar h (t := 1) rfl,
    sel_scalar h (t := 2) rfl]

theorem PageResponse.blind : Blind Known.page PageResponse.dec := by
  intro m m' h
  unfold PageResponse.dec
  rw [sel_scalar h (t := 1) rfl,
    sel_scalar h (t := 2) rfl]

theorem QueryBalanceResponse.blind : Blind (.msg [(1, some Known.coin)]) QueryBalanceResponse.dec := by
  intro m m' h
  unfold QueryBalanceResponse.dec
  rw [dOpt_same Coin.blind h (t := 1) rfl]

theorem QueryAllBalancesResponse.blind : Blind (.msg [(1, some Known.coin), (2, some Known.page)]) QueryAllBalancesResponse.dec := by
  intro m m' h
  unfold QueryAllBalancesResponse.dec
  rw [dAll_same Coin.blind h (t := 1) rfl,
    dOpt_same PageResponse.blind h (t := 2) rfl]

theorem DenomUnit.blind : Blind Known.denomUnit DenomUnit.dec := by
  intro m m' h
  unfold DenomUnit.dec
  rw [sel_scalar h (t := 1) rfl,
    sel_scalar h (t := 2) rfl,
    sel_scalar h (t := 3) rfl]

theorem Metadata.blind : Blind Known.metadata Metadata.dec := by
  intro m m' h
  unfold Metadata.dec
  rw [sel_scalar h (t := 1) rfl,
    dAll_same DenomUnit.blind h (t := 2) rfl,
    sel_scalar h (t := 3) rfl,
    sel_scalar h (t := 4) rfl,
    sel_scalar h (t := 5) rfl,
    sel_scalar h (t := 6) rfl,
    sel_scalar h (t := 7) rfl,
    sel_scalar h (t := 8) rfl]

theorem QueryDenomMetadataResponse.blind : Blind (.msg [(1, some Known.metadata)]) QueryDenomMetadataResponse.dec := by
  intro m m' h
  unfold QueryDenomMetadataResponse.dec
  rw [dOpt_same Metadata.blind h (t := 1) rfl]

theorem QueryDenomsMetadataResponse.blind : Blind (.msg [(1, some Known.metadata), (2, some Known.page)]) QueryDenomsMetadataResponse.dec := by
  intro m m' h
  unfold QueryDenomsMetadataResponse.dec
  rw [dAll_same Metadata.blind h (t := 1) rfl,
    dOpt_same PageResponse.blind h (t := 2) rfl]

theorem QuerySupplyOfResponse.blind : Blind (.msg [(1, some Known.coin)]) QuerySupplyOfResponse.dec := by
  intro m m' h
  unfold QuerySupplyOfResponse.dec
  rw [dOpt_same Coin.blind h (t := 1) rfl]

theorem AbsoluteTxPosition.blind : Blind (Known.plain [1, 2]) AbsoluteTxPosition.dec := by
  intro m m' h
  unfold AbsoluteTxPosition.dec
  rw [sel_scalar h (t := 1) rfl,
    sel_scalar h (t := 2) rfl]

theorem ContractInfo.blind : Blind Known.contractInfo ContractInfo.dec := by
  intro m m' h
  unfold ContractInfo.dec
  rw [sel_scalar h (t := 1) rfl,
    sel_scalar h (t := 2) rfl,
    sel_scalar h (t := 3) rfl,
    sel_scalar h (t := 4) rfl,
    dOpt_same AbsoluteTxPosition.blind h (t := 5) rfl,
    sel_scalar h (t := 6) rfl,
    dOpt_same Any.blind h (t := 7) rfl]

theorem QueryContractInfoResponse.blind : Blind (.msg [(1, none), (2, some Known.contractInfo)]) QueryContractInfoResponse.dec := by
  intro m m' h
  unfold QueryContractInfoResponse.dec
  rw [sel_scalar h (t := 1) rfl,
    dOpt_same ContractInfo.blind h (t := 2) rfl]

theorem QueryDataResponse.blind : Blind (Known.plain [1]) QueryDataResponse.dec := by
  intro m m' h
  unfold QueryDataResponse.dec
  rw [sel_scalar h (t := 1) rfl]

theorem CommissionRates.blind : Blind (Known.plain [1, 2, 3]) CommissionRates.dec := by
  intro m m' h
  unfold CommissionRates.dec
  rw [sel_scalar h (t := 1) rfl,
    sel_scalar h (t := 2) rfl,
    sel_scalar h (t := 3) rfl]

theorem Timestamp.blind : Blind Known.timestamp Timestamp.dec := by
  intro m m' h
  unfold Timestamp.dec
  rw [sel_scalar h (t := 1) rfl,
    sel_scalar h (t := 2) rfl]

theorem Commission.blind : Blind Known.commission Commission.dec := by
  intro m m' h
  unfold Commission.dec
  rw [dOpt_same CommissionRates.blind h (t := 1) rfl,
    dOpt_same Timestamp.blind h (t := 2) rfl]

theorem Description.blind : Blind (Known.plain [1, 2, 3, 4, 5]) Description.dec := by
  intro m m' h
  unfold Description.dec
  rw [sel_scalar h (t := 1) rfl,
    sel_scalar h (t := 2) rfl,
    sel_scalar h (t := 3) rfl,
    sel_scalar h (t := 4) rfl,
    sel_scalar h (t := 5) rfl]

theorem Validator.blind : Blind Known.validator Validator.dec := by
  intro m m' h
  unfold Validator.dec
  rw [sel_scalar h (t := 1) rfl,
    dOpt_same Any.blind h (t := 2) rfl,
    sel_scalar h (t := 3) rfl,
    sel_scalar h (t := 4) rfl,
    sel_scalar h (t := 5) rfl,
    sel_scalar h (t := 6) rfl,
    dOpt_same Description.blind h (t := 7) rfl,
    sel_scalar h (t := 8) rfl,
    dOpt_same Timestamp.blind h (t := 9) rfl,
    dOpt_same Commission.blind h (t := 10) rfl,
    sel_scalar h (t := 11) rfl,
    sel_scalar h (t := 12) rfl,
    sel_scalar h (t := 13) rfl]

theorem QueryValidatorResponse.blind : Blind (.msg [(1, some Known.validator)]) QueryValidatorResponse.dec := by
  intro m m' h
  unfold QueryValidatorResponse.dec
  rw [dOpt_same Validator.blind h (t := 1) rfl]

theorem QueryValidatorsResponse.blind : Blind (.msg [(1, some Known.validator), (2, some Known.page)]) QueryValidatorsResponse.dec := by
  intro m m' h
  unfold QueryValidatorsResponse.dec
  rw [dAll_same Validator.blind h (t := 1) rfl,
    dOpt_same PageResponse.blind h (t := 2) rfl]

theorem Delegation.blind : Blind (Known.plain [1, 2, 3]) Delegation.dec := by
  intro m m' h
  unfold Delegation.dec
  rw [sel_scalar h (t := 1) rfl,
    sel_scalar h (t := 2) rfl,
    sel_scalar h (t := 3) rfl]

theorem DelegationResponse.blind : Blind Known.delegation DelegationResponse.dec := by
  intro m m' h
  unfold DelegationResponse.dec
  rw [dOpt_same Delegation.blind h (t := 1) rfl,
    dOpt_same Coin.blind h (t := 2) rfl]

theorem QueryDelegationResponse.blind : Blind (.msg [(1, some Known.delegation)]) QueryDelegationResponse.dec := by
  intro m m' h
  unfold QueryDelegationResponse.dec
  rw [dOpt_same DelegationResponse.blind h (t := 1) rfl]

theorem QueryDelegatorDelegationsResponse.blind : Blind (.msg [(1, some Known.delegation), (2, some Known.page)]) QueryDelegatorDelegationsResponse.dec := by
  intro m m' h
  unfold QueryDelegatorDelegationsResponse.dec
  rw [dAll_same DelegationResponse.blind h (t := 1) rfl,
    dOpt_same PageResponse.blind h (t := 2) rfl]

theorem Params.blind : Blind Known.params Params.dec := by
  intro m m' h
  unfold Params.dec
  rw [dOpt_same Timestamp.blind h (t := 1) rfl,
    sel_scalar h (t := 2) rfl,
    sel_scalar h (t := 3) rfl,
    sel_scalar h (t := 4) rfl,
    sel_scalar h (t := 5) rfl,
    sel_scalar h (t := 6) rfl]

theorem QueryParamsResponse.blind : Blind (.msg [(1, some Known.params)]) QueryParamsResponse.dec := by
  intro m m' h
  unfold QueryParamsResponse.dec
  rw [dOpt_same Params.blind h (t := 1) rfl]

end P

/-- The decoder of every answer. -/
theorem response_same {h : HostQuery} {bs bs' : Bytes} (hs : BytesSaySame (Known.answer h) bs bs') :
    responseFromProtobuf h.path bs false = responseFromProtobuf h.path bs' false := by
  cases h with
  | balance =>
    have e : P.QueryBalanceResponse.ofBytes bs = P.QueryBalanceResponse.ofBytes bs' := bytes_same P.QueryBalanceResponse.blind hs
    refine (dispatch_balance _).trans (Eq.trans ?_ (dispatch_balance _).symm)
    simp only [bankResponse, if_true, e]
  | allBalances =>
    have e : P.QueryAllBalancesResponse.ofBytes bs = P.QueryAllBalancesResponse.ofBytes bs' := bytes_same P.QueryAllBalancesResponse.blind hs
    refine (dispatch_allBalances _).trans (Eq.trans ?_ (dispatch_allBalances _).symm)
    have n0 : (Path.allBalances = Path.balance) = False := eq_false (by decide +kernel)
    simp only [bankResponse, n0, if_false, if_true, e]
  | denomMetadata =>
    have e : P.QueryDenomMetadataResponse.ofBytes bs = P.QueryDenomMetadataResponse.ofBytes bs' := bytes_same P.QueryDenomMetadataResponse.blind hs
    refine (dispatch_denomMetadata _).trans (Eq.trans ?_ (dispatch_denomMetadata _).symm)
    have n0 : (Path.denomMetadata = Path.balance) = False := eq_false (by decide +kernel)
    have n1 : (Path.denomMetadata = Path.allBalances) = False := eq_false (by decide +kernel)
    simp only [bankResponse, n0, n1, if_false, if_true, e]
  | denomsMetadata =>
    have e : P.QueryDenomsMetadataResponse.ofBytes bs = P.QueryDenomsMetadataResponse.ofBytes bs' := bytes_same P.QueryDenomsMetadataResponse.blind hs
    refine (dispatch_allDenomMetadata _).trans (Eq.trans ?_ (dispatch_allDenomMetadata _).symm)
    have n0 : (Path.allDenomMetadata = Path.balance) = False := eq_false (by decide +kernel)
    have n1 : (Path.allDenomMetadata = Path.allBalances) = False := eq_false (by decide +kernel)
    have n2 : (Path.allDenomMetadata = Path.denomMetadata) = False := eq_false (by decide +kernel)
    simp only [bankResponse, n0, n1, n2, if_false, if_true, e]
  | supplyOf =>
    have e : P.QuerySupplyOfResponse.ofBytes bs = P.QuerySupplyOfResponse.ofBytes bs' := bytes_same P.QuerySupplyOfResponse.blind hs
    refine (dispatch_supply _).trans (Eq.trans ?_ (dispatch_supply _).symm)
    have n0 : (Path.supply = Path.balance) = False := eq_false (by decide +kernel)
    have n1 : (Path.supply = Path.allBalances) = False := eq_false (by decide +kernel)
    have n2 : (Path.supply = Path.denomMetadata) = False := eq_false (by decide +kernel)
    have n3 : (Path.supply = Path.allDenomMetadata) = False := eq_false (by decide +kernel)
    simp only [bankResponse, n0, n1, n2, n3, if_false, if_true, e]
  | rawState =>
    have e : P.QueryDataResponse.ofBytes bs = P.QueryDataResponse.ofBytes bs' := bytes_same P.QueryDataResponse.blind hs
    refine (dispatch_raw _).trans (Eq.trans ?_ (dispatch_raw _).symm)
    have n0 : (Path.raw = Path.contractInfo) = False := eq_false (by decide +kernel)
    simp only [wasmResponse, n0, if_false, if_true, e]
  | smartState =>
    have e : P.QueryDataResponse.ofBytes bs = P.QueryDataResponse.ofBytes bs' := bytes_same P.QueryDataResponse.blind hs
    refine (dispatch_smart _).trans (Eq.trans ?_ (dispatch_smart _).symm)
    have n0 : (Path.smart = Path.contractInfo) = False := eq_false (by decide +kernel)
    have n1 : (Path.smart = Path.raw) = False := eq_false (by decide +kernel)
    simp only [wasmResponse, n0, n1, if_false, if_true, e]
  | contractInfo =>
    have e : P.QueryContractInfoResponse.ofBytes bs = P.QueryContractInfoResponse.ofBytes bs' := bytes_same P.QueryContractInfoResponse.blind hs
    refine (dispatch_contractInfo _).trans (Eq.trans ?_ (dispatch_contractInfo _).symm)
    simp only [wasmResponse, if_true, e]
  | validator =>
    have e : P.QueryValidatorResponse.ofBytes bs = P.QueryValidatorResponse.ofBytes bs' := bytes_same P.QueryValidatorResponse.blind hs
    refine (dispatch_validator _).trans (Eq.trans ?_ (dispatch_validator _).symm)
    simp only [stakingResponse, if_true, e]
  | validators =>
    have e : P.QueryValidatorsResponse.ofBytes bs = P.QueryValidatorsResponse.ofBytes bs' := bytes_same P.QueryValidatorsResponse.blind hs
    refine (dispatch_allValidators _).trans (Eq.trans ?_ (dispatch_allValidators _).symm)
    have n0 : (Path.allValidators = Path.validator) = False := eq_false (by decide +kernel)
    simp only [stakingResponse, n0, if_false, if_true, e]
  | delegation =>
    have e : P.QueryDelegationResponse.ofBytes bs = P.QueryDelegationResponse.ofBytes bs' := bytes_same P.QueryDelegationResponse.blind hs
    refine (dispatch_delegation _).trans (Eq.trans ?_ (dispatch_delegation _).symm)
    have n0 : (Path.delegation = Path.validator) = False := eq_false (by decide +kernel)
    have n1 : (Path.delegation = Path.allValidators) = False := eq_false (by decide +kernel)
    simp only [stakingResponse, n0, n1, if_false, if_true, e]
  | delegatorDelegations =>
    have e : P.QueryDelegatorDelegationsResponse.ofBytes bs = P.QueryDelegatorDelegationsResponse.ofBytes bs' := bytes_same P.QueryDelegatorDelegationsResponse.blind hs
    refine (dispatch_allDelegations _).trans (Eq.trans ?_ (dispatch_allDelegations _).symm)
    have n0 : (Path.allDelegations = Path.validator) = False := eq_false (by decide +kernel)
    have n1 : (Path.allDelegations = Path.allValidators) = False := eq_false (by decide +kernel)
    have n2 : (Path.allDelegations = Path.delegation) = False := eq_false (by decide +kernel)
    simp only [stakingResponse, n0, n1, n2, if_false, if_true, e]
  | stakingParams =>
    have e : P.QueryParamsResponse.ofBytes bs = P.QueryParamsResponse.ofBytes bs' := bytes_same P.QueryParamsResponse.blind hs
    refine (dispatch_stakingParams _).trans (Eq.trans ?_ (dispatch_stakingParams _).symm)
    have n0 : (Path.stakingParams = Path.validator) = False := eq_false (by decide +kernel)
    have n1 : (Path.stakingParams = Path.allValidators) = False := eq_false (by decide +kernel)
    have n2 : (Path.stakingParams = Path.delegation) = False := eq_false (by decide +kernel)
    have n3 : (Path.stakingParams = Path.allDelegations) = False := eq_false (by decide +kernel)
    simp only [stakingResponse, n0, n1, n2, n3, if_false, if_true, e]

/-! ## The envelope -/

/-- Both nothing, or related. -/
def OptRel {α : Type} (R : α → α → Prop) (o o' : Option α) : Prop :=
  (o = none ∧ o' = none) ∨ ∃ x x', o = some x ∧ o' = some x' ∧ R x x'

theorem readAll_same {α β : Type} {S : α → α → Prop} {R : β → β → Prop} {d : α → Option β}
    (hd : ∀ m m', S m m' → OptRel R (d m) (d m')) {l l' : List α} (h : List.Forall₂ S l l') :
    OptRel (List.Forall₂ R) (readAll d l) (readAll d l') := by
  induction h with
  | nil => exact .inr ⟨[], [], rfl, rfl, .nil⟩
  | cons a _ ih =>
    rcases hd _ _ a with ⟨e1, e2⟩ | ⟨x, x', e1, e2, e3⟩
    · left; simp [readAll, e1, e2]
    · rcases ih with ⟨f1, f2⟩ | ⟨y, y', f1, f2, f3⟩
      · left; simp [readAll, e1, e2, f1, f2]
      · right; exact ⟨x :: y, x' :: y', by simp [readAll, e1, f1], by simp [readAll, e2, f2], .cons e3 f3⟩

/-- Values that are equal, or messages that say the same. -/
def SameBytes (k : Known) (b b' : Bytes) : Prop :=
  b = b' ∨ ∃ m m', parseWire b = some m ∧ parseWire b' = some m' ∧ SaysSame k m m'

theorem dBytess_same {k : Known} {vs vs' : List WVal} (h : List.Forall₂ (SameVal (some k)) vs vs') :
    OptRel (List.Forall₂ (SameBytes k)) (dBytess vs) (dBytess vs') := by
  induction h with
  | nil => exact .inr ⟨[], [], rfl, rfl, .nil⟩
  | @cons v v' vs vs' a _ ih =>
    rcases a with rfl | ⟨k', m, m', bs, bs', h1, rfl, rfl, h2, h3, h4⟩
    · cases v with
      | len b =>
        rcases ih with ⟨f1, f2⟩ | ⟨y, y', f1, f2, f3⟩
        · left; simp [dBytess, f1, f2]
        · right; exact ⟨b :: y, b :: y', by simp [dBytess, f1], by simp [dBytess, f2], .cons (.inl rfl) f3⟩
      | _ => left; simp [dBytess]
    · cases h1
      rcases ih with ⟨f1, f2⟩ | ⟨y, y', f1, f2, f3⟩
      · left; simp [dBytess, f1, f2]
      · right
        exact ⟨bs :: y, bs' :: y', by simp [dBytess, f1], by simp [dBytess, f2], .cons (.inr ⟨m, m', h2, h3, h4⟩) f3⟩

theorem getLastD_same {α : Type} {R : α → α → Prop} {l l' : List α} (h : List.Forall₂ R l l') :
    ∀ {d d' : α}, R d d' → R (l.getLastD d) (l'.getLastD d') := by
  induction h with
  | nil => intro d d' hd; exact hd
  | cons a _ ih => intro d d' _; rw [List.getLastD_cons, List.getLastD_cons]; exact ih a

theorem getLast?_same {α : Type} {R : α → α → Prop} {l l' : List α} (h : List.Forall₂ R l l') :
    OptRel R l.getLast? l'.getLast? := by
  cases h with
  | nil => exact .inl ⟨rfl, rfl⟩
  | cons a t =>
    refine .inr ⟨_, _, List.getLast?_cons .., List.getLast?_cons .., ?_⟩
    rw [← List.getLastD_eq_getLast?, ← List.getLastD_eq_getLast?]
    exact getLastD_same t a

theorem readQueryAnswer_same {res res' : Bytes} (h : BytesSaySame Known.txResult res res') :
    readQueryAnswer res = readQueryAnswer res' := by
  rcases h with rfl | ⟨m, m', h1, h2, h3⟩
  · rfl
  unfold readQueryAnswer
  rw [parse_of_isMessage h1, parse_of_isMessage h2]
  simp only [Option.bind_eq_bind, Option.bind_some]
  have hdata : (dMsgs (sel 1 m)).bind (readAll readMsgData) = (dMsgs (sel 1 m')).bind (readAll readMsgData) := by
    rcases dMsgs_same (sel_same h3 (t := 1) rfl) with ⟨e1, e2⟩ | ⟨l, l', e1, e2, e3⟩
    · rw [e1, e2]
    · rw [e1, e2]
      have := readAll_same (R := Eq) (d := readMsgData) (fun a a' ha => by
        have : readMsgData a = readMsgData a' := by
          unfold readMsgData
          rw [sel_scalar ha (t := 1) rfl, sel_scalar ha (t := 2) rfl]
        rw [this]
        cases readMsgData a' with
        | none => exact .inl ⟨rfl, rfl⟩
        | some x => exact .inr ⟨x, x, rfl, rfl, rfl⟩) e3
      rcases this with ⟨f1, f2⟩ | ⟨x, x', f1, f2, f3⟩
      · simp [f1, f2]
      · rw [List.forall₂_eq_eq_eq] at f3
        subst f3
        simp [f1, f2]
  rw [hdata]
  congr 1
  funext _
  have hany : OptRel (List.Forall₂ fun a a' : String × Bytes => SameBytes (Known.plain [1, 2]) a.2 a'.2)
      ((dMsgs (sel 2 m)).bind (readAll readAny)) ((dMsgs (sel 2 m')).bind (readAll readAny)) := by
    rcases dMsgs_same (sel_same h3 (t := 2) rfl) with ⟨e1, e2⟩ | ⟨l, l', e1, e2, e3⟩
    · rw [e1, e2]; exact .inl ⟨rfl, rfl⟩
    · rw [e1, e2]
      refine readAll_same (fun a a' ha => ?_) e3
      unfold readAny
      rw [sel_scalar ha (t := 1) rfl]
      cases dStr (sel 1 a') with
      | none => exact .inl ⟨rfl, rfl⟩
      | some u =>
        rcases dBytess_same (sel_same ha (t := 2) rfl) with ⟨f1, f2⟩ | ⟨y, y', f1, f2, f3⟩
        · left; simp [dBytes, f1, f2]
        · right
          refine ⟨(u, y.getLastD []), (u, y'.getLastD []), by simp [dBytes, f1], by simp [dBytes, f2], ?_⟩
          exact getLastD_same f3 (.inl rfl)
  rcases hany with ⟨e1, e2⟩ | ⟨l, l', e1, e2, e3⟩
  · rw [e1, e2]
  · rw [e1, e2]
    simp only [Option.bind_some]
    rcases getLast?_same e3 with ⟨f1, f2⟩ | ⟨x, x', f1, f2, f3⟩
    · rw [f1, f2]
    · rw [f1, f2]
      simp only [Option.bind_some]
      rcases f3 with e | ⟨a, a', g1, g2, g3⟩
      · rw [e]
      · rw [g1, g2]
        simp only [Option.bind_some]
        rw [sel_scalar g3 (t := 1) rfl, sel_scalar g3 (t := 2) rfl]

end Ica
