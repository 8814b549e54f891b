import Verif.Spec.Reading
import Verif.Facts.FormatWire
import Verif.Facts.Answer
import Verif.Facts.ApiBase

/-! # The contract's decoders on every byte string (helper lemmas) -/
namespace Ica.Reads
open Spec Ica

theorem dStrs_isSome (vs : List WVal) : (dStrs vs).isSome ↔ ∀ v ∈ vs, ∃ s, v = .len (utf8 s) := by
  induction vs with
  | nil => simp [dStrs]
  | cons v vs ih =>
    cases v with
    | len b =>
      simp only [dStrs, List.forall_mem_cons]
      cases hb : ofUtf8 b with
      | none =>
        simp only [bind, Option.bind_none, Option.isSome_none, Bool.false_eq_true, false_iff]
        rintro ⟨⟨s, hs⟩, -⟩
        cases hs
        rw [ofUtf8_utf8] at hb
        cases hb
      | some s =>
        have := utf8_of_ofUtf8 hb
        cases hd : dStrs vs with
        | none =>
          rw [hd] at ih
          simp only [bind, Option.bind_some, Option.bind_none]
          constructor
          · intro h; cases h
          · rintro ⟨-, h⟩; exact absurd (ih.2 h) (by simp)
        | some l =>
          rw [hd] at ih
          simp only [bind, Option.bind_some, Option.isSome_some, true_iff]
          exact ⟨⟨s, by rw [this]⟩, ih.1 rfl⟩
    | _ =>
      simp only [dStrs, Option.isSome_none, Bool.false_eq_true, false_iff, List.forall_mem_cons]
      rintro ⟨⟨s, hs⟩, -⟩
      cases hs

theorem dBytess_isSome (vs : List WVal) : (dBytess vs).isSome ↔ ∀ v ∈ vs, ∃ b, v = .len b := by
  induction vs with
  | nil => simp [dBytess]
  | cons v vs ih => cases v <;> simp [dBytess, ih]

theorem dVars_isSome (vs : List WVal) : (dVars vs).isSome ↔ ∀ v ∈ vs, ∃ n, v = .varint n := by
  induction vs with
  | nil => simp [dVars]
  | cons v vs ih => cases v <;> simp [dVars, ih]

theorem dMsgs_iff {vs : List WVal} {l : List Fields} : dMsgs vs = some l ↔ Messages vs l := by
  unfold Messages
  induction vs generalizing l with
  | nil => cases l <;> simp [dMsgs]
  | cons v vs ih =>
    cases v with
    | len b =>
      simp only [dMsgs, bind]
      cases l with
      | nil => cases parseWire b <;> cases dMsgs vs <;> simp
      | cons x l =>
        simp only [List.forall₂_cons, WVal.len.injEq, ← ih, Option.bind_eq_some_iff, Option.some.injEq]
        constructor
        · rintro ⟨a, h1, r, h2, h3⟩
          injection h3 with h3 h4
          subst h3 h4
          exact ⟨⟨b, rfl, h1⟩, h2⟩
        · rintro ⟨⟨b', rfl, h1⟩, h2⟩
          exact ⟨x, h1, l, h2, rfl⟩
    | _ => cases l <;> simp [dMsgs]

theorem getLastD_map {α β : Type} (f : α → β) (l : List α) (d : α) : (l.map f).getLastD (f d) = f (l.getLastD d) := by
  rw [List.getLastD_eq_getLast?, List.getLast?_map, List.getLastD_eq_getLast?]
  cases l.getLast? <;> rfl

theorem dStrs_iff {vs : List WVal} {l : List String} : dStrs vs = some l ↔ vs = l.map fun s => .len (utf8 s) := by
  induction vs generalizing l with
  | nil => cases l <;> simp [dStrs]
  | cons v vs ih =>
    cases v with
    | len b =>
      simp only [dStrs, bind]
      cases l with
      | nil => cases ofUtf8 b <;> cases dStrs vs <;> simp
      | cons x l =>
        simp only [List.map_cons, List.cons.injEq, WVal.len.injEq, ← ih, Option.bind_eq_some_iff, Option.some.injEq]
        constructor
        · rintro ⟨a, h1, r, h2, rfl, rfl⟩
          exact ⟨(utf8_of_ofUtf8 h1).symm, h2⟩
        · rintro ⟨rfl, h2⟩
          exact ⟨x, ofUtf8_utf8 x, l, h2, rfl, rfl⟩
    | _ => cases l <;> simp [dStrs]

theorem dBytess_iff {vs : List WVal} {l : List Bytes} : dBytess vs = some l ↔ vs = l.map .len := by
  induction vs generalizing l with
  | nil => cases l <;> simp [dBytess]
  | cons v vs ih =>
    cases v with
    | len b =>
      cases l with
      | nil => simp [dBytess]
      | cons x l =>
        simp only [dBytess, Option.map_eq_some_iff, List.map_cons, List.cons.injEq, WVal.len.injEq, ih]
        constructor
        · rintro ⟨a, h, rfl, rfl⟩; exact ⟨rfl, h⟩
        · rintro ⟨rfl, h⟩; exact ⟨l, h, rfl, rfl⟩
    | _ => cases l <;> simp [dBytess]

theorem dVars_iff {vs : List WVal} {l : List UInt64} : dVars vs = some l ↔ vs = l.map .varint := by
  induction vs generalizing l with
  | nil => cases l <;> simp [dVars]
  | cons v vs ih =>
    cases v with
    | varint b =>
      cases l with
      | nil => simp [dVars]
      | cons x l =>
        simp only [dVars, Option.map_eq_some_iff, List.map_cons, List.cons.injEq, WVal.varint.injEq, ih]
        constructor
        · rintro ⟨a, h, rfl, rfl⟩; exact ⟨rfl, h⟩
        · rintro ⟨rfl, h⟩; exact ⟨l, h, rfl, rfl⟩
    | _ => cases l <;> simp [dVars]

theorem hasText_iff {m : Fields} {t : Nat} {s : String} : HasText m t s ↔ dStr (sel t m) = some s := by
  unfold dStr
  simp only [HasText, Scalar.Fits]
  rw [← dStrs_isSome, Option.isSome_iff_exists, Option.map_eq_some_iff]
  constructor
  · rintro ⟨⟨l, h⟩, h2⟩
    refine ⟨l, h, ?_⟩
    rw [dStrs_iff.1 h, getLastD_map (fun s => WVal.len (utf8 s))] at h2
    injection h2 with h2
    have := congrArg ofUtf8 h2
    rw [ofUtf8_utf8, ofUtf8_utf8] at this
    injection this
  · rintro ⟨l, h, rfl⟩
    refine ⟨⟨l, h⟩, ?_⟩
    rw [dStrs_iff.1 h, getLastD_map (fun s => WVal.len (utf8 s))]

theorem hasBytes_iff {m : Fields} {t : Nat} {b : Bytes} : HasBytes m t b ↔ dBytes (sel t m) = some b := by
  unfold dBytes
  simp only [HasBytes, Scalar.Fits]
  rw [← dBytess_isSome, Option.isSome_iff_exists, Option.map_eq_some_iff]
  constructor
  · rintro ⟨⟨l, h⟩, h2⟩
    refine ⟨l, h, ?_⟩
    rw [dBytess_iff.1 h, getLastD_map WVal.len] at h2
    injection h2 with h2
  · rintro ⟨l, h, rfl⟩
    refine ⟨⟨l, h⟩, ?_⟩
    rw [dBytess_iff.1 h, getLastD_map WVal.len]

theorem hasNumber_iff {m : Fields} {t : Nat} {b : UInt64} : HasNumber m t b ↔ dU64 (sel t m) = some b := by
  unfold dU64
  simp only [HasNumber, Scalar.Fits]
  rw [← dVars_isSome, Option.isSome_iff_exists, Option.map_eq_some_iff]
  constructor
  · rintro ⟨⟨l, h⟩, h2⟩
    refine ⟨l, h, ?_⟩
    rw [dVars_iff.1 h, getLastD_map WVal.varint] at h2
    injection h2 with h2
  · rintro ⟨l, h, rfl⟩
    refine ⟨⟨l, h⟩, ?_⟩
    rw [dVars_iff.1 h, getLastD_map WVal.varint]

theorem hasTexts_iff {m : Fields} {t : Nat} {l : List String} : HasTexts m t l ↔ dStrs (sel t m) = some l := dStrs_iff.symm

theorem varsAux_isSome {f : Nat} {b : Bytes} (hf : b.length ≤ f) :
    (varsAux f b).isSome ↔ ∃ ps : List Bytes, b = ps.flatten ∧ ∀ q ∈ ps, ∃ n, Format.IsVarint n q := by
  induction f generalizing b with
  | zero =>
    have : b = [] := List.length_eq_zero_iff.1 (by omega)
    subst this
    simp only [varsAux, Option.isSome_some, true_iff]
    exact ⟨[], rfl, by simp⟩
  | succ f ih =>
    cases b with
    | nil =>
      simp only [varsAux, Option.isSome_some, true_iff]
      exact ⟨[], rfl, by simp⟩
    | cons x b =>
      simp only [varsAux]
      constructor
      · intro h
        cases hd : varDec64 (x :: b) with
        | none => rw [hd] at h; simp at h
        | some q =>
          obtain ⟨n, r⟩ := q
          rw [hd] at h
          simp only [Option.isSome_map] at h
          obtain ⟨q, e, hq⟩ := varDec64_iff.1 hd
          have hne := List.length_pos_iff.2 (isVarint_ne_nil hq)
          have hlen := congrArg List.length e
          rw [List.length_append] at hlen
          obtain ⟨ps, e2, hp⟩ := (ih (b := r) (by omega)).1 h
          refine ⟨q :: ps, by rw [List.flatten_cons, ← e2, e], ?_⟩
          intro y hy
          rcases List.mem_cons.1 hy with rfl | hy
          · exact ⟨_, hq⟩
          · exact hp y hy
      · rintro ⟨ps, e, hp⟩
        cases ps with
        | nil => cases e
        | cons q ps =>
          obtain ⟨n, hn⟩ := hp q (List.mem_cons_self ..)
          have hn64 : n < 2 ^ 64 := by obtain ⟨_, _, _, _, _, _, _, h⟩ := hn; exact h
          have hne := List.length_pos_iff.2 (isVarint_ne_nil hn)
          rw [List.flatten_cons] at e
          have hd : varDec64 (x :: b) = some (UInt64.ofNat n, ps.flatten) := by
            refine varDec64_iff.2 ⟨q, e, ?_⟩
            rw [UInt64.toNat_ofNat_of_lt' (by simpa using hn64)]
            exact hn
          have hlen := congrArg List.length e
          rw [List.length_append] at hlen
          rw [hd]
          simp only [Option.isSome_map]
          exact (ih (b := ps.flatten) (by omega)).2 ⟨ps, rfl, fun y hy => hp y (List.mem_cons_of_mem _ hy)⟩

theorem dPacked_isSome (vs : List WVal) : (dPacked vs).isSome ↔ Scalar.numbers.Fits vs := by
  simp only [Scalar.Fits]
  induction vs with
  | nil => simp [dPacked]
  | cons v vs ih =>
    rw [List.forall_mem_cons, ← ih]
    cases v with
    | len b =>
      simp only [dPacked, bind, reduceCtorEq, exists_false, false_or, WVal.len.injEq, ← varsAux_isSome (Nat.le_refl b.length)]
      cases varsAux b.length b <;> cases dPacked vs <;> simp
    | varint n => simp [dPacked]
    | _ => simp [dPacked]

theorem dMsgs_nil_iff {vs : List WVal} {l : List Fields} (h : dMsgs vs = some l) : l = [] ↔ vs = [] := by
  cases vs with
  | nil => simp only [dMsgs] at h; injection h with h; simp [h]
  | cons v vs =>
    cases v with
    | len b =>
      simp only [dMsgs, bind] at h
      cases hb : parseWire b with
      | none => rw [hb] at h; cases h
      | some x =>
        cases hr : dMsgs vs with
        | none => rw [hb, hr] at h; cases h
        | some r => rw [hb, hr] at h; injection h with h; simp [← h]
    | _ => cases h

theorem fits_nil (k : Layout) : k.Fits [] := by
  induction k with
  | done => trivial
  | field t k more ih =>
    refine ⟨?_, ih⟩
    cases k <;> simp [Scalar.Fits, sel]
  | one t inner more ih1 ih2 => exact ⟨⟨[], .nil, ih1⟩, ih2⟩
  | many t inner more _ ih2 => exact ⟨⟨[], .nil, by simp⟩, ih2⟩

theorem dOpt_isSome {α : Type} {d : Fields → Option α} {k : Layout} (h : ∀ m, (d m).isSome ↔ k.Fits m) (vs : List WVal) :
    (dOpt d vs).isSome ↔ ∃ l, Messages vs l ∧ k.Fits l.flatten := by
  simp only [← dMsgs_iff]
  unfold dOpt dMsg
  cases hd : dMsgs vs with
  | none => simp
  | some l =>
    by_cases hl : l = []
    · subst hl; simp [fits_nil]
    · simp [hl, h]

theorem decAll_isSome {α : Type} {d : Fields → Option α} {k : Layout} (h : ∀ m, (d m).isSome ↔ k.Fits m) (l : List Fields) :
    (decAll d l).isSome ↔ ∀ x ∈ l, k.Fits x := by
  induction l with
  | nil => simp [decAll]
  | cons x l ih =>
    simp only [decAll, List.forall_mem_cons, ← h x, ← ih]
    cases d x <;> cases decAll d l <;> simp

theorem dAll_isSome {α : Type} {d : Fields → Option α} {k : Layout} (h : ∀ m, (d m).isSome ↔ k.Fits m) (vs : List WVal) :
    (dAll d vs).isSome ↔ ∃ l, Messages vs l ∧ ∀ x ∈ l, k.Fits x := by
  simp only [← dMsgs_iff]
  unfold dAll
  cases dMsgs vs with
  | none => simp
  | some l => simp [decAll_isSome h]

theorem dOpt_iff {α : Type} {d : Fields → Option α} {m : Fields} {t : Nat} {o : Option α} :
    dOpt d (sel t m) = some o ↔ (Missing m t ∧ o = none) ∨ ∃ x y, HasMessage m t x ∧ d x = some y ∧ o = some y := by
  unfold dOpt dMsg Missing HasMessage
  simp only [← dMsgs_iff]
  cases hd : dMsgs (sel t m) with
  | none =>
    have : sel t m ≠ [] := by intro e; rw [e] at hd; cases hd
    simp [this]
  | some l =>
    have := dMsgs_nil_iff hd
    by_cases hl : l = []
    · have hs := this.1 hl
      simp [hl, hs, eq_comm]
    · have hs : sel t m ≠ [] := fun e => hl (this.2 e)
      simp only [Option.map_some, hl, if_false, hs, false_and, false_or, not_false_eq_true, ne_eq, true_and,
        Option.some.injEq]
      cases hx : d l.flatten with
      | none =>
        simp only [Option.map_none, reduceCtorEq, false_iff]
        rintro ⟨x, y, ⟨l', rfl, rfl⟩, h2, -⟩
        rw [hx] at h2; cases h2
      | some y =>
        simp only [Option.map_some, Option.some.injEq]
        constructor
        · rintro rfl; exact ⟨_, y, ⟨l, rfl, rfl⟩, hx, rfl⟩
        · rintro ⟨x, y', ⟨l', rfl, rfl⟩, h2, rfl⟩
          rw [hx] at h2; exact h2

theorem decAll_iff {α : Type} {d : Fields → Option α} {l : List Fields} {ys : List α} :
    decAll d l = some ys ↔ List.Forall₂ (fun x y => d x = some y) l ys := by
  induction l generalizing ys with
  | nil => simp [decAll, eq_comm]
  | cons x l ih =>
    simp only [decAll]
    cases hx : d x with
    | none =>
      simp only [reduceCtorEq, false_iff]
      intro h; cases h with | cons a _ => rw [hx] at a; cases a
    | some y =>
      cases hl : decAll d l with
      | none =>
        simp only [reduceCtorEq, false_iff]
        intro h; cases h with | cons a b => rw [ih.2 b] at hl; cases hl
      | some r =>
        simp only [Option.some.injEq]
        constructor
        · rintro rfl; exact .cons hx (ih.1 hl)
        · intro h
          cases h with
          | cons a b =>
            rw [hx] at a; cases a
            rw [ih.2 b] at hl; cases hl; rfl

theorem dAll_iff {α : Type} {d : Fields → Option α} {m : Fields} {t : Nat} {ys : List α} :
    dAll d (sel t m) = some ys ↔ ∃ l, HasMessages m t l ∧ List.Forall₂ (fun x y => d x = some y) l ys := by
  unfold dAll HasMessages
  simp only [← dMsgs_iff]
  cases dMsgs (sel t m) with
  | none => simp
  | some l => simp [decAll_iff]

/-! ## Which messages the decoders take -/

theorem fits_text {vs : List WVal} : (dStr vs).isSome ↔ Scalar.text.Fits vs := by
  simp only [dStr, Option.isSome_map]; exact dStrs_isSome vs
theorem fits_texts {vs : List WVal} : (dStrs vs).isSome ↔ Scalar.texts.Fits vs := dStrs_isSome vs
theorem fits_bytes {vs : List WVal} : (dBytes vs).isSome ↔ Scalar.bytes.Fits vs := by
  simp only [dBytes, Option.isSome_map]; exact dBytess_isSome vs
theorem fits_number {vs : List WVal} : (dU64 vs).isSome ↔ Scalar.number.Fits vs := by
  simp only [dU64, Option.isSome_map]; exact dVars_isSome vs
theorem fits_number32 {vs : List WVal} : (dU32 vs).isSome ↔ Scalar.number.Fits vs := by
  simp only [dU32, Option.isSome_map]; exact dVars_isSome vs
theorem fits_flag {vs : List WVal} : (dBool vs).isSome ↔ Scalar.number.Fits vs := by
  simp only [dBool, Option.isSome_map]; exact dVars_isSome vs
theorem fits_numbers {vs : List WVal} : (dPacked vs).isSome ↔ Scalar.numbers.Fits vs := dPacked_isSome vs

theorem Any_fits (m : Fields) : (P.Any.dec m).isSome ↔ Layout.any.Fits m := by
  have h : (P.Any.dec m).isSome ↔ (dStr (sel 1 m)).isSome ∧ (dBytes (sel 2 m)).isSome := by
    unfold P.Any.dec
    cases dStr (sel 1 m)
    · simp
    cases dBytes (sel 2 m)
    · simp
    simp
  rw [h]
  constructor
  · rintro ⟨a0, a1⟩
    exact ⟨(fits_text).1 a0, (fits_bytes).1 a1, trivial⟩
  · rintro ⟨a0, a1, -⟩
    exact ⟨(fits_text).2 a0, (fits_bytes).2 a1⟩

theorem Any_iff {m : Fields} {y : P.Any} : P.Any.dec m = some y ↔
    dStr (sel 1 m) = some y.typeUrl ∧ dBytes (sel 2 m) = some y.value := by
  obtain ⟨y0, y1⟩ := y
  unfold P.Any.dec
  cases dStr (sel 1 m)
  · simp
  cases dBytes (sel 2 m)
  · simp
  simp

theorem Timestamp_fits (m : Fields) : (P.Timestamp.dec m).isSome ↔ Layout.pair.Fits m := by
  have h : (P.Timestamp.dec m).isSome ↔ (dU64 (sel 1 m)).isSome ∧ (dU64 (sel 2 m)).isSome := by
    unfold P.Timestamp.dec
    cases dU64 (sel 1 m)
    · simp
    cases dU64 (sel 2 m)
    · simp
    simp
  rw [h]
  constructor
  · rintro ⟨a0, a1⟩
    exact ⟨(fits_number).1 a0, (fits_number).1 a1, trivial⟩
  · rintro ⟨a0, a1, -⟩
    exact ⟨(fits_number).2 a0, (fits_number).2 a1⟩

theorem Timestamp_iff {m : Fields} {y : P.Timestamp} : P.Timestamp.dec m = some y ↔
    dU64 (sel 1 m) = some y.seconds ∧ dU64 (sel 2 m) = some y.nanos := by
  obtain ⟨y0, y1⟩ := y
  unfold P.Timestamp.dec
  cases dU64 (sel 1 m)
  · simp
  cases dU64 (sel 2 m)
  · simp
  simp

theorem AbsoluteTxPosition_fits (m : Fields) : (P.AbsoluteTxPosition.dec m).isSome ↔ Layout.pair.Fits m := by
  have h : (P.AbsoluteTxPosition.dec m).isSome ↔ (dU64 (sel 1 m)).isSome ∧ (dU64 (sel 2 m)).isSome := by
    unfold P.AbsoluteTxPosition.dec
    cases dU64 (sel 1 m)
    · simp
    cases dU64 (sel 2 m)
    · simp
    simp
  rw [h]
  constructor
  · rintro ⟨a0, a1⟩
    exact ⟨(fits_number).1 a0, (fits_number).1 a1, trivial⟩
  · rintro ⟨a0, a1, -⟩
    exact ⟨(fits_number).2 a0, (fits_number).2 a1⟩

theorem AbsoluteTxPosition_iff {m : Fields} {y : P.AbsoluteTxPosition} : P.AbsoluteTxPosition.dec m = some y ↔
    dU64 (sel 1 m) = some y.blockHeight ∧ dU64 (sel 2 m) = some y.txIndex := by
  obtain ⟨y0, y1⟩ := y
  unfold P.AbsoluteTxPosition.dec
  cases dU64 (sel 1 m)
  · simp
  cases dU64 (sel 2 m)
  · simp
  simp

theorem Coin_fits (m : Fields) : (P.Coin.dec m).isSome ↔ Layout.coin.Fits m := by
  have h : (P.Coin.dec m).isSome ↔ (dStr (sel 1 m)).isSome ∧ (dStr (sel 2 m)).isSome := by
    unfold P.Coin.dec
    cases dStr (sel 1 m)
    · simp
    cases dStr (sel 2 m)
    · simp
    simp
  rw [h]
  constructor
  · rintro ⟨a0, a1⟩
    exact ⟨(fits_text).1 a0, (fits_text).1 a1, trivial⟩
  · rintro ⟨a0, a1, -⟩
    exact ⟨(fits_text).2 a0, (fits_text).2 a1⟩

theorem Coin_iff {m : Fields} {y : P.Coin} : P.Coin.dec m = some y ↔
    dStr (sel 1 m) = some y.denom ∧ dStr (sel 2 m) = some y.amount := by
  obtain ⟨y0, y1⟩ := y
  unfold P.Coin.dec
  cases dStr (sel 1 m)
  · simp
  cases dStr (sel 2 m)
  · simp
  simp

theorem PageResponse_fits (m : Fields) : (P.PageResponse.dec m).isSome ↔ Layout.page.Fits m := by
  have h : (P.PageResponse.dec m).isSome ↔ (dBytes (sel 1 m)).isSome ∧ (dU64 (sel 2 m)).isSome := by
    unfold P.PageResponse.dec
    cases dBytes (sel 1 m)
    · simp
    cases dU64 (sel 2 m)
    · simp
    simp
  rw [h]
  constructor
  · rintro ⟨a0, a1⟩
    exact ⟨(fits_bytes).1 a0, (fits_number).1 a1, trivial⟩
  · rintro ⟨a0, a1, -⟩
    exact ⟨(fits_bytes).2 a0, (fits_number).2 a1⟩

theorem PageResponse_iff {m : Fields} {y : P.PageResponse} : P.PageResponse.dec m = some y ↔
    dBytes (sel 1 m) = some y.nextKey ∧ dU64 (sel 2 m) = some y.total := by
  obtain ⟨y0, y1⟩ := y
  unfold P.PageResponse.dec
  cases dBytes (sel 1 m)
  · simp
  cases dU64 (sel 2 m)
  · simp
  simp

theorem DenomUnit_fits (m : Fields) : (P.DenomUnit.dec m).isSome ↔ Layout.denomUnit.Fits m := by
  have h : (P.DenomUnit.dec m).isSome ↔ (dStr (sel 1 m)).isSome ∧ (dU32 (sel 2 m)).isSome ∧ (dStrs (sel 3 m)).isSome := by
    unfold P.DenomUnit.dec
    cases dStr (sel 1 m)
    · simp
    cases dU32 (sel 2 m)
    · simp
    cases dStrs (sel 3 m)
    · simp
    simp
  rw [h]
  constructor
  · rintro ⟨a0, a1, a2⟩
    exact ⟨(fits_text).1 a0, (fits_number32).1 a1, (fits_texts).1 a2, trivial⟩
  · rintro ⟨a0, a1, a2, -⟩
    exact ⟨(fits_text).2 a0, (fits_number32).2 a1, (fits_texts).2 a2⟩

theorem DenomUnit_iff {m : Fields} {y : P.DenomUnit} : P.DenomUnit.dec m = some y ↔
    dStr (sel 1 m) = some y.denom ∧ dU32 (sel 2 m) = some y.exponent ∧ dStrs (sel 3 m) = some y.aliases := by
  obtain ⟨y0, y1, y2⟩ := y
  unfold P.DenomUnit.dec
  cases dStr (sel 1 m)
  · simp
  cases dU32 (sel 2 m)
  · simp
  cases dStrs (sel 3 m)
  · simp
  simp

theorem Metadata_fits (m : Fields) : (P.Metadata.dec m).isSome ↔ Layout.metadata.Fits m := by
  have h : (P.Metadata.dec m).isSome ↔ (dStr (sel 1 m)).isSome ∧ (dAll P.DenomUnit.dec (sel 2 m)).isSome ∧ (dStr (sel 3 m)).isSome ∧ (dStr (sel 4 m)).isSome ∧ (dStr (sel 5 m)).isSome ∧ (dStr (sel 6 m)).isSome ∧ (dStr (sel 7 m)).isSome ∧ (dStr (sel 8 m)).isSome := by
    unfold P.Metadata.dec
    cases dStr (sel 1 m)
    · simp
    cases dAll P.DenomUnit.dec (sel 2 m)
    · simp
    cases dStr (sel 3 m)
    · simp
    cases dStr (sel 4 m)
    · simp
    cases dStr (sel 5 m)
    · simp
    cases dStr (sel 6 m)
    · simp
    cases dStr (sel 7 m)
    · simp
    cases dStr (sel 8 m)
    · simp
    simp
  rw [h]
  constructor
  · rintro ⟨a0, a1, a2, a3, a4, a5, a6, a7⟩
    exact ⟨(fits_text).1 a0, (dAll_isSome DenomUnit_fits _).1 a1, (fits_text).1 a2, (fits_text).1 a3, (fits_text).1 a4, (fits_text).1 a5, (fits_text).1 a6, (fits_text).1 a7, trivial⟩
  · rintro ⟨a0, a1, a2, a3, a4, a5, a6, a7, -⟩
    exact ⟨(fits_text).2 a0, (dAll_isSome DenomUnit_fits _).2 a1, (fits_text).2 a2, (fits_text).2 a3, (fits_text).2 a4, (fits_text).2 a5, (fits_text).2 a6, (fits_text).2 a7⟩

theorem Metadata_iff {m : Fields} {y : P.Metadata} : P.Metadata.dec m = some y ↔
    dStr (sel 1 m) = some y.description ∧ dAll P.DenomUnit.dec (sel 2 m) = some y.denomUnits ∧ dStr (sel 3 m) = some y.base ∧ dStr (sel 4 m) = some y.display ∧ dStr (sel 5 m) = some y.name ∧ dStr (sel 6 m) = some y.symbol ∧ dStr (sel 7 m) = some y.uri ∧ dStr (sel 8 m) = some y.uriHash := by
  obtain ⟨y0, y1, y2, y3, y4, y5, y6, y7⟩ := y
  unfold P.Metadata.dec
  cases dStr (sel 1 m)
  · simp
  cases dAll P.DenomUnit.dec (sel 2 m)
  · simp
  cases dStr (sel 3 m)
  · simp
  cases dStr (sel 4 m)
  · simp
  cases dStr (sel 5 m)
  · simp
  cases dStr (sel 6 m)
  · simp
  cases dStr (sel 7 m)
  · simp
  cases dStr (sel 8 m)
  · simp
  simp

theorem ContractInfo_fits (m : Fields) : (P.ContractInfo.dec m).isSome ↔ Layout.contractInfo.Fits m := by
  have h : (P.ContractInfo.dec m).isSome ↔ (dU64 (sel 1 m)).isSome ∧ (dStr (sel 2 m)).isSome ∧ (dStr (sel 3 m)).isSome ∧ (dStr (sel 4 m)).isSome ∧ (dOpt P.AbsoluteTxPosition.dec (sel 5 m)).isSome ∧ (dStr (sel 6 m)).isSome ∧ (dOpt P.Any.dec (sel 7 m)).isSome := by
    unfold P.ContractInfo.dec
    cases dU64 (sel 1 m)
    · simp
    cases dStr (sel 2 m)
    · simp
    cases dStr (sel 3 m)
    · simp
    cases dStr (sel 4 m)
    · simp
    cases dOpt P.AbsoluteTxPosition.dec (sel 5 m)
    · simp
    cases dStr (sel 6 m)
    · simp
    cases dOpt P.Any.dec (sel 7 m)
    · simp
    simp
  rw [h]
  constructor
  · rintro ⟨a0, a1, a2, a3, a4, a5, a6⟩
    exact ⟨(fits_number).1 a0, (fits_text).1 a1, (fits_text).1 a2, (fits_text).1 a3, (dOpt_isSome AbsoluteTxPosition_fits _).1 a4, (fits_text).1 a5, (dOpt_isSome Any_fits _).1 a6, trivial⟩
  · rintro ⟨a0, a1, a2, a3, a4, a5, a6, -⟩
    exact ⟨(fits_number).2 a0, (fits_text).2 a1, (fits_text).2 a2, (fits_text).2 a3, (dOpt_isSome AbsoluteTxPosition_fits _).2 a4, (fits_text).2 a5, (dOpt_isSome Any_fits _).2 a6⟩

theorem ContractInfo_iff {m : Fields} {y : P.ContractInfo} : P.ContractInfo.dec m = some y ↔
    dU64 (sel 1 m) = some y.codeId ∧ dStr (sel 2 m) = some y.creator ∧ dStr (sel 3 m) = some y.admin ∧ dStr (sel 4 m) = some y.label ∧ dOpt P.AbsoluteTxPosition.dec (sel 5 m) = some y.created ∧ dStr (sel 6 m) = some y.ibcPortId ∧ dOpt P.Any.dec (sel 7 m) = some y.extension := by
  obtain ⟨y0, y1, y2, y3, y4, y5, y6⟩ := y
  unfold P.ContractInfo.dec
  cases dU64 (sel 1 m)
  · simp
  cases dStr (sel 2 m)
  · simp
  cases dStr (sel 3 m)
  · simp
  cases dStr (sel 4 m)
  · simp
  cases dOpt P.AbsoluteTxPosition.dec (sel 5 m)
  · simp
  cases dStr (sel 6 m)
  · simp
  cases dOpt P.Any.dec (sel 7 m)
  · simp
  simp

theorem CommissionRates_fits (m : Fields) : (P.CommissionRates.dec m).isSome ↔ (Layout.texts [1, 2, 3] .done).Fits m := by
  have h : (P.CommissionRates.dec m).isSome ↔ (dStr (sel 1 m)).isSome ∧ (dStr (sel 2 m)).isSome ∧ (dStr (sel 3 m)).isSome := by
    unfold P.CommissionRates.dec
    cases dStr (sel 1 m)
    · simp
    cases dStr (sel 2 m)
    · simp
    cases dStr (sel 3 m)
    · simp
    simp
  rw [h]
  constructor
  · rintro ⟨a0, a1, a2⟩
    exact ⟨(fits_text).1 a0, (fits_text).1 a1, (fits_text).1 a2, trivial⟩
  · rintro ⟨a0, a1, a2, -⟩
    exact ⟨(fits_text).2 a0, (fits_text).2 a1, (fits_text).2 a2⟩

theorem CommissionRates_iff {m : Fields} {y : P.CommissionRates} : P.CommissionRates.dec m = some y ↔
    dStr (sel 1 m) = some y.rate ∧ dStr (sel 2 m) = some y.maxRate ∧ dStr (sel 3 m) = some y.maxChangeRate := by
  obtain ⟨y0, y1, y2⟩ := y
  unfold P.CommissionRates.dec
  cases dStr (sel 1 m)
  · simp
  cases dStr (sel 2 m)
  · simp
  cases dStr (sel 3 m)
  · simp
  simp

theorem Commission_fits (m : Fields) : (P.Commission.dec m).isSome ↔ Layout.commission.Fits m := by
  have h : (P.Commission.dec m).isSome ↔ (dOpt P.CommissionRates.dec (sel 1 m)).isSome ∧ (dOpt P.Timestamp.dec (sel 2 m)).isSome := by
    unfold P.Commission.dec
    cases dOpt P.CommissionRates.dec (sel 1 m)
    · simp
    cases dOpt P.Timestamp.dec (sel 2 m)
    · simp
    simp
  rw [h]
  constructor
  · rintro ⟨a0, a1⟩
    exact ⟨(dOpt_isSome CommissionRates_fits _).1 a0, (dOpt_isSome Timestamp_fits _).1 a1, trivial⟩
  · rintro ⟨a0, a1, -⟩
    exact ⟨(dOpt_isSome CommissionRates_fits _).2 a0, (dOpt_isSome Timestamp_fits _).2 a1⟩

theorem Commission_iff {m : Fields} {y : P.Commission} : P.Commission.dec m = some y ↔
    dOpt P.CommissionRates.dec (sel 1 m) = some y.commissionRates ∧ dOpt P.Timestamp.dec (sel 2 m) = some y.updateTime := by
  obtain ⟨y0, y1⟩ := y
  unfold P.Commission.dec
  cases dOpt P.CommissionRates.dec (sel 1 m)
  · simp
  cases dOpt P.Timestamp.dec (sel 2 m)
  · simp
  simp

theorem Description_fits (m : Fields) : (P.Description.dec m).isSome ↔ (Layout.texts [1, 2, 3, 4, 5] .done).Fits m := by
  have h : (P.Description.dec m).isSome ↔ (dStr (sel 1 m)).isSome ∧ (dStr (sel 2 m)).isSome ∧ (dStr (sel 3 m)).isSome ∧ (dStr (sel 4 m)).isSome ∧ (dStr (sel 5 m)).isSome := by
    unfold P.Description.dec
    cases dStr (sel 1 m)
    · simp
    cases dStr (sel 2 m)
    · simp
    cases dStr (sel 3 m)
    · simp
    cases dStr (sel 4 m)
    · simp
    cases dStr (sel 5 m)
    · simp
    simp
  rw [h]
  constructor
  · rintro ⟨a0, a1, a2, a3, a4⟩
    exact ⟨(fits_text).1 a0, (fits_text).1 a1, (fits_text).1 a2, (fits_text).1 a3, (fits_text).1 a4, trivial⟩
  · rintro ⟨a0, a1, a2, a3, a4, -⟩
    exact ⟨(fits_text).2 a0, (fits_text).2 a1, (fits_text).2 a2, (fits_text).2 a3, (fits_text).2 a4⟩

theorem Description_iff {m : Fields} {y : P.Description} : P.Description.dec m = some y ↔
    dStr (sel 1 m) = some y.moniker ∧ dStr (sel 2 m) = some y.identity ∧ dStr (sel 3 m) = some y.website ∧ dStr (sel 4 m) = some y.securityContact ∧ dStr (sel 5 m) = some y.details := by
  obtain ⟨y0, y1, y2, y3, y4⟩ := y
  unfold P.Description.dec
  cases dStr (sel 1 m)
  · simp
  cases dStr (sel 2 m)
  · simp
  cases dStr (sel 3 m)
  · simp
  cases dStr (sel 4 m)
  · simp
  cases dStr (sel 5 m)
  · simp
  simp

theorem Validator_fits (m : Fields) : (P.Validator.dec m).isSome ↔ Layout.validator.Fits m := by
  have h : (P.Validator.dec m).isSome ↔ (dStr (sel 1 m)).isSome ∧ (dOpt P.Any.dec (sel 2 m)).isSome ∧ (dBool (sel 3 m)).isSome ∧ (dU64 (sel 4 m)).isSome ∧ (dStr (sel 5 m)).isSome ∧ (dStr (sel 6 m)).isSome ∧ (dOpt P.Description.dec (sel 7 m)).isSome ∧ (dU64 (sel 8 m)).isSome ∧ (dOpt P.Timestamp.dec (sel 9 m)).isSome ∧ (dOpt P.Commission.dec (sel 10 m)).isSome ∧ (dStr (sel 11 m)).isSome ∧ (dU64 (sel 12 m)).isSome ∧ (dPacked (sel 13 m)).isSome := by
    unfold P.Validator.dec
    cases dStr (sel 1 m)
    · simp
    cases dOpt P.Any.dec (sel 2 m)
    · simp
    cases dBool (sel 3 m)
    · simp
    cases dU64 (sel 4 m)
    · simp
    cases dStr (sel 5 m)
    · simp
    cases dStr (sel 6 m)
    · simp
    cases dOpt P.Description.dec (sel 7 m)
    · simp
    cases dU64 (sel 8 m)
    · simp
    cases dOpt P.Timestamp.dec (sel 9 m)
    · simp
    cases dOpt P.Commission.dec (sel 10 m)
    · simp
    cases dStr (sel 11 m)
    · simp
    cases dU64 (sel 12 m)
    · simp
    cases dPacked (sel 13 m)
    · simp
    simp
  rw [h]
  constructor
  · rintro ⟨a0, a1, a2, a3, a4, a5, a6, a7, a8, a9, a10, a11, a12⟩
    exact ⟨(fits_text).1 a0, (dOpt_isSome Any_fits _).1 a1, (fits_flag).1 a2, (fits_number).1 a3, (fits_text).1 a4, (fits_text).1 a5, (dOpt_isSome Description_fits _).1 a6, (fits_number).1 a7, (dOpt_isSome Timestamp_fits _).1 a8, (dOpt_isSome Commission_fits _).1 a9, (fits_text).1 a10, (fits_number).1 a11, (fits_numbers).1 a12, trivial⟩
  · rintro ⟨a0, a1, a2, a3, a4, a5, a6, a7, a8, a9, a10, a11, a12, -⟩
    exact ⟨(fits_text).2 a0, (dOpt_isSome Any_fits _).2 a1, (fits_flag).2 a2, (fits_number).2 a3, (fits_text).2 a4, (fits_text).2 a5, (dOpt_isSome Description_fits _).2 a6, (fits_number).2 a7, (dOpt_isSome Timestamp_fits _).2 a8, (dOpt_isSome Commission_fits _).2 a9, (fits_text).2 a10, (fits_number).2 a11, (fits_numbers).2 a12⟩

theorem Validator_iff {m : Fields} {y : P.Validator} : P.Validator.dec m = some y ↔
    dStr (sel 1 m) = some y.operatorAddress ∧ dOpt P.Any.dec (sel 2 m) = some y.consensusPubkey ∧ dBool (sel 3 m) = some y.jailed ∧ dU64 (sel 4 m) = some y.status ∧ dStr (sel 5 m) = some y.tokens ∧ dStr (sel 6 m) = some y.delegatorShares ∧ dOpt P.Description.dec (sel 7 m) = some y.description ∧ dU64 (sel 8 m) = some y.unbondingHeight ∧ dOpt P.Timestamp.dec (sel 9 m) = some y.unbondingTime ∧ dOpt P.Commission.dec (sel 10 m) = some y.commission ∧ dStr (sel 11 m) = some y.minSelfDelegation ∧ dU64 (sel 12 m) = some y.unbondingOnHoldRefCount ∧ dPacked (sel 13 m) = some y.unbondingIds := by
  obtain ⟨y0, y1, y2, y3, y4, y5, y6, y7, y8, y9, y10, y11, y12⟩ := y
  unfold P.Validator.dec
  cases dStr (sel 1 m)
  · simp
  cases dOpt P.Any.dec (sel 2 m)
  · simp
  cases dBool (sel 3 m)
  · simp
  cases dU64 (sel 4 m)
  · simp
  cases dStr (sel 5 m)
  · simp
  cases dStr (sel 6 m)
  · simp
  cases dOpt P.Description.dec (sel 7 m)
  · simp
  cases dU64 (sel 8 m)
  · simp
  cases dOpt P.Timestamp.dec (sel 9 m)
  · simp
  cases dOpt P.Commission.dec (sel 10 m)
  · simp
  cases dStr (sel 11 m)
  · simp
  cases dU64 (sel 12 m)
  · simp
  cases dPacked (sel 13 m)
  · simp
  simp

theorem Delegation_fits (m : Fields) : (P.Delegation.dec m).isSome ↔ (Layout.texts [1, 2, 3] .done).Fits m := by
  have h : (P.Delegation.dec m).isSome ↔ (dStr (sel 1 m)).isSome ∧ (dStr (sel 2 m)).isSome ∧ (dStr (sel 3 m)).isSome := by
    unfold P.Delegation.dec
    cases dStr (sel 1 m)
    · simp
    cases dStr (sel 2 m)
    · simp
    cases dStr (sel 3 m)
    · simp
    simp
  rw [h]
  constructor
  · rintro ⟨a0, a1, a2⟩
    exact ⟨(fits_text).1 a0, (fits_text).1 a1, (fits_text).1 a2, trivial⟩
  · rintro ⟨a0, a1, a2, -⟩
    exact ⟨(fits_text).2 a0, (fits_text).2 a1, (fits_text).2 a2⟩

theorem Delegation_iff {m : Fields} {y : P.Delegation} : P.Delegation.dec m = some y ↔
    dStr (sel 1 m) = some y.delegatorAddress ∧ dStr (sel 2 m) = some y.validatorAddress ∧ dStr (sel 3 m) = some y.shares := by
  obtain ⟨y0, y1, y2⟩ := y
  unfold P.Delegation.dec
  cases dStr (sel 1 m)
  · simp
  cases dStr (sel 2 m)
  · simp
  cases dStr (sel 3 m)
  · simp
  simp

theorem DelegationResponse_fits (m : Fields) : (P.DelegationResponse.dec m).isSome ↔ Layout.delegation.Fits m := by
  have h : (P.DelegationResponse.dec m).isSome ↔ (dOpt P.Delegation.dec (sel 1 m)).isSome ∧ (dOpt P.Coin.dec (sel 2 m)).isSome := by
    unfold P.DelegationResponse.dec
    cases dOpt P.Delegation.dec (sel 1 m)
    · simp
    cases dOpt P.Coin.dec (sel 2 m)
    · simp
    simp
  rw [h]
  constructor
  · rintro ⟨a0, a1⟩
    exact ⟨(dOpt_isSome Delegation_fits _).1 a0, (dOpt_isSome Coin_fits _).1 a1, trivial⟩
  · rintro ⟨a0, a1, -⟩
    exact ⟨(dOpt_isSome Delegation_fits _).2 a0, (dOpt_isSome Coin_fits _).2 a1⟩

theorem DelegationResponse_iff {m : Fields} {y : P.DelegationResponse} : P.DelegationResponse.dec m = some y ↔
    dOpt P.Delegation.dec (sel 1 m) = some y.delegation ∧ dOpt P.Coin.dec (sel 2 m) = some y.balance := by
  obtain ⟨y0, y1⟩ := y
  unfold P.DelegationResponse.dec
  cases dOpt P.Delegation.dec (sel 1 m)
  · simp
  cases dOpt P.Coin.dec (sel 2 m)
  · simp
  simp

theorem Params_fits (m : Fields) : (P.Params.dec m).isSome ↔ Layout.params.Fits m := by
  have h : (P.Params.dec m).isSome ↔ (dOpt P.Timestamp.dec (sel 1 m)).isSome ∧ (dU32 (sel 2 m)).isSome ∧ (dU32 (sel 3 m)).isSome ∧ (dU32 (sel 4 m)).isSome ∧ (dStr (sel 5 m)).isSome ∧ (dStr (sel 6 m)).isSome := by
    unfold P.Params.dec
    cases dOpt P.Timestamp.dec (sel 1 m)
    · simp
    cases dU32 (sel 2 m)
    · simp
    cases dU32 (sel 3 m)
    · simp
    cases dU32 (sel 4 m)
    · simp
    cases dStr (sel 5 m)
    · simp
    cases dStr (sel 6 m)
    · simp
    simp
  rw [h]
  constructor
  · rintro ⟨a0, a1, a2, a3, a4, a5⟩
    exact ⟨(dOpt_isSome Timestamp_fits _).1 a0, (fits_number32).1 a1, (fits_number32).1 a2, (fits_number32).1 a3, (fits_text).1 a4, (fits_text).1 a5, trivial⟩
  · rintro ⟨a0, a1, a2, a3, a4, a5, -⟩
    exact ⟨(dOpt_isSome Timestamp_fits _).2 a0, (fits_number32).2 a1, (fits_number32).2 a2, (fits_number32).2 a3, (fits_text).2 a4, (fits_text).2 a5⟩

theorem Params_iff {m : Fields} {y : P.Params} : P.Params.dec m = some y ↔
    dOpt P.Timestamp.dec (sel 1 m) = some y.unbondingTime ∧ dU32 (sel 2 m) = some y.maxValidators ∧ dU32 (sel 3 m) = some y.maxEntries ∧ dU32 (sel 4 m) = some y.historicalEntries ∧ dStr (sel 5 m) = some y.bondDenom ∧ dStr (sel 6 m) = some y.minCommissionRate := by
  obtain ⟨y0, y1, y2, y3, y4, y5⟩ := y
  unfold P.Params.dec
  cases dOpt P.Timestamp.dec (sel 1 m)
  · simp
  cases dU32 (sel 2 m)
  · simp
  cases dU32 (sel 3 m)
  · simp
  cases dU32 (sel 4 m)
  · simp
  cases dStr (sel 5 m)
  · simp
  cases dStr (sel 6 m)
  · simp
  simp

/-! ## What the decoders read -/

theorem bind_ok {α β : Type} {x : Res α} {f : α → Res β} {b : β} : x.bind f = .ok b ↔ ∃ a, x = .ok a ∧ f a = .ok b :=
  Res.bind_eq_ok

theorem decodeOr_ok {α : Type} {o : Option α} {x : α} : decodeOr o = .ok x ↔ o = some x := by
  cases o <;> simp [decodeOr]

theorem hasMessage_unique {m : Fields} {t : Nat} {x y : Fields} (h : HasMessage m t x) (h' : HasMessage m t y) : x = y := by
  obtain ⟨l, -, a, rfl⟩ := h
  obtain ⟨l', -, b, rfl⟩ := h'
  rw [← dMsgs_iff] at a b
  rw [a] at b; cases b; rfl

theorem not_missing {m : Fields} {t : Nat} {x : Fields} (h : HasMessage m t x) : ¬ Missing m t := by
  obtain ⟨l, a, -, -⟩ := h
  exact a

/-- A message that may be missing, as a layout has it. -/
abbrev One (k : Layout) (m : Fields) (t : Nat) : Prop := ∃ l, Messages (sel t m) l ∧ k.Fits l.flatten
/-- Repeated messages, as a layout has them. -/
abbrev Many (k : Layout) (m : Fields) (t : Nat) : Prop := ∃ l, Messages (sel t m) l ∧ ∀ x ∈ l, k.Fits x

theorem one_missing {k : Layout} {m : Fields} {t : Nat} (h : Missing m t) : One k m t := by
  unfold Missing at h
  refine ⟨[], by rw [h]; exact .nil, fits_nil k⟩

theorem one_has {k : Layout} {m : Fields} {t : Nat} {x : Fields} (h : HasMessage m t x) : One k m t ↔ k.Fits x := by
  obtain ⟨l, -, a, rfl⟩ := h
  constructor
  · rintro ⟨l', b, c⟩; rw [← dMsgs_iff] at a b; rw [a] at b; cases b; exact c
  · intro c; exact ⟨l, a, c⟩

/-- An optional message, read with `G`. -/
theorem one_says {α β : Type} {d : Fields → Option α} {G : Option α → β → Prop} {k : Layout} {S : Fields → β → Prop}
    (h : ∀ m c, (∃ y, d m = some y ∧ G (some y) c) ↔ k.Fits m ∧ S m c) {m : Fields} {t : Nat} {c : β} :
    (∃ o, dOpt d (sel t m) = some o ∧ G o c) ↔
      One k m t ∧ ((Missing m t ∧ G none c) ∨ ∃ x, HasMessage m t x ∧ S x c) := by
  constructor
  · rintro ⟨o, ho, hg⟩
    rcases dOpt_iff.1 ho with ⟨a, rfl⟩ | ⟨x, y, a, b, rfl⟩
    · exact ⟨one_missing a, .inl ⟨a, hg⟩⟩
    · obtain ⟨e1, e2⟩ := (h x c).1 ⟨y, b, hg⟩
      exact ⟨(one_has a).2 e1, .inr ⟨x, a, e2⟩⟩
  · rintro ⟨f, ⟨a, hg⟩ | ⟨x, a, hs⟩⟩
    · exact ⟨none, dOpt_iff.2 (.inl ⟨a, rfl⟩), hg⟩
    · obtain ⟨y, b, hg⟩ := (h x c).2 ⟨(one_has a).1 f, hs⟩
      exact ⟨some y, dOpt_iff.2 (.inr ⟨x, y, a, b, rfl⟩), hg⟩

theorem forall₂_both {α β : Type} {k : α → Prop} {S : α → β → Prop} {l : List α} {zs : List β} :
    List.Forall₂ (fun x z => k x ∧ S x z) l zs ↔ (∀ x ∈ l, k x) ∧ List.Forall₂ S l zs := by
  induction l generalizing zs with
  | nil => cases zs <;> simp
  | cons x l ih =>
    cases zs with
    | nil => simp
    | cons z zs => simp only [List.forall₂_cons, ih, List.forall_mem_cons]; tauto

theorem forall₂_through {α β γ : Type} {R : α → β → Prop} {S : β → γ → Prop} {l : List α} {zs : List γ} :
    (∃ ys, List.Forall₂ R l ys ∧ List.Forall₂ S ys zs) ↔ List.Forall₂ (fun x z => ∃ y, R x y ∧ S y z) l zs := by
  constructor
  · rintro ⟨ys, h1, h2⟩
    induction h1 generalizing zs with
    | nil => cases h2; exact .nil
    | cons a _ ih => cases h2 with | cons b c => exact .cons ⟨_, a, b⟩ (ih c)
  · intro h
    induction h with
    | nil => exact ⟨[], .nil, .nil⟩
    | cons a _ ih => obtain ⟨y, a, b⟩ := a; obtain ⟨ys, h1, h2⟩ := ih; exact ⟨y :: ys, .cons a h1, .cons b h2⟩

theorem forall₂_says {α β : Type} {d : Fields → Option α} {G : α → β → Prop} {k : Layout} {S : Fields → β → Prop}
    (h : ∀ m c, (∃ y, d m = some y ∧ G y c) ↔ k.Fits m ∧ S m c) {l : List Fields} {zs : List β} :
    (∃ ys, List.Forall₂ (fun x y => d x = some y) l ys ∧ List.Forall₂ G ys zs) ↔
      (∀ x ∈ l, k.Fits x) ∧ List.Forall₂ S l zs := by
  rw [forall₂_through, ← forall₂_both]
  constructor <;> intro hh <;> exact hh.imp fun x z => by simp only [h]; exact id

/-- Repeated messages, each read with `G`. -/
theorem many_says {α β : Type} {d : Fields → Option α} {G : α → β → Prop} {k : Layout} {S : Fields → β → Prop}
    (h : ∀ m c, (∃ y, d m = some y ∧ G y c) ↔ k.Fits m ∧ S m c) {m : Fields} {t : Nat} {zs : List β} :
    (∃ ys, dAll d (sel t m) = some ys ∧ List.Forall₂ G ys zs) ↔
      Many k m t ∧ ∃ l, HasMessages m t l ∧ List.Forall₂ S l zs := by
  constructor
  · rintro ⟨ys, a, b⟩
    obtain ⟨l, c, d⟩ := dAll_iff.1 a
    obtain ⟨e1, e2⟩ := (forall₂_says h).1 ⟨ys, d, b⟩
    exact ⟨⟨l, c, e1⟩, l, c, e2⟩
  · rintro ⟨⟨l, c, e1⟩, l', c', e2⟩
    unfold HasMessages at c'
    rw [← dMsgs_iff] at c c'
    rw [c] at c'; cases c'
    rw [dMsgs_iff] at c
    obtain ⟨ys, a, b⟩ := (forall₂_says h).2 ⟨e1, e2⟩
    exact ⟨ys, dAll_iff.2 ⟨l, c, a⟩, b⟩

theorem page_fits {m : Fields} {t : Nat} : (∃ o, dOpt P.PageResponse.dec (sel t m) = some o) ↔ One Layout.page m t := by
  rw [← Option.isSome_iff_exists]; exact dOpt_isSome PageResponse_fits _

theorem parseU128_eq (s : String) : parseU128 s = parseU128Chars s.toList := rfl

theorem convertToCoin_ok {y : P.Coin} {c : Coin} :
    convertToCoin y = .ok c ↔ y.denom = c.denom ∧ Api.Numeral y.amount.toList c.amount.val := by
  unfold convertToCoin
  rw [parseU128_eq]
  obtain ⟨d, a⟩ := c
  dsimp only
  rw [← parseU128Chars_iff]
  cases parseU128Chars y.amount.toList <;> simp

theorem coin_says (m : Fields) (c : Coin) :
    (∃ y, P.Coin.dec m = some y ∧ convertToCoin y = .ok c) ↔ Layout.coin.Fits m ∧ SaysCoin m c := by
  rw [← Coin_fits, Option.isSome_iff_exists]
  simp only [Coin_iff, convertToCoin_ok, SaysCoin, hasText_iff]
  constructor
  · rintro ⟨y, ⟨a, b⟩, e, n⟩
    exact ⟨⟨y, a, b⟩, e ▸ a, _, b, n⟩
  · rintro ⟨-, a, s, b, n⟩
    exact ⟨⟨c.denom, s⟩, ⟨a, b⟩, rfl, n⟩

theorem coinOrDefault_says (m : Fields) (t : Nat) (c : Coin) :
    (∃ o, dOpt P.Coin.dec (sel t m) = some o ∧ coinOrDefault o = .ok c) ↔ One Layout.coin m t ∧ SaysSomeCoin m t c := by
  rw [one_says (G := fun o c => coinOrDefault o = .ok c) (k := Layout.coin) (S := SaysCoin) coin_says]
  unfold SaysSomeCoin coinOrDefault defaultCoin
  simp only [Res.ok.injEq, eq_comm (b := c)]

theorem dU32_iff {vs : List WVal} {n : UInt32} : dU32 vs = some n ↔ ∃ k, dU64 vs = some k ∧ n = k.toUInt32 := by
  unfold dU32 dU64
  cases dVars vs <;> simp [eq_comm]

theorem unit_says (m : Fields) (c : DenomUnit) :
    (∃ y, P.DenomUnit.dec m = some y ∧ c = ⟨y.denom, y.exponent, y.aliases⟩) ↔ Layout.denomUnit.Fits m ∧ SaysUnit m c := by
  rw [← DenomUnit_fits, Option.isSome_iff_exists]
  simp only [DenomUnit_iff, SaysUnit, hasText_iff, hasNumber_iff, hasTexts_iff, ← dU32_iff]
  constructor
  · rintro ⟨y, h, rfl⟩
    exact ⟨⟨y, h⟩, h⟩
  · rintro ⟨-, h⟩
    exact ⟨⟨c.denom, c.exponent, c.aliases⟩, h, rfl⟩

theorem forall₂_eq_map {α β : Type} {f : α → β} {l : List α} {zs : List β} :
    List.Forall₂ (fun y z => z = f y) l zs ↔ zs = l.map f := by
  induction l generalizing zs with
  | nil => cases zs <;> simp
  | cons x l ih => cases zs <;> simp [ih]

theorem metadata_says (m : Fields) (c : DenomMetadata) :
    (∃ y, P.Metadata.dec m = some y ∧ c = convertToMetadata y) ↔ Layout.metadata.Fits m ∧ SaysMetadata m c := by
  rw [← Metadata_fits, Option.isSome_iff_exists]
  have hm := many_says (d := P.DenomUnit.dec) (G := fun y (c : DenomUnit) => c = ⟨y.denom, y.exponent, y.aliases⟩)
    unit_says (m := m) (t := 2) (zs := c.denomUnits)
  simp only [forall₂_eq_map] at hm
  simp only [Metadata_iff, SaysMetadata, hasText_iff]
  constructor
  · rintro ⟨y, h, rfl⟩
    refine ⟨⟨y, h⟩, ?_⟩
    obtain ⟨a1, a2, a3, a4, a5, a6, a7, a8⟩ := h
    exact ⟨a1, (hm.1 ⟨_, a2, rfl⟩).2, a3, a4, a5, a6, a7, a8⟩
  · rintro ⟨⟨y, -, h2, -⟩, a1, a2, a3, a4, a5, a6, a7, a8⟩
    have hf : Many Layout.denomUnit m 2 := (dAll_isSome DenomUnit_fits _).1 (by rw [h2]; rfl)
    obtain ⟨ys, b1, b2⟩ := hm.2 ⟨hf, a2⟩
    refine ⟨⟨c.description, ys, c.base, c.display, c.name, c.symbol, c.uri, c.uriHash⟩,
      ⟨a1, b1, a3, a4, a5, a6, a7, a8⟩, ?_⟩
    unfold convertToMetadata
    rw [← b2]

theorem contract_says (m : Fields) (c : ContractInfoResponse) :
    (∃ y, P.ContractInfo.dec m = some y ∧ c = ⟨y.codeId, y.creator, nonEmpty y.admin, false, nonEmpty y.ibcPortId⟩) ↔
      Layout.contractInfo.Fits m ∧ SaysContract m c := by
  rw [← ContractInfo_fits, Option.isSome_iff_exists]
  simp only [ContractInfo_iff, SaysContract, hasText_iff, hasNumber_iff]
  constructor
  · rintro ⟨y, h, rfl⟩
    refine ⟨⟨y, h⟩, ?_⟩
    obtain ⟨a1, a2, a3, a4, a5, a6, a7⟩ := h
    exact ⟨a1, a2, ⟨_, a3, rfl⟩, ⟨_, a6, rfl⟩, rfl⟩
  · rintro ⟨⟨y, h⟩, b1, b2, ⟨a, b3, b4⟩, ⟨q, b5, b6⟩, b7⟩
    refine ⟨y, h, ?_⟩
    obtain ⟨a1, a2, a3, a4, a5, a6, a7⟩ := h
    rw [a1] at b1; rw [a2] at b2; rw [a3] at b3; rw [a6] at b5
    cases b3; cases b5
    obtain ⟨c1, c2, c3, c4, c5⟩ := c
    simp only [Option.some.injEq] at b1 b2
    dsimp only at b4 b6 b7
    rw [b1, b2, b4, b6, b7]
    rfl

theorem decimalOr_ok {s : String} {d : Decimal} : decimalOr s = .ok d ↔ Api.QuotedDecimal (.str s) d := by
  rw [← parseDecimal_iff]
  unfold decimalOr
  cases parseDecimal s <;> simp

theorem no_decimal (d : Decimal) : decimalOr "" ≠ .ok d := by
  intro h
  have : (decimalOr "") = .err (.std "Generic error: Error parsing decimal") := by decide +kernel
  rw [this] at h; cases h

theorem no_amount (c : Coin) : convertToCoin ⟨"", ""⟩ ≠ .ok c := by
  intro h
  have : (convertToCoin ⟨"", ""⟩) = .err (.std "Generic error: Parsing u128") := by decide +kernel
  rw [this] at h; cases h

theorem validator_says (m : Fields) (c : Validator) :
    (∃ y, P.Validator.dec m = some y ∧ convertToValidator y = .ok c) ↔ Layout.validator.Fits m ∧ SaysValidator m c := by
  rw [← Validator_fits, Option.isSome_iff_exists]
  constructor
  · rintro ⟨y, h, hc⟩
    refine ⟨⟨y, h⟩, ?_⟩
    obtain ⟨a1, -, -, -, -, -, -, -, -, a10, -⟩ := Validator_iff.1 h
    unfold convertToValidator at hc
    simp only [bind_ok] at hc
    rcases dOpt_iff.1 a10 with ⟨-, e⟩ | ⟨x, z, g1, g2, e⟩
    · rw [e] at hc
      obtain ⟨a, h1, -⟩ := hc
      exact absurd h1 (no_decimal a)
    · rw [e] at hc
      dsimp only [Option.getD_some] at hc
      obtain ⟨z1, -⟩ := Commission_iff.1 g2
      rcases dOpt_iff.1 z1 with ⟨-, e2⟩ | ⟨x', r, g3, g4, e2⟩
      · rw [e2] at hc
        obtain ⟨a, h1, -⟩ := hc
        exact absurd h1 (no_decimal a)
      · rw [e2] at hc
        dsimp only [Option.getD_some] at hc
        obtain ⟨a, h1, b, h2, d, h3, h4⟩ := hc
        injection h4 with h4
        subst h4
        obtain ⟨r1, r2, r3⟩ := CommissionRates_iff.1 g4
        exact ⟨hasText_iff.2 a1, x, x', g1, g3, ⟨_, hasText_iff.2 r1, decimalOr_ok.1 h1⟩,
          ⟨_, hasText_iff.2 r2, decimalOr_ok.1 h2⟩, ⟨_, hasText_iff.2 r3, decimalOr_ok.1 h3⟩⟩
  · rintro ⟨⟨y, h⟩, b1, x, x', g1, g3, ⟨s1, r1, h1⟩, ⟨s2, r2, h2⟩, ⟨s3, r3, h3⟩⟩
    refine ⟨y, h, ?_⟩
    obtain ⟨a1, -, -, -, -, -, -, -, -, a10, -⟩ := Validator_iff.1 h
    rcases dOpt_iff.1 a10 with ⟨e, -⟩ | ⟨w, z, w1, w2, e⟩
    · exact absurd e (not_missing g1)
    obtain rfl := hasMessage_unique g1 w1
    obtain ⟨z1, -⟩ := Commission_iff.1 w2
    rcases dOpt_iff.1 z1 with ⟨e2, -⟩ | ⟨w', r, w3, w4, e2⟩
    · exact absurd e2 (not_missing g3)
    obtain rfl := hasMessage_unique g3 w3
    obtain ⟨q1, q2, q3⟩ := CommissionRates_iff.1 w4
    rw [hasText_iff] at r1 r2 r3 b1
    rw [q1] at r1; rw [q2] at r2; rw [q3] at r3; rw [a1] at b1
    cases r1; cases r2; cases r3
    unfold convertToValidator
    rw [e]
    dsimp only [Option.getD_some]
    rw [e2]
    dsimp only [Option.getD_some]
    rw [decimalOr_ok.2 h1, decimalOr_ok.2 h2, decimalOr_ok.2 h3]
    simp only [Option.some.injEq] at b1
    simp only [Res.bind, b1]

theorem delegation_says {m : Fields} {y : P.DelegationResponse} (h : P.DelegationResponse.dec m = some y)
    (c : Delegation) : (∃ d, y.delegation = some d ∧ convertToDelegation y.balance d = .ok c) ↔ SaysDelegation m c := by
  obtain ⟨a1, a2⟩ := DelegationResponse_iff.1 h
  constructor
  · rintro ⟨d, e, hc⟩
    rw [e] at a1
    rcases dOpt_iff.1 a1 with ⟨-, e⟩ | ⟨x, z, g1, g2, e⟩
    · cases e
    cases e
    obtain ⟨d1, d2, -⟩ := Delegation_iff.1 g2
    unfold convertToDelegation at hc
    rw [bind_ok] at hc
    obtain ⟨co, k1, k2⟩ := hc
    injection k2 with k2
    subst k2
    rcases dOpt_iff.1 a2 with ⟨-, e⟩ | ⟨x', z', g3, g4, e⟩
    · rw [e] at k1
      exact absurd k1 (no_amount co)
    rw [e] at k1
    exact ⟨x, x', g1, hasText_iff.2 d1, hasText_iff.2 d2, g3, ((coin_says x' co).1 ⟨z', g4, k1⟩).2⟩
  · rintro ⟨x, x', g1, d1, d2, g3, hs⟩
    rcases dOpt_iff.1 a1 with ⟨e, -⟩ | ⟨w, z, w1, w2, e⟩
    · exact absurd e (not_missing g1)
    obtain rfl := hasMessage_unique g1 w1
    rcases dOpt_iff.1 a2 with ⟨e', -⟩ | ⟨w', z', w3, w4, e'⟩
    · exact absurd e' (not_missing g3)
    obtain rfl := hasMessage_unique g3 w3
    refine ⟨z, e, ?_⟩
    obtain ⟨k1, k2⟩ := (coin_says x' c.amount).2 ⟨(Coin_fits _).1 (by rw [w4]; rfl), hs⟩
    rw [w4] at k2
    obtain ⟨k3, k2⟩ := k2
    cases k3
    obtain ⟨f1, f2, -⟩ := Delegation_iff.1 w2
    rw [hasText_iff] at d1 d2
    rw [f1] at d1; rw [f2] at d2
    simp only [Option.some.injEq] at d1 d2
    unfold convertToDelegation
    rw [e']
    dsimp only [Option.getD_some]
    rw [k2, d1, d2]
    rfl

theorem delegation_missing {m : Fields} {y : P.DelegationResponse} (h : P.DelegationResponse.dec m = some y) :
    y.delegation = none ↔ sel 1 m = [] := by
  obtain ⟨a1, -⟩ := DelegationResponse_iff.1 h
  rcases dOpt_iff.1 a1 with ⟨a, e⟩ | ⟨x, z, g1, g2, e⟩
  · exact ⟨fun _ => a, fun _ => e⟩
  · exact ⟨fun h => (by rw [e] at h; cases h), fun h => absurd h (not_missing g1)⟩

theorem collect_says {l : List Fields} {ys : List P.DelegationResponse}
    (h : List.Forall₂ (fun x y => P.DelegationResponse.dec x = some y) l ys) {zs : List Delegation} :
    collectDelegations ys = .ok zs ↔ List.Forall₂ SaysDelegation (l.filter fun x => sel 1 x ≠ []) zs := by
  induction h generalizing zs with
  | nil => cases zs <;> simp [collectDelegations]
  | @cons x y l ys hx _ ih =>
    have hm := delegation_missing hx
    unfold collectDelegations
    cases hd : y.delegation with
    | none =>
      have : ¬ sel 1 x ≠ [] := by rw [← hm.1 hd]; simp
      rw [List.filter_cons_of_neg (by simpa using this)]
      exact ih
    | some d =>
      have : sel 1 x ≠ [] := fun e => by rw [hm.2 e] at hd; cases hd
      rw [List.filter_cons_of_pos (by simpa using this)]
      have hs := delegation_says hx
      simp only [bind_ok]
      constructor
      · rintro ⟨c, h1, cs, h2, h3⟩
        injection h3 with h3
        subst h3
        exact .cons ((hs c).1 ⟨d, hd, h1⟩) (ih.1 h2)
      · intro hf
        cases hf with
        | @cons _ c _ cs b1 b2 =>
          obtain ⟨d', e, h1⟩ := (hs c).2 b1
          rw [hd] at e; cases e
          exact ⟨c, h1, cs, ih.2 b2, rfl⟩

theorem QueryBalanceResponse_of {bs : Bytes} {y : P.QueryBalanceResponse} : decodeOr (P.QueryBalanceResponse.ofBytes bs) = .ok y ↔ ∃ m, parseWire bs = some m ∧
    dOpt P.Coin.dec (sel 1 m) = some y.balance := by
  rw [decodeOr_ok, P.QueryBalanceResponse.ofBytes, Option.bind_eq_some_iff]
  obtain ⟨y0⟩ := y
  refine exists_congr fun m => and_congr_right fun _ => ?_
  unfold P.QueryBalanceResponse.dec
  cases dOpt P.Coin.dec (sel 1 m)
  · simp
  simp

theorem QueryAllBalancesResponse_of {bs : Bytes} {y : P.QueryAllBalancesResponse} : decodeOr (P.QueryAllBalancesResponse.ofBytes bs) = .ok y ↔ ∃ m, parseWire bs = some m ∧
    dAll P.Coin.dec (sel 1 m) = some y.balances ∧ dOpt P.PageResponse.dec (sel 2 m) = some y.pagination := by
  rw [decodeOr_ok, P.QueryAllBalancesResponse.ofBytes, Option.bind_eq_some_iff]
  obtain ⟨y0, y1⟩ := y
  refine exists_congr fun m => and_congr_right fun _ => ?_
  unfold P.QueryAllBalancesResponse.dec
  cases dAll P.Coin.dec (sel 1 m)
  · simp
  cases dOpt P.PageResponse.dec (sel 2 m)
  · simp
  simp

theorem QueryDenomMetadataResponse_of {bs : Bytes} {y : P.QueryDenomMetadataResponse} : decodeOr (P.QueryDenomMetadataResponse.ofBytes bs) = .ok y ↔ ∃ m, parseWire bs = some m ∧
    dOpt P.Metadata.dec (sel 1 m) = some y.metadata := by
  rw [decodeOr_ok, P.QueryDenomMetadataResponse.ofBytes, Option.bind_eq_some_iff]
  obtain ⟨y0⟩ := y
  refine exists_congr fun m => and_congr_right fun _ => ?_
  unfold P.QueryDenomMetadataResponse.dec
  cases dOpt P.Metadata.dec (sel 1 m)
  · simp
  simp

theorem QueryDenomsMetadataResponse_of {bs : Bytes} {y : P.QueryDenomsMetadataResponse} : decodeOr (P.QueryDenomsMetadataResponse.ofBytes bs) = .ok y ↔ ∃ m, parseWire bs = some m ∧
    dAll P.Metadata.dec (sel 1 m) = some y.metadatas ∧ dOpt P.PageResponse.dec (sel 2 m) = some y.pagination := by
  rw [decodeOr_ok, P.QueryDenomsMetadataResponse.ofBytes, Option.bind_eq_some_iff]
  obtain ⟨y0, y1⟩ := y
  refine exists_congr fun m => and_congr_right fun _ => ?_
  unfold P.QueryDenomsMetadataResponse.dec
  cases dAll P.Metadata.dec (sel 1 m)
  · simp
  cases dOpt P.PageResponse.dec (sel 2 m)
  · simp
  simp

theorem QuerySupplyOfResponse_of {bs : Bytes} {y : P.QuerySupplyOfResponse} : decodeOr (P.QuerySupplyOfResponse.ofBytes bs) = .ok y ↔ ∃ m, parseWire bs = some m ∧
    dOpt P.Coin.dec (sel 1 m) = some y.amount := by
  rw [decodeOr_ok, P.QuerySupplyOfResponse.ofBytes, Option.bind_eq_some_iff]
  obtain ⟨y0⟩ := y
  refine exists_congr fun m => and_congr_right fun _ => ?_
  unfold P.QuerySupplyOfResponse.dec
  cases dOpt P.Coin.dec (sel 1 m)
  · simp
  simp

theorem QueryContractInfoResponse_of {bs : Bytes} {y : P.QueryContractInfoResponse} : decodeOr (P.QueryContractInfoResponse.ofBytes bs) = .ok y ↔ ∃ m, parseWire bs = some m ∧
    dStr (sel 1 m) = some y.address ∧ dOpt P.ContractInfo.dec (sel 2 m) = some y.contractInfo := by
  rw [decodeOr_ok, P.QueryContractInfoResponse.ofBytes, Option.bind_eq_some_iff]
  obtain ⟨y0, y1⟩ := y
  refine exists_congr fun m => and_congr_right fun _ => ?_
  unfold P.QueryContractInfoResponse.dec
  cases dStr (sel 1 m)
  · simp
  cases dOpt P.ContractInfo.dec (sel 2 m)
  · simp
  simp

theorem QueryDataResponse_of {bs : Bytes} {y : P.QueryDataResponse} : decodeOr (P.QueryDataResponse.ofBytes bs) = .ok y ↔ ∃ m, parseWire bs = some m ∧
    dBytes (sel 1 m) = some y.data := by
  rw [decodeOr_ok, P.QueryDataResponse.ofBytes, Option.bind_eq_some_iff]
  obtain ⟨y0⟩ := y
  refine exists_congr fun m => and_congr_right fun _ => ?_
  unfold P.QueryDataResponse.dec
  cases dBytes (sel 1 m)
  · simp
  simp

theorem QueryValidatorResponse_of {bs : Bytes} {y : P.QueryValidatorResponse} : decodeOr (P.QueryValidatorResponse.ofBytes bs) = .ok y ↔ ∃ m, parseWire bs = some m ∧
    dOpt P.Validator.dec (sel 1 m) = some y.validator := by
  rw [decodeOr_ok, P.QueryValidatorResponse.ofBytes, Option.bind_eq_some_iff]
  obtain ⟨y0⟩ := y
  refine exists_congr fun m => and_congr_right fun _ => ?_
  unfold P.QueryValidatorResponse.dec
  cases dOpt P.Validator.dec (sel 1 m)
  · simp
  simp

theorem QueryValidatorsResponse_of {bs : Bytes} {y : P.QueryValidatorsResponse} : decodeOr (P.QueryValidatorsResponse.ofBytes bs) = .ok y ↔ ∃ m, parseWire bs = some m ∧
    dAll P.Validator.dec (sel 1 m) = some y.validators ∧ dOpt P.PageResponse.dec (sel 2 m) = some y.pagination := by
  rw [decodeOr_ok, P.QueryValidatorsResponse.ofBytes, Option.bind_eq_some_iff]
  obtain ⟨y0, y1⟩ := y
  refine exists_congr fun m => and_congr_right fun _ => ?_
  unfold P.QueryValidatorsResponse.dec
  cases dAll P.Validator.dec (sel 1 m)
  · simp
  cases dOpt P.PageResponse.dec (sel 2 m)
  · simp
  simp

theorem QueryDelegationResponse_of {bs : Bytes} {y : P.QueryDelegationResponse} : decodeOr (P.QueryDelegationResponse.ofBytes bs) = .ok y ↔ ∃ m, parseWire bs = some m ∧
    dOpt P.DelegationResponse.dec (sel 1 m) = some y.delegationResponse := by
  rw [decodeOr_ok, P.QueryDelegationResponse.ofBytes, Option.bind_eq_some_iff]
  obtain ⟨y0⟩ := y
  refine exists_congr fun m => and_congr_right fun _ => ?_
  unfold P.QueryDelegationResponse.dec
  cases dOpt P.DelegationResponse.dec (sel 1 m)
  · simp
  simp

theorem QueryDelegatorDelegationsResponse_of {bs : Bytes} {y : P.QueryDelegatorDelegationsResponse} : decodeOr (P.QueryDelegatorDelegationsResponse.ofBytes bs) = .ok y ↔ ∃ m, parseWire bs = some m ∧
    dAll P.DelegationResponse.dec (sel 1 m) = some y.delegationResponses ∧ dOpt P.PageResponse.dec (sel 2 m) = some y.pagination := by
  rw [decodeOr_ok, P.QueryDelegatorDelegationsResponse.ofBytes, Option.bind_eq_some_iff]
  obtain ⟨y0, y1⟩ := y
  refine exists_congr fun m => and_congr_right fun _ => ?_
  unfold P.QueryDelegatorDelegationsResponse.dec
  cases dAll P.DelegationResponse.dec (sel 1 m)
  · simp
  cases dOpt P.PageResponse.dec (sel 2 m)
  · simp
  simp

theorem QueryParamsResponse_of {bs : Bytes} {y : P.QueryParamsResponse} : decodeOr (P.QueryParamsResponse.ofBytes bs) = .ok y ↔ ∃ m, parseWire bs = some m ∧
    dOpt P.Params.dec (sel 1 m) = some y.params := by
  rw [decodeOr_ok, P.QueryParamsResponse.ofBytes, Option.bind_eq_some_iff]
  obtain ⟨y0⟩ := y
  refine exists_congr fun m => and_congr_right fun _ => ?_
  unfold P.QueryParamsResponse.dec
  cases dOpt P.Params.dec (sel 1 m)
  · simp
  simp

/-! ## Each answer -/

theorem reads_answer (h : HostQuery) (bs : Bytes) (r : IcaQueryResponse) :
    responseFromProtobuf h.path bs false = .ok r ↔
      ∃ m, parseWire bs = some m ∧ (Layout.answer h).Fits m ∧ SaysAnswer m h r := by
  cases h with
  | balance a d =>
    rw [show (HostQuery.balance a d).path = Path.balance from rfl, dispatch_balance]
    unfold bankResponse
    rw [if_pos rfl]
    simp only [bind_ok, QueryBalanceResponse_of, Layout.answer, Layout.Fits, and_true, SaysAnswer, Res.ok.injEq]
    constructor
    · rintro ⟨⟨o⟩, ⟨m, h1, h2⟩, c, h3, rfl⟩
      obtain ⟨e1, e2⟩ := (coinOrDefault_says m 1 c).1 ⟨o, h2, h3⟩
      exact ⟨m, h1, e1, c, e2, rfl⟩
    · rintro ⟨m, h1, e1, c, e2, rfl⟩
      obtain ⟨o, h2, h3⟩ := (coinOrDefault_says m 1 c).2 ⟨e1, e2⟩
      exact ⟨⟨o⟩, ⟨m, h1, h2⟩, c, h3, rfl⟩
  | supplyOf d =>
    rw [show (HostQuery.supplyOf d).path = Path.supply from rfl, dispatch_supply]
    unfold bankResponse
    rw [if_neg (by decide), if_neg (by decide), if_neg (by decide), if_neg (by decide), if_pos rfl]
    simp only [bind_ok, QuerySupplyOfResponse_of, Layout.answer, Layout.Fits, and_true, SaysAnswer, Res.ok.injEq]
    constructor
    · rintro ⟨⟨o⟩, ⟨m, h1, h2⟩, c, h3, rfl⟩
      obtain ⟨e1, e2⟩ := (coinOrDefault_says m 1 c).1 ⟨o, h2, h3⟩
      exact ⟨m, h1, e1, c, e2, rfl⟩
    · rintro ⟨m, h1, e1, c, e2, rfl⟩
      obtain ⟨o, h2, h3⟩ := (coinOrDefault_says m 1 c).2 ⟨e1, e2⟩
      exact ⟨⟨o⟩, ⟨m, h1, h2⟩, c, h3, rfl⟩
  | allBalances a pg =>
    rw [show (HostQuery.allBalances a pg).path = Path.allBalances from rfl, dispatch_allBalances]
    unfold bankResponse
    rw [if_neg (by decide), if_pos rfl]
    simp only [bind_ok, QueryAllBalancesResponse_of, Layout.answer, Layout.Fits, and_true, SaysAnswer, Res.ok.injEq,
      mapRes_eq_ok]
    constructor
    · rintro ⟨⟨l, o⟩, ⟨m, h1, h2, h2'⟩, cs, h3, rfl⟩
      obtain ⟨e1, l', e2, e3⟩ := (many_says coin_says).1 ⟨l, h2, h3⟩
      exact ⟨m, h1, ⟨e1, page_fits.1 ⟨o, h2'⟩⟩, l', cs, e2, e3, rfl⟩
    · rintro ⟨m, h1, ⟨e1, e4⟩, l', cs, e2, e3, rfl⟩
      obtain ⟨l, h2, h3⟩ := (many_says coin_says).2 ⟨e1, l', e2, e3⟩
      obtain ⟨o, h2'⟩ := page_fits.2 e4
      exact ⟨⟨l, o⟩, ⟨m, h1, h2, h2'⟩, cs, h3, rfl⟩
  | denomMetadata d =>
    rw [show (HostQuery.denomMetadata d).path = Path.denomMetadata from rfl, dispatch_denomMetadata]
    unfold bankResponse
    rw [if_neg (by decide), if_neg (by decide), if_pos rfl]
    simp only [bind_ok, QueryDenomMetadataResponse_of, Layout.answer, Layout.Fits, and_true, SaysAnswer, Res.ok.injEq]
    have key := fun (m : Fields) (c : DenomMetadata) => one_says (d := P.Metadata.dec)
      (G := fun o c => c = (o.map convertToMetadata).getD defaultMetadata) metadata_says (m := m) (t := 1) (c := c)
    constructor
    · rintro ⟨⟨o⟩, ⟨m, h1, h2⟩, rfl⟩
      obtain ⟨e1, e2⟩ := (key m _).1 ⟨o, h2, rfl⟩
      exact ⟨m, h1, e1, _, e2, rfl⟩
    · rintro ⟨m, h1, e1, c, e2, rfl⟩
      obtain ⟨o, h2, rfl⟩ := (key m c).2 ⟨e1, e2⟩
      exact ⟨⟨o⟩, ⟨m, h1, h2⟩, rfl⟩
  | denomsMetadata pg =>
    rw [show (HostQuery.denomsMetadata pg).path = Path.allDenomMetadata from rfl, dispatch_allDenomMetadata]
    unfold bankResponse
    rw [if_neg (by decide), if_neg (by decide), if_neg (by decide), if_pos rfl]
    simp only [bind_ok, QueryDenomsMetadataResponse_of, Layout.answer, Layout.Fits, and_true, SaysAnswer, Res.ok.injEq]
    have key := fun (m : Fields) (c : List DenomMetadata) => many_says (d := P.Metadata.dec)
      (G := fun y c => c = convertToMetadata y) metadata_says (m := m) (t := 1) (zs := c)
    simp only [forall₂_eq_map] at key
    have pkey : ∀ (m : Fields) (k : Option Bytes), (∃ o, dOpt P.PageResponse.dec (sel 2 m) = some o ∧
        k = o.map (·.nextKey)) ↔ One Layout.page m 2 ∧ ((Missing m 2 ∧ k = none) ∨ ∃ x, HasMessage m 2 x ∧
          ∃ b, HasBytes x 1 b ∧ k = some b) := fun m k =>
      one_says (d := P.PageResponse.dec) (G := fun o k => k = o.map (·.nextKey)) (k := Layout.page)
        (S := fun x k => ∃ b, HasBytes x 1 b ∧ k = some b) (by
          intro m k
          rw [← PageResponse_fits, Option.isSome_iff_exists]
          simp only [PageResponse_iff, hasBytes_iff]
          constructor
          · rintro ⟨y, ⟨a, b⟩, e⟩; exact ⟨⟨y, a, b⟩, _, a, e⟩
          · rintro ⟨⟨y, a, b⟩, b', a', e⟩
            rw [a] at a'; cases a'
            exact ⟨y, ⟨a, b⟩, e⟩) (m := m) (t := 2) (c := k)
    constructor
    · rintro ⟨⟨l, o⟩, ⟨m, h1, h2, h2'⟩, rfl⟩
      obtain ⟨e1, l', e2, e3⟩ := (key m _).1 ⟨l, h2, rfl⟩
      obtain ⟨p1, p2⟩ := (pkey m _).1 ⟨o, h2', rfl⟩
      refine ⟨m, h1, ⟨e1, p1⟩, l', _, _, e2, e3, ?_, rfl⟩
      rcases p2 with p2 | ⟨x, p2, b, p3, p4⟩
      · exact .inl p2
      · exact .inr ⟨x, b, p2, p3, p4⟩
    · rintro ⟨m, h1, ⟨e1, p1⟩, l', ds, k, e2, e3, p2, rfl⟩
      obtain ⟨l, h2, rfl⟩ := (key m _).2 ⟨e1, l', e2, e3⟩
      have p2' : (Missing m 2 ∧ k = none) ∨ ∃ x, HasMessage m 2 x ∧ ∃ b, HasBytes x 1 b ∧ k = some b := by
        rcases p2 with p2 | ⟨x, b, p2, p3, p4⟩
        · exact .inl p2
        · exact .inr ⟨x, p2, b, p3, p4⟩
      obtain ⟨o, h2', rfl⟩ := (pkey m k).2 ⟨p1, p2'⟩
      exact ⟨⟨l, o⟩, ⟨m, h1, h2, h2'⟩, rfl⟩
  | rawState a k =>
    rw [show (HostQuery.rawState a k).path = Path.raw from rfl, dispatch_raw]
    unfold wasmResponse
    rw [if_neg (by decide), if_pos rfl]
    simp only [bind_ok, QueryDataResponse_of, Layout.answer, Layout.Fits, and_true, SaysAnswer, Res.ok.injEq, hasBytes_iff,
      ← fits_bytes]
    constructor
    · rintro ⟨⟨b⟩, ⟨m, h1, h2⟩, rfl⟩
      exact ⟨m, h1, by rw [h2]; rfl, b, h2, rfl⟩
    · rintro ⟨m, h1, -, b, h2, rfl⟩
      exact ⟨⟨b⟩, ⟨m, h1, h2⟩, rfl⟩
  | smartState a k =>
    rw [show (HostQuery.smartState a k).path = Path.smart from rfl, dispatch_smart]
    unfold wasmResponse
    rw [if_neg (by decide), if_neg (by decide), if_pos rfl]
    simp only [bind_ok, QueryDataResponse_of, Layout.answer, Layout.Fits, and_true, SaysAnswer, Res.ok.injEq, hasBytes_iff,
      ← fits_bytes]
    constructor
    · rintro ⟨⟨b⟩, ⟨m, h1, h2⟩, rfl⟩
      exact ⟨m, h1, by rw [h2]; rfl, b, h2, rfl⟩
    · rintro ⟨m, h1, -, b, h2, rfl⟩
      exact ⟨⟨b⟩, ⟨m, h1, h2⟩, rfl⟩
  | contractInfo a =>
    rw [show (HostQuery.contractInfo a).path = Path.contractInfo from rfl, dispatch_contractInfo]
    unfold wasmResponse
    rw [if_pos rfl]
    simp only [bind_ok, QueryContractInfoResponse_of, Layout.answer, Layout.Fits, and_true, SaysAnswer, Res.ok.injEq,
      ← fits_text]
    have key := fun (m : Fields) (c : Option ContractInfoResponse) => one_says (d := P.ContractInfo.dec)
      (G := fun o (c : Option ContractInfoResponse) => c = o.map fun i =>
        ⟨i.codeId, i.creator, nonEmpty i.admin, false, nonEmpty i.ibcPortId⟩)
      (k := Layout.contractInfo) (S := fun x c => ∃ i, c = some i ∧ SaysContract x i) (by
        intro m c
        cases c with
        | none => simp
        | some c =>
          simp only [Option.map_some, Option.some.injEq, exists_eq_left', contract_says])
      (m := m) (t := 2) (c := c)
    constructor
    · rintro ⟨⟨t, o⟩, ⟨m, h1, h2, h2'⟩, rfl⟩
      obtain ⟨e1, e2⟩ := (key m _).1 ⟨o, h2', rfl⟩
      refine ⟨m, h1, ⟨by rw [h2]; rfl, e1⟩, ?_⟩
      rcases e2 with ⟨e2, e3⟩ | ⟨x, e2, i, e3, e4⟩
      · exact .inl ⟨e2, by dsimp only; rw [e3]; rfl⟩
      · exact .inr ⟨x, i, e2, e4, by dsimp only; rw [e3]⟩
    · rintro ⟨m, h1, ⟨e0, e1⟩, e2⟩
      obtain ⟨t, h2⟩ := Option.isSome_iff_exists.1 e0
      rcases e2 with ⟨e2, rfl⟩ | ⟨x, i, e2, e4, rfl⟩
      · obtain ⟨o, h2', e5⟩ := (key m none).2 ⟨e1, .inl ⟨e2, rfl⟩⟩
        exact ⟨⟨t, o⟩, ⟨m, h1, h2, h2'⟩, by dsimp only; rw [← e5]⟩
      · obtain ⟨o, h2', e5⟩ := (key m (some i)).2 ⟨e1, .inr ⟨x, e2, i, rfl, e4⟩⟩
        exact ⟨⟨t, o⟩, ⟨m, h1, h2, h2'⟩, by dsimp only; rw [← e5]⟩
  | validator a =>
    rw [show (HostQuery.validator a).path = Path.validator from rfl, dispatch_validator]
    unfold stakingResponse
    rw [if_pos rfl]
    simp only [bind_ok, QueryValidatorResponse_of, Layout.answer, Layout.Fits, and_true, SaysAnswer, Res.ok.injEq]
    have key := fun (m : Fields) (c : Option Validator) => one_says (d := P.Validator.dec)
      (G := fun o c => optRes o convertToValidator = .ok c)
      (k := Layout.validator) (S := fun x c => ∃ i, c = some i ∧ SaysValidator x i) (by
        intro m c
        simp only [optRes, bind_ok, Res.ok.injEq]
        cases c with
        | none => simp
        | some c =>
          simp only [Option.some.injEq, exists_eq_left', exists_eq_right, validator_says])
      (m := m) (t := 1) (c := c)
    constructor
    · rintro ⟨⟨o⟩, ⟨m, h1, h2⟩, c, h3, rfl⟩
      obtain ⟨e1, e2⟩ := (key m _).1 ⟨o, h2, h3⟩
      refine ⟨m, h1, e1, ?_⟩
      rcases e2 with ⟨e2, e3⟩ | ⟨x, e2, i, e3, e4⟩
      · cases e3; exact .inl ⟨e2, rfl⟩
      · subst e3; exact .inr ⟨x, i, e2, e4, rfl⟩
    · rintro ⟨m, h1, e1, e2⟩
      rcases e2 with ⟨e2, rfl⟩ | ⟨x, i, e2, e4, rfl⟩
      · obtain ⟨o, h2, e5⟩ := (key m none).2 ⟨e1, .inl ⟨e2, rfl⟩⟩
        exact ⟨⟨o⟩, ⟨m, h1, h2⟩, _, e5, rfl⟩
      · obtain ⟨o, h2, e5⟩ := (key m (some i)).2 ⟨e1, .inr ⟨x, e2, i, rfl, e4⟩⟩
        exact ⟨⟨o⟩, ⟨m, h1, h2⟩, _, e5, rfl⟩
  | validators st pg =>
    rw [show (HostQuery.validators st pg).path = Path.allValidators from rfl, dispatch_allValidators]
    unfold stakingResponse
    rw [if_neg (by decide), if_pos rfl]
    simp only [bind_ok, QueryValidatorsResponse_of, Layout.answer, Layout.Fits, and_true, SaysAnswer, Res.ok.injEq,
      mapRes_eq_ok]
    constructor
    · rintro ⟨⟨l, o⟩, ⟨m, h1, h2, h2'⟩, cs, h3, rfl⟩
      obtain ⟨e1, l', e2, e3⟩ := (many_says validator_says).1 ⟨l, h2, h3⟩
      exact ⟨m, h1, ⟨e1, page_fits.1 ⟨o, h2'⟩⟩, l', cs, e2, e3, rfl⟩
    · rintro ⟨m, h1, ⟨e1, e4⟩, l', cs, e2, e3, rfl⟩
      obtain ⟨l, h2, h3⟩ := (many_says validator_says).2 ⟨e1, l', e2, e3⟩
      obtain ⟨o, h2'⟩ := page_fits.2 e4
      exact ⟨⟨l, o⟩, ⟨m, h1, h2, h2'⟩, cs, h3, rfl⟩
  | delegation a v =>
    rw [show (HostQuery.delegation a v).path = Path.delegation from rfl, dispatch_delegation]
    unfold stakingResponse
    rw [if_neg (by decide), if_neg (by decide), if_pos rfl]
    simp only [bind_ok, QueryDelegationResponse_of, Layout.answer, Layout.Fits, and_true, SaysAnswer, Res.ok.injEq]
    constructor
    · rintro ⟨⟨o⟩, ⟨m, h1, h2⟩, c, h3, rfl⟩
      refine ⟨m, h1, (dOpt_isSome DelegationResponse_fits _).1 (by rw [h2]; rfl), ?_⟩
      rcases dOpt_iff.1 h2 with ⟨e, e'⟩ | ⟨x, z, e1, e2, e'⟩
      · dsimp only at e' h3
        rw [e'] at h3
        cases h3
        exact .inl ⟨.inl e, rfl⟩
      · dsimp only at e' h3
        rw [e'] at h3
        cases hz : z.delegation with
        | none =>
          simp only [Option.bind_some, hz, Option.map_none, optRes] at h3
          cases h3
          exact .inl ⟨.inr ⟨x, e1, (delegation_missing e2).1 hz⟩, rfl⟩
        | some d =>
          simp only [Option.bind_some, hz, Option.map_some, optRes, bind_ok, Res.ok.injEq] at h3
          obtain ⟨y, h3, rfl⟩ := h3
          exact .inr ⟨x, y, e1, (delegation_says e2 y).1 ⟨d, hz, h3⟩, rfl⟩
    · rintro ⟨m, h1, e1, e2⟩
      obtain ⟨o, h2⟩ := Option.isSome_iff_exists.1 ((dOpt_isSome DelegationResponse_fits _).2 e1)
      rcases dOpt_iff.1 h2 with ⟨e, rfl⟩ | ⟨x, z, f1, f2, rfl⟩
      · rcases e2 with ⟨-, rfl⟩ | ⟨x, d, e3, -⟩
        · exact ⟨⟨none⟩, ⟨m, h1, h2⟩, none, rfl, rfl⟩
        · exact absurd e (not_missing e3)
      · rcases e2 with ⟨e2, rfl⟩ | ⟨x', d, e3, e4, rfl⟩
        · rcases e2 with e2 | ⟨x', e2, e3⟩
          · exact absurd e2 (not_missing f1)
          · obtain rfl := hasMessage_unique f1 e2
            have hz := (delegation_missing f2).2 e3
            refine ⟨⟨some z⟩, ⟨m, h1, h2⟩, none, ?_, rfl⟩
            simp only [Option.bind_some, hz, Option.map_none, optRes]
        · obtain rfl := hasMessage_unique f1 e3
          obtain ⟨d', hz, h4⟩ := (delegation_says f2 d).2 e4
          refine ⟨⟨some z⟩, ⟨m, h1, h2⟩, some d, ?_, rfl⟩
          simp only [Option.bind_some, hz, Option.map_some, optRes, bind_ok, Res.ok.injEq]
          exact ⟨d, h4, rfl⟩
  | delegatorDelegations a pg =>
    rw [show (HostQuery.delegatorDelegations a pg).path = Path.allDelegations from rfl, dispatch_allDelegations]
    unfold stakingResponse
    rw [if_neg (by decide), if_neg (by decide), if_neg (by decide), if_pos rfl]
    simp only [bind_ok, QueryDelegatorDelegationsResponse_of, Layout.answer, Layout.Fits, and_true, SaysAnswer,
      Res.ok.injEq]
    constructor
    · rintro ⟨⟨l, o⟩, ⟨m, h1, h2, h2'⟩, cs, h3, rfl⟩
      obtain ⟨l', e2, e3⟩ := dAll_iff.1 h2
      exact ⟨m, h1, ⟨(dAll_isSome DelegationResponse_fits _).1 (by rw [h2]; rfl), page_fits.1 ⟨o, h2'⟩⟩, l', cs, e2,
        (collect_says e3).1 h3, rfl⟩
    · rintro ⟨m, h1, ⟨e1, e4⟩, l', cs, e2, e3, rfl⟩
      obtain ⟨l, h2⟩ := Option.isSome_iff_exists.1 ((dAll_isSome DelegationResponse_fits _).2 e1)
      obtain ⟨o, h2'⟩ := page_fits.2 e4
      obtain ⟨l'', f2, f3⟩ := dAll_iff.1 h2
      unfold HasMessages at e2 f2
      rw [← dMsgs_iff] at e2 f2
      rw [e2] at f2; cases f2
      exact ⟨⟨l, o⟩, ⟨m, h1, h2, h2'⟩, cs, (collect_says f3).2 e3, rfl⟩
  | stakingParams =>
    rw [show (HostQuery.stakingParams).path = Path.stakingParams from rfl, dispatch_stakingParams]
    unfold stakingResponse
    rw [if_neg (by decide), if_neg (by decide), if_neg (by decide), if_neg (by decide), if_pos rfl]
    simp only [bind_ok, QueryParamsResponse_of, Layout.answer, Layout.Fits, and_true, SaysAnswer, hasText_iff]
    constructor
    · rintro ⟨⟨o⟩, ⟨m, h1, h2⟩, h3⟩
      refine ⟨m, h1, (dOpt_isSome Params_fits _).1 (by rw [h2]; rfl), ?_⟩
      rcases dOpt_iff.1 h2 with ⟨e, e'⟩ | ⟨x, z, e1, e2, e'⟩
      · dsimp only at e'
        subst e'
        cases h3
      · dsimp only at e'
        subst e'
        injection h3 with h3
        obtain ⟨-, -, -, -, p5, -⟩ := Params_iff.1 e2
        exact ⟨x, _, e1, p5, h3.symm⟩
    · rintro ⟨m, h1, e1, x, denom, e2, e3, rfl⟩
      obtain ⟨o, h2⟩ := Option.isSome_iff_exists.1 ((dOpt_isSome Params_fits _).2 e1)
      rcases dOpt_iff.1 h2 with ⟨e, e'⟩ | ⟨x', z, f1, f2, e'⟩
      · exact absurd e (not_missing e2)
      · obtain rfl := hasMessage_unique e2 f1
        obtain ⟨-, -, -, -, p5, -⟩ := Params_iff.1 f2
        rw [p5] at e3
        cases e3
        exact ⟨⟨o⟩, ⟨m, h1, h2⟩, by dsimp only; rw [e']⟩

end Ica.Reads
