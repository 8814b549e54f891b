import Verif.Spec.Api
import Verif.Model.TypesJson
import Verif.Facts.FormatJson
import Verif.Facts.FormatBase64

/-! # Fields and plain values against the interface (helper lemmas for C69, C70) -/
namespace Ica
open Format Api

/-! ## Numerals -/

theorem parseDecChars_iff {t : List Char} {n : Nat} : parseDecChars t = some n ↔ t ≠ [] ∧ IsDigits t ∧ decimal t = n := by
  cases t with
  | nil => simp [parseDecChars]
  | cons c t =>
    constructor
    · intro h
      have h' : parseDigits 0 (c :: t) = some n := h
      have hd := parseDigits_some h'
      rw [parseDigits_eq hd] at h'
      exact ⟨by simp, fun x hx => (isDigit_iff x).mp (hd x hx), Option.some.inj h'⟩
    · rintro ⟨-, h2, h3⟩
      show parseDigits 0 (c :: t) = some n
      rw [parseDigits_eq (fun x hx => (isDigit_iff x).mpr (h2 x hx)), ← h3]; rfl

theorem plus_not_mem {t : List Char} (h : IsDigits ('+' :: t)) : False := by
  have := h '+' (by simp)
  revert this; decide

theorem parseUnsigned_iff {t : List Char} {n : Nat} : parseUnsigned t = some n ↔ Numeral t n := by
  cases t with
  | nil =>
    simp only [parseUnsigned, Numeral]
    constructor
    · intro h; cases h
    · rintro ⟨d, h | h, hd, -⟩
      · exact absurd h.symm hd
      · cases h
  | cons c t =>
    simp only [parseUnsigned]
    by_cases hc : c = '+'
    · subst hc
      rw [if_pos rfl, parseDecChars_iff]
      constructor
      · rintro ⟨h1, h2, h3⟩; exact ⟨t, Or.inr rfl, h1, h2, h3⟩
      · rintro ⟨d, h | h, h1, h2, h3⟩
        · subst h; exact absurd h2 (fun h => plus_not_mem h)
        · cases h; exact ⟨h1, h2, h3⟩
    · rw [if_neg hc, parseDecChars_iff]
      constructor
      · rintro ⟨h1, h2, h3⟩; exact ⟨_, Or.inl rfl, h1, h2, h3⟩
      · rintro ⟨d, h | h, h1, h2, h3⟩
        · subst h; exact ⟨h1, h2, h3⟩
        · cases h; exact absurd rfl hc

theorem numeral_nodot {t : List Char} {n : Nat} (h : Numeral t n) : ∀ c ∈ t, c ≠ '.' := by
  obtain ⟨d, h1, -, h2, -⟩ := h
  have hd : ∀ c ∈ d, c ≠ '.' := by
    intro c hc
    exact isDigit_ne_dot ((isDigit_iff c).mpr (h2 c hc))
  rcases h1 with rfl | rfl
  · exact hd
  · intro c hc
    rcases List.mem_cons.mp hc with rfl | hc
    · decide
    · exact hd c hc

theorem u128_ofNat?_iff {n : Nat} {u : U128} : U128.ofNat? n = some u ↔ u.val = n := by
  unfold U128.ofNat?
  split
  · next h =>
    constructor
    · intro h'; cases h'; rfl
    · intro h'; cases u; cases h'; rfl
  · next h =>
    constructor
    · intro h'; cases h'
    · intro h'; exact absurd (h' ▸ u.lt) h

theorem parseU128Chars_iff {t : List Char} {u : U128} : parseU128Chars t = some u ↔ Numeral t u.val := by
  unfold parseU128Chars
  cases h : parseUnsigned t with
  | none =>
    simp only [reduceCtorEq, false_iff]
    intro h'
    rw [parseUnsigned_iff.mpr h'] at h; cases h
  | some n =>
    simp only [u128_ofNat?_iff]
    have hn := parseUnsigned_iff.mp h
    constructor
    · intro h'; rw [h']; exact hn
    · intro h'
      have := parseUnsigned_iff.mpr h'
      rw [h] at this
      exact (Option.some.inj this).symm

theorem splitDots_ne_nil (t : List Char) : splitDots t ≠ [] := by
  cases t with
  | nil => simp [splitDots]
  | cons c t =>
    unfold splitDots
    cases splitDots t with
    | nil => simp
    | cons w ws => simp only; split <;> simp

theorem splitDots_one {t w : List Char} (h : splitDots t = [w]) : t = w := by
  induction t generalizing w with
  | nil => simpa [splitDots] using h
  | cons c t ih =>
    unfold splitDots at h
    cases hs : splitDots t with
    | nil => exact absurd hs (splitDots_ne_nil t)
    | cons x xs =>
      rw [hs] at h
      simp only at h
      split at h
      · cases h
      · cases h
        rw [ih hs]

theorem splitDots_two {t w f : List Char} (h : splitDots t = [w, f]) : t = w ++ '.' :: f := by
  induction t generalizing w with
  | nil => simp [splitDots] at h
  | cons c t ih =>
    unfold splitDots at h
    cases hs : splitDots t with
    | nil => exact absurd hs (splitDots_ne_nil t)
    | cons x xs =>
      rw [hs] at h
      simp only at h
      split at h
      · next hc => cases h; subst hc; simp [splitDots_one hs]
      · cases h
        rw [ih hs]; rfl

theorem decimal_lt_pow {t : List Char} (h : IsDigits t) : decimal t < 10 ^ t.length := by
  unfold decimal
  have key : ∀ (t : List Char) (a : Nat), IsDigits t →
      t.foldl (fun n c => 10 * n + (c.toNat - '0'.toNat)) a < (a + 1) * 10 ^ t.length := by
    intro t
    induction t with
    | nil => intro a _; simp
    | cons c t ih =>
      intro a h
      have hc : c.toNat - '0'.toNat < 10 := by
        have := h c (by simp)
        have key : ∀ c ∈ "0123456789".toList, c.toNat - '0'.toNat < 10 := by decide
        exact key c this
      have := ih (10 * a + (c.toNat - '0'.toNat)) (fun x hx => h x (by simp [hx]))
      simp only [List.foldl_cons, List.length_cons, pow_succ]
      refine lt_of_lt_of_le this ?_
      have : 10 * a + (c.toNat - '0'.toNat) + 1 ≤ (a + 1) * 10 := by omega
      calc _ ≤ (a + 1) * 10 * 10 ^ t.length := Nat.mul_le_mul_right _ this
        _ = _ := by ring
  simpa using key t 0 h

theorem numeral_lt {t : List Char} {n : Nat} (h : Numeral t n) : n < 10 ^ t.length := by
  obtain ⟨d, h1, -, h2, rfl⟩ := h
  have := decimal_lt_pow h2
  rcases h1 with rfl | rfl
  · exact this
  · refine lt_of_lt_of_le this (Nat.pow_le_pow_right (by decide) (by simp))

theorem parseDecimal_iff {s : String} {d : Decimal} : parseDecimal s = some d ↔ QuotedDecimal (.str s) d := by
  have e18 : decimalFractional = 10 ^ 18 := by decide
  unfold parseDecimal
  obtain ⟨u⟩ := d
  rw [Option.map_eq_some_iff]
  constructor
  · rintro ⟨v, h, hv⟩
    cases hv
    unfold parseDecimalChars at h
    split at h
    · next w hw =>
      cases hp : parseU128Chars w with
      | none => rw [hp] at h; cases h
      | some x =>
        rw [hp] at h
        exact ⟨s, w, x.val, rfl, parseU128Chars_iff.mp hp, Or.inl ⟨splitDots_one hw, e18 ▸ u128_ofNat?_iff.mp h⟩⟩
    · next w f hw =>
      cases hp : parseU128Chars w with
      | none => rw [hp] at h; cases h
      | some x =>
        cases hq : parseU128Chars f with
        | none => rw [hp, hq] at h; cases h
        | some y =>
          rw [hp, hq] at h
          simp only at h
          split at h
          · next hl =>
            exact ⟨s, w, x.val, rfl, parseU128Chars_iff.mp hp, Or.inr ⟨f, y.val, parseU128Chars_iff.mp hq, hl,
              splitDots_two hw, e18 ▸ u128_ofNat?_iff.mp h⟩⟩
          · cases h
    · cases h
  · rintro ⟨s', w, whole, hs, hw, h⟩
    cases hs
    refine ⟨u, ?_, rfl⟩
    have hu := u.lt
    rcases h with ⟨h1, h2⟩ | ⟨f, frac, hf, hl, h1, h2⟩
    · simp only at h2
      have hb : whole < u128Bound := by
        have : whole ≤ whole * 10 ^ 18 := Nat.le_mul_of_pos_right _ (by decide)
        omega
      unfold parseDecimalChars
      rw [h1, splitDots_nodot (numeral_nodot hw)]
      simp only
      rw [(parseU128Chars_iff (u := ⟨whole, hb⟩)).mpr hw]
      exact u128_ofNat?_iff.mpr (by rw [e18]; exact h2)
    · simp only at h2
      have hb : whole < u128Bound := by
        have : whole ≤ whole * 10 ^ 18 := Nat.le_mul_of_pos_right _ (by decide)
        omega
      have hb2 : frac < u128Bound := by
        have h3 := numeral_lt hf
        have h4 : 10 ^ f.length ≤ 10 ^ 18 := Nat.pow_le_pow_right (by decide) hl
        have h5 : (10 : Nat) ^ 18 < u128Bound := by decide
        omega
      unfold parseDecimalChars
      rw [h1, splitDots_dot (numeral_nodot hw) (numeral_nodot hf)]
      simp only
      rw [(parseU128Chars_iff (u := ⟨whole, hb⟩)).mpr hw, (parseU128Chars_iff (u := ⟨frac, hb2⟩)).mpr hf]
      simp only
      rw [if_pos hl]
      exact u128_ofNat?_iff.mpr (by rw [e18]; exact h2)

/-! ## Codecs that read a shape -/

/-- The codec reads exactly the trees of the shape. -/
def Reads {α : Type} (c : JC α) (r : Shape α) : Prop := ∀ j x, c.dec j = some x ↔ r j x

theorem reads_text : Reads jcStr Text := by
  intro j x; cases j <;> simp [jcStr, Text]
theorem reads_truth : Reads jcBool Truth := by
  intro j x; cases j <;> simp [jcBool, Truth]
theorem reads_num64 : Reads jcU64 Num64 := by
  intro j x
  cases j <;> simp only [jcU64, Num64, reduceCtorEq, Json.num.injEq]
  next n =>
    split
    · next h =>
      rw [Option.some.injEq]
      constructor
      · rintro rfl; simp [UInt64.toNat_ofNat', Nat.mod_eq_of_lt h]
      · rintro rfl; exact UInt64.ofNat_toNat
    · next h =>
      simp only [reduceCtorEq, false_iff]
      rintro rfl; exact h x.toNat_lt
theorem reads_num32 : Reads jcU32 Num32 := by
  intro j x
  cases j <;> simp only [jcU32, Num32, reduceCtorEq, Json.num.injEq]
  next n =>
    split
    · next h =>
      rw [Option.some.injEq]
      constructor
      · rintro rfl; simp [UInt32.toNat_ofNat', Nat.mod_eq_of_lt h]
      · rintro rfl; exact UInt32.ofNat_toNat
    · next h =>
      simp only [reduceCtorEq, false_iff]
      rintro rfl; exact h x.toNat_lt
theorem reads_num8 : Reads jcU8 Num8 := by
  intro j x
  cases j <;> simp only [jcU8, Num8, reduceCtorEq, Json.num.injEq]
  next n =>
    split
    · next h =>
      rw [Option.some.injEq]
      constructor
      · rintro rfl; simp [UInt8.toNat_ofNat', Nat.mod_eq_of_lt h]
      · rintro rfl; exact UInt8.ofNat_toNat
    · next h =>
      simp only [reduceCtorEq, false_iff]
      rintro rfl; exact h x.toNat_lt
theorem reads_quoted64 : Reads jcUint64 Quoted64 := by
  intro j x
  cases j <;> simp only [jcUint64, Quoted64, reduceCtorEq, false_and, exists_false, Json.str.injEq, exists_eq_left']
  next s =>
    cases h : parseUnsigned s.toList with
    | none =>
      simp only [reduceCtorEq, false_iff]
      intro h'; rw [parseUnsigned_iff.mpr h'] at h; cases h
    | some n =>
      have hn := parseUnsigned_iff.mp h
      simp only
      constructor
      · intro h'
        split at h'
        · next hl => cases h'; rwa [UInt64.toNat_ofNat', Nat.mod_eq_of_lt hl]
        · cases h'
      · intro h'
        have e := parseUnsigned_iff.mpr h'
        rw [h] at e; cases e
        rw [if_pos x.toNat_lt, UInt64.ofNat_toNat]
theorem reads_quoted128 : Reads jcUint128 Quoted128 := by
  intro j x
  cases j <;> simp only [jcUint128, Quoted128, reduceCtorEq, false_and, exists_false, Json.str.injEq, exists_eq_left']
  next s => exact parseU128Chars_iff
theorem reads_decimal : Reads jcDecimal QuotedDecimal := by
  intro j x
  cases j
  case str s => exact parseDecimal_iff
  all_goals
    simp only [jcDecimal, reduceCtorEq, false_iff]
    rintro ⟨s, w, n, h, -⟩; cases h
theorem reads_base64 : Reads jcBin Base64 := by
  intro j x
  cases j <;> simp only [jcBin, Base64, reduceCtorEq, false_and, exists_false, Json.str.injEq, exists_eq_left']
  next s => exact b64Dec_iff

theorem reads_nullable {α : Type} {c : JC α} {r : Shape α} (h : Reads c r) : Reads (jcOpt c) (Nullable r) := by
  intro j x
  cases j
  case null => simp [jcOpt, Nullable, eq_comm]
  all_goals
    simp only [jcOpt, Nullable, Option.map_eq_some_iff, reduceCtorEq, false_and, false_or, ne_eq, not_false_eq_true, true_and, h _ _]
    constructor
    · rintro ⟨a, h1, h2⟩; exact ⟨a, h1, h2.symm⟩
    · rintro ⟨a, h1, h2⟩; exact ⟨a, h1, h2.symm⟩

theorem decList_iff {α : Type} {c : JC α} {r : Shape α} (h : Reads c r) (js : List Json) (l : List α) :
    decList c.dec js = some l ↔ List.Forall₂ r js l := by
  induction js generalizing l with
  | nil => simp [decList, eq_comm]
  | cons j js ih =>
    simp only [decList]
    cases hd : c.dec j with
    | none =>
      simp only [reduceCtorEq, false_iff]
      intro h'
      cases h' with
      | cons h1 _ => rw [(h _ _).mpr h1] at hd; cases hd
    | some x =>
      cases ht : decList c.dec js with
      | none =>
        simp only [reduceCtorEq, false_iff]
        intro h'
        cases h' with
        | cons _ h2 => rw [(ih _).mpr h2] at ht; cases ht
      | some xs =>
        simp only [Option.some.injEq]
        constructor
        · rintro rfl; exact .cons ((h _ _).mp hd) ((ih _).mp ht)
        · intro h'
          cases h' with
          | cons h1 h2 =>
            have e1 := (h _ _).mpr h1
            have e2 := (ih _).mpr h2
            rw [hd] at e1; rw [ht] at e2
            cases e1; cases e2; rfl

theorem reads_many {α : Type} {c : JC α} {r : Shape α} (h : Reads c r) : Reads (jcList c) (Many r) := by
  intro j l
  cases j
  case arr js =>
    simp only [jcList, Many, Json.arr.injEq, exists_eq_left', decList_iff h]
  all_goals simp [jcList, Many]

/-! ## Fields -/

theorem countKey_eq (k : String) (fs : Members) : countKey k fs = (fs.filter fun p => p.1 = k).length := by
  induction fs with
  | nil => rfl
  | cons p fs ih =>
    obtain ⟨k', v⟩ := p
    by_cases h : k' = k
    · simp [countKey, h, ih, Nat.add_comm]
    · simp [countKey, h, ih]

theorem lookupKey_eq (k : String) (fs : Members) : lookupKey k fs = ((fs.filter fun p => p.1 = k).head?).map Prod.snd := by
  induction fs with
  | nil => rfl
  | cons p fs ih =>
    obtain ⟨k', v⟩ := p
    by_cases h : k' = k
    · simp [lookupKey, h]
    · simp [lookupKey, h, ih]

theorem filter_key {k : String} {fs : Members} {p : String × Json} (h : p ∈ fs.filter fun p => p.1 = k) : p.1 = k := by
  simpa using (List.mem_filter.mp h).2

theorem member_iff {k : String} {fs : Members} {j : Json} (h : countKey k fs ≤ 1) : lookupKey k fs = some j ↔ Member fs k j := by
  rw [countKey_eq] at h
  rw [lookupKey_eq, Member]
  generalize hg : (fs.filter fun p => p.1 = k) = g at h
  match g, h with
  | [], _ => simp
  | [(a, b)], _ =>
    have : a = k := filter_key (fs := fs) (p := (a, b)) (by rw [hg]; simp)
    subst this
    simp
theorem absent_iff {k : String} {fs : Members} : lookupKey k fs = none ↔ Absent fs k := by
  rw [lookupKey_eq, Absent]
  simp
theorem member_count {k : String} {fs : Members} {j : Json} (h : Member fs k j) : countKey k fs ≤ 1 := by
  rw [countKey_eq, h]; simp
theorem absent_count {k : String} {fs : Members} (h : Absent fs k) : countKey k fs ≤ 1 := by
  rw [countKey_eq, h]; simp

theorem has_count {α : Type} {r : Shape α} {fs : Members} {k : String} {x : α} (h : Has r fs k x) : countKey k fs ≤ 1 := by
  obtain ⟨j, h, -⟩ := h; exact member_count h
theorem may_count {α : Type} {r : Shape α} {fs : Members} {k : String} {x : Option α} (h : May r fs k x) : countKey k fs ≤ 1 := by
  rcases h with ⟨h, -⟩ | h
  · exact absent_count h
  · exact has_count h
theorem hasArray_count {α : Type} {r : Shape α} {fs : Members} {k : String} {x : List α} (h : HasArray r fs k x) : countKey k fs ≤ 1 := by
  obtain ⟨o, h, -⟩ := h; exact has_count h
theorem mayArray_count {α : Type} {r : Shape α} {fs : Members} {k : String} {x : List α} (h : MayArray r fs k x) : countKey k fs ≤ 1 := by
  obtain ⟨o, h, -⟩ := h; exact may_count h

theorem reqF_iff {α : Type} {c : JC α} {r : Shape α} (h : Reads c r) {fs : Members} {k : String} (hk : countKey k fs ≤ 1) {x : α} :
    reqF c k fs = some x ↔ Has r fs k x := by
  unfold reqF Has
  cases hl : lookupKey k fs with
  | none =>
    simp only [reduceCtorEq, false_iff]
    rintro ⟨j, h1, -⟩
    rw [(member_iff hk).mpr h1] at hl; cases hl
  | some j =>
    simp only [h _ _]
    constructor
    · intro h1; exact ⟨j, (member_iff hk).mp hl, h1⟩
    · rintro ⟨j', h1, h2⟩
      rw [(member_iff hk).mpr h1] at hl; cases hl; exact h2

theorem optF_iff {α : Type} {c : JC α} {r : Shape α} (h : Reads c r) {fs : Members} {k : String} (hk : countKey k fs ≤ 1) {x : Option α} :
    optF c k fs = some x ↔ May r fs k x := by
  have hr := reqF_iff (reads_nullable h) hk (x := x)
  unfold optF May
  unfold reqF at hr
  cases hl : lookupKey k fs with
  | none =>
    rw [hl] at hr
    have ha := absent_iff.mp hl
    simp only [Option.some.injEq]
    constructor
    · rintro rfl; exact Or.inl ⟨ha, rfl⟩
    · rintro (⟨-, h⟩ | h)
      · exact h.symm
      · exact absurd (hr.mpr h) (by simp)
  | some j =>
    rw [hl] at hr
    simp only at hr ⊢
    rw [hr]
    constructor
    · exact Or.inr
    · rintro (⟨h, -⟩ | h)
      · rw [absent_iff.mpr h] at hl; cases hl
      · exact h

theorem nullListF_iff {α : Type} {c : JC α} {r : Shape α} (h : Reads c r) {fs : Members} {k : String} (hk : countKey k fs ≤ 1) {x : List α} :
    nullListF c k fs = some x ↔ HasArray r fs k x := by
  have hr := fun o => reqF_iff (reads_nullable (reads_many h)) hk (x := o)
  unfold HasArray
  simp only [← hr]
  unfold nullListF reqF
  cases lookupKey k fs with
  | none => simp
  | some j => simp [eq_comm]

theorem defListF_iff {α : Type} {c : JC α} {r : Shape α} (h : Reads c r) {fs : Members} {k : String} (hk : countKey k fs ≤ 1) {x : List α} :
    defListF c k fs = some x ↔ MayArray r fs k x := by
  have hr := fun o => optF_iff (reads_many h) hk (x := o)
  unfold MayArray
  simp only [← hr]
  unfold defListF optF
  cases lookupKey k fs with
  | none => simp [eq_comm]
  | some j => simp [eq_comm]

theorem getObj_open {keys : List String} {j : Json} {fs : Members} :
    getObj false keys j = some fs ↔ j = .obj fs ∧ ∀ k ∈ keys, countKey k fs ≤ 1 := by
  cases j <;> simp only [getObj, reduceCtorEq, false_and]
  next gs =>
    by_cases h : keys.all (fun k => decide (countKey k gs ≤ 1)) = true
    · simp only [h, Bool.not_false, Bool.true_or, Bool.and_self, if_true, Option.some.injEq, Json.obj.injEq]
      constructor
      · rintro rfl; exact ⟨rfl, by simpa using h⟩
      · rintro ⟨h, -⟩; exact h
    · simp only [h, Bool.false_and, Bool.false_eq_true, if_false, reduceCtorEq, false_iff]
      rintro ⟨h1, h2⟩
      cases h1
      exact h (by simpa using h2)

theorem getObj_closed {keys : List String} {j : Json} {fs : Members} :
    getObj true keys j = some fs ↔ j = .obj fs ∧ (∀ p ∈ fs, p.1 ∈ keys) ∧ ∀ k ∈ keys, countKey k fs ≤ 1 := by
  cases j <;> simp only [getObj, reduceCtorEq, false_and]
  next gs =>
    by_cases h : keys.all (fun k => decide (countKey k gs ≤ 1)) = true
    · by_cases h' : gs.all (fun p => keys.contains p.1) = true
      · simp only [h, h', Bool.not_true, Bool.false_or, Bool.and_self, if_true, Option.some.injEq, Json.obj.injEq]
        constructor
        · rintro rfl
          exact ⟨rfl, by simpa using h', by simpa using h⟩
        · rintro ⟨h, -⟩; exact h
      · simp only [h', Bool.not_true, Bool.false_or, Bool.and_false, Bool.false_eq_true, if_false, reduceCtorEq, false_iff]
        rintro ⟨h1, h2, -⟩
        cases h1
        apply h'
        rw [List.all_eq_true]
        intro p hp
        simpa using h2 p hp
    · simp only [h, Bool.false_and, Bool.false_eq_true, if_false, reduceCtorEq, false_iff]
      rintro ⟨h1, -, h2⟩
      cases h1
      exact h (by simpa using h2)

end Ica
