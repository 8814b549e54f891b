import Verif.Dec

/-! # `Decimal` text round trip (helper lemmas) -/
namespace Ica

theorem splitDots_nodot {cs : List Char} (h : ∀ c ∈ cs, c ≠ '.') : splitDots cs = [cs] := by
  induction cs with
  | nil => rfl
  | cons c cs ih =>
    have h1 := ih (fun x hx => h x (by simp [hx]))
    have h2 : c ≠ '.' := h c (by simp)
    simp [splitDots, h1, h2]

theorem splitDots_dot {as bs : List Char} (ha : ∀ c ∈ as, c ≠ '.') (hb : ∀ c ∈ bs, c ≠ '.') :
    splitDots (as ++ '.' :: bs) = [as, bs] := by
  induction as with
  | nil => simp [splitDots, splitDots_nodot hb]
  | cons c cs ih =>
    have h1 := ih (fun x hx => ha x (by simp [hx]))
    have h2 : c ≠ '.' := ha c (by simp)
    simp [splitDots, h1, h2]

theorem isDigit_ne_dot {c : Char} (h : isDigit c = true) : c ≠ '.' := by
  rintro rfl; revert h; decide

theorem isDigit_ne_plus {c : Char} (h : isDigit c = true) : c ≠ '+' := by
  rintro rfl; revert h; decide

theorem decAux_length : ∀ (f n k : Nat), 0 < k → n < 10 ^ k → (decAux f n).length ≤ k
  | 0, n, k, hk, _ => by simp [decAux]; omega
  | f + 1, n, k, hk, h => by
    unfold decAux
    split
    · simp; omega
    · next hn =>
      obtain ⟨k, rfl⟩ : ∃ j, k = j + 1 := ⟨k - 1, by omega⟩
      have hk' : 0 < k := by
        rcases Nat.eq_zero_or_pos k with rfl | h0
        · simp at h; omega
        · exact h0
      have hlt : n / 10 < 10 ^ k := by
        rw [Nat.div_lt_iff_lt_mul (by decide)]
        calc n < 10 ^ (k + 1) := h
          _ = 10 ^ k * 10 := by ring
      have := decAux_length f (n / 10) k hk' hlt
      simp; omega

theorem decChars_length {n k : Nat} (hk : 0 < k) (h : n < 10 ^ k) : (decChars n).length ≤ k :=
  decAux_length _ _ _ hk h

theorem parseDigits_zeros (acc k : Nat) :
    parseDigits acc (List.replicate k '0') = some (acc * 10 ^ k) := by
  induction k generalizing acc with
  | zero => simp [parseDigits]
  | succ k ih =>
    have : digitVal '0' = some 0 := by decide
    simp only [List.replicate_succ, parseDigits, this, ih]
    congr 1; ring

theorem trimZeros_spec (cs : List Char) :
    ∃ k, cs = trimZeros cs ++ List.replicate k '0' := by
  have key : ∀ l : List Char, ∃ k, l = List.replicate k '0' ++ l.dropWhile (· == '0') := by
    intro l
    induction l with
    | nil => exact ⟨0, rfl⟩
    | cons c l ih =>
      obtain ⟨k, hk⟩ := ih
      by_cases hc : c = '0'
      · subst hc
        refine ⟨k + 1, ?_⟩
        simp only [List.dropWhile_cons, beq_self_eq_true, if_true, List.replicate_succ, List.cons_append]
        rw [← hk]
      · refine ⟨0, ?_⟩
        simp [hc]
  obtain ⟨k, hk⟩ := key cs.reverse
  refine ⟨k, ?_⟩
  have := congrArg List.reverse hk
  simpa [trimZeros] using this

theorem parseUnsigned_digits {cs : List Char} (hne : cs ≠ []) (hd : ∀ c ∈ cs, isDigit c = true) :
    parseUnsigned cs = parseDigits 0 cs := by
  cases cs with
  | nil => exact absurd rfl hne
  | cons c cs =>
    have : c ≠ '+' := isDigit_ne_plus (hd c (by simp))
    simp [parseUnsigned, this, parseDecChars]

theorem parseU128Chars_decChars {n : Nat} (h : n < u128Bound) :
    parseU128Chars (decChars n) = some ⟨n, h⟩ := by
  simp [parseU128Chars, parseUnsigned_decChars, U128.ofNat?, h]

theorem U128.ofNat?_of_lt {n : Nat} (h : n < u128Bound) : U128.ofNat? n = some ⟨n, h⟩ := by
  unfold U128.ofNat?; rw [dif_pos h]

theorem frac_text {fr : Nat} (h0 : fr ≠ 0) (hfr : (decChars fr).length ≤ 18) :
    ∃ v, parseDigits 0 (trimZeros (pad18 (decChars fr))) = some v ∧
      v * 10 ^ (18 - (trimZeros (pad18 (decChars fr))).length) = fr ∧
      (trimZeros (pad18 (decChars fr))).length ≤ 18 ∧
      trimZeros (pad18 (decChars fr)) ≠ [] ∧
      ∀ c ∈ trimZeros (pad18 (decChars fr)), isDigit c = true := by
  generalize ht : trimZeros (pad18 (decChars fr)) = t
  obtain ⟨k, hk⟩ := trimZeros_spec (pad18 (decChars fr))
  rw [ht] at hk
  have hplen : (pad18 (decChars fr)).length = 18 := by
    unfold pad18
    rw [List.length_append, List.length_replicate]
    omega
  have htk : t.length + k = 18 := by
    have := congrArg List.length hk
    rw [hplen, List.length_append, List.length_replicate] at this
    omega
  have hpd : ∀ c ∈ pad18 (decChars fr), isDigit c = true := by
    intro c hc
    unfold pad18 at hc
    rw [List.mem_append] at hc
    rcases hc with hc | hc
    · rw [List.mem_replicate] at hc
      rw [hc.2]; decide
    · exact decChars_all_digit _ c hc
  have htd : ∀ c ∈ t, isDigit c = true := fun c hc => hpd c (by rw [hk]; simp [hc])
  have hpp : parseDigits 0 (pad18 (decChars fr)) = some fr := by
    unfold pad18
    rw [parseDigits_append, parseDigits_zeros, Nat.zero_mul]
    exact parseDigits_decChars fr
  rw [hk, parseDigits_append] at hpp
  have hk' : 18 - t.length = k := by omega
  cases hv : parseDigits 0 t with
  | none => rw [hv] at hpp; simp at hpp
  | some v =>
    rw [hv] at hpp
    simp only [Option.bind_some, parseDigits_zeros, Option.some.injEq] at hpp
    refine ⟨v, rfl, by rw [hk']; exact hpp, by omega, ?_, htd⟩
    rintro rfl
    simp only [parseDigits, Option.some.injEq] at hv
    subst hv
    rw [Nat.zero_mul] at hpp
    exact h0 hpp.symm

theorem parseDecimalChars_decimalChars (D : Nat) (hD : 0 < D) (hD' : D ≤ 10 ^ 18) (a : Nat)
    (ha : a < u128Bound) : parseDecimalChars D (decimalChars D a) = some ⟨a, ha⟩ := by
  have hnd : ∀ n, ∀ c ∈ decChars n, c ≠ '.' := fun n c hc => isDigit_ne_dot (decChars_all_digit n c hc)
  have hdiv : a / D * D + a % D = a := Nat.div_add_mod' a D
  have hlen : (decChars (a % D)).length ≤ 18 :=
    decChars_length (by decide) (lt_of_lt_of_le (Nat.mod_lt a hD) hD')
  have hwl' : a / D < u128Bound := lt_of_le_of_lt (Nat.div_le_self _ _) ha
  have hp := parseU128Chars_decChars hwl'
  unfold parseDecimalChars decimalChars
  by_cases h0 : a % D = 0
  · rw [if_pos h0, splitDots_nodot (hnd _)]
    simp only [hp]
    rw [h0, Nat.add_zero] at hdiv
    simp only [hdiv]
    exact U128.ofNat?_of_lt ha
  · rw [if_neg h0]
    obtain ⟨v, hv, hvk, hl, hne, hdg⟩ := frac_text h0 hlen
    have hvl : v < u128Bound := by
      have h1 : v ≤ v * 10 ^ (18 - (trimZeros (pad18 (decChars (a % D)))).length) :=
        Nat.le_mul_of_pos_right _ (Nat.pow_pos (by decide))
      rw [hvk] at h1
      exact lt_of_le_of_lt (le_trans h1 (Nat.mod_le _ _)) ha
    have hpt : parseU128Chars (trimZeros (pad18 (decChars (a % D)))) = some ⟨v, hvl⟩ := by
      unfold parseU128Chars
      rw [parseUnsigned_digits hne hdg, hv]
      exact U128.ofNat?_of_lt hvl
    rw [splitDots_dot (hnd _) (fun c hc => isDigit_ne_dot (hdg c hc))]
    simp only [hp, hpt, if_pos hl, hvk, hdiv]
    exact U128.ofNat?_of_lt ha

/-- Printing then parsing a `Decimal` gives it back. -/
theorem parseDecimal_toString (d : Decimal) : parseDecimal d.toString = some d := by
  obtain ⟨⟨a, ha⟩⟩ := d
  unfold parseDecimal Decimal.toString Decimal.chars
  rw [String.toList_ofList, parseDecimalChars_decimalChars decimalFractional (by decide)
    (by norm_num [decimalFractional]) a ha]
  rfl

end Ica
