import Verif.Spec.Formats
import Verif.JsonFacts
import Mathlib.Tactic.IntervalCases

/-! # The JSON printer and parser against the grammar of RFC 8259 (helper lemmas) -/
namespace Ica
open Format

theorem isWs_iff (c : Char) : isWs c = true ↔ c ∈ [' ', '\t', '\n', '\r'] := by
  simp only [isWs, Bool.or_eq_true, decide_eq_true_eq, List.mem_cons, List.not_mem_nil, or_false]
  tauto

theorem skipWs_spec (cs : List Char) : ∃ w, cs = w ++ skipWs cs ∧ Ws w := by
  induction cs with
  | nil => exact ⟨[], rfl, by simp [Ws]⟩
  | cons c cs ih =>
    unfold skipWs
    split
    · next h =>
      obtain ⟨w, h1, h2⟩ := ih
      refine ⟨c :: w, by rw [List.cons_append, ← h1], ?_⟩
      intro x hx
      rcases List.mem_cons.mp hx with rfl | hx
      · exact (isWs_iff _).mp h
      · exact h2 x hx
    · exact ⟨[], rfl, by simp [Ws]⟩

theorem skipWs_append {w : List Char} (h : Ws w) (cs : List Char) : skipWs (w ++ cs) = skipWs cs := by
  induction w with
  | nil => rfl
  | cons c w ih =>
    have h1 : isWs c = true := (isWs_iff c).mpr (h c (by simp))
    simp only [List.cons_append, skipWs, h1, if_true]
    exact ih (fun x hx => h x (by simp [hx]))

theorem skipWs_all {w : List Char} (h : Ws w) : skipWs w = [] := by
  have := skipWs_append h []
  simpa [skipWs] using this

/-! ## Strings -/

theorem charToNat_ofNat {n : Nat} (h : n.isValidChar) : (Char.ofNat n).toNat = n := by
  simp [Char.ofNat, h, Char.toNat, Char.ofNatAux]

theorem isHex_iff (d : Nat) (c : Char) : hexVal c = some d ↔ IsHex d c := by
  constructor
  · intro h
    unfold hexVal at h
    have hc : Char.ofNat c.toNat = c := charOfNat_toNat c
    simp only at h
    split at h
    · next h1 =>
      simp only [Option.some.injEq] at h
      subst h
      rw [← hc]
      generalize c.toNat = n at h1
      obtain ⟨h1, h2⟩ := h1
      rw [show (Char.ofNat n).toNat = n from charToNat_ofNat (Or.inl (by omega))]
      left
      interval_cases n <;> decide
    split at h
    · next h1 =>
      simp only [Option.some.injEq] at h
      subst h
      rw [← hc]
      generalize c.toNat = n at h1
      obtain ⟨h1, h2⟩ := h1
      rw [show (Char.ofNat n).toNat = n from charToNat_ofNat (Or.inl (by omega))]
      right
      interval_cases n <;> decide
    split at h
    · next h1 =>
      simp only [Option.some.injEq] at h
      subst h
      rw [← hc]
      generalize c.toNat = n at h1
      obtain ⟨h1, h2⟩ := h1
      rw [show (Char.ofNat n).toNat = n from charToNat_ofNat (Or.inl (by omega))]
      left
      interval_cases n <;> decide
    · simp at h
  · intro h
    have hd : d < 16 := by
      rcases h with h | h
      · exact (List.getElem?_eq_some_iff.mp h).1
      · exact (List.getElem?_eq_some_iff.mp h).1
    have key1 : ∀ d : Fin 16, hexVal (("0123456789abcdef".toList)[d.val]?.getD ' ') = some d.val := by decide
    have key2 : ∀ d : Fin 16, hexVal (("0123456789ABCDEF".toList)[d.val]?.getD ' ') = some d.val := by decide
    rcases h with h | h
    · have := key1 ⟨d, hd⟩; rw [h] at this; exact this
    · have := key2 ⟨d, hd⟩; rw [h] at this; exact this

theorem hex4_iff {a b c d : Char} {n : Nat} : hex4 a b c d = some n ↔ IsHex4 n [a, b, c, d] := by
  unfold hex4 IsHex4
  constructor
  · intro h
    simp only [Option.bind_eq_bind, Option.bind_eq_some_iff, Option.some.injEq] at h
    obtain ⟨w, hw, x, hx, y, hy, z, hz, rfl⟩ := h
    exact ⟨a, b, c, d, w, x, y, z, rfl, (isHex_iff _ _).mp hw, (isHex_iff _ _).mp hx, (isHex_iff _ _).mp hy,
      (isHex_iff _ _).mp hz, by norm_num⟩
  · rintro ⟨a', b', c', d', w, x, y, z, h, hw, hx, hy, hz, rfl⟩
    simp only [List.cons.injEq, and_true] at h
    obtain ⟨rfl, rfl, rfl, rfl⟩ := h
    simp only [(isHex_iff _ _).mpr hw, (isHex_iff _ _).mpr hx, (isHex_iff _ _).mpr hy, (isHex_iff _ _).mpr hz,
      Option.bind_eq_bind, Option.bind_some]
    norm_num

theorem isHex_lt {d : Nat} {c : Char} (h : IsHex d c) : d < 16 := by
  rcases h with h | h
  · exact (List.getElem?_eq_some_iff.mp h).1
  · exact (List.getElem?_eq_some_iff.mp h).1

theorem isHex4_lt {n : Nat} {t : List Char} (h : IsHex4 n t) : n < 0x10000 := by
  obtain ⟨a, b, c, d, w, x, y, z, -, hw, hx, hy, hz, rfl⟩ := h
  have := isHex_lt hw; have := isHex_lt hx; have := isHex_lt hy; have := isHex_lt hz
  omega

theorem simpleEsc_iff (e c : Char) : simpleEsc e = some c ↔ (e, c) ∈ shortEscapes := by
  unfold simpleEsc shortEscapes
  constructor
  · intro h
    repeat' split at h
    all_goals simp_all [eq_comm]
  · intro h
    simp only [List.mem_cons, Prod.mk.injEq, List.not_mem_nil, or_false] at h
    rcases h with ⟨rfl, rfl⟩ | ⟨rfl, rfl⟩ | ⟨rfl, rfl⟩ | ⟨rfl, rfl⟩ | ⟨rfl, rfl⟩ | ⟨rfl, rfl⟩ | ⟨rfl, rfl⟩ | ⟨rfl, rfl⟩ <;>
      decide

theorem char_not_surrogate (c : Char) : ¬ (0xD800 ≤ c.toNat ∧ c.toNat < 0xE000) := by
  have h : c.toNat < 55296 ∨ (57343 < c.toNat ∧ c.toNat < 1114112) := c.valid
  omega

theorem parseStrBody_sound : ∀ (k : Nat) (cs s r : List Char), cs.length ≤ k → parseStrBody cs = some (s, r) →
    ∃ b, cs = b ++ '"' :: r ∧ IsChars s b := by
  intro k
  induction k with
  | zero =>
    intro cs s r hk h
    cases cs with
    | nil => simp [parseStrBody] at h
    | cons c cs => simp at hk
  | succ k ih =>
    intro cs s r hk h
    cases cs with
    | nil => simp [parseStrBody] at h
    | cons c cs =>
      rw [parseStrBody.eq_def] at h
      simp only at h
      simp only [List.length_cons] at hk
      split at h
      · next hc =>
        simp only [Option.some.injEq, Prod.mk.injEq] at h
        obtain ⟨rfl, rfl⟩ := h
        exact ⟨[], by rw [hc]; rfl, .nil⟩
      split at h
      · next hc =>
        subst hc
        cases cs with
        | nil => simp at h
        | cons e r1 =>
          simp only [List.length_cons] at hk
          simp only at h
          split at h
          · next he =>
            subst he
            split at h
            · next h1 h2 h3 h4 r2 =>
              simp only [List.length_cons] at hk
              cases hx : hex4 h1 h2 h3 h4 with
              | none => rw [hx] at h; simp at h
              | some n =>
                rw [hx] at h
                simp only at h
                have hn := hex4_iff.mp hx
                have hlt := isHex4_lt hn
                split at h
                · next hs =>
                  split at h
                  · next b u g1 g2 g3 g4 r3 =>
                    simp only [List.length_cons] at hk
                    split at h
                    · next hbu =>
                      obtain ⟨rfl, rfl⟩ := hbu
                      cases hy : hex4 g1 g2 g3 g4 with
                      | none => rw [hy] at h; simp at h
                      | some m =>
                        rw [hy] at h
                        simp only at h
                        have hm := hex4_iff.mp hy
                        split at h
                        · next hms =>
                          cases hp : parseStrBody r3 with
                          | none => rw [hp] at h; simp at h
                          | some q =>
                            obtain ⟨s', t⟩ := q
                            rw [hp] at h
                            simp only [Option.some.injEq, Prod.mk.injEq] at h
                            obtain ⟨rfl, rfl⟩ := h
                            obtain ⟨b, rfl, hb⟩ := ih r3 s' t (by omega) hp
                            refine ⟨'\\' :: 'u' :: [h1, h2, h3, h4] ++ '\\' :: 'u' :: [g1, g2, g3, g4] ++ b, by simp, ?_⟩
                            refine .cons (.pair _ n m _ _ hn hm hs.1 hs.2 hms.1 hms.2 ?_) hb
                            exact charToNat_ofNat (Or.inr ⟨by omega, by omega⟩)
                        · simp at h
                    · simp at h
                  · simp at h
                · next hs =>
                  split at h
                  · simp at h
                  · next hs2 =>
                    cases hp : parseStrBody r2 with
                    | none => rw [hp] at h; simp at h
                    | some q =>
                      obtain ⟨s', t⟩ := q
                      rw [hp] at h
                      simp only [Option.some.injEq, Prod.mk.injEq] at h
                      obtain ⟨rfl, rfl⟩ := h
                      obtain ⟨b, rfl, hb⟩ := ih r2 s' t (by omega) hp
                      refine ⟨'\\' :: 'u' :: [h1, h2, h3, h4] ++ b, by simp, .cons (.unicode _ _ ?_) hb⟩
                      rw [charToNat_ofNat]
                      · exact hn
                      · by_cases hd : n < 0xD800
                        · exact Or.inl hd
                        · exact Or.inr ⟨by omega, by omega⟩
            · simp at h
          · next he =>
            cases hx : simpleEsc e with
            | none => rw [hx] at h; simp at h
            | some x =>
              rw [hx] at h
              cases hp : parseStrBody r1 with
              | none => simp [hp] at h
              | some q =>
                obtain ⟨s', t⟩ := q
                simp only [hp, Option.some.injEq, Prod.mk.injEq] at h
                obtain ⟨rfl, rfl⟩ := h
                obtain ⟨b, rfl, hb⟩ := ih r1 s' t (by omega) hp
                exact ⟨['\\', e] ++ b, by simp, .cons (.short e x ((simpleEsc_iff _ _).mp hx)) hb⟩
      split at h
      · simp at h
      · next h1 h2 h3 =>
        cases hp : parseStrBody cs with
        | none => simp [hp] at h
        | some q =>
          obtain ⟨s', t⟩ := q
          simp only [hp, Option.some.injEq, Prod.mk.injEq] at h
          obtain ⟨rfl, rfl⟩ := h
          obtain ⟨b, rfl, hb⟩ := ih cs s' t (by omega) hp
          exact ⟨[c] ++ b, by simp, .cons (.plain c (by omega) h1 h2) hb⟩

theorem isHex4_four {n : Nat} {t : List Char} (h : IsHex4 n t) : ∃ a b c d, t = [a, b, c, d] ∧ hex4 a b c d = some n := by
  obtain ⟨a, b, c, d, w, x, y, z, rfl, hr⟩ := h
  exact ⟨a, b, c, d, rfl, hex4_iff.mpr ⟨a, b, c, d, w, x, y, z, rfl, hr⟩⟩

theorem parseStrBody_complete {s b : List Char} (h : IsChars s b) (r : List Char) :
    parseStrBody (b ++ '"' :: r) = some (s, r) := by
  induction h with
  | nil => exact parseStrBody_quote r
  | @cons c cs t u hc hcs ih =>
    rw [List.append_assoc]
    cases hc with
    | plain _ h1 h2 h3 =>
      simp only [List.cons_append, List.nil_append]
      rw [parseStrBody.eq_def]
      simp only
      rw [if_neg h2, if_neg h3, if_neg (by omega), ih]
    | short e _ he =>
      have hu : e ≠ 'u' := by
        rintro rfl
        have := (simpleEsc_iff _ _).mpr he
        revert this
        simp [simpleEsc]
      simp only [List.cons_append, List.nil_append]
      rw [parseStrBody_simple ((simpleEsc_iff _ _).mpr he) hu, ih]
    | unicode _ t ht =>
      obtain ⟨a, b, c', d, rfl, hx⟩ := isHex4_four ht
      have hns := char_not_surrogate c
      simp only [List.cons_append, List.nil_append]
      rw [parseStrBody.eq_def]
      simp only
      rw [if_neg (by decide)]
      simp only [if_true, hx]
      rw [if_neg (by omega), if_neg (by omega), ih]
      simp only [charOfNat_toNat]
    | pair _ hi lo t u ht hu h1 h2 h3 h4 h5 =>
      obtain ⟨a, b, c', d, rfl, hx⟩ := isHex4_four ht
      obtain ⟨e, f, g, i, rfl, hy⟩ := isHex4_four hu
      simp only [List.cons_append, List.nil_append]
      rw [parseStrBody.eq_def]
      simp only
      rw [if_neg (by decide)]
      simp only [if_true, hx]
      rw [if_pos ⟨h1, h2⟩]
      simp only [and_self, if_true, hy]
      rw [if_pos ⟨h3, h4⟩, ih]
      simp only [← h5, charOfNat_toNat]

/-! ## Numbers -/

theorem isDigit_iff (c : Char) : isDigit c = true ↔ c ∈ "0123456789".toList := by
  constructor
  · intro h
    unfold isDigit digitVal at h
    split at h
    · next h1 =>
      have hc : Char.ofNat c.toNat = c := charOfNat_toNat c
      rw [← hc]
      generalize c.toNat = n at h1
      obtain ⟨h1, h2⟩ := h1
      interval_cases n <;> decide
    · simp at h
  · intro h
    have : ∀ c ∈ "0123456789".toList, isDigit c = true := by decide
    exact this c h

theorem parseDigits_eq {t : List Char} (h : ∀ c ∈ t, isDigit c = true) (acc : Nat) :
    parseDigits acc t = some (t.foldl (fun n c => 10 * n + (c.toNat - '0'.toNat)) acc) := by
  induction t generalizing acc with
  | nil => rfl
  | cons c t ih =>
    have h1 := h c (by simp)
    unfold isDigit digitVal at h1
    simp only [parseDigits, digitVal, List.foldl_cons]
    split at h1
    · next h2 =>
      rw [if_pos h2]
      simp only
      rw [ih (fun x hx => h x (by simp [hx]))]
      congr 2
      have : '0'.toNat = 48 := rfl
      omega
    · simp at h1

theorem parseDigits_some {t : List Char} {acc n : Nat} (h : parseDigits acc t = some n) : ∀ c ∈ t, isDigit c = true := by
  induction t generalizing acc with
  | nil => simp
  | cons c t ih =>
    simp only [parseDigits] at h
    cases hd : digitVal c with
    | none => rw [hd] at h; simp at h
    | some d =>
      rw [hd] at h
      intro x hx
      rcases List.mem_cons.mp hx with rfl | hx
      · simp [isDigit, hd]
      · exact ih h x hx

theorem takeDigits_spec (cs : List Char) : cs = (takeDigits cs).1 ++ (takeDigits cs).2 := by
  induction cs with
  | nil => rfl
  | cons c cs ih =>
    unfold takeDigits
    split
    · simp only [List.cons_append]; rw [← ih]
    · rfl

theorem parseNum_sound {cs r : List Char} {n : Nat} (h : parseNum cs = some (n, r)) :
    ∃ t, cs = t ++ r ∧ IsNatural n t := by
  cases cs with
  | nil => simp [parseNum] at h
  | cons c cs =>
    unfold parseNum at h
    simp only at h
    split at h
    · next hc =>
      simp only [Option.some.injEq, Prod.mk.injEq] at h
      obtain ⟨rfl, rfl⟩ := h
      subst hc
      exact ⟨['0'], rfl, by simp, by simp [IsDigits], fun _ => rfl, rfl⟩
    · next hc =>
      have hs := takeDigits_spec (c :: cs)
      generalize hq : takeDigits (c :: cs) = q at h hs
      obtain ⟨d, rest⟩ := q
      simp only at h hs
      cases hp : parseDecChars d with
      | none => rw [hp] at h; simp at h
      | some m =>
        rw [hp] at h
        simp only [Option.some.injEq, Prod.mk.injEq] at h
        obtain ⟨rfl, rfl⟩ := h
        cases d with
        | nil => simp [parseDecChars] at hp
        | cons x d =>
          have hp' : parseDigits 0 (x :: d) = some m := hp
          have hd := parseDigits_some hp'
          rw [parseDigits_eq hd] at hp'
          simp only [List.cons_append, List.cons.injEq] at hs
          refine ⟨x :: d, by rw [List.cons_append, ← hs.2, hs.1], by simp, fun c hc => (isDigit_iff c).mp (hd c hc), ?_, ?_⟩
          · intro h0
            simp only [List.head?_cons, Option.some.injEq] at h0
            exact absurd (hs.1.trans h0) hc
          · exact Option.some.inj hp'

theorem parseNum_complete {t r : List Char} {n : Nat} (h : IsNatural n t) (hr : NoDigit r) :
    parseNum (t ++ r) = some (n, r) := by
  obtain ⟨h1, h2, h3, h4⟩ := h
  cases t with
  | nil => exact absurd rfl h1
  | cons c t =>
    by_cases hc : c = '0'
    · subst hc
      have := h3 rfl
      simp only [List.cons.injEq, true_and] at this
      subst this
      simp only [decimal, List.foldl_cons, List.foldl_nil] at h4
      subst h4
      simp [parseNum]
    · have hd : ∀ x ∈ c :: t, isDigit x = true := fun x hx => (isDigit_iff x).mpr (h2 x hx)
      have ht := takeDigits_append hd hr
      simp only [List.cons_append] at ht ⊢
      simp only [parseNum, hc, if_false, ht]
      have : parseDecChars (c :: t) = some n := by
        show parseDigits 0 (c :: t) = some n
        rw [parseDigits_eq hd, ← h4]; rfl
      rw [this]

theorem isNatural_decChars (n : Nat) : IsNatural n (decChars n) := by
  have h := parseNum_decChars n (rest := []) (by intro c cs h; simp at h)
  obtain ⟨t, h1, h2⟩ := parseNum_sound h
  simp only [List.append_nil] at h1
  rw [h1]; exact h2

/-! ## Values -/

theorem Format.Ws.append {a b : List Char} (ha : Ws a) (hb : Ws b) : Ws (a ++ b) := by
  intro c hc
  rcases List.mem_append.mp hc with h | h
  · exact ha c h
  · exact hb c h

theorem Format.IsElements.ws {a t : List Char} {xs : List Json} (ha : Ws a) (h : IsElements xs t) : IsElements xs (a ++ t) := by
  cases h with
  | one hv ht hw =>
    have := IsElements.one (ha.append hv) ht hw
    simpa only [List.append_assoc] using this
  | cons hv ht hw hu =>
    have := IsElements.cons (ha.append hv) ht hw hu
    simpa only [List.append_assoc] using this

theorem Format.IsMembers.ws {a t : List Char} {fs : List (String × Json)} (ha : Ws a) (h : IsMembers fs t) :
    IsMembers fs (a ++ t) := by
  cases h with
  | one h1 h2 h3 h4 h5 h6 =>
    have := IsMembers.one (ha.append h1) h2 h3 h4 h5 h6
    simpa only [List.append_assoc] using this
  | cons h1 h2 h3 h4 h5 h6 h7 =>
    have := IsMembers.cons (ha.append h1) h2 h3 h4 h5 h6 h7
    simpa only [List.append_assoc] using this

theorem expect_sound : ∀ {w cs r : List Char}, expect w cs = some r → cs = w ++ r
  | [], cs, r, h => by simp [expect] at h; simp [h]
  | _ :: _, [], r, h => by simp [expect] at h
  | x :: w, c :: cs, r, h => by
    simp only [expect] at h
    split at h
    · next hx => rw [expect_sound h, hx]; rfl
    · simp at h

theorem expect_complete (w r : List Char) : expect w (w ++ r) = some r := by
  induction w with
  | nil => rfl
  | cons x w ih => simp [expect, ih]

theorem parse_sound (f : Nat) :
    (∀ cs j r, parseValue f cs = some (j, r) → ∃ w t, cs = w ++ t ++ r ∧ Ws w ∧ IsJson j t) ∧
    (∀ cs xs r, parseElems f cs = some (xs, r) → ∃ t, cs = t ++ ']' :: r ∧ IsElements xs t) ∧
    (∀ cs fs r, parseFields f cs = some (fs, r) → ∃ t, cs = t ++ '}' :: r ∧ IsMembers fs t) := by
  induction f with
  | zero => refine ⟨?_, ?_, ?_⟩ <;> (intro cs x r h; simp [parseValue, parseElems, parseFields] at h)
  | succ f ih =>
    obtain ⟨ihv, ihe, ihf⟩ := ih
    refine ⟨?_, ?_, ?_⟩
    · intro cs j r h
      rw [parseValue] at h
      obtain ⟨w, hw, hws⟩ := skipWs_spec cs
      generalize skipWs cs = cs' at h hw
      subst hw
      suffices ∃ t, cs' = t ++ r ∧ IsJson j t by
        obtain ⟨t, rfl, ht⟩ := this
        exact ⟨w, t, by simp, hws, ht⟩
      cases cs' with
      | nil => simp at h
      | cons c cs =>
        simp only at h
        split at h
        · next hc =>
          simp only [Option.map_eq_some_iff, Prod.mk.injEq] at h
          obtain ⟨t, h1, rfl, rfl⟩ := h
          rw [hc, expect_sound h1]
          exact ⟨"null".toList, by simp, .null⟩
        split at h
        · next hc =>
          simp only [Option.map_eq_some_iff, Prod.mk.injEq] at h
          obtain ⟨t, h1, rfl, rfl⟩ := h
          rw [hc, expect_sound h1]
          exact ⟨"true".toList, by simp, .true⟩
        split at h
        · next hc =>
          simp only [Option.map_eq_some_iff, Prod.mk.injEq] at h
          obtain ⟨t, h1, rfl, rfl⟩ := h
          rw [hc, expect_sound h1]
          exact ⟨"false".toList, by simp, .false⟩
        split at h
        · next hc =>
          simp only [Option.map_eq_some_iff, Prod.mk.injEq] at h
          obtain ⟨⟨s, t⟩, h1, rfl, rfl⟩ := h
          obtain ⟨b, rfl, hb⟩ := parseStrBody_sound _ _ _ _ (Nat.le_refl _) h1
          exact ⟨'"' :: b ++ ['"'], by simp [hc], .str ⟨b, by simpa using hb, rfl⟩⟩
        split at h
        · next hc =>
          obtain ⟨v, hv, hvs⟩ := skipWs_spec cs
          generalize skipWs cs = cs' at h hv
          subst hv
          cases cs' with
          | nil => simp at h
          | cons c' r' =>
            simp only at h
            split at h
            · next hc' =>
              simp only [Option.some.injEq, Prod.mk.injEq] at h
              obtain ⟨rfl, rfl⟩ := h
              exact ⟨'[' :: v ++ [']'], by simp [hc, hc'], .arrEmpty hvs⟩
            · simp only [Option.map_eq_some_iff, Prod.mk.injEq] at h
              obtain ⟨⟨xs, t⟩, h1, rfl, rfl⟩ := h
              obtain ⟨u, h2, hu⟩ := ihe _ _ _ h1
              refine ⟨'[' :: (v ++ u) ++ [']'], by simp [hc, h2], .arr ?_⟩
              exact IsElements.ws hvs hu
        split at h
        · next hc =>
          obtain ⟨v, hv, hvs⟩ := skipWs_spec cs
          generalize skipWs cs = cs' at h hv
          subst hv
          cases cs' with
          | nil => simp at h
          | cons c' r' =>
            simp only at h
            split at h
            · next hc' =>
              simp only [Option.some.injEq, Prod.mk.injEq] at h
              obtain ⟨rfl, rfl⟩ := h
              exact ⟨'{' :: v ++ ['}'], by simp [hc, hc'], .objEmpty hvs⟩
            · simp only [Option.map_eq_some_iff, Prod.mk.injEq] at h
              obtain ⟨⟨xs, t⟩, h1, rfl, rfl⟩ := h
              obtain ⟨u, h2, hu⟩ := ihf _ _ _ h1
              refine ⟨'{' :: (v ++ u) ++ ['}'], by simp [hc, h2], .obj ?_⟩
              exact IsMembers.ws hvs hu
        · simp only [Option.map_eq_some_iff, Prod.mk.injEq] at h
          obtain ⟨⟨n, t⟩, h1, rfl, rfl⟩ := h
          obtain ⟨u, h2, hu⟩ := parseNum_sound h1
          exact ⟨u, h2, .num hu⟩
    · intro cs xs r h
      rw [parseElems] at h
      cases hp : parseValue f cs with
      | none => rw [hp] at h; simp at h
      | some q =>
        obtain ⟨v, r1⟩ := q
        rw [hp] at h
        simp only at h
        obtain ⟨w, t, rfl, hw, ht⟩ := ihv _ _ _ hp
        obtain ⟨w', hw', hws'⟩ := skipWs_spec r1
        generalize skipWs r1 = r2 at h hw'
        subst hw'
        cases r2 with
        | nil => simp at h
        | cons c r' =>
          simp only at h
          split at h
          · next hc =>
            simp only [Option.map_eq_some_iff, Prod.mk.injEq] at h
            obtain ⟨⟨ys, u⟩, h1, rfl, rfl⟩ := h
            obtain ⟨u', rfl, hu'⟩ := ihe _ _ _ h1
            exact ⟨w ++ t ++ w' ++ ',' :: u', by simp [hc], .cons hw ht hws' hu'⟩
          split at h
          · next hc =>
            simp only [Option.some.injEq, Prod.mk.injEq] at h
            obtain ⟨rfl, rfl⟩ := h
            exact ⟨w ++ t ++ w', by simp [hc], .one hw ht hws'⟩
          · simp at h
    · intro cs fs r h
      rw [parseFields] at h
      obtain ⟨a, ha, has⟩ := skipWs_spec cs
      generalize skipWs cs = cs' at h ha
      subst ha
      cases cs' with
      | nil => simp at h
      | cons q cs =>
        simp only at h
        split at h
        · next hq =>
          subst hq
          cases hs : parseStrBody cs with
          | none => rw [hs] at h; simp at h
          | some p =>
            obtain ⟨k, r1⟩ := p
            rw [hs] at h
            simp only at h
            obtain ⟨s, rfl, hk⟩ := parseStrBody_sound _ _ _ _ (Nat.le_refl _) hs
            have hstr : IsString (String.ofList k) ('"' :: s ++ ['"']) := ⟨s, by simpa using hk, rfl⟩
            obtain ⟨b, hb, hbs⟩ := skipWs_spec r1
            generalize skipWs r1 = r1' at h hb
            subst hb
            cases r1' with
            | nil => simp at h
            | cons c r2 =>
              simp only at h
              split at h
              · next hc =>
                subst hc
                cases hp : parseValue f r2 with
                | none => rw [hp] at h; simp at h
                | some q =>
                  obtain ⟨v, r3⟩ := q
                  rw [hp] at h
                  simp only at h
                  obtain ⟨w, t, rfl, hw, ht⟩ := ihv _ _ _ hp
                  obtain ⟨w', hw', hws'⟩ := skipWs_spec r3
                  generalize skipWs r3 = r3' at h hw'
                  subst hw'
                  cases r3' with
                  | nil => simp at h
                  | cons c' r4 =>
                    simp only at h
                    split at h
                    · next hc =>
                      simp only [Option.map_eq_some_iff, Prod.mk.injEq] at h
                      obtain ⟨⟨ys, u⟩, h1, rfl, rfl⟩ := h
                      obtain ⟨u', rfl, hu'⟩ := ihf _ _ _ h1
                      exact ⟨a ++ ('"' :: s ++ ['"']) ++ b ++ ':' :: (w ++ t ++ w' ++ ',' :: u'), by simp [hc],
                        .cons has hstr hbs hw ht hws' hu'⟩
                    split at h
                    · next hc =>
                      simp only [Option.some.injEq, Prod.mk.injEq] at h
                      obtain ⟨rfl, rfl⟩ := h
                      exact ⟨a ++ ('"' :: s ++ ['"']) ++ b ++ ':' :: (w ++ t ++ w'), by simp [hc],
                        .one has hstr hbs hw ht hws'⟩
                    · simp at h
              · simp at h
        · simp at h

theorem isJson_head {j : Json} {t : List Char} (h : IsJson j t) :
    ∃ c r, t = c :: r ∧ isWs c = false ∧ c ≠ ']' ∧ c ≠ '}' := by
  cases h with
  | null => exact ⟨'n', _, rfl, by decide, by decide, by decide⟩
  | true => exact ⟨'t', _, rfl, by decide, by decide, by decide⟩
  | false => exact ⟨'f', _, rfl, by decide, by decide, by decide⟩
  | num h =>
    obtain ⟨h1, h2, -⟩ := h
    cases t with
    | nil => exact absurd rfl h1
    | cons c t =>
      have := digit_facts ((isDigit_iff c).mpr (h2 c (by simp)))
      exact ⟨c, t, rfl, this.1, this.2.2.2.2.2.2.2.1, this.2.2.2.2.2.2.2.2⟩
  | str h =>
    obtain ⟨b, -, rfl⟩ := h
    exact ⟨'"', _, rfl, by decide, by decide, by decide⟩
  | arrEmpty _ => exact ⟨'[', _, rfl, by decide, by decide, by decide⟩
  | arr _ => exact ⟨'[', _, rfl, by decide, by decide, by decide⟩
  | objEmpty _ => exact ⟨'{', _, rfl, by decide, by decide, by decide⟩
  | obj _ => exact ⟨'{', _, rfl, by decide, by decide, by decide⟩

theorem noDigit_ws {w r : List Char} (h : Ws w) (hr : NoDigit r) : NoDigit (w ++ r) := by
  cases w with
  | nil => exact hr
  | cons c w =>
    apply noDigit_cons
    have := h c (by simp)
    simp only [List.mem_cons, List.not_mem_nil, or_false] at this
    rcases this with rfl | rfl | rfl | rfl <;> decide

theorem isElements_head {xs : List Json} {t : List Char} (h : IsElements xs t) :
    ∃ v c u, t = v ++ c :: u ∧ Ws v ∧ isWs c = false ∧ c ≠ ']' := by
  cases h with
  | one hv ht hw =>
    obtain ⟨c, r, rfl, h1, h2, -⟩ := isJson_head ht
    exact ⟨_, c, _, by simp; rfl, hv, h1, h2⟩
  | cons hv ht hw hu =>
    obtain ⟨c, r, rfl, h1, h2, -⟩ := isJson_head ht
    exact ⟨_, c, _, by simp; rfl, hv, h1, h2⟩

theorem isMembers_head {fs : List (String × Json)} {t : List Char} (h : IsMembers fs t) :
    ∃ v u, t = v ++ '"' :: u ∧ Ws v := by
  cases h with
  | one h1 h2 h3 h4 h5 h6 =>
    obtain ⟨b, -, rfl⟩ := h2
    exact ⟨_, _, by simp; rfl, h1⟩
  | cons h1 h2 h3 h4 h5 h6 h7 =>
    obtain ⟨b, -, rfl⟩ := h2
    exact ⟨_, _, by simp; rfl, h1⟩

theorem parseValue_ws {w : List Char} (h : Ws w) (f : Nat) (cs : List Char) :
    parseValue f (w ++ cs) = parseValue f cs := by
  cases f with
  | zero => simp [parseValue]
  | succ f => rw [parseValue, parseValue, skipWs_append h]

theorem parseElems_ws {w : List Char} (h : Ws w) {f : Nat} {cs : List Char} :
    parseElems f (w ++ cs) = parseElems f cs := by
  cases f with
  | zero => simp [parseElems]
  | succ f => rw [parseElems, parseElems, parseValue_ws h]

theorem parseFields_ws {w : List Char} (h : Ws w) {f : Nat} {cs : List Char} :
    parseFields f (w ++ cs) = parseFields f cs := by
  cases f with
  | zero => simp [parseFields]
  | succ f => rw [parseFields, parseFields, skipWs_append h]

mutual
theorem parseValue_complete : ∀ {j : Json} {t : List Char}, IsJson j t → ∀ (f : Nat) (w r : List Char), t.length ≤ f →
    Ws w → NoDigit r → parseValue f (w ++ t ++ r) = some (j, r)
  | _, _, .null, f, w, r, hf, hw, hr => by
    obtain ⟨f, rfl⟩ := obtain_succ hf (by decide)
    rw [parseValue, List.append_assoc, skipWs_append hw]
    rfl
  | _, _, .true, f, w, r, hf, hw, hr => by
    obtain ⟨f, rfl⟩ := obtain_succ hf (by decide)
    rw [parseValue, List.append_assoc, skipWs_append hw]
    rfl
  | _, _, .false, f, w, r, hf, hw, hr => by
    obtain ⟨f, rfl⟩ := obtain_succ hf (by decide)
    rw [parseValue, List.append_assoc, skipWs_append hw]
    rfl
  | _, t, .num (n := n) h, f, w, r, hf, hw, hr => by
    have hp := parseNum_complete h hr
    obtain ⟨h1, h2, -⟩ := h
    cases t with
    | nil => exact absurd rfl h1
    | cons c t =>
      have hd := digit_facts ((isDigit_iff c).mpr (h2 c (by simp)))
      obtain ⟨f, rfl⟩ := obtain_succ hf (by simp)
      rw [parseValue, List.append_assoc, skipWs_append hw, List.cons_append, skipWs_cons hd.1]
      simp only [hd.2.1, hd.2.2.1, hd.2.2.2.1, hd.2.2.2.2.1, hd.2.2.2.2.2.1, hd.2.2.2.2.2.2.1, if_false]
      rw [List.cons_append] at hp
      rw [hp]; rfl
  | _, _, .str (s := s) h, f, w, r, hf, hw, hr => by
    obtain ⟨b, hb, rfl⟩ := h
    obtain ⟨f, rfl⟩ := obtain_succ hf (by simp)
    have hp := parseStrBody_complete hb r
    rw [parseValue, List.append_assoc, skipWs_append hw]
    simp only [List.cons_append, List.append_assoc, List.nil_append]
    rw [skipWs_quote]
    simp only [Char.reduceEq, if_false, if_true, hp, Option.map_some, String.ofList_toList]
  | _, _, .arrEmpty (w := v) h, f, w, r, hf, hw, hr => by
    obtain ⟨f, rfl⟩ := obtain_succ hf (by simp)
    rw [parseValue, List.append_assoc, skipWs_append hw]
    simp only [List.cons_append, List.append_assoc, List.nil_append]
    rw [skipWs_lbrk]
    simp only [Char.reduceEq, if_false, if_true]
    rw [skipWs_append h, skipWs_rbrk]
    simp only [if_true]
  | _, _, .arr (xs := xs) (t := t) h, f, w, r, hf, hw, hr => by
    obtain ⟨f, rfl⟩ := obtain_succ hf (by simp)
    have hl : t.length + 1 ≤ f := by simp at hf; omega
    have ih := parseElems_complete h f r hl
    obtain ⟨v, c, u, rfl, hv, hc, hc'⟩ := isElements_head h
    rw [parseValue, List.append_assoc, skipWs_append hw]
    simp only [List.cons_append, List.append_assoc, List.nil_append] at ih ⊢
    rw [skipWs_lbrk]
    simp only [Char.reduceEq, if_false, if_true]
    rw [skipWs_append hv, skipWs_cons hc]
    simp only [hc', if_false]
    rw [parseElems_ws hv] at ih
    rw [ih]; rfl
  | _, _, .objEmpty (w := v) h, f, w, r, hf, hw, hr => by
    obtain ⟨f, rfl⟩ := obtain_succ hf (by simp)
    rw [parseValue, List.append_assoc, skipWs_append hw]
    simp only [List.cons_append, List.append_assoc, List.nil_append]
    rw [skipWs_lbrc]
    simp only [Char.reduceEq, if_false, if_true]
    rw [skipWs_append h, skipWs_rbrc]
    simp only [if_true]
  | _, _, .obj (fs := fs) (t := t) h, f, w, r, hf, hw, hr => by
    obtain ⟨f, rfl⟩ := obtain_succ hf (by simp)
    have hl : t.length + 1 ≤ f := by simp at hf; omega
    have ih := parseFields_complete h f r hl
    obtain ⟨v, u, rfl, hv⟩ := isMembers_head h
    rw [parseValue, List.append_assoc, skipWs_append hw]
    simp only [List.cons_append, List.append_assoc, List.nil_append] at ih ⊢
    rw [skipWs_lbrc]
    simp only [Char.reduceEq, if_false, if_true]
    rw [skipWs_append hv, skipWs_quote]
    simp only [Char.reduceEq, if_false]
    rw [parseFields_ws hv] at ih
    rw [ih]; rfl
theorem parseElems_complete : ∀ {xs : List Json} {t : List Char}, IsElements xs t → ∀ (f : Nat) (r : List Char),
    t.length + 1 ≤ f → parseElems f (t ++ ']' :: r) = some (xs, r)
  | _, _, .one (x := x) (v := v) (t := t) (w := w) hv ht hw, f, r, hf => by
    obtain ⟨f, rfl⟩ := obtain_succ hf (by simp)
    have ih := parseValue_complete ht f v (w ++ ']' :: r) (by simp at hf; omega) hv
      (noDigit_ws hw (noDigit_cons (by decide)))
    rw [parseElems]
    simp only [List.append_assoc] at ih ⊢
    rw [ih]
    simp only
    rw [skipWs_append hw, skipWs_rbrk]
    simp only [Char.reduceEq, if_false, if_true]
  | _, _, .cons (x := x) (xs := xs) (v := v) (t := t) (w := w) (u := u) hv ht hw hu, f, r, hf => by
    obtain ⟨f, rfl⟩ := obtain_succ hf (by simp)
    have ih := parseValue_complete ht f v (w ++ ',' :: (u ++ ']' :: r)) (by simp at hf; omega) hv
      (noDigit_ws hw (noDigit_cons (by decide)))
    have ih' := parseElems_complete hu f r (by simp at hf; omega)
    rw [parseElems]
    simp only [List.append_assoc, List.cons_append] at ih ⊢
    rw [ih]
    simp only
    rw [skipWs_append hw, skipWs_comma]
    simp only [if_true]
    rw [ih']; rfl
theorem parseFields_complete : ∀ {fs : List (String × Json)} {t : List Char}, IsMembers fs t → ∀ (f : Nat) (r : List Char),
    t.length + 1 ≤ f → parseFields f (t ++ '}' :: r) = some (fs, r)
  | _, _, .one (k := k) (x := x) (a := a) (b := b) (v := v) (t := t) (w := w) ha hs hb hv ht hw, f, r, hf => by
    obtain ⟨f, rfl⟩ := obtain_succ hf (by simp)
    obtain ⟨s, hs, rfl⟩ := hs
    have ih := parseValue_complete ht f v (w ++ '}' :: r) (by simp at hf; omega) hv
      (noDigit_ws hw (noDigit_cons (by decide)))
    rw [parseFields]
    simp only [List.append_assoc, List.cons_append, List.nil_append] at ih ⊢
    rw [skipWs_append ha, skipWs_quote]
    simp only [if_true]
    rw [parseStrBody_complete hs]
    simp only
    rw [skipWs_append hb, skipWs_colon]
    simp only [if_true]
    rw [ih]
    simp only
    rw [skipWs_append hw, skipWs_rbrc]
    simp only [Char.reduceEq, if_false, if_true, String.ofList_toList]
  | _, _, .cons (k := k) (x := x) (a := a) (b := b) (v := v) (t := t) (w := w) (u := u) ha hs hb hv ht hw hu, f, r, hf => by
    obtain ⟨f, rfl⟩ := obtain_succ hf (by simp)
    obtain ⟨s, hs, rfl⟩ := hs
    have ih := parseValue_complete ht f v (w ++ ',' :: (u ++ '}' :: r)) (by simp at hf; omega) hv
      (noDigit_ws hw (noDigit_cons (by decide)))
    have ih' := parseFields_complete hu f r (by simp at hf; omega)
    rw [parseFields]
    simp only [List.append_assoc, List.cons_append, List.nil_append] at ih ⊢
    rw [skipWs_append ha, skipWs_quote]
    simp only [if_true]
    rw [parseStrBody_complete hs]
    simp only
    rw [skipWs_append hb, skipWs_colon]
    simp only [if_true]
    rw [ih]
    simp only
    rw [skipWs_append hw, skipWs_comma]
    simp only [if_true]
    rw [ih']
    simp only [Option.map_some, String.ofList_toList]
end

/-- The parser accepts exactly the documents of the grammar. -/
theorem parseJson_iff {cs : List Char} {j : Json} : parseJson cs = some j ↔ IsDocument j cs := by
  unfold parseJson
  constructor
  · intro h
    cases hp : parseValue (cs.length + 1) cs with
    | none => rw [hp] at h; simp at h
    | some q =>
      obtain ⟨j', r⟩ := q
      rw [hp] at h
      simp only at h
      split at h
      · next hr =>
        simp only [Option.some.injEq] at h
        subst h
        obtain ⟨w, t, h1, h2, h3⟩ := (parse_sound _).1 _ _ _ hp
        obtain ⟨u, h4, h5⟩ := skipWs_spec r
        rw [hr, List.append_nil] at h4
        subst h4
        exact ⟨w, t, r, h2, h3, h5, h1⟩
      · simp at h
  · rintro ⟨v, u, w, hv, hu, hw, rfl⟩
    have hnd : NoDigit w := by
      have := noDigit_ws hw (r := []) (by intro c cs h; simp at h)
      simpa using this
    have := parseValue_complete hu ((v ++ u ++ w).length + 1) v w (by simp; omega) hv hnd
    rw [this]
    simp only
    rw [if_pos (skipWs_all hw)]

theorem isDocument_print (j : Json) : IsDocument j (printJson j) := parseJson_iff.mp (parseJson_print j)

end Ica
