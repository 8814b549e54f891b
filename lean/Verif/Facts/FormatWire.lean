import Verif.Spec.Formats
import Verif.WireFacts

/-! # The wire encoder and parser against the protobuf rules (helper lemmas) -/
namespace Ica
open Format

theorem more_iff (b : UInt8) : More b ↔ 128 ≤ b.toNat := by
  have key : ∀ n : Fin 256, (UInt8.ofNat n.val &&& 0x80 ≠ 0 ↔ 128 ≤ n.val) := by decide +kernel
  have h := key ⟨b.toNat, b.toNat_lt⟩
  simpa [More, UInt8.ofNat_toNat] using h

theorem low7 (b : UInt8) : (b &&& 0x7f).toNat = b.toNat % 128 := by
  rw [UInt8.toNat_and]
  exact Nat.and_two_pow_sub_one_eq_mod b.toNat 7

theorem varDec_iff {bs r : Bytes} {v k : Nat} : varDec bs = some (v, k, r) ↔
    ∃ front last, bs = front ++ last :: r ∧ (∀ b ∈ front, More b) ∧ ¬ More last ∧ k = front.length + 1 ∧
      v = payload (front ++ [last]) := by
  induction bs generalizing v k with
  | nil => simp [varDec]
  | cons b bs ih =>
    unfold varDec
    split
    · next hb =>
      have hm : ¬ More b := by rw [more_iff]; omega
      constructor
      · intro h
        simp only [Option.some.injEq, Prod.mk.injEq] at h
        obtain ⟨rfl, rfl, rfl⟩ := h
        exact ⟨[], b, rfl, by simp, hm, rfl, by simp only [List.nil_append, payload, low7]; omega⟩
      · rintro ⟨front, last, h1, h2, h3, rfl, rfl⟩
        cases front with
        | nil =>
          simp only [List.nil_append, List.cons.injEq] at h1
          obtain ⟨rfl, rfl⟩ := h1
          simp only [List.nil_append, payload, low7, List.length_nil, Option.some.injEq, Prod.mk.injEq, and_true]; omega
        | cons x front =>
          simp only [List.cons_append, List.cons.injEq] at h1
          exact absurd (h1.1 ▸ h2 x (by simp)) hm
    · next hb =>
      have hm : More b := by rw [more_iff]; omega
      constructor
      · intro h
        cases hd : varDec bs with
        | none => rw [hd] at h; simp at h
        | some p =>
          obtain ⟨v', k', r'⟩ := p
          rw [hd] at h
          simp only [Option.some.injEq, Prod.mk.injEq] at h
          obtain ⟨rfl, rfl, rfl⟩ := h
          obtain ⟨front, last, h1, h2, h3, h4, h5⟩ := ih.mp hd
          refine ⟨b :: front, last, by rw [h1]; rfl, ?_, h3, by simp [h4], ?_⟩
          · intro x hx
            rcases List.mem_cons.mp hx with rfl | hx
            · exact hm
            · exact h2 x hx
          · have := b.toNat_lt
            simp only [List.cons_append, payload, low7, h5]; omega
      · rintro ⟨front, last, h1, h2, h3, rfl, rfl⟩
        cases front with
        | nil =>
          simp only [List.nil_append, List.cons.injEq] at h1
          exact absurd (h1.1 ▸ hm) h3
        | cons x front =>
          simp only [List.cons_append, List.cons.injEq] at h1
          obtain ⟨rfl, h1⟩ := h1
          have := ih.mpr ⟨front, last, h1, fun y hy => h2 y (by simp [hy]), h3, rfl, rfl⟩
          rw [this]
          have := b.toNat_lt
          simp only [List.cons_append, payload, low7, List.length_cons, Option.some.injEq, Prod.mk.injEq, and_true]
          omega

theorem varDec64_iff {bs r : Bytes} {n : UInt64} : varDec64 bs = some (n, r) ↔
    ∃ p, bs = p ++ r ∧ IsVarint n.toNat p := by
  unfold varDec64
  constructor
  · intro h
    cases hd : varDec bs with
    | none => rw [hd] at h; simp at h
    | some q =>
      obtain ⟨v, k, r'⟩ := q
      rw [hd] at h
      simp only at h
      split at h
      · next hk =>
        simp only [Option.some.injEq, Prod.mk.injEq] at h
        obtain ⟨rfl, rfl⟩ := h
        obtain ⟨front, last, h1, h2, h3, h4, h5⟩ := varDec_iff.mp hd
        have hv : (UInt64.ofNat v).toNat = v := by rw [UInt64.toNat_ofNat']; exact Nat.mod_eq_of_lt hk.2
        exact ⟨front ++ [last], by simp [h1], front, last, rfl, h2, h3, by simp; omega, by rw [hv, h5],
          UInt64.toNat_lt _⟩
      · simp at h
  · rintro ⟨p, rfl, front, last, rfl, h2, h3, h4, h5, h6⟩
    have hd : varDec (front ++ [last] ++ r) = some (n.toNat, front.length + 1, r) :=
      varDec_iff.mpr ⟨front, last, by simp, h2, h3, rfl, h5⟩
    rw [hd]
    simp only [List.length_append, List.length_singleton] at h4
    simp only
    rw [if_pos ⟨h4, h6⟩, UInt64.ofNat_toNat]

theorem isVarint_ne_nil {n : Nat} {bs : Bytes} (h : IsVarint n bs) : bs ≠ [] := by
  obtain ⟨front, last, rfl, -⟩ := h
  simp

theorem takeExact_iff {n : Nat} {bs a r : Bytes} : takeExact n bs = some (a, r) ↔ bs = a ++ r ∧ a.length = n := by
  constructor
  · intro h
    induction n generalizing bs a with
    | zero => simp [takeExact] at h; obtain ⟨rfl, rfl⟩ := h; simp
    | succ n ih =>
      cases bs with
      | nil => simp [takeExact] at h
      | cons b bs =>
        simp only [takeExact, Option.map_eq_some_iff, Prod.mk.injEq] at h
        obtain ⟨⟨a', r'⟩, h1, rfl, rfl⟩ := h
        obtain ⟨rfl, rfl⟩ := ih h1
        simp
  · rintro ⟨rfl, rfl⟩
    exact takeExact_append a r

theorem key_eq (t wt : Nat) (h : wt < 8) : t <<< 3 ||| wt = t * 8 + wt := by
  rw [← Nat.shiftLeft_add_eq_or_of_lt (by omega : wt < 2 ^ 3), Nat.shiftLeft_eq]

theorem wireType_lt (v : WVal) : wireType v < 8 := by cases v <;> simp [wireType]

theorem parseWVal_sound {wt : Nat} {bs r : Bytes} {v : WVal} (hl : bs.length < 2 ^ 64)
    (h : parseWVal wt bs = some (v, r)) : wt = wireType v ∧ ∃ p, bs = p ++ r ∧ IsValue v p := by
  unfold parseWVal at h
  split at h
  · next hw =>
    simp only [Option.map_eq_some_iff, Prod.mk.injEq] at h
    obtain ⟨⟨n, r'⟩, h1, rfl, rfl⟩ := h
    obtain ⟨p, h2, h3⟩ := varDec64_iff.mp h1
    exact ⟨hw, p, h2, h3⟩
  split at h
  · next hw =>
    cases hd : varDecLen bs with
    | none => rw [hd] at h; simp at h
    | some q =>
      obtain ⟨n, r'⟩ := q
      rw [hd] at h
      simp only [Option.map_eq_some_iff, Prod.mk.injEq] at h
      obtain ⟨⟨a, r''⟩, h1, rfl, rfl⟩ := h
      obtain ⟨rfl, rfl⟩ := takeExact_iff.mp h1
      unfold varDecLen at hd
      cases hv : varDec bs with
      | none => rw [hv] at hd; simp at hd
      | some q =>
        obtain ⟨v, k, r3⟩ := q
        rw [hv] at hd
        simp only at hd
        split at hd
        · next hk =>
          simp only [Option.some.injEq, Prod.mk.injEq] at hd
          obtain ⟨rfl, rfl⟩ := hd
          obtain ⟨front, last, h1, h2, h3, h4, h5⟩ := varDec_iff.mp hv
          have hal : a.length < 2 ^ 64 := by
            rw [h1] at hl; simp only [List.length_append, List.length_cons] at hl; omega
          refine ⟨hw, front ++ [last] ++ a, by simp [h1], front ++ [last], ?_, rfl⟩
          refine ⟨front, last, rfl, h2, h3, ?_, h5, hal⟩
          simp only [List.length_append, List.length_singleton]
          unfold u64Bound at hk
          omega
        · simp at hd
  split at h
  · next hw =>
    split at h
    · next a b c d e f g i r' =>
      simp only [Option.some.injEq, Prod.mk.injEq] at h
      obtain ⟨rfl, rfl⟩ := h
      exact ⟨hw, [a, b, c, d, e, f, g, i], rfl, rfl⟩
    · simp at h
  split at h
  · next hw =>
    split at h
    · next a b c d r' =>
      simp only [Option.some.injEq, Prod.mk.injEq] at h
      obtain ⟨rfl, rfl⟩ := h
      exact ⟨hw, [a, b, c, d], rfl, rfl⟩
    · simp at h
  · simp at h

theorem parseWVal_complete {p r : Bytes} {v : WVal} (h : IsValue v p) :
    parseWVal (wireType v) (p ++ r) = some (v, r) := by
  cases v with
  | varint n =>
    have : varDec64 (p ++ r) = some (n, r) := varDec64_iff.mpr ⟨p, rfl, h⟩
    simp [parseWVal, wireType, this]
  | i64 a b c d e f g i => cases h; simp [parseWVal, wireType]
  | len x =>
    obtain ⟨l, ⟨front, last, rfl, h2, h3, h4, h5, h6⟩, rfl⟩ := h
    have hd : varDec (front ++ [last] ++ x ++ r) = some (x.length, front.length + 1, x ++ r) :=
      varDec_iff.mpr ⟨front, last, by simp, h2, h3, rfl, h5⟩
    have hl : varDecLen (front ++ [last] ++ x ++ r) = some (x.length, x ++ r) := by
      unfold varDecLen
      rw [hd]
      simp only [List.length_append, List.length_singleton] at h4
      simp only
      rw [if_pos (Or.inl h4)]
    simp only [parseWVal, wireType, hl, takeExact_append]
    rfl
  | i32 a b c d => cases h; simp [parseWVal, wireType]
  | group => exact h.elim

theorem isValue_not_group {v : WVal} {p : Bytes} (h : IsValue v p) : wireType v ≠ 3 ∧ wireType v ≠ 4 := by
  cases v <;> simp [wireType] at *
  exact h

/-- Reading a key. -/
theorem key_read {t wt : Nat} {key r : Bytes} (h1 : 1 ≤ t) (h2 : t < 2 ^ 29) (hw : wt < 8)
    (h : IsVarint (t <<< 3 ||| wt) key) :
    ∃ k : UInt64, varDec64 (key ++ r) = some (k, r) ∧ (k.toNat < u32Bound ∧ k.toNat / 8 ≠ 0) ∧ k.toNat / 8 = t ∧
      k.toNat % 8 = wt := by
  rw [key_eq _ _ hw] at h
  have hn : (UInt64.ofNat (t * 8 + wt)).toNat = t * 8 + wt := by
    rw [UInt64.toNat_ofNat']; exact Nat.mod_eq_of_lt (by omega)
  refine ⟨UInt64.ofNat (t * 8 + wt), varDec64_iff.mpr ⟨key, rfl, by rw [hn]; exact h⟩, ?_⟩
  rw [hn]
  refine ⟨⟨by unfold u32Bound; omega, by omega⟩, by omega, by omega⟩

/-- And back. -/
theorem key_read_sound {bs r : Bytes} {k : UInt64} (h : varDec64 bs = some (k, r)) :
    ∃ key, bs = key ++ r ∧ IsVarint ((k.toNat / 8) <<< 3 ||| k.toNat % 8) key ∧ key ≠ [] := by
  obtain ⟨p, rfl, hp⟩ := varDec64_iff.mp h
  refine ⟨p, rfl, ?_, isVarint_ne_nil hp⟩
  rw [key_eq _ _ (by omega)]
  have : k.toNat / 8 * 8 + k.toNat % 8 = k.toNat := by omega
  rw [this]; exact hp

theorem skipGroup_sound {f depth t : Nat} {bs r : Bytes} (hl : bs.length < 2 ^ 64)
    (h : skipGroup f depth t bs = some r) : ∃ body, bs = body ++ r ∧ IsGroup depth t body := by
  induction f generalizing depth t bs r with
  | zero => simp [skipGroup] at h
  | succ f ih =>
    unfold skipGroup at h
    cases hd : varDec64 bs with
    | none => rw [hd] at h; simp at h
    | some q =>
      obtain ⟨k, r1⟩ := q
      rw [hd] at h
      simp only at h
      obtain ⟨key, rfl, hkey, -⟩ := key_read_sound hd
      rw [List.length_append] at hl
      split at h
      · next hk =>
        split at h
        · next h4 =>
          split at h
          · next ht =>
            simp only [Option.some.injEq] at h
            subst h
            rw [h4, ht] at hkey
            exact ⟨key, rfl, .done hkey⟩
          · simp at h
        · next h4 =>
          have h29 : k.toNat / 8 < 2 ^ 29 := by have := hk.1; unfold u32Bound at this; omega
          cases depth with
          | zero => simp at h
          | succ d =>
            simp only at h
            split at h
            · next h3 =>
              rw [Option.bind_eq_some_iff] at h
              obtain ⟨r2, hi, hr⟩ := h
              obtain ⟨inner, rfl, hin⟩ := ih (by omega) hi
              rw [List.length_append] at hl
              obtain ⟨rest, rfl, hrest⟩ := ih (by omega) hr
              rw [h3] at hkey
              exact ⟨key ++ inner ++ rest, by simp, .nested (by omega) h29 hkey hin hrest⟩
            · rw [Option.bind_eq_some_iff] at h
              obtain ⟨⟨v, r2⟩, hi, hr⟩ := h
              obtain ⟨hw, value, rfl, hval⟩ := parseWVal_sound (by omega) hi
              rw [List.length_append] at hl
              obtain ⟨rest, hrr, hrest⟩ := ih (show r2.length < 2 ^ 64 by omega) hr
              subst hrr
              rw [hw] at hkey
              exact ⟨key ++ value ++ rest, by simp, .record (by omega) h29 hkey hval hrest⟩
      · simp at h

theorem skipGroup_complete {depth t : Nat} {body : Bytes} (h : IsGroup depth t body) (h1 : 1 ≤ t) (h2 : t < 2 ^ 29)
    (r : Bytes) : ∀ f, body.length ≤ f → skipGroup f depth t (body ++ r) = some r := by
  induction h generalizing r with
  | @done depth t key hkey =>
    intro f hf
    have := List.length_pos_iff.mpr (isVarint_ne_nil hkey)
    obtain ⟨f, rfl⟩ : ∃ g, f = g + 1 := ⟨f - 1, by omega⟩
    obtain ⟨k, e1, e2, e3, e4⟩ := key_read (r := r) h1 h2 (by omega) hkey
    unfold skipGroup
    rw [e1]
    dsimp only
    rw [if_pos e2, if_pos e4, if_pos e3]
  | @record depth t u v key value rest g1 g2 hkey hval _ ih =>
    intro f hf
    have := List.length_pos_iff.mpr (isVarint_ne_nil hkey)
    simp only [List.length_append] at hf
    obtain ⟨f, rfl⟩ : ∃ g, f = g + 1 := ⟨f - 1, by omega⟩
    obtain ⟨k, e1, e2, e3, e4⟩ := key_read (r := value ++ (rest ++ r)) g1 g2 (wireType_lt v) hkey
    unfold skipGroup
    rw [List.append_assoc, List.append_assoc, e1]
    have hn := isValue_not_group hval
    dsimp only
    rw [if_pos e2]
    simp only [e4, hn.1, hn.2, if_false, parseWVal_complete hval, Option.bind_some]
    exact ih h1 h2 r f (by omega)
  | @nested depth t u key inner rest g1 g2 hkey _ _ ih1 ih2 =>
    intro f hf
    have := List.length_pos_iff.mpr (isVarint_ne_nil hkey)
    simp only [List.length_append] at hf
    obtain ⟨f, rfl⟩ : ∃ g, f = g + 1 := ⟨f - 1, by omega⟩
    obtain ⟨k, e1, e2, e3, e4⟩ := key_read (r := inner ++ (rest ++ r)) g1 g2 (by omega) hkey
    unfold skipGroup
    rw [List.append_assoc, List.append_assoc, e1]
    dsimp only
    rw [if_pos e2, if_neg (by omega)]
    simp only [e3, e4, if_true, ih1 g1 g2 (rest ++ r) f (by omega), Option.bind_some]
    exact ih2 h1 h2 r f (by omega)

theorem parseWireAux_sound {f : Nat} {bs : Bytes} {fs : Fields} (hl : bs.length < 2 ^ 64)
    (h : parseWireAux f bs = some fs) : IsMessage fs bs := by
  induction f generalizing bs fs with
  | zero =>
    cases bs with
    | nil => simp [parseWireAux] at h; subst h; exact .nil
    | cons b bs => simp [parseWireAux] at h
  | succ f ih =>
    by_cases hb : bs = []
    · subst hb; simp [parseWireAux] at h; subst h; exact .nil
    rw [parseWireAux_cons hb] at h
    cases hd : varDec64 bs with
    | none => rw [hd] at h; simp at h
    | some q =>
      obtain ⟨key, r⟩ := q
      rw [hd] at h
      simp only at h
      split at h
      · next hk =>
        cases hv : parseField (key.toNat / 8) (key.toNat % 8) r with
        | none => rw [hv] at h; simp at h
        | some q =>
          obtain ⟨v, r'⟩ := q
          rw [hv] at h
          simp only [Option.map_eq_some_iff] at h
          obtain ⟨fs', h1, rfl⟩ := h
          obtain ⟨p, rfl, hp⟩ := varDec64_iff.mp hd
          rw [List.length_append] at hl
          unfold parseField at hv
          split at hv
          · next hw =>
            simp only [Option.map_eq_some_iff, Prod.mk.injEq] at hv
            obtain ⟨r2, hs, rfl, rfl⟩ := hv
            obtain ⟨body, rfl, hbody⟩ := skipGroup_sound (by omega) hs
            rw [List.length_append] at hl
            have := ih (by omega) h1
            rw [← List.append_assoc]
            refine .group (by omega) ?_ ?_ hbody this
            · have := hk.1; unfold u32Bound at this; omega
            · rw [key_eq _ _ (by omega), ← hw]
              have : key.toNat / 8 * 8 + key.toNat % 8 = key.toNat := by omega
              rw [this]; exact hp
          obtain ⟨hw, p', rfl, hp'⟩ := parseWVal_sound (by omega) hv
          rw [List.length_append] at hl
          have := ih (by omega) h1
          rw [← List.append_assoc]
          refine .cons (by omega) ?_ ?_ hp' this
          · have := hk.1; unfold u32Bound at this; omega
          · rw [key_eq _ _ (wireType_lt v), ← hw]
            have : key.toNat / 8 * 8 + key.toNat % 8 = key.toNat := by omega
            rw [this]; exact hp
      · simp at h

theorem parseWireAux_complete {bs : Bytes} {fs : Fields} (h : IsMessage fs bs) :
    ∀ f, bs.length ≤ f → parseWireAux f bs = some fs := by
  induction h with
  | nil => intro f _; cases f <;> rfl
  | @cons t v fs key value rest h1 h2 h3 h4 h5 ih =>
    intro f hf
    have hkl := List.length_pos_iff.mpr (isVarint_ne_nil h3)
    simp only [List.length_append] at hf
    obtain ⟨f, rfl⟩ : ∃ g, f = g + 1 := ⟨f - 1, by omega⟩
    rw [List.append_assoc, parseWireAux_cons (by simp [isVarint_ne_nil h3])]
    obtain ⟨k, e1, e2, e3, e4⟩ := key_read (r := value ++ rest) h1 h2 (wireType_lt v) h3
    rw [e1]
    dsimp only
    rw [if_pos e2]
    simp only [e3, e4, parseField, (isValue_not_group h4).1, if_false, parseWVal_complete h4]
    rw [ih f (by omega)]; rfl
  | @group t fs key body rest h1 h2 h3 h4 h5 ih =>
    intro f hf
    have hkl := List.length_pos_iff.mpr (isVarint_ne_nil h3)
    simp only [List.length_append] at hf
    obtain ⟨f, rfl⟩ : ∃ g, f = g + 1 := ⟨f - 1, by omega⟩
    rw [List.append_assoc, parseWireAux_cons (by simp [isVarint_ne_nil h3])]
    obtain ⟨k, e1, e2, e3, e4⟩ := key_read (r := body ++ rest) h1 h2 (by omega) h3
    rw [e1]
    dsimp only
    rw [if_pos e2]
    simp only [e3, e4, parseField, if_true,
      skipGroup_complete h4 h1 h2 rest (body ++ rest).length (by simp), Option.map_some]
    rw [ih f (by omega)]; rfl

theorem parseWire_iff {bs : Bytes} {fs : Fields} (hl : bs.length < 2 ^ 64) :
    parseWire bs = some fs ↔ IsMessage fs bs :=
  ⟨fun h => parseWireAux_sound hl h, fun h => parseWireAux_complete h _ (Nat.le_refl _)⟩

theorem isMessage_encFields {fs : Fields} (hv : Valid fs) (hl : (encFields fs).length < 2 ^ 64) :
    IsMessage fs (encFields fs) := (parseWire_iff hl).mp (parseWire_encFields hv)

end Ica
