import Verif.Spec.Semver
import Mathlib.Tactic.Linarith
import Mathlib.Tactic.Ring

/-!
# The version parser and the version order
-/
namespace Ica.Semver

/-! ## Digits -/

theorem isDigit_val {c : Char} (h : isDigit c = true) : digitVal c = some (c.toNat - 48) ∧ 48 ≤ c.toNat ∧ c.toNat ≤ 57 := by
  unfold isDigit digitVal at *
  split at h
  · next hc => rw [if_pos hc]; exact ⟨rfl, hc⟩
  · cases h

theorem char_ext {a b : Char} (h : a.toNat = b.toNat) : a = b := by
  apply Char.ext
  apply UInt32.toNat_inj.mp
  exact h

theorem value_lt : ∀ {s : List Char}, Numeric s → value s < 10 ^ s.length
  | [], _ => by simp [value]
  | c :: cs, h => by
    have h1 := value_lt (s := cs) (fun x hx => h x (List.mem_cons_of_mem _ hx))
    obtain ⟨-, h2, h3⟩ := isDigit_val (h c List.mem_cons_self)
    simp only [value, List.length_cons, pow_succ]
    have : c.toNat - 48 ≤ 9 := by omega
    nlinarith [Nat.mul_le_mul_right (10 ^ cs.length) this]

theorem parseDigits_value : ∀ (acc : Nat) {s : List Char}, Numeric s →
    parseDigits acc s = some (acc * 10 ^ s.length + value s)
  | acc, [], _ => by simp [parseDigits, value]
  | acc, c :: cs, h => by
    obtain ⟨h1, -, -⟩ := isDigit_val (h c List.mem_cons_self)
    unfold parseDigits
    rw [h1]
    dsimp only
    rw [parseDigits_value _ (s := cs) (fun x hx => h x (List.mem_cons_of_mem _ hx))]
    simp only [value, List.length_cons, pow_succ]
    congr 1
    ring

theorem cmpNat_lt {a b : Nat} : cmpNat a b = .lt ↔ a < b := by
  unfold cmpNat; split
  · simp_all
  · split <;> simp_all

theorem cmpNat_eq {a b : Nat} : cmpNat a b = .eq ↔ a = b := by
  unfold cmpNat; split
  · simp; omega
  · split
    · simp; omega
    · simp; omega

theorem cmpNat_gt {a b : Nat} : cmpNat a b = .gt ↔ b < a := by
  unfold cmpNat; split
  · simp; omega
  · split
    · simp_all
    · simp; omega

theorem cmpChars_value : ∀ {a b : List Char}, Numeric a → Numeric b → a.length = b.length →
    cmpChars a b = cmpNat (value a) (value b)
  | [], [], _, _, _ => by simp [cmpChars, cmpNat, value]
  | [], _ :: _, _, _, h => by simp at h
  | _ :: _, [], _, _, h => by simp at h
  | x :: as, y :: bs, ha, hb, h => by
    have hl : as.length = bs.length := by simpa using h
    have ha' : Numeric as := fun c hc => ha c (List.mem_cons_of_mem _ hc)
    have hb' : Numeric bs := fun c hc => hb c (List.mem_cons_of_mem _ hc)
    have h1 := value_lt ha'
    have h2 := value_lt hb'
    rw [← hl] at h2
    obtain ⟨-, hx1, hx2⟩ := isDigit_val (ha x List.mem_cons_self)
    obtain ⟨-, hy1, hy2⟩ := isDigit_val (hb y List.mem_cons_self)
    unfold cmpChars
    simp only [value]
    rw [← hl]
    split
    · next hlt =>
      symm; rw [cmpNat_lt]
      have : (x.toNat - 48) + 1 ≤ y.toNat - 48 := by omega
      nlinarith [Nat.mul_le_mul_right (10 ^ as.length) this]
    · split
      · next hlt =>
        symm; rw [cmpNat_gt]
        have : (y.toNat - 48) + 1 ≤ x.toNat - 48 := by omega
        nlinarith [Nat.mul_le_mul_right (10 ^ as.length) this]
      · have hxy : x.toNat = y.toNat := by omega
        rw [cmpChars_value ha' hb' hl, hxy]
        unfold cmpNat
        split
        · rw [if_pos (by omega)]
        · split
          · rw [if_neg (by omega), if_pos (by omega)]
          · rw [if_neg (by omega), if_neg (by omega)]

/-- No superfluous zero in front. -/
def NoLead (s : List Char) : Prop := s.head? = some '0' → s = ['0']

theorem value_ge {c : Char} {s : List Char} (h : Numeric (c :: s)) (h0 : c ≠ '0') : 10 ^ s.length ≤ value (c :: s) := by
  obtain ⟨-, h1, h2⟩ := isDigit_val (h c List.mem_cons_self)
  have : c.toNat ≠ 48 := fun e => h0 (char_ext e)
  have : 1 ≤ c.toNat - 48 := by omega
  simp only [value]
  nlinarith [Nat.mul_le_mul_right (10 ^ s.length) this]

theorem value_lt_of_length {a b : List Char} (ha : Numeric a) (hb : Numeric b) (hane : a ≠ []) (hlb : NoLead b)
    (h : a.length < b.length) : value a < value b := by
  cases b with
  | nil => simp at h
  | cons c s =>
    have hapos : 0 < a.length := List.length_pos_iff.mpr hane
    have h0 : c ≠ '0' := by
      intro e
      have := hlb (by simp [e])
      rw [this] at h
      simp only [List.length_cons, List.length_nil] at h
      omega
    have h1 := value_ge hb h0
    have h2 := value_lt ha
    have h3 : 10 ^ a.length ≤ 10 ^ s.length := Nat.pow_le_pow_right (by decide) (by simp at h; omega)
    omega

theorem cmpNum_value {a b : List Char} (ha : Numeric a) (hb : Numeric b) (hane : a ≠ []) (hbne : b ≠ [])
    (hla : NoLead a) (hlb : NoLead b) :
    (cmpNat a.length b.length).then (cmpChars a b) = cmpNat (value a) (value b) := by
  rcases Nat.lt_trichotomy a.length b.length with h | h | h
  · rw [cmpNat_lt.mpr h, cmpNat_lt.mpr (value_lt_of_length ha hb hane hlb h)]; rfl
  · rw [cmpNat_eq.mpr h, ← cmpChars_value ha hb h]; rfl
  · rw [cmpNat_gt.mpr h, cmpNat_gt.mpr (value_lt_of_length hb ha hbne hla h)]; rfl

/-! ## Lawful comparisons -/

/-- A comparison that is a linear order. -/
structure Lawful {α : Type} (c : α → α → Ordering) : Prop where
  swap : ∀ a b, c b a = (c a b).swap
  eq_iff : ∀ a b, c a b = .eq ↔ a = b
  trans : ∀ a b d, c a b = .lt → c b d = .lt → c a d = .lt

theorem Lawful.gt {α : Type} {c : α → α → Ordering} (h : Lawful c) {a b : α} : c a b = .gt ↔ c b a = .lt := by
  rw [h.swap a b]; cases c a b <;> simp [Ordering.swap]

theorem lawful_cmpNat : Lawful cmpNat where
  swap a b := by
    rcases Nat.lt_trichotomy a b with h | h | h
    · rw [cmpNat_gt.mpr h, cmpNat_lt.mpr h]; rfl
    · rw [cmpNat_eq.mpr h, cmpNat_eq.mpr h.symm]; rfl
    · rw [cmpNat_lt.mpr h, cmpNat_gt.mpr h]; rfl
  eq_iff _ _ := cmpNat_eq
  trans a b d h1 h2 := by rw [cmpNat_lt] at *; omega

theorem then_lt {x y : Ordering} : x.then y = .lt ↔ x = .lt ∨ x = .eq ∧ y = .lt := by
  cases x <;> cases y <;> simp [Ordering.then]

theorem then_eq {x y : Ordering} : x.then y = .eq ↔ x = .eq ∧ y = .eq := by
  cases x <;> cases y <;> simp [Ordering.then]

theorem then_swap (x y : Ordering) : (x.then y).swap = x.swap.then y.swap := by
  cases x <;> cases y <;> rfl

/-- First by a key, then by a comparison that may depend on the common key. -/
theorem lawful_key {α κ : Type} {k : κ → κ → Ordering} (hk : Lawful k) (f : α → κ) (c : κ → α → α → Ordering)
    (hc : ∀ x, Lawful (c x)) : Lawful (fun a b => (k (f a) (f b)).then (c (f a) a b)) where
  swap a b := by
    rw [then_swap, ← hk.swap]
    cases he : k (f b) (f a) with
    | lt => rfl
    | gt => rfl
    | eq => rw [(hk.eq_iff _ _).mp he, (hc (f a)).swap a b]
  eq_iff a b := by
    rw [then_eq]
    constructor
    · rintro ⟨-, h⟩; exact ((hc _).eq_iff _ _).mp h
    · rintro rfl; exact ⟨(hk.eq_iff _ _).mpr rfl, ((hc _).eq_iff _ _).mpr rfl⟩
  trans a b d := by
    simp only [then_lt]
    rintro (h1 | ⟨h1, h1'⟩) (h2 | ⟨h2, h2'⟩)
    · exact .inl (hk.trans _ _ _ h1 h2)
    · rw [hk.eq_iff] at h2; exact .inl (h2 ▸ h1)
    · rw [hk.eq_iff] at h1; exact .inl (h1 ▸ h2)
    · rw [hk.eq_iff] at h1 h2
      refine .inr ⟨(hk.eq_iff _ _).mpr (h1.trans h2), ?_⟩
      exact (hc _).trans _ _ _ h1' (h1 ▸ h2')

theorem lawful_map {α β : Type} {c : β → β → Ordering} (hc : Lawful c) (f : α → β) (hf : ∀ a b, f a = f b → a = b) :
    Lawful (fun a b => c (f a) (f b)) where
  swap a b := hc.swap _ _
  eq_iff a b := by rw [hc.eq_iff]; exact ⟨hf a b, fun h => h ▸ rfl⟩
  trans a b d := hc.trans _ _ _

theorem lawful_prod {α β : Type} {c : α → α → Ordering} {d : β → β → Ordering} (hc : Lawful c) (hd : Lawful d) :
    Lawful (fun a b : α × β => (c a.1 b.1).then (d a.2 b.2)) where
  swap a b := by rw [then_swap, ← hc.swap, ← hd.swap]
  eq_iff a b := by rw [then_eq, hc.eq_iff, hd.eq_iff, Prod.ext_iff]
  trans a b e := by
    simp only [then_lt]
    rintro (h1 | ⟨h1, h1'⟩) (h2 | ⟨h2, h2'⟩)
    · exact .inl (hc.trans _ _ _ h1 h2)
    · rw [hc.eq_iff] at h2; exact .inl (h2 ▸ h1)
    · rw [hc.eq_iff] at h1; exact .inl (h1 ▸ h2)
    · rw [hc.eq_iff] at h1 h2
      exact .inr ⟨(hc.eq_iff _ _).mpr (h1.trans h2), hd.trans _ _ _ h1' h2'⟩

/-- Lexicographic comparison of lists. -/
def lexCmp {α : Type} (c : α → α → Ordering) : List α → List α → Ordering
  | [], [] => .eq
  | [], _ :: _ => .lt
  | _ :: _, [] => .gt
  | a :: as, b :: bs => (c a b).then (lexCmp c as bs)

theorem lawful_lex {α : Type} {c : α → α → Ordering} (hc : Lawful c) : Lawful (lexCmp c) where
  swap := by
    intro a
    induction a with
    | nil => intro b; cases b <;> rfl
    | cons x a ih =>
      intro b
      cases b with
      | nil => rfl
      | cons y b => simp only [lexCmp]; rw [then_swap, ← hc.swap, ih]
  eq_iff := by
    intro a
    induction a with
    | nil => intro b; cases b <;> simp [lexCmp]
    | cons x a ih =>
      intro b
      cases b with
      | nil => simp [lexCmp]
      | cons y b => simp only [lexCmp]; rw [then_eq, hc.eq_iff, ih, List.cons.injEq]
  trans := by
    intro a
    induction a with
    | nil =>
      intro b d h1 h2
      cases b with
      | nil => cases h1
      | cons y b => cases d with
        | nil => cases h2
        | cons z d => rfl
    | cons x a ih =>
      intro b d h1 h2
      cases b with
      | nil => cases h1
      | cons y b => cases d with
        | nil => cases h2
        | cons z d =>
          simp only [lexCmp, then_lt] at *
          rcases h1 with h1 | ⟨h1, h1'⟩ <;> rcases h2 with h2 | ⟨h2, h2'⟩
          · exact .inl (hc.trans _ _ _ h1 h2)
          · rw [hc.eq_iff] at h2; exact .inl (h2 ▸ h1)
          · rw [hc.eq_iff] at h1; exact .inl (h1 ▸ h2)
          · rw [hc.eq_iff] at h1 h2
            exact .inr ⟨(hc.eq_iff _ _).mpr (h1.trans h2), ih _ _ h1' h2'⟩

theorem cmpChars_lex : ∀ a b, cmpChars a b = lexCmp (fun x y : Char => cmpNat x.toNat y.toNat) a b
  | [], [] => rfl
  | [], _ :: _ => rfl
  | _ :: _, [] => rfl
  | x :: a, y :: b => by
    unfold cmpChars lexCmp
    rw [cmpChars_lex a b]
    unfold cmpNat
    split
    · rfl
    · split <;> rfl

theorem cmpSegs_lex (c : List Char → List Char → Ordering) : ∀ a b, cmpSegs c a b = lexCmp c a b
  | [], [] => rfl
  | [], _ :: _ => rfl
  | _ :: _, [] => rfl
  | x :: a, y :: b => by unfold cmpSegs lexCmp; rw [cmpSegs_lex c a b]

theorem lawful_cmpChars : Lawful cmpChars := by
  have : cmpChars = lexCmp (fun x y : Char => cmpNat x.toNat y.toNat) := by funext a b; exact cmpChars_lex a b
  rw [this]
  exact lawful_lex (lawful_map lawful_cmpNat Char.toNat fun _ _ => char_ext)

theorem lawful_cmpSegs {c : List Char → List Char → Ordering} (hc : Lawful c) : Lawful (cmpSegs c) := by
  have : cmpSegs c = lexCmp c := by funext a b; exact cmpSegs_lex c a b
  rw [this]
  exact lawful_lex hc

theorem lawful_len : Lawful (fun a b : List Char => (cmpNat a.length b.length).then (cmpChars a b)) :=
  lawful_key lawful_cmpNat List.length (fun _ => cmpChars) fun _ => lawful_cmpChars

/-- 0 for a number, 1 for a word. -/
def kind (a : List Char) : Nat := if a.all isDigit then 0 else 1

/-- Pre-release identifiers of the same kind. -/
def preSegBy (x : Nat) (a b : List Char) : Ordering :=
  if x = 0 then (cmpNat a.length b.length).then (cmpChars a b) else cmpChars a b

theorem lawful_cmpPreSeg : Lawful cmpPreSeg := by
  have : cmpPreSeg = fun a b => (cmpNat (kind a) (kind b)).then (preSegBy (kind a) a b) := by
    funext a b
    unfold cmpPreSeg kind
    cases a.all isDigit <;> cases b.all isDigit <;> rfl
  rw [this]
  refine lawful_key lawful_cmpNat kind preSegBy ?_
  intro x
  by_cases hx : x = 0
  · have : preSegBy x = fun a b : List Char => (cmpNat a.length b.length).then (cmpChars a b) := by
      funext a b; unfold preSegBy; rw [if_pos hx]
    rw [this]; exact lawful_len
  · have : preSegBy x = cmpChars := by funext a b; unfold preSegBy; rw [if_neg hx]
    rw [this]; exact lawful_cmpChars

theorem trim_inj : ∀ {a b : List Char}, trimStart a = trimStart b → a.length = b.length → a = b
  | [], [], _, _ => rfl
  | [], _ :: _, _, h => by simp at h
  | _ :: _, [], _, h => by simp at h
  | x :: a, y :: b, h, hl => by
    have hl' : a.length = b.length := by simpa using hl
    have hle : ∀ l : List Char, (trimStart l).length ≤ l.length := fun l => (List.dropWhile_sublist _).length_le
    have ha := hle a
    have hb := hle b
    unfold trimStart at *
    rw [List.dropWhile_cons, List.dropWhile_cons] at h
    split at h <;> split at h
    · next h1 h2 =>
      rw [trim_inj (a := a) (b := b) h hl']
      simp only [beq_iff_eq] at h1 h2
      rw [h1, h2]
    · rw [h] at ha; simp at ha; omega
    · rw [← h] at hb; simp at hb; omega
    · exact h

/-- Build identifiers of the same kind. -/
def buildSegBy (x : Nat) (a b : List Char) : Ordering :=
  if x = 0 then
    ((cmpNat (trimStart a).length (trimStart b).length).then (cmpChars (trimStart a) (trimStart b))).then
      (cmpNat a.length b.length)
  else cmpChars a b

theorem lawful_cmpBuildSeg : Lawful cmpBuildSeg := by
  have : cmpBuildSeg = fun a b => (cmpNat (kind a) (kind b)).then (buildSegBy (kind a) a b) := by
    funext a b
    unfold cmpBuildSeg kind
    cases a.all isDigit <;> cases b.all isDigit <;> rfl
  rw [this]
  refine lawful_key lawful_cmpNat kind buildSegBy ?_
  intro x
  by_cases hx : x = 0
  · have : buildSegBy x = fun a b : List Char =>
        ((cmpNat (trimStart a).length (trimStart b).length).then (cmpChars (trimStart a) (trimStart b))).then
          (cmpNat a.length b.length) := by
      funext a b; unfold buildSegBy; rw [if_pos hx]
    rw [this]
    exact lawful_map (lawful_prod lawful_len lawful_cmpNat) (fun a => (trimStart a, a.length))
      fun a b h => trim_inj (Prod.ext_iff.mp h).1 (Prod.ext_iff.mp h).2
  · have : buildSegBy x = cmpChars := by funext a b; unfold buildSegBy; rw [if_neg hx]
    rw [this]; exact lawful_cmpChars

/-- 1 for a release, 0 for a pre-release. -/
def released (a : List (List Char)) : Nat := if a = [] then 1 else 0

theorem lawful_cmpPre : Lawful cmpPre := by
  have : cmpPre = fun a b => (cmpNat (released a) (released b)).then
      ((fun _ : Nat => cmpSegs cmpPreSeg) (released a) a b) := by
    funext a b
    unfold cmpPre released
    cases a <;> cases b <;> simp [cmpNat, Ordering.then, cmpSegs]
  rw [this]
  exact lawful_key lawful_cmpNat released _ fun _ => lawful_cmpSegs lawful_cmpPreSeg

/-- What the order looks at. -/
def sortKey (v : Version) : ((Nat × Nat) × Nat) × List (List Char) × List (List Char) :=
  (((v.major, v.minor), v.patch), v.pre, buildSegs v.build)

/-- The order on what it looks at. -/
def cmpKey (a b : ((Nat × Nat) × Nat) × List (List Char) × List (List Char)) : Ordering :=
  (((cmpNat a.1.1.1 b.1.1.1).then (cmpNat a.1.1.2 b.1.1.2)).then (cmpNat a.1.2 b.1.2)).then
    ((cmpPre a.2.1 b.2.1).then (cmpSegs cmpBuildSeg a.2.2 b.2.2))

theorem lawful_cmpKey : Lawful cmpKey :=
  lawful_prod (lawful_prod (lawful_prod lawful_cmpNat lawful_cmpNat) lawful_cmpNat)
    (lawful_prod lawful_cmpPre (lawful_cmpSegs lawful_cmpBuildSeg))

theorem cmp_key (a b : Version) : cmp a b = cmpKey (sortKey a) (sortKey b) := rfl

theorem sortKey_inj {a b : Version} (ha : Valid a) (hb : Valid b) (h : sortKey a = sortKey b) : a = b := by
  cases a with
  | mk a1 a2 a3 a4 a5 =>
    cases b with
    | mk b1 b2 b3 b4 b5 =>
      simp only [sortKey, Prod.mk.injEq] at h
      obtain ⟨⟨⟨h1, h2⟩, h3⟩, h4, h5⟩ := h
      have h6 : a5 = b5 := by
        unfold buildSegs at h5
        split at h5 <;> split at h5
        · next h6 h7 => rw [h6, h7]
        · next h6 h7 =>
          have := (hb.build [] (by rw [← h5]; exact List.mem_singleton.mpr rfl)).1
          exact absurd rfl this
        · next h6 h7 =>
          have := (ha.build [] (by rw [h5]; exact List.mem_singleton.mpr rfl)).1
          exact absurd rfl this
        · exact h5
      subst h1 h2 h3 h4 h6
      rfl

/-! ## Parsing -/

theorem spanDigits_spec : ∀ cs : List Char, cs = (spanDigits cs).1 ++ (spanDigits cs).2 ∧ Numeric (spanDigits cs).1 ∧
    ∀ c, (spanDigits cs).2.head? = some c → isDigit c = false
  | [] => by refine ⟨rfl, ?_, ?_⟩ <;> intro c hc <;> cases hc
  | c :: cs => by
    obtain ⟨h1, h2, h3⟩ := spanDigits_spec cs
    unfold spanDigits
    split
    · next hc =>
      refine ⟨by simp [← h1], ?_, h3⟩
      intro x hx
      rcases List.mem_cons.mp hx with rfl | hx
      · exact hc
      · exact h2 x hx
    · next hc =>
      refine ⟨rfl, (fun x hx => by cases hx), ?_⟩
      intro x hx
      simp only [List.head?_cons, Option.some.injEq] at hx
      subst hx
      simpa using hc

theorem spanDigits_append : ∀ {ds rest : List Char}, Numeric ds → (∀ c, rest.head? = some c → isDigit c = false) →
    spanDigits (ds ++ rest) = (ds, rest)
  | [], [], _, _ => rfl
  | [], c :: r, _, h => by
    have := h c rfl
    show spanDigits (c :: r) = _
    unfold spanDigits
    simp [this]
  | d :: ds, rest, hd, h => by
    show spanDigits (d :: (ds ++ rest)) = _
    unfold spanDigits
    rw [if_pos (hd d List.mem_cons_self),
      spanDigits_append (ds := ds) (fun x hx => hd x (List.mem_cons_of_mem _ hx)) h]

/-- Only identifier characters. -/
def Idents (s : List Char) : Prop := ∀ c ∈ s, IdentChar c

theorem identChar_iff (c : Char) : IdentChar c ↔ (isDigit c || isNonDigit c) = true := by
  unfold IdentChar; simp

theorem spanIdent_spec : ∀ cs : List Char, cs = (spanIdent cs).1 ++ (spanIdent cs).2 ∧ Idents (spanIdent cs).1 ∧
    ∀ c, (spanIdent cs).2.head? = some c → ¬ IdentChar c
  | [] => by refine ⟨rfl, ?_, ?_⟩ <;> intro c hc <;> cases hc
  | c :: cs => by
    obtain ⟨h1, h2, h3⟩ := spanIdent_spec cs
    unfold spanIdent
    split
    · next hc =>
      refine ⟨by simp [← h1], ?_, h3⟩
      intro x hx
      rcases List.mem_cons.mp hx with rfl | hx
      · exact (identChar_iff _).mpr hc
      · exact h2 x hx
    · next hc =>
      refine ⟨rfl, (fun x hx => by cases hx), ?_⟩
      intro x hx
      simp only [List.head?_cons, Option.some.injEq] at hx
      subst hx
      rwa [identChar_iff]

theorem spanIdent_append : ∀ {ds rest : List Char}, Idents ds → (∀ c, rest.head? = some c → ¬ IdentChar c) →
    spanIdent (ds ++ rest) = (ds, rest)
  | [], [], _, _ => rfl
  | [], c :: r, _, h => by
    have := h c rfl
    rw [identChar_iff] at this
    show spanIdent (c :: r) = _
    unfold spanIdent
    rw [if_neg this]
  | d :: ds, rest, hd, h => by
    show spanIdent (d :: (ds ++ rest)) = _
    unfold spanIdent
    rw [if_pos ((identChar_iff _).mp (hd d List.mem_cons_self)),
      spanIdent_append (ds := ds) (fun x hx => hd x (List.mem_cons_of_mem _ hx)) h]

theorem digitChar_ne_zero {n : Nat} (h0 : n ≠ 0) (h : n < 10) : digitChar n ≠ '0' := by
  intro e
  have h1 := digitVal_digitChar h
  rw [e] at h1
  have : digitVal '0' = some 0 := by decide
  rw [this] at h1
  simp at h1
  omega

theorem decAux_head : ∀ (f n : Nat), n ≠ 0 → n < 10 ^ (f + 1) → (decAux f n).head? ≠ some '0'
  | 0, n, h0, h => by
    have hn : n < 10 := by simpa using h
    simp only [decAux, List.head?_cons, ne_eq, Option.some.injEq]
    rw [Nat.mod_eq_of_lt hn]
    exact digitChar_ne_zero h0 hn
  | f + 1, n, h0, h => by
    unfold decAux
    split
    · next hn =>
      simp only [List.head?_cons, ne_eq, Option.some.injEq]
      exact digitChar_ne_zero h0 hn
    · have hlt : n / 10 < 10 ^ (f + 1) := by
        rw [Nat.div_lt_iff_lt_mul (by decide)]
        calc n < 10 ^ (f + 1 + 1) := h
          _ = 10 ^ (f + 1) * 10 := by ring
      have h1 := decAux_head f (n / 10) (by omega) hlt
      have h2 := decAux_ne_nil f (n / 10)
      cases he : decAux f (n / 10) with
      | nil => exact absurd he h2
      | cons c cs => rw [he] at h1; simpa using h1

theorem decChars_noLead (n : Nat) : NoLead (decChars n) := by
  intro h
  by_cases h0 : n = 0
  · subst h0; exact decChars_zero
  · exact absurd h (decAux_head _ _ h0 (decFuel_ok n))

theorem decChars_value (n : Nat) : value (decChars n) = n := by
  have h1 := parseDigits_decChars n
  rw [parseDigits_value 0 (decChars_all_digit n)] at h1
  simpa using h1

theorem value_inj {a b : List Char} (ha : Numeric a) (hb : Numeric b) (hane : a ≠ []) (hbne : b ≠ [])
    (hla : NoLead a) (hlb : NoLead b) (h : value a = value b) : a = b := by
  have := cmpNum_value ha hb hane hbne hla hlb
  rw [cmpNat_eq.mpr h, then_eq] at this
  exact (lawful_cmpChars.eq_iff _ _).mp this.2

theorem numeric_iff {cs : List Char} {n : Nat} {rest : List Char} : numeric cs = some (n, rest) ↔
    n < 18446744073709551616 ∧ cs = decChars n ++ rest ∧ ∀ c, rest.head? = some c → isDigit c = false := by
  constructor
  · intro h
    obtain ⟨h1, h2, h3⟩ := spanDigits_spec cs
    unfold numeric at h
    split at h
    · cases h
    · next d ds r he =>
      rw [he] at h1 h2 h3
      dsimp only at h1 h2 h3
      split at h
      · cases h
      · next hz =>
        rw [parseDigits_value 0 h2] at h
        dsimp only at h
        split at h
        · next hlt =>
          simp only [Nat.zero_mul, Nat.zero_add] at h hlt
          obtain ⟨rfl, rfl⟩ := Prod.mk.inj (Option.some.inj h)
          refine ⟨hlt, ?_, h3⟩
          rw [h1]
          congr 1
          refine value_inj h2 (decChars_all_digit _) (by simp) (decChars_ne_nil _) ?_ (decChars_noLead _)
            (decChars_value _).symm
          intro hd
          simp only [List.head?_cons, Option.some.injEq] at hd
          subst hd
          have : ds = [] := by
            by_contra hne
            exact hz ⟨rfl, hne⟩
          rw [this]
        · cases h
  · rintro ⟨h1, rfl, h3⟩
    unfold numeric
    rw [spanDigits_append (decChars_all_digit n) h3]
    cases he : decChars n with
    | nil => exact absurd he (decChars_ne_nil n)
    | cons d ds =>
      dsimp only
      rw [if_neg, ← he, parseDigits_decChars]
      · dsimp only
        rw [if_pos (show n < u64Max from h1)]
      · rintro ⟨rfl, hne⟩
        have := decChars_noLead n (by rw [he]; rfl)
        rw [he] at this
        simp at this
        exact hne this

/-- A well-formed identifier. -/
def GoodSeg (isPre : Bool) (s : List Char) : Prop :=
  s ≠ [] ∧ Idents s ∧ (isPre = true → Numeric s → NoLead s)

theorem all_digit_iff (s : List Char) : s.all isDigit = true ↔ Numeric s := by simp [Numeric]

theorem goodSeg_cons {isPre : Bool} {c : Char} {s : List Char} (h : Idents (c :: s)) :
    GoodSeg isPre (c :: s) ↔ ¬ (isPre = true ∧ (c :: s).all isDigit = true ∧ s ≠ [] ∧ c = '0') := by
  rw [all_digit_iff]
  unfold GoodSeg NoLead
  simp only [ne_eq, reduceCtorEq, not_false_eq_true, List.head?_cons, Option.some.injEq, List.cons.injEq, true_and, h]
  tauto

theorem dot_not_ident : ¬ IdentChar '.' := by
  rw [identChar_iff]; decide

theorem segments_iff {isPre : Bool} : ∀ {f : Nat} {cs : List Char} {segs : List (List Char)} {rest : List Char},
    segments isPre f cs = some (segs, rest) ↔ segs ≠ [] ∧ segs.length ≤ f ∧ (∀ s ∈ segs, GoodSeg isPre s) ∧
      cs = dotted segs ++ rest ∧ ∀ c, rest.head? = some c → ¬ IdentChar c ∧ c ≠ '.'
  | 0, cs, segs, rest => by
    unfold segments
    constructor
    · intro h; cases h
    · rintro ⟨h1, h2, -⟩
      exact absurd (List.length_eq_zero_iff.mp (Nat.le_zero.mp h2)) h1
  | f + 1, cs, segs, rest => by
    constructor
    · intro h
      obtain ⟨h1, h2, h3⟩ := spanIdent_spec cs
      unfold segments at h
      split at h
      · cases h
      · next c s r he =>
        rw [he] at h1 h2 h3
        dsimp only at h1 h2 h3
        split at h
        · cases h
        · next hg =>
          have hg' := (goodSeg_cons (isPre := isPre) h2).mpr hg
          split at h
          · next r' =>
            split at h
            · next segs' q hs =>
              obtain ⟨rfl, rfl⟩ := Prod.mk.inj (Option.some.inj h)
              obtain ⟨i1, i2, i3, i4, i5⟩ := segments_iff.mp hs
              refine ⟨by simp, by simp; omega, ?_, ?_, i5⟩
              · intro x hx
                rcases List.mem_cons.mp hx with rfl | hx
                · exact hg'
                · exact i3 x hx
              · rw [h1, i4]
                cases segs' with
                | nil => exact absurd rfl i1
                | cons x xs => simp [dotted]
            · cases h
          · next hnd =>
            obtain ⟨rfl, rfl⟩ := Prod.mk.inj (Option.some.inj h)
            refine ⟨by simp, by simp, ?_, by simpa [dotted] using h1, ?_⟩
            · intro x hx
              rw [List.mem_singleton] at hx
              subst hx; exact hg'
            · intro x hx
              refine ⟨h3 x hx, ?_⟩
              rintro rfl
              cases r with
              | nil => cases hx
              | cons y ys =>
                simp only [List.head?_cons, Option.some.injEq] at hx
                subst hx
                exact hnd ys rfl
    · rintro ⟨h1, h2, h3, rfl, h5⟩
      cases segs with
      | nil => exact absurd rfl h1
      | cons s segs =>
        have hs := h3 s List.mem_cons_self
        obtain ⟨hs1, hs2, hs3⟩ := hs
        cases s with
        | nil => exact absurd rfl hs1
        | cons c s =>
          have hgood := (goodSeg_cons (isPre := isPre) hs2).mp ⟨hs1, hs2, hs3⟩
          cases segs with
          | nil =>
            unfold segments
            show (match spanIdent ((c :: s) ++ rest) with | ([], _) => _ | (s :: ss, rest) => _) = _
            rw [spanIdent_append hs2 fun x hx => (h5 x hx).1]
            dsimp only
            rw [if_neg hgood]
            split
            · next r' =>
              exact absurd rfl (h5 '.' rfl).2
            · rfl
          | cons t segs =>
            have ih := (segments_iff (isPre := isPre) (f := f) (cs := dotted (t :: segs) ++ rest) (segs := t :: segs)
              (rest := rest)).mpr ⟨by simp, by simp at h2 ⊢; omega,
                (fun x hx => h3 x (List.mem_cons_of_mem _ hx)), rfl, h5⟩
            unfold segments
            have hd : dotted ((c :: s) :: t :: segs) ++ rest = (c :: s) ++ '.' :: (dotted (t :: segs) ++ rest) := by
              simp [dotted]
            rw [hd, spanIdent_append hs2 (fun x hx => by
              simp only [List.head?_cons, Option.some.injEq] at hx
              subst hx; exact dot_not_ident)]
            dsimp only
            rw [if_neg hgood]
            show (match segments isPre f (dotted (t :: segs) ++ rest) with
              | some (segs, r) => some ((c :: s) :: segs, r)
              | none => none) = _
            rw [ih]

theorem dotted_length : ∀ {segs : List (List Char)}, (∀ s ∈ segs, s ≠ []) → segs.length ≤ (dotted segs).length
  | [], _ => by simp [dotted]
  | [s], h => by
    have := List.length_pos_iff.mpr (h s List.mem_cons_self)
    simp [dotted]; omega
  | s :: t :: r, h => by
    have h1 := List.length_pos_iff.mpr (h s List.mem_cons_self)
    have h2 := dotted_length (segs := t :: r) fun x hx => h x (List.mem_cons_of_mem _ hx)
    simp only [dotted, List.length_cons, List.length_append] at *
    omega


theorem goodSeg_true {s : List Char} : GoodSeg true s ↔
    s ≠ [] ∧ (∀ c ∈ s, IdentChar c) ∧ (Numeric s → s.head? = some '0' → s = ['0']) := by
  simp [GoodSeg, Idents, NoLead]

theorem goodSeg_false {s : List Char} : GoodSeg false s ↔ s ≠ [] ∧ ∀ c ∈ s, IdentChar c := by
  simp [GoodSeg, Idents]

theorem dot_iff {cs r : List Char} : dot cs = some r ↔ cs = '.' :: r := by
  unfold dot
  split
  · simp
  · next h =>
    constructor
    · intro h'; cases h'
    · intro h'; exact absurd h' (h r)

/-- An optional part introduced by `mark`. -/
theorem part_iff {mark : Char} {isPre : Bool} {t : List Char} {segs : List (List Char)} {rest : List Char} :
    (match (if t.head? = some mark then segments isPre (t.tail.length + 1) t.tail else some ([], t)) with
      | none => False
      | some x => x = (segs, rest)) ↔
      (∀ s ∈ segs, GoodSeg isPre s) ∧ t = (if segs = [] then [] else mark :: dotted segs) ++ rest ∧
      (if segs = [] then rest.head? ≠ some mark else ∀ c, rest.head? = some c → ¬ IdentChar c ∧ c ≠ '.') := by
  by_cases hm : t.head? = some mark
  · rw [if_pos hm]
    obtain ⟨t', rfl⟩ : ∃ t', t = mark :: t' := by
      cases t with
      | nil => cases hm
      | cons c t' => simp only [List.head?_cons, Option.some.injEq] at hm; exact ⟨t', by rw [hm]⟩
    rw [List.tail_cons]
    constructor
    · intro h
      split at h
      · cases h
      · next x hx =>
        subst h
        obtain ⟨h1, -, h3, h4, h5⟩ := segments_iff.mp hx
        rw [if_neg h1, if_neg h1]
        exact ⟨h3, by rw [h4]; rfl, h5⟩
    · rintro ⟨h1, h2, h3⟩
      by_cases hs : segs = []
      · rw [if_pos hs] at h2 h3
        rw [List.nil_append] at h2
        rw [← h2] at h3
        exact absurd rfl h3
      · rw [if_neg hs] at h2 h3
        simp only [List.cons_append, List.cons.injEq, true_and] at h2
        have := dotted_length fun s h => (h1 s h).1
        rw [segments_iff.mpr ⟨hs, by rw [h2, List.length_append]; omega, h1, h2, h3⟩]
  · rw [if_neg hm]
    dsimp only
    constructor
    · intro h
      obtain ⟨rfl, rfl⟩ := Prod.mk.inj h
      exact ⟨by simp, by simp, by simpa using hm⟩
    · rintro ⟨-, h2, h3⟩
      by_cases hs : segs = []
      · subst hs
        rw [if_pos rfl] at h2
        rw [h2]; rfl
      · rw [if_neg hs] at h2
        rw [h2] at hm
        exact absurd rfl hm

theorem part_eq {mark : Char} {isPre : Bool} {t : List Char} {segs : List (List Char)} {rest : List Char} :
    optional mark isPre t = some (segs, rest) ↔
      (∀ s ∈ segs, GoodSeg isPre s) ∧ t = (if segs = [] then [] else mark :: dotted segs) ++ rest ∧
      (if segs = [] then rest.head? ≠ some mark else ∀ c, rest.head? = some c → ¬ IdentChar c ∧ c ≠ '.') := by
  rw [← part_iff]
  unfold optional
  cases (if t.head? = some mark then segments isPre (t.tail.length + 1) t.tail else some ([], t)) with
  | none => simp
  | some x => simp

/-- The parser accepts exactly the texts of well-formed versions, and reads them back. -/
theorem parse_iff {s : String} {v : Version} : parse s = some v ↔ Valid v ∧ s.toList = text v := by
  constructor
  · intro h
    unfold parse at h
    split at h
    · cases h
    next major t1 h1 =>
    split at h
    · cases h
    next t2 h2 =>
    split at h
    · cases h
    next minor t3 h3 =>
    split at h
    · cases h
    next t4 h4 =>
    split at h
    · cases h
    next patch t5 h5 =>
    split at h
    · cases h
    next pre t6 h6 =>
    split at h
    · cases h
    next build t7 h7 =>
    split at h
    · next h8 =>
      subst h8
      rw [Option.some.injEq] at h
      subst h
      rw [numeric_iff] at h1 h3 h5
      rw [dot_iff] at h2 h4
      rw [part_eq] at h6 h7
      refine ⟨⟨h1.1, h3.1, h5.1, fun s hs => goodSeg_true.mp (h6.1 s hs), fun s hs => goodSeg_false.mp (h7.1 s hs)⟩, ?_⟩
      unfold text
      dsimp only
      rw [h1.2.1, h2, h3.2.1, h4, h5.2.1, h6.2.1, h7.2.1]
      simp
    · cases h
  · rintro ⟨hv, ht⟩
    have hbuild : ∀ c, (if v.build = [] then [] else '+' :: dotted v.build : List Char).head? = some c → c = '+' := by
      intro c hc
      split at hc
      · cases hc
      · simp only [List.head?_cons, Option.some.injEq] at hc; exact hc.symm
    have hpre : ∀ c, ((if v.pre = [] then [] else '-' :: dotted v.pre) ++
        (if v.build = [] then [] else '+' :: dotted v.build) : List Char).head? = some c → c = '-' ∨ c = '+' := by
      intro c hc
      by_cases hp : v.pre = []
      · rw [if_pos hp, List.nil_append] at hc
        exact .inr (hbuild c hc)
      · rw [if_neg hp] at hc
        simp only [List.cons_append, List.head?_cons, Option.some.injEq] at hc
        exact .inl hc.symm
    have h1 : numeric s.toList = some (v.major, '.' :: (decChars v.minor ++ '.' :: (decChars v.patch ++
        ((if v.pre = [] then [] else '-' :: dotted v.pre) ++
          (if v.build = [] then [] else '+' :: dotted v.build))))) := by
      rw [numeric_iff]
      refine ⟨hv.major, by rw [ht]; simp [text], ?_⟩
      intro c hc
      simp only [List.head?_cons, Option.some.injEq] at hc
      subst hc; decide
    have h2 : numeric (decChars v.minor ++ '.' :: (decChars v.patch ++
        ((if v.pre = [] then [] else '-' :: dotted v.pre) ++
          (if v.build = [] then [] else '+' :: dotted v.build)))) = some (v.minor, '.' :: (decChars v.patch ++
        ((if v.pre = [] then [] else '-' :: dotted v.pre) ++
          (if v.build = [] then [] else '+' :: dotted v.build)))) := by
      rw [numeric_iff]
      refine ⟨hv.minor, rfl, ?_⟩
      intro c hc
      simp only [List.head?_cons, Option.some.injEq] at hc
      subst hc; decide
    have h3 : numeric (decChars v.patch ++
        ((if v.pre = [] then [] else '-' :: dotted v.pre) ++
          (if v.build = [] then [] else '+' :: dotted v.build))) = some (v.patch,
        (if v.pre = [] then [] else '-' :: dotted v.pre) ++
          (if v.build = [] then [] else '+' :: dotted v.build)) := by
      rw [numeric_iff]
      refine ⟨hv.patch, rfl, ?_⟩
      intro c hc
      rcases hpre c hc with rfl | rfl <;> decide
    have hdot : ∀ l : List Char, dot ('.' :: l) = some l := fun _ => rfl
    unfold parse
    rw [h1]
    dsimp only
    rw [hdot]
    dsimp only
    rw [h2]
    dsimp only
    rw [hdot]
    dsimp only
    rw [h3]
    dsimp only
    rw [(part_eq (segs := v.pre) (rest := (if v.build = [] then [] else '+' :: dotted v.build))).mpr
      ⟨fun s hs => goodSeg_true.mpr (hv.pre s hs), rfl, ?_⟩]
    · dsimp only
      rw [(part_eq (segs := v.build) (rest := [])).mpr
        ⟨fun s hs => goodSeg_false.mpr (hv.build s hs), by simp, ?_⟩]
      · dsimp only
        rw [if_pos rfl]
      · split
        · simp
        · intro c hc; cases hc
    · split
      · intro h
        have := hbuild _ h
        exact absurd this (by decide)
      · intro c hc
        rw [hbuild c hc]
        rw [identChar_iff]
        decide

/-! ## Precedence -/

theorem lexCmp_lt {α β : Type} {c : α → α → Ordering} (hc : Lawful c) {r : β → β → Prop} {f : α → β} {P : α → Prop}
    (hlt : ∀ a b, P a → P b → (c a b = .lt ↔ r (f a) (f b))) (hf : ∀ a b, P a → P b → f a = f b → a = b)
    (hirr : ∀ x, ¬ r x x) :
    ∀ {a b : List α}, (∀ x ∈ a, P x) → (∀ x ∈ b, P x) → (lexCmp c a b = .lt ↔ List.Lex r (a.map f) (b.map f))
  | [], [], _, _ => by
    constructor
    · intro h; cases h
    · intro h; cases h
  | [], y :: b, _, _ => by
    constructor
    · intro _; exact List.Lex.nil
    · intro _; rfl
  | x :: a, [], _, _ => by
    constructor
    · intro h; cases h
    · intro h; cases h
  | x :: a, y :: b, ha, hb => by
    have hx := ha x List.mem_cons_self
    have hy := hb y List.mem_cons_self
    have ih := lexCmp_lt hc hlt hf hirr (a := a) (b := b) (fun z hz => ha z (List.mem_cons_of_mem _ hz))
      (fun z hz => hb z (List.mem_cons_of_mem _ hz))
    simp only [lexCmp, then_lt, List.map_cons]
    constructor
    · rintro (h | ⟨h, h'⟩)
      · exact List.Lex.rel ((hlt x y hx hy).mp h)
      · rw [hc.eq_iff] at h
        subst h
        exact List.Lex.cons (ih.mp h')
    · intro h
      generalize hfx : f x = fx at h
      generalize hfy : f y = fy at h
      cases h with
      | rel h => subst hfx hfy; exact .inl ((hlt x y hx hy).mpr h)
      | cons h =>
        refine .inr ⟨?_, ih.mpr h⟩
        rw [hc.eq_iff]
        exact hf x y hx hy (hfx.trans hfy.symm)

theorem lex_irrefl {α : Type} {r : α → α → Prop} (h : ∀ x, ¬ r x x) : ∀ l : List α, ¬ List.Lex r l l
  | [] => fun h' => by cases h'
  | x :: l => fun h' => by
    cases h' with
    | rel h' => exact h x h'
    | cons h' => exact lex_irrefl h l h'

theorem cmpChars_lt {a b : List Char} : cmpChars a b = .lt ↔ List.Lex (· < ·) (a.map Char.toNat) (b.map Char.toNat) := by
  rw [cmpChars_lex]
  exact lexCmp_lt (lawful_map lawful_cmpNat Char.toNat fun _ _ => char_ext) (P := fun _ => True)
    (fun _ _ _ _ => cmpNat_lt) (fun _ _ _ _ => char_ext) (fun x => Nat.lt_irrefl x) (fun _ _ => trivial) (fun _ _ => trivial)

theorem identBefore_irrefl (x : Ident) : ¬ IdentBefore x x := by
  intro h
  cases h with
  | num h => exact Nat.lt_irrefl _ h
  | word h => exact lex_irrefl (fun x => Nat.lt_irrefl x) _ h

theorem cmpPreSeg_lt {a b : List Char} (ha : GoodSeg true a) (hb : GoodSeg true b) :
    cmpPreSeg a b = .lt ↔ IdentBefore (ident a) (ident b) := by
  have e : ∀ s : List Char, s.all isDigit = decide (Numeric s) := by
    intro s
    rw [Bool.eq_iff_iff, all_digit_iff, decide_eq_true_iff]
  unfold cmpPreSeg ident
  rw [e, e]
  by_cases h1 : Numeric a <;> by_cases h2 : Numeric b
  · rw [if_pos h1, if_pos h2, decide_eq_true h1, decide_eq_true h2]
    dsimp only
    rw [cmpNum_value h1 h2 ha.1 hb.1 (ha.2.2 rfl h1) (hb.2.2 rfl h2), cmpNat_lt]
    exact ⟨.num, fun h => by cases h; assumption⟩
  · rw [if_pos h1, if_neg h2, decide_eq_true h1, decide_eq_false h2]
    exact ⟨fun _ => .mixed, fun _ => rfl⟩
  · rw [if_neg h1, if_pos h2, decide_eq_false h1, decide_eq_true h2]
    exact ⟨(fun h => by cases h), (fun h => by cases h)⟩
  · rw [if_neg h1, if_neg h2, decide_eq_false h1, decide_eq_false h2]
    dsimp only
    rw [cmpChars_lt]
    exact ⟨.word, fun h => by cases h; assumption⟩

theorem ident_inj {a b : List Char} (ha : GoodSeg true a) (hb : GoodSeg true b) (h : ident a = ident b) : a = b := by
  unfold ident at h
  split at h <;> split at h
  · next h1 h2 =>
    exact value_inj h1 h2 ha.1 hb.1 (ha.2.2 rfl h1) (hb.2.2 rfl h2) (Ident.num.inj h)
  · cases h
  · cases h
  · exact Ident.word.inj h

theorem cmpPre_lt {a b : List (List Char)} (ha : ∀ s ∈ a, GoodSeg true s) (hb : ∀ s ∈ b, GoodSeg true s) :
    cmpPre a b = .lt ↔ a ≠ [] ∧ b = [] ∨ a ≠ [] ∧ b ≠ [] ∧ List.Lex IdentBefore (a.map ident) (b.map ident) := by
  cases a with
  | nil => cases b <;> simp [cmpPre]
  | cons x a =>
    cases b with
    | nil => simp [cmpPre]
    | cons y b =>
      show cmpSegs cmpPreSeg (x :: a) (y :: b) = .lt ↔ _
      rw [cmpSegs_lex, lexCmp_lt lawful_cmpPreSeg (fun _ _ => cmpPreSeg_lt) (fun _ _ => ident_inj) identBefore_irrefl ha hb]
      simp

/-- The order of the crate is precedence, refined by build metadata among versions of equal precedence. -/
theorem cmp_lt {a b : Version} (ha : Valid a) (hb : Valid b) :
    cmp a b = .lt ↔ Before a b ∨ SamePrecedence a b ∧ cmpBuild a.build b.build = .lt := by
  unfold cmp
  simp only [then_lt, then_eq, cmpNat_lt, cmpNat_eq]
  rw [cmpPre_lt (fun s h => goodSeg_true.mpr (ha.pre s h)) (fun s h => goodSeg_true.mpr (hb.pre s h)),
    lawful_cmpPre.eq_iff]
  constructor
  · rintro (((h | ⟨h1, h⟩) | ⟨⟨h1, h2⟩, h⟩) | ⟨⟨⟨h1, h2⟩, h3⟩, (⟨h4, h5⟩ | ⟨h4, h5, h6⟩) | ⟨h4, h5⟩⟩)
    · exact .inl (.major h)
    · exact .inl (.minor h1 h)
    · exact .inl (.patch h1 h2 h)
    · exact .inl (.release h1 h2 h3 h4 h5)
    · exact .inl (.pre h1 h2 h3 h4 h5 h6)
    · exact .inr ⟨⟨h1, h2, h3, h4⟩, h5⟩
  · rintro (h | ⟨⟨h1, h2, h3, h4⟩, h5⟩)
    · cases h with
      | major h => exact .inl (.inl (.inl h))
      | minor h1 h => exact .inl (.inl (.inr ⟨h1, h⟩))
      | patch h1 h2 h => exact .inl (.inr ⟨⟨h1, h2⟩, h⟩)
      | release h1 h2 h3 h4 h5 => exact .inr ⟨⟨⟨h1, h2⟩, h3⟩, .inl (.inl ⟨h4, h5⟩)⟩
      | pre h1 h2 h3 h4 h5 h6 => exact .inr ⟨⟨⟨h1, h2⟩, h3⟩, .inl (.inr ⟨h4, h5, h6⟩)⟩
    · exact .inr ⟨⟨⟨h1, h2⟩, h3⟩, .inr ⟨h4, h5⟩⟩

/-- No build metadata is the least. -/
theorem cmpBuild_nil (a : List (List Char)) : cmpBuild a [] ≠ .lt := by
  unfold cmpBuild buildSegs
  rw [if_pos (rfl : ([] : List (List Char)) = [])]
  split
  · intro h; cases h
  · next hne =>
    cases a with
    | nil => exact absurd rfl hne
    | cons s r =>
      intro h
      unfold cmpSegs at h
      rw [then_lt] at h
      rcases h with h | ⟨-, h⟩
      · unfold cmpBuildSeg at h
        cases hs : s.all isDigit with
        | false => rw [hs] at h; cases h
        | true =>
          rw [hs] at h
          simp only [List.all_nil, then_lt, then_eq, cmpNat_lt, trimStart, List.dropWhile_nil, List.length_nil,
            Nat.not_lt_zero, false_or, and_false, or_false] at h
          obtain ⟨-, h⟩ := h
          generalize List.dropWhile (fun x => x == '0') s = l at h
          cases l <;> cases h
      · cases r <;> cases h

/-- Compared with a version without build metadata, only precedence counts. -/
theorem cmp_lt_release {a b : Version} (ha : Valid a) (hb : Valid b) (hbuild : b.build = []) :
    cmp a b = .lt ↔ Before a b := by
  rw [cmp_lt ha hb, hbuild]
  exact ⟨fun h => h.elim id fun h => absurd h.2 (cmpBuild_nil _), .inl⟩

end Ica.Semver
