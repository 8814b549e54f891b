import Verif.Basic
import Mathlib.Tactic.Ring
import Mathlib.Tactic.NormNum
import Mathlib.Data.Char

/-!
# Decimal numbers as text

`u64::to_string`, `u128::to_string` (`Display`), `str::parse::<u64/u128>` and cosmwasm-std's
`Uint128` / `Decimal` text formats, which the contract uses for amounts and vote weights
(`/repo/src/types/cosmos_msg.rs` 93, 114, 243; `/repo/src/types/query_msg.rs` 399, 438-440) and
for event attributes (`/repo/src/ibc/types/events.rs` 57).
-/
namespace Ica

/-- The character of a decimal digit. -/
def digitChar (d : Nat) : Char := Char.ofNat (48 + d)

/-- The value of a decimal digit character. -/
def digitVal (c : Char) : Option Nat :=
  if 48 ≤ c.toNat ∧ c.toNat ≤ 57 then some (c.toNat - 48) else none

/-- Is the character a decimal digit. -/
def isDigit (c : Char) : Bool := (digitVal c).isSome

/-- Decimal digits, most significant first; `fuel` bounds the number of further digits. -/
def decAux : Nat → Nat → List Char
  | 0, n => [digitChar (n % 10)]
  | f + 1, n => if n < 10 then [digitChar n] else decAux f (n / 10) ++ [digitChar (n % 10)]

/-- `to_string` of an unsigned integer (Rust `Display`). -/
def decChars (n : Nat) : List Char := decAux (n.log2 + 1) n

/-- `to_string` of an unsigned integer as a string. -/
def decString (n : Nat) : String := String.ofList (decChars n)

/-- Accumulating digit parser. -/
def parseDigits : Nat → List Char → Option Nat
  | acc, [] => some acc
  | acc, c :: cs =>
    match digitVal c with
    | some d => parseDigits (acc * 10 + d) cs
    | none => none

/-- Unsigned digits, at least one, leading zeros allowed. -/
def parseDecChars (cs : List Char) : Option Nat :=
  match cs with
  | [] => none
  | c :: cs => parseDigits 0 (c :: cs)

/-- Rust `str::parse::<uN>()` without the range check: an optional `+`, then at least one digit. -/
def parseUnsigned (cs : List Char) : Option Nat :=
  match cs with
  | [] => none
  | c :: cs => if c = '+' then parseDecChars cs else parseDecChars (c :: cs)

/-- `Uint128::from_str` (cosmwasm-std 2.1: `s.parse::<u128>()`). -/
def parseU128 (s : String) : Option U128 :=
  match parseUnsigned s.toList with
  | some n => U128.ofNat? n
  | none => none

/-! ## Facts -/

theorem digitVal_digitChar {d : Nat} (h : d < 10) : digitVal (digitChar d) = some d := by
  have h' : d = 0 ∨ d = 1 ∨ d = 2 ∨ d = 3 ∨ d = 4 ∨ d = 5 ∨ d = 6 ∨ d = 7 ∨ d = 8 ∨ d = 9 := by omega
  rcases h' with rfl | rfl | rfl | rfl | rfl | rfl | rfl | rfl | rfl | rfl <;> rfl

theorem isDigit_digitChar {d : Nat} (h : d < 10) : isDigit (digitChar d) = true := by
  simp [isDigit, digitVal_digitChar h]

theorem parseDigits_append (acc : Nat) (as bs : List Char) :
    parseDigits acc (as ++ bs) = (parseDigits acc as).bind (fun a => parseDigits a bs) := by
  induction as generalizing acc with
  | nil => simp [parseDigits]
  | cons c cs ih =>
    simp only [List.cons_append, parseDigits]
    cases digitVal c with
    | none => simp
    | some d => simp [ih]

theorem parseDigits_decAux : ∀ (f n : Nat), n < 10 ^ (f + 1) → parseDigits 0 (decAux f n) = some n
  | 0, n, h => by
    have hn : n < 10 := by simpa using h
    have : n % 10 = n := Nat.mod_eq_of_lt hn
    simp [decAux, parseDigits, this, digitVal_digitChar hn]
  | f + 1, n, h => by
    unfold decAux
    split
    · next hn => simp [parseDigits, digitVal_digitChar hn]
    · have hlt : n / 10 < 10 ^ (f + 1) := by
        rw [Nat.div_lt_iff_lt_mul (by decide)]
        calc n < 10 ^ (f + 1 + 1) := h
          _ = 10 ^ (f + 1) * 10 := by ring
      rw [parseDigits_append, parseDigits_decAux f _ hlt]
      simp [parseDigits, digitVal_digitChar (Nat.mod_lt n (by decide : 0 < 10))]
      omega

theorem decFuel_ok (n : Nat) : n < 10 ^ (n.log2 + 1 + 1) := by
  have h1 : n < 2 ^ (n.log2 + 1) := Nat.lt_log2_self
  have h2 : 2 ^ (n.log2 + 1) ≤ 10 ^ (n.log2 + 1) := Nat.pow_le_pow_left (by decide) _
  have h3 : 10 ^ (n.log2 + 1) ≤ 10 ^ (n.log2 + 1 + 1) := Nat.pow_le_pow_right (by decide) (by omega)
  omega

theorem parseDigits_decChars (n : Nat) : parseDigits 0 (decChars n) = some n :=
  parseDigits_decAux _ _ (decFuel_ok n)

theorem decAux_ne_nil (f n : Nat) : decAux f n ≠ [] := by
  cases f with
  | zero => simp [decAux]
  | succ f => unfold decAux; split <;> simp

theorem decAux_all_digit : ∀ (f n : Nat), ∀ c ∈ decAux f n, isDigit c = true
  | 0, n => by
    intro c hc
    simp only [decAux, List.mem_singleton] at hc
    subst hc
    exact isDigit_digitChar (Nat.mod_lt _ (by decide))
  | f + 1, n => by
    intro c hc
    unfold decAux at hc
    split at hc
    · next hn =>
      simp only [List.mem_singleton] at hc
      subst hc
      exact isDigit_digitChar hn
    · rw [List.mem_append] at hc
      rcases hc with hc | hc
      · exact decAux_all_digit f _ c hc
      · simp only [List.mem_singleton] at hc
        subst hc
        exact isDigit_digitChar (Nat.mod_lt _ (by decide))

theorem decChars_all_digit (n : Nat) : ∀ c ∈ decChars n, isDigit c = true :=
  decAux_all_digit _ _

theorem decChars_ne_nil (n : Nat) : decChars n ≠ [] := decAux_ne_nil _ _

theorem parseDecChars_decChars (n : Nat) : parseDecChars (decChars n) = some n := by
  have h := parseDigits_decChars n
  have hne := decChars_ne_nil n
  cases hc : decChars n with
  | nil => exact absurd hc hne
  | cons c cs => rw [hc] at h; exact h

theorem plus_not_digit : isDigit '+' = false := by decide

theorem parseUnsigned_decChars (n : Nat) : parseUnsigned (decChars n) = some n := by
  have h := parseDecChars_decChars n
  have hd := decChars_all_digit n
  cases hc : decChars n with
  | nil => exact absurd hc (decChars_ne_nil n)
  | cons c cs =>
    rw [hc] at h hd
    unfold parseUnsigned
    have : c ≠ '+' := by
      rintro rfl
      have := hd '+' (by simp)
      simp [plus_not_digit] at this
    simp only [this, if_false]
    exact h

/-- Printing then parsing a `Uint128` gives it back. -/
theorem parseU128_decString (u : U128) : parseU128 (decString u.val) = some u := by
  simp [parseU128, decString, parseUnsigned_decChars]

theorem decChars_inj {m n : Nat} (h : decChars m = decChars n) : m = n := by
  have h1 := parseDecChars_decChars m
  rw [h, parseDecChars_decChars n] at h1
  injection h1 with h1
  exact h1.symm

theorem decString_inj {m n : Nat} (h : decString m = decString n) : m = n := by
  apply decChars_inj
  have := congrArg String.toList h
  simpa [decString] using this

/-- A number is printed without a leading zero, unless it is zero itself. -/
theorem decAux_head : ∀ (f n : Nat), 0 < n → n < 10 ^ (f + 1) →
    ∃ c cs, decAux f n = c :: cs ∧ c ≠ '0'
  | 0, n, hpos, h => by
    have hn : n < 10 := by simpa using h
    refine ⟨digitChar n, [], by simp [decAux, Nat.mod_eq_of_lt hn], ?_⟩
    intro hc
    have := digitVal_digitChar hn
    rw [hc] at this
    simp [digitVal] at this
    omega
  | f + 1, n, hpos, h => by
    unfold decAux
    split
    · next hn =>
      refine ⟨digitChar n, [], rfl, ?_⟩
      intro hc
      have := digitVal_digitChar hn
      rw [hc] at this
      simp [digitVal] at this
      omega
    · next hn =>
      have hlt : n / 10 < 10 ^ (f + 1) := by
        rw [Nat.div_lt_iff_lt_mul (by decide)]
        calc n < 10 ^ (f + 1 + 1) := h
          _ = 10 ^ (f + 1) * 10 := by ring
      obtain ⟨c, cs, hcs, hc⟩ := decAux_head f (n / 10) (by omega) hlt
      exact ⟨c, cs ++ [digitChar (n % 10)], by rw [hcs]; rfl, hc⟩

theorem decChars_zero : decChars 0 = ['0'] := by decide

theorem decChars_head {n : Nat} (h : 0 < n) : ∃ c cs, decChars n = c :: cs ∧ c ≠ '0' :=
  decAux_head _ _ h (decFuel_ok n)

/-! ## cosmwasm-std `Decimal` -/

/-- `Decimal`: an 18-decimal fixed point number stored as `atomics / 10^18` (cosmwasm-std 2.1). -/
structure Decimal where
  atomics : U128
  deriving DecidableEq, Repr, Inhabited

/-- `Decimal::DECIMAL_FRACTIONAL`. -/
def decimalFractional : Nat := 1000000000000000000

/-- Left-pad with zeros to width 18 (`{:0>18}`). -/
def pad18 (cs : List Char) : List Char := List.replicate (18 - cs.length) '0' ++ cs

/-- `trim_end_matches('0')`. -/
def trimZeros (cs : List Char) : List Char := (cs.reverse.dropWhile (· == '0')).reverse

/-- `Display for Decimal` (cosmwasm-std 2.1): whole part, and a trimmed fractional part unless zero.
`scale` is `DECIMAL_FRACTIONAL`. -/
def decimalChars (scale atomics : Nat) : List Char :=
  if atomics % scale = 0 then decChars (atomics / scale)
  else decChars (atomics / scale) ++ '.' :: trimZeros (pad18 (decChars (atomics % scale)))

/-- `Display for Decimal`. -/
def Decimal.chars (d : Decimal) : List Char := decimalChars decimalFractional d.atomics.val

/-- `Decimal::to_string`. -/
def Decimal.toString (d : Decimal) : String := String.ofList d.chars

/-- `str::split('.')`. -/
def splitDots : List Char → List (List Char)
  | [] => [[]]
  | c :: cs =>
    match splitDots cs with
    | [] => [[c]]  -- unreachable: `splitDots` is never empty
    | w :: ws => if c = '.' then [] :: w :: ws else (c :: w) :: ws

/-- `u128` parse with the range check. -/
def parseU128Chars (cs : List Char) : Option U128 :=
  match parseUnsigned cs with
  | some n => U128.ofNat? n
  | none => none

/-- `Decimal::from_str` (cosmwasm-std 2.1): whole part, optionally a fractional part of at most 18
characters, no more dots, no overflow. `scale` is `DECIMAL_FRACTIONAL`. -/
def parseDecimalChars (scale : Nat) (cs : List Char) : Option U128 :=
  match splitDots cs with
  | [w] =>
    match parseU128Chars w with
    | some whole => U128.ofNat? (whole.val * scale)
    | none => none
  | [w, f] =>
    match parseU128Chars w, parseU128Chars f with
    | some whole, some frac =>
      if f.length ≤ 18 then U128.ofNat? (whole.val * scale + frac.val * 10 ^ (18 - f.length)) else none
    | _, _ => none
  | _ => none

/-- `Decimal::from_str`. -/
def parseDecimal (s : String) : Option Decimal :=
  (parseDecimalChars decimalFractional s.toList).map Decimal.mk

end Ica
