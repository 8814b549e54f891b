import Verif.Model.Semver
import Mathlib.Data.List.Basic

/-!
# Semantic versions, after semver.org 2.0.0

Which texts are versions, and their precedence (clause 11), written independently of the parser and the comparison of the
crate.
-/
namespace Ica.Semver

/-- The decimal value of a list of digits. -/
def value : List Char → Nat
  | [] => 0
  | c :: cs => (c.toNat - 48) * 10 ^ cs.length + value cs

/-- Only digits. -/
def Numeric (s : List Char) : Prop := ∀ c ∈ s, isDigit c = true

instance (s : List Char) : Decidable (Numeric s) := inferInstanceAs (Decidable (∀ c ∈ s, _))

/-- Letters, digits and hyphens. -/
def IdentChar (c : Char) : Prop := isDigit c = true ∨ isNonDigit c = true

/-- The identifiers and numbers of a version are well formed (clauses 2, 9, 10); numbers fit 64 bits. -/
structure Valid (v : Version) : Prop where
  major : v.major < 18446744073709551616
  minor : v.minor < 18446744073709551616
  patch : v.patch < 18446744073709551616
  pre : ∀ s ∈ v.pre, s ≠ [] ∧ (∀ c ∈ s, IdentChar c) ∧ (Numeric s → s.head? = some '0' → s = ['0'])
  build : ∀ s ∈ v.build, s ≠ [] ∧ ∀ c ∈ s, IdentChar c

/-- Identifiers with dots in between. -/
def dotted : List (List Char) → List Char
  | [] => []
  | [s] => s
  | s :: t :: r => s ++ '.' :: dotted (t :: r)

/-- The text of a version. -/
def text (v : Version) : List Char :=
  decChars v.major ++ '.' :: decChars v.minor ++ '.' :: decChars v.patch ++
    (if v.pre = [] then [] else '-' :: dotted v.pre) ++ (if v.build = [] then [] else '+' :: dotted v.build)

/-- A pre-release identifier: a number or a word. -/
inductive Ident where
  | num (n : Nat)
  | word (s : List Char)

/-- Read an identifier. -/
def ident (s : List Char) : Ident := if Numeric s then .num (value s) else .word s

/-- Precedence of identifiers: numbers numerically, words in ASCII order, numbers before words (clause 11.4). -/
inductive IdentBefore : Ident → Ident → Prop where
  | num {m n : Nat} : m < n → IdentBefore (.num m) (.num n)
  | word {s t : List Char} : List.Lex (· < ·) (s.map Char.toNat) (t.map Char.toNat) → IdentBefore (.word s) (.word t)
  | mixed {n : Nat} {s : List Char} : IdentBefore (.num n) (.word s)

/-- Precedence of versions (clause 11): numbers first, then a pre-release comes before its release, then identifier by
identifier, where a proper prefix comes first. Build metadata does not count. -/
inductive Before (a b : Version) : Prop where
  | major : a.major < b.major → Before a b
  | minor : a.major = b.major → a.minor < b.minor → Before a b
  | patch : a.major = b.major → a.minor = b.minor → a.patch < b.patch → Before a b
  | release : a.major = b.major → a.minor = b.minor → a.patch = b.patch → a.pre ≠ [] → b.pre = [] → Before a b
  | pre : a.major = b.major → a.minor = b.minor → a.patch = b.patch → a.pre ≠ [] → b.pre ≠ [] →
      List.Lex IdentBefore (a.pre.map ident) (b.pre.map ident) → Before a b

/-- Versions that differ at most in build metadata. -/
def SamePrecedence (a b : Version) : Prop :=
  a.major = b.major ∧ a.minor = b.minor ∧ a.patch = b.patch ∧ a.pre = b.pre

/-- The order `migrate` uses, on version texts. -/
def Older (s t : String) : Prop := ∃ a b, parse s = some a ∧ parse t = some b ∧ cmp a b = .lt

end Ica.Semver
