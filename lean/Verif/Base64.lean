import Verif.Basic

/-!
# Base64

cosmwasm-std `Binary` is base64 text in JSON (`to_base64`: standard alphabet, padded;
`from_base64`: standard alphabet, padding optional (`DecodePaddingMode::Indifferent`), non-zero trailing
bits rejected). Used by every `Binary` in `/repo/src` (acknowledgements, callbacks, packets)
and by the event attribute `packet_ack_base64` (`/repo/src/ibc/types/events.rs` 34).
-/
namespace Ica

/-- The standard base64 alphabet. -/
def b64Char (n : Nat) : Char :=
  if n < 26 then Char.ofNat (65 + n)
  else if n < 52 then Char.ofNat (97 + (n - 26))
  else if n < 62 then Char.ofNat (48 + (n - 52))
  else if n = 62 then '+' else '/'

/-- The value of a base64 symbol. -/
def b64Val (c : Char) : Option Nat :=
  let n := c.toNat
  if 65 ≤ n ∧ n ≤ 90 then some (n - 65)
  else if 97 ≤ n ∧ n ≤ 122 then some (n - 97 + 26)
  else if 48 ≤ n ∧ n ≤ 57 then some (n - 48 + 52)
  else if c = '+' then some 62
  else if c = '/' then some 63
  else none

/-- `Binary::to_base64`. -/
def b64Enc : Bytes → List Char
  | [] => []
  | [a] => [b64Char (a.toNat / 4), b64Char (a.toNat % 4 * 16), '=', '=']
  | [a, b] =>
    [b64Char (a.toNat / 4), b64Char (a.toNat % 4 * 16 + b.toNat / 16), b64Char (b.toNat % 16 * 4), '=']
  | a :: b :: c :: r =>
    b64Char (a.toNat / 4) :: b64Char (a.toNat % 4 * 16 + b.toNat / 16) ::
      b64Char (b.toNat % 16 * 4 + c.toNat / 64) :: b64Char (c.toNat % 64) :: b64Enc r

/-- Two final symbols: one byte, the four left-over bits must be zero. -/
def b64Dec2 (a b : Char) : Option Bytes := do
  let x ← b64Val a
  let y ← b64Val b
  if y % 16 = 0 then some [UInt8.ofNat (x * 4 + y / 16)] else none

/-- Three final symbols: two bytes, the two left-over bits must be zero. -/
def b64Dec3 (a b c : Char) : Option Bytes := do
  let x ← b64Val a
  let y ← b64Val b
  let z ← b64Val c
  if z % 4 = 0 then some [UInt8.ofNat (x * 4 + y / 16), UInt8.ofNat (y % 16 * 16 + z / 4)] else none

/-- Four symbols: three bytes. -/
def b64Dec4 (a b c d : Char) : Option Bytes := do
  let x ← b64Val a
  let y ← b64Val b
  let z ← b64Val c
  let w ← b64Val d
  some [UInt8.ofNat (x * 4 + y / 16), UInt8.ofNat (y % 16 * 16 + z / 4), UInt8.ofNat (z % 4 * 64 + w)]

/-- `Binary::from_base64`. -/
def b64Dec : List Char → Option Bytes
  | [] => some []
  | [_] => none
  | [a, b] => b64Dec2 a b
  | [a, b, c] => if c = '=' then b64Dec2 a b else b64Dec3 a b c
  | a :: b :: c :: d :: rest =>
    if rest = [] ∧ d = '=' then
      if c = '=' then b64Dec2 a b else b64Dec3 a b c
    else do
      let x ← b64Dec4 a b c d
      let xs ← b64Dec rest
      some (x ++ xs)

/-! ## Round trip -/

theorem b64Val_b64Char {n : Nat} (h : n < 64) : b64Val (b64Char n) = some n := by
  have key : ∀ m : Fin 64, b64Val (b64Char m.val) = some m.val := by decide
  exact key ⟨n, h⟩

theorem b64Char_ne_pad {n : Nat} (h : n < 64) : b64Char n ≠ '=' := by
  have key : ∀ m : Fin 64, b64Char m.val ≠ '=' := by decide
  exact key ⟨n, h⟩

theorem u8_eq {a : UInt8} {n : Nat} (h : n = a.toNat) : UInt8.ofNat n = a := by
  rw [h]; exact UInt8.ofNat_toNat

theorem b64Dec_b64Enc : ∀ bs : Bytes, b64Dec (b64Enc bs) = some bs
  | [] => rfl
  | [a] => by
    have ha := a.toNat_lt
    have h1 : a.toNat / 4 < 64 := by omega
    have h2 : a.toNat % 4 * 16 < 64 := by omega
    simp only [b64Enc, b64Dec, b64Dec2, b64Val_b64Char h1, b64Val_b64Char h2, and_self, if_true,
      Option.bind_eq_bind, Option.bind_some]
    rw [if_pos (by omega), u8_eq (a := a) (by omega)]
  | [a, b] => by
    have ha := a.toNat_lt
    have hb := b.toNat_lt
    have h1 : a.toNat / 4 < 64 := by omega
    have h2 : a.toNat % 4 * 16 + b.toNat / 16 < 64 := by omega
    have h3 : b.toNat % 16 * 4 < 64 := by omega
    simp only [b64Enc, b64Dec, b64Dec3, b64Val_b64Char h1, b64Val_b64Char h2, b64Val_b64Char h3,
      and_self, if_true, Option.bind_eq_bind, Option.bind_some, b64Char_ne_pad h3, if_false]
    rw [if_pos (by omega), u8_eq (a := a) (by omega), u8_eq (a := b) (by omega)]
  | a :: b :: c :: r => by
    have ha := a.toNat_lt
    have hb := b.toNat_lt
    have hc := c.toNat_lt
    have h1 : a.toNat / 4 < 64 := by omega
    have h2 : a.toNat % 4 * 16 + b.toNat / 16 < 64 := by omega
    have h3 : b.toNat % 16 * 4 + c.toNat / 64 < 64 := by omega
    have h4 : c.toNat % 64 < 64 := by omega
    have ih := b64Dec_b64Enc r
    simp only [b64Enc, b64Dec, b64Dec4, b64Val_b64Char h1, b64Val_b64Char h2, b64Val_b64Char h3,
      b64Val_b64Char h4, b64Char_ne_pad h4, and_false, if_false, Option.bind_eq_bind,
      Option.bind_some, ih]
    rw [u8_eq (a := a) (by omega), u8_eq (a := b) (by omega), u8_eq (a := c) (by omega)]
    rfl

theorem b64Enc_inj {a b : Bytes} (h : b64Enc a = b64Enc b) : a = b := by
  have := congrArg b64Dec h
  simpa [b64Dec_b64Enc] using this

end Ica
