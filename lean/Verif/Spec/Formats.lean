import Verif.Json
import Verif.Wire

/-!
# The standard formats, stated independently of the code that reads and writes them

* protobuf: the encoding rules of https://protobuf.dev/programming-guides/encoding, on bits;
* JSON: the grammar of RFC 8259 (natural numbers only);
* base64: RFC 4648 section 4, on bits.

Only the data types `WVal`, `Fields` and `Json` are shared with the model; none of its functions is used.
-/
namespace Ica.Format

/-! ## Protobuf -/

/-- The continuation bit. -/
def More (b : UInt8) : Prop := b &&& 0x80 ≠ 0

/-- Seven payload bits per byte, low group first. -/
def payload : Bytes → Nat
  | [] => 0
  | b :: r => (b &&& 0x7f).toNat + payload r * 2 ^ 7

/-- A base-128 varint of at most ten bytes: every byte but the last has the continuation bit. -/
def IsVarint (n : Nat) (bs : Bytes) : Prop :=
  ∃ front last, bs = front ++ [last] ∧ (∀ b ∈ front, More b) ∧ ¬ More last ∧ bs.length ≤ 10 ∧ n = payload bs ∧ n < 2 ^ 64

/-- Wire types. -/
def wireType : WVal → Nat
  | .varint _ => 0
  | .i64 .. => 1
  | .len _ => 2
  | .i32 .. => 5
  | .group => 3

/-- The bytes of a value. -/
def IsValue : WVal → Bytes → Prop
  | .varint n, bs => IsVarint n.toNat bs
  | .i64 a b c d e f g h, bs => bs = [a, b, c, d, e, f, g, h]
  | .len x, bs => ∃ l, IsVarint x.length l ∧ bs = l ++ x
  | .i32 a b c d, bs => bs = [a, b, c, d]
  | .group, _ => False

/-- What follows the start of the (deprecated) group with number `t`: its records, and the key `(t << 3) | 4` that ends
it. Records, groups among them, nest at most `depth` deep. -/
inductive IsGroup : Nat → Nat → Bytes → Prop where
  | done {depth t : Nat} {key : Bytes} : IsVarint (t <<< 3 ||| 4) key → IsGroup depth t key
  | record {depth t u : Nat} {v : WVal} {key value rest : Bytes} :
      1 ≤ u → u < 2 ^ 29 → IsVarint (u <<< 3 ||| wireType v) key → IsValue v value → IsGroup (depth + 1) t rest →
      IsGroup (depth + 1) t (key ++ value ++ rest)
  | nested {depth t u : Nat} {key inner rest : Bytes} :
      1 ≤ u → u < 2 ^ 29 → IsVarint (u <<< 3 ||| 3) key → IsGroup depth u inner → IsGroup (depth + 1) t rest →
      IsGroup (depth + 1) t (key ++ inner ++ rest)

/-- A message: its records in order; a record is the key `(number << 3) | wire type` and the value; field numbers are
from 1 to 2^29 - 1. The content of groups is skipped; they nest at most 100 deep. -/
inductive IsMessage : Fields → Bytes → Prop where
  | nil : IsMessage [] []
  | cons {t : Nat} {v : WVal} {fs : Fields} {key value rest : Bytes} :
      1 ≤ t → t < 2 ^ 29 → IsVarint (t <<< 3 ||| wireType v) key → IsValue v value → IsMessage fs rest →
      IsMessage ((t, v) :: fs) (key ++ value ++ rest)
  | group {t : Nat} {fs : Fields} {key body rest : Bytes} :
      1 ≤ t → t < 2 ^ 29 → IsVarint (t <<< 3 ||| 3) key → IsGroup 99 t body → IsMessage fs rest →
      IsMessage ((t, .group) :: fs) (key ++ body ++ rest)

/-! ## JSON -/

/-- White space. -/
def Ws (t : List Char) : Prop := ∀ c ∈ t, c ∈ [' ', '\t', '\n', '\r']

/-- The two-character escapes of RFC 8259 section 7. -/
def shortEscapes : List (Char × Char) :=
  [('"', '"'), ('\\', '\\'), ('/', '/'), ('b', Char.ofNat 8), ('f', Char.ofNat 12), ('n', '\n'), ('r', '\r'), ('t', '\t')]

/-- A hexadecimal digit and its value. -/
def IsHex (d : Nat) (c : Char) : Prop :=
  ("0123456789abcdef".toList)[d]? = some c ∨ ("0123456789ABCDEF".toList)[d]? = some c

/-- Four hexadecimal digits. -/
def IsHex4 (n : Nat) (t : List Char) : Prop :=
  ∃ a b c d w x y z, t = [a, b, c, d] ∧ IsHex w a ∧ IsHex x b ∧ IsHex y c ∧ IsHex z d ∧
    n = w * 16 ^ 3 + x * 16 ^ 2 + y * 16 + z

/-- A character and the ways to write it inside a string. -/
inductive IsChar : Char → List Char → Prop where
  | plain (c : Char) : 0x20 ≤ c.toNat → c ≠ '"' → c ≠ '\\' → IsChar c [c]
  | short (e c : Char) : (e, c) ∈ shortEscapes → IsChar c ['\\', e]
  | unicode (c : Char) (t : List Char) : IsHex4 c.toNat t → IsChar c ('\\' :: 'u' :: t)
  | pair (c : Char) (hi lo : Nat) (t u : List Char) : IsHex4 hi t → IsHex4 lo u → 0xD800 ≤ hi → hi < 0xDC00 →
      0xDC00 ≤ lo → lo < 0xE000 → c.toNat = 0x10000 + (hi - 0xD800) * 0x400 + (lo - 0xDC00) →
      IsChar c ('\\' :: 'u' :: t ++ '\\' :: 'u' :: u)

/-- The inside of a string. -/
inductive IsChars : List Char → List Char → Prop where
  | nil : IsChars [] []
  | cons {c : Char} {cs t u : List Char} : IsChar c t → IsChars cs u → IsChars (c :: cs) (t ++ u)

/-- A quoted string. -/
def IsString (s : String) (t : List Char) : Prop := ∃ b, IsChars s.toList b ∧ t = '"' :: b ++ ['"']

/-- Digits `0` to `9`. -/
def IsDigits (t : List Char) : Prop := ∀ c ∈ t, c ∈ "0123456789".toList

/-- The value of digits. -/
def decimal (t : List Char) : Nat := t.foldl (fun n c => 10 * n + (c.toNat - '0'.toNat)) 0

/-- A natural number: `0`, or digits that do not start with `0`. -/
def IsNatural (n : Nat) (t : List Char) : Prop :=
  t ≠ [] ∧ IsDigits t ∧ (t.head? = some '0' → t = ['0']) ∧ decimal t = n

mutual
/-- A value without white space around it. -/
inductive IsJson : Json → List Char → Prop where
  | null : IsJson .null "null".toList
  | true : IsJson (.bool Bool.true) "true".toList
  | false : IsJson (.bool Bool.false) "false".toList
  | num {n : Nat} {t : List Char} : IsNatural n t → IsJson (.num n) t
  | str {s : String} {t : List Char} : IsString s t → IsJson (.str s) t
  | arrEmpty {w : List Char} : Ws w → IsJson (.arr []) ('[' :: w ++ [']'])
  | arr {xs : List Json} {t : List Char} : IsElements xs t → IsJson (.arr xs) ('[' :: t ++ [']'])
  | objEmpty {w : List Char} : Ws w → IsJson (.obj []) ('{' :: w ++ ['}'])
  | obj {fs : List (String × Json)} {t : List Char} : IsMembers fs t → IsJson (.obj fs) ('{' :: t ++ ['}'])
/-- Elements of an array, at least one. -/
inductive IsElements : List Json → List Char → Prop where
  | one {x : Json} {v t w : List Char} : Ws v → IsJson x t → Ws w → IsElements [x] (v ++ t ++ w)
  | cons {x : Json} {xs : List Json} {v t w u : List Char} : Ws v → IsJson x t → Ws w → IsElements xs u →
      IsElements (x :: xs) (v ++ t ++ w ++ ',' :: u)
/-- Members of an object, at least one. -/
inductive IsMembers : List (String × Json) → List Char → Prop where
  | one {k : String} {x : Json} {a s b v t w : List Char} : Ws a → IsString k s → Ws b → Ws v → IsJson x t → Ws w →
      IsMembers [(k, x)] (a ++ s ++ b ++ ':' :: (v ++ t ++ w))
  | cons {k : String} {x : Json} {fs : List (String × Json)} {a s b v t w u : List Char} : Ws a → IsString k s → Ws b →
      Ws v → IsJson x t → Ws w → IsMembers fs u →
      IsMembers ((k, x) :: fs) (a ++ s ++ b ++ ':' :: (v ++ t ++ w ++ ',' :: u))
end

/-- A document: a value with white space around it. -/
def IsDocument (j : Json) (t : List Char) : Prop := ∃ v u w, Ws v ∧ IsJson j u ∧ Ws w ∧ t = v ++ u ++ w

/-! ## Base64 -/

/-- The lowest `w` bits of `n`, most significant first. -/
def bits (w n : Nat) : List Bool := (List.range w).reverse.map n.testBit

/-- The alphabet. -/
def alphabet : List Char := "ABCDEFGHIJKLMNOPQRSTUVWXYZabcdefghijklmnopqrstuvwxyz0123456789+/".toList

/-- Groups of six bits that carry the bytes, filled up with zero bits, written in the alphabet, then `pad` equal
signs. -/
def Sextets (bs : Bytes) (pad : Nat) (t : List Char) : Prop :=
  ∃ (xs : List Nat) (zeros : Nat), (∀ x ∈ xs, x < 64) ∧ zeros < 6 ∧
    xs.flatMap (bits 6) = bs.flatMap (fun b => bits 8 b.toNat) ++ List.replicate zeros false ∧
    t = xs.map (fun x => alphabet.getD x '?') ++ List.replicate pad '='

/-- Padded to a multiple of four characters, with as little as possible. -/
def IsBase64 (bs : Bytes) (t : List Char) : Prop := ∃ pad, pad < 4 ∧ Sextets bs pad t ∧ t.length % 4 = 0

/-- With some or all of the padding left out. -/
def IsLooseBase64 (bs : Bytes) (t : List Char) : Prop := ∃ k, IsBase64 bs (t ++ List.replicate k '=')

end Ica.Format
