import Verif.JsonFacts

/-!
# Hexadecimal text and `Checksum`

`cosmwasm_std::Checksum` (not in /repo) is 32 bytes, written as 64 lower-case hexadecimal digits and read in either
case; it occurs in `CodeInfoResponse`, `/repo/src/types/query_msg.rs` 162-164.
-/
namespace Ica

/-- Lower-case hexadecimal digit (`hex::encode`, used by the `CodeInfo` variant of `/repo/src/types/query_msg.rs` 162-164). -/
def hexLower (n : Nat) : Char := if n < 10 then Char.ofNat (48 + n) else Char.ofNat (87 + n)

/-- `hex::encode` (for `/repo/src/types/query_msg.rs` 162-164). -/
def hexText : Bytes → List Char
  | [] => []
  | b :: bs => hexLower (b.toNat / 16) :: hexLower (b.toNat % 16) :: hexText bs

/-- `hex::decode` (for `/repo/src/types/query_msg.rs` 162-164). -/
def unhex : List Char → Option Bytes
  | [] => some []
  | [_] => none
  | x :: y :: t =>
    match hexVal x, hexVal y, unhex t with
    | some a, some b, some bs => some (UInt8.ofNat (16 * a + b) :: bs)
    | _, _, _ => none

/-- `Checksum` (cosmwasm-std 2.1.3, not in /repo): 32 bytes; `/repo/src/types/query_msg.rs` 162-164. -/
structure Checksum where
  bytes : Bytes
  size : bytes.length = 32
  deriving DecidableEq

/-- `Checksum::from_hex` (for `/repo/src/types/query_msg.rs` 162-164). -/
def Checksum.ofHex (t : List Char) : Option Checksum :=
  match unhex t with
  | some bs => if h : bs.length = 32 then some ⟨bs, h⟩ else none
  | none => none

theorem hexVal_hexLower {n : Nat} (h : n < 16) : hexVal (hexLower n) = some n := by
  have key : ∀ m : Fin 16, hexVal (hexLower m.val) = some m.val := by decide
  exact key ⟨n, h⟩

theorem unhex_hexText (bs : Bytes) : unhex (hexText bs) = some bs := by
  induction bs with
  | nil => rfl
  | cons b bs ih =>
    have hb : b.toNat < 256 := b.toNat_lt
    simp only [hexText, unhex, hexVal_hexLower (show b.toNat / 16 < 16 by omega),
      hexVal_hexLower (show b.toNat % 16 < 16 by omega), ih]
    rw [Nat.div_add_mod, UInt8.ofNat_toNat]

theorem Checksum.ofHex_hexText (c : Checksum) : Checksum.ofHex (hexText c.bytes) = some c := by
  simp [Checksum.ofHex, unhex_hexText, c.size]

end Ica
