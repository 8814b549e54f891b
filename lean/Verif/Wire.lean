import Verif.Basic

/-!
# Protobuf wire format

`prost` 0.13 encoding and decoding, in two stages: bytes ↔ list of (tag, value) here, fields ↔ typed
messages in the codecs of each message. Used at `/repo/src/ibc/types/packet.rs` 63, 127, 225, 247, 268;
`/repo/src/ibc/types/stargate.rs` 54; `/repo/src/types/cosmos_msg.rs` (`Any::from_msg`);
`/repo/src/types/query_msg.rs` (`encode_to_vec`, `decode`); `anybuf` at `/repo/src/contract.rs` 280.

Simplification: `prost` allows 100 levels of messages and groups counted from the outermost message; here every
message allows 100 levels of groups. (`anybuf` refuses groups; the chain's own answer it reads has none.)
-/
namespace Ica

/-- The value of a field, by wire type. -/
inductive WVal where
  | varint (n : UInt64)
  | i64 (a b c d e f g h : UInt8)
  | len (bs : Bytes)
  | i32 (a b c d : UInt8)
  /-- A group (deprecated); what is in it is skipped. -/
  | group
  deriving DecidableEq, Repr

/-- A parsed message: tags and values in wire order. -/
abbrev Fields := List (Nat × WVal)

/-! ## Varints -/

/-- Base-128 digits, low first; `fuel ≥ n` always suffices. -/
def varAux : Nat → Nat → Bytes
  | 0, n => [UInt8.ofNat n]
  | f + 1, n => if n < 128 then [UInt8.ofNat n] else UInt8.ofNat (n % 128 + 128) :: varAux f (n / 128)

/-- `prost::encoding::encode_varint`. -/
def varEnc (n : Nat) : Bytes := varAux n n

/-- Read a varint of any length: value, number of bytes, rest. -/
def varDec : Bytes → Option (Nat × Nat × Bytes)
  | [] => none
  | b :: r =>
    if b.toNat < 128 then some (b.toNat, 1, r)
    else
      match varDec r with
      | none => none
      | some (v, k, r') => some (b.toNat - 128 + 128 * v, k + 1, r')

/-- `2^64` as a literal. -/
def u64Bound : Nat := 18446744073709551616

/-- `prost::encoding::decode_varint`: at most ten bytes, value below `2^64`. -/
def varDec64 (bs : Bytes) : Option (UInt64 × Bytes) :=
  match varDec bs with
  | none => none
  | some (v, k, r) => if k ≤ 10 ∧ v < u64Bound then some (UInt64.ofNat v, r) else none

/-- A length prefix. `prost` reads it with `decode_varint`; lengths of `2^64` and more are accepted here and
then fail the comparison with the remaining input (no input is that long), so that encoding
round-trips without a bound on sizes. -/
def varDecLen (bs : Bytes) : Option (Nat × Bytes) :=
  match varDec bs with
  | none => none
  | some (v, k, r) => if k ≤ 10 ∨ u64Bound ≤ v then some (v, r) else none

/-- Split off exactly `n` bytes. -/
def takeExact : Nat → Bytes → Option (Bytes × Bytes)
  | 0, bs => some ([], bs)
  | _ + 1, [] => none
  | n + 1, b :: bs => (takeExact n bs).map fun p => (b :: p.1, p.2)

/-! ## Fields -/

/-- Encode one field: key, then value. -/
def encField : Nat × WVal → Bytes
  | (t, .varint n) => varEnc (t * 8) ++ varEnc n.toNat
  | (t, .i64 a b c d e f g h) => varEnc (t * 8 + 1) ++ [a, b, c, d, e, f, g, h]
  | (t, .len bs) => varEnc (t * 8 + 2) ++ (varEnc bs.length ++ bs)
  | (t, .i32 a b c d) => varEnc (t * 8 + 5) ++ [a, b, c, d]
  | (t, .group) => varEnc (t * 8 + 3) ++ varEnc (t * 8 + 4)

/-- Encode a message. -/
def encFields (fs : Fields) : Bytes := fs.flatMap encField

/-- `u32::MAX + 1`: larger keys are rejected by `prost::encoding::decode_key`. -/
def u32Bound : Nat := 4294967296

/-- Parse the value of a field of the given wire type. -/
def parseWVal (wt : Nat) (r : Bytes) : Option (WVal × Bytes) :=
  if wt = 0 then (varDec64 r).map fun p => (.varint p.1, p.2)
  else if wt = 2 then
    match varDecLen r with
    | none => none
    | some (n, r') => (takeExact n r').map fun p => (.len p.1, p.2)
  else if wt = 1 then
    match r with
    | a :: b :: c :: d :: e :: f :: g :: h :: r' => some (.i64 a b c d e f g h, r')
    | _ => none
  else if wt = 5 then
    match r with
    | a :: b :: c :: d :: r' => some (.i32 a b c d, r')
    | _ => none
  else none

/-- `prost::encoding::skip_field` in a group of number `t`, where `depth` more levels are allowed: skip its fields and the
end of the group. With fuel. -/
def skipGroup : Nat → Nat → Nat → Bytes → Option Bytes
  | 0, _, _, _ => none
  | f + 1, depth, t, bs =>
    match varDec64 bs with
    | none => none
    | some (key, r) =>
      if key.toNat < u32Bound ∧ key.toNat / 8 ≠ 0 then
        if key.toNat % 8 = 4 then (if key.toNat / 8 = t then some r else none)
        else
          match depth with
          | 0 => none
          | d + 1 =>
            if key.toNat % 8 = 3 then (skipGroup f d (key.toNat / 8) r).bind (skipGroup f (d + 1) t)
            else (parseWVal (key.toNat % 8) r).bind fun p => skipGroup f (d + 1) t p.2
      else none

/-- Parse the value of field `t` of the given wire type, groups included (`RECURSION_LIMIT` of `prost` is 100). -/
def parseField (t wt : Nat) (r : Bytes) : Option (WVal × Bytes) :=
  if wt = 3 then (skipGroup r.length 99 t r).map fun r' => (.group, r') else parseWVal wt r

/-- Parse a message with fuel. -/
def parseWireAux : Nat → Bytes → Option Fields
  | _, [] => some []
  | 0, _ :: _ => none
  | f + 1, b :: bs =>
    match varDec64 (b :: bs) with
    | none => none
    | some (key, r) =>
      if key.toNat < u32Bound ∧ key.toNat / 8 ≠ 0 then
        match parseField (key.toNat / 8) (key.toNat % 8) r with
        | none => none
        | some (v, r') => (parseWireAux f r').map fun fs => (key.toNat / 8, v) :: fs
      else none

/-- Parse a message: every byte must belong to a well-formed field. -/
def parseWire (bs : Bytes) : Option Fields := parseWireAux bs.length bs

/-! ## Selecting and typing fields -/

/-- The values of tag `t`, in wire order. -/
def sel (t : Nat) (fs : Fields) : List WVal := fs.filterMap fun p => if p.1 = t then some p.2 else none

/-- Give every value the tag `t`. -/
def tagged (t : Nat) (vs : List WVal) : Fields := vs.map fun v => (t, v)

/-- Encode a string field (proto3: empty is not written). -/
def vStr (s : String) : List WVal := if s = "" then [] else [.len (utf8 s)]
/-- Encode a bytes field. -/
def vBytes (b : Bytes) : List WVal := if b = [] then [] else [.len b]
/-- Encode a `uint64` field. -/
def vU64 (n : UInt64) : List WVal := if n = 0 then [] else [.varint n]
/-- Encode a `bool` field. -/
def vBool (b : Bool) : List WVal := if b then [.varint 1] else []
/-- Encode an optional embedded message. -/
def vMsg (o : Option Fields) : List WVal :=
  match o with
  | none => []
  | some fs => [.len (encFields fs)]
/-- Encode a repeated embedded message. -/
def vMsgs (l : List Fields) : List WVal := l.map fun fs => .len (encFields fs)
/-- Encode a repeated string. -/
def vStrs (l : List String) : List WVal := l.map fun s => .len (utf8 s)
/-- Encode repeated bytes. -/
def vBytess (l : List Bytes) : List WVal := l.map .len

/-- Encode a repeated `uint64` (proto3: packed). -/
def vPacked (l : List UInt64) : List WVal := if l = [] then [] else [.len (l.flatMap fun n => varEnc n.toNat)]

/-- Decode every occurrence of a string field: wrong wire type or bad UTF-8 is an error. -/
def dStrs : List WVal → Option (List String)
  | [] => some []
  | .len b :: vs => do
    let s ← ofUtf8 b
    let ss ← dStrs vs
    some (s :: ss)
  | _ :: _ => none
/-- Decode every occurrence of a bytes field. -/
def dBytess : List WVal → Option (List Bytes)
  | [] => some []
  | .len b :: vs => (dBytess vs).map (b :: ·)
  | _ :: _ => none
/-- Decode every occurrence of a varint field. -/
def dVars : List WVal → Option (List UInt64)
  | [] => some []
  | .varint n :: vs => (dVars vs).map (n :: ·)
  | _ :: _ => none
/-- Decode every occurrence of an embedded message up to its fields. -/
def dMsgs : List WVal → Option (List Fields)
  | [] => some []
  | .len b :: vs => do
    let fs ← parseWire b
    let rest ← dMsgs vs
    some (fs :: rest)
  | _ :: _ => none

/-- Varints up to the end, with fuel. -/
def varsAux : Nat → Bytes → Option (List UInt64)
  | _, [] => some []
  | 0, _ :: _ => none
  | f + 1, b :: bs =>
    match varDec64 (b :: bs) with
    | none => none
    | some (n, r) => (varsAux f r).map (n :: ·)
/-- Decode a repeated `uint64`: `prost` takes both packed and single numbers. -/
def dPacked : List WVal → Option (List UInt64)
  | [] => some []
  | .len b :: vs => do
    let ns ← varsAux b.length b
    let rest ← dPacked vs
    some (ns ++ rest)
  | .varint n :: vs => (dPacked vs).map (n :: ·)
  | _ :: _ => none

/-- Singular string: the last occurrence wins, default empty. -/
def dStr (vs : List WVal) : Option String := (dStrs vs).map fun l => l.getLastD ""
/-- Singular bytes. -/
def dBytes (vs : List WVal) : Option Bytes := (dBytess vs).map fun l => l.getLastD []
/-- Singular `uint64`. -/
def dU64 (vs : List WVal) : Option UInt64 := (dVars vs).map fun l => l.getLastD 0
/-- Singular `uint32`: the varint is truncated. -/
def dU32 (vs : List WVal) : Option UInt32 := (dVars vs).map fun l => (l.getLastD 0).toUInt32
/-- Singular `bool`. -/
def dBool (vs : List WVal) : Option Bool := (dVars vs).map fun l => l.getLastD 0 != 0
/-- Singular embedded message: occurrences are merged, which for field lists is concatenation. -/
def dMsg (vs : List WVal) : Option (Option Fields) :=
  (dMsgs vs).map fun l => if l = [] then none else some l.flatten

end Ica
