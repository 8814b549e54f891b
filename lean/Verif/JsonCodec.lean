import Verif.JsonFacts
import Verif.Hex
import Verif.DecFacts

/-!
# Typed JSON codecs

`JC α` is a pair of functions between a Rust type and JSON trees, as derived by serde.
-/
namespace Ica

/-- A serde `Serialize`/`Deserialize` pair at the level of JSON trees. -/
structure JC (α : Type) where
  enc : α → Json
  dec : Json → Option α

/-- Decoding what was encoded gives the value back. -/
def JC.Law {α : Type} (c : JC α) : Prop := ∀ x, c.dec (c.enc x) = some x

/-- The encoding is never `null` (needed under `Option`). -/
def JC.NonNull {α : Type} (c : JC α) : Prop := ∀ x, c.enc x ≠ .null

/-- `to_json_binary` / `to_json_vec`. -/
def JC.toBytes {α : Type} (c : JC α) (x : α) : Bytes := jsonToBytes (c.enc x)
/-- `from_json`. -/
def JC.ofBytes {α : Type} (c : JC α) (bs : Bytes) : Option α := (jsonOfBytes bs).bind c.dec
/-- `serde_json_wasm::to_string`. -/
def JC.toStr {α : Type} (c : JC α) (x : α) : String := jsonToString (c.enc x)
/-- `serde_json_wasm::from_str`. -/
def JC.ofStr {α : Type} (c : JC α) (s : String) : Option α := (jsonOfString s).bind c.dec

theorem JC.ofBytes_toBytes {α : Type} {c : JC α} (h : c.Law) (x : α) : c.ofBytes (c.toBytes x) = some x := by
  simp [JC.ofBytes, JC.toBytes, jsonOfBytes_toBytes, h x]
theorem JC.ofStr_toStr {α : Type} {c : JC α} (h : c.Law) (x : α) : c.ofStr (c.toStr x) = some x := by
  simp [JC.ofStr, JC.toStr, jsonOfString_toString, h x]
theorem JC.toBytes_inj {α : Type} {c : JC α} (h : c.Law) {x y : α} (e : c.toBytes x = c.toBytes y) :
    x = y := by
  have := congrArg c.ofBytes e
  simpa [JC.ofBytes_toBytes h] using this

/-! ## Primitives -/

/-- `String`, `Addr`. -/
def jcStr : JC String where
  enc s := .str s
  dec | .str s => some s | _ => none
/-- `bool`. -/
def jcBool : JC Bool where
  enc b := .bool b
  dec | .bool b => some b | _ => none
/-- `u64`: a JSON number. -/
def jcU64 : JC UInt64 where
  enc n := .num n.toNat
  dec | .num n => if n < 18446744073709551616 then some (UInt64.ofNat n) else none | _ => none
/-- `u32`. -/
def jcU32 : JC UInt32 where
  enc n := .num n.toNat
  dec | .num n => if n < 4294967296 then some (UInt32.ofNat n) else none | _ => none
/-- `u8`. -/
def jcU8 : JC UInt8 where
  enc n := .num n.toNat
  dec | .num n => if n < 256 then some (UInt8.ofNat n) else none | _ => none
/-- `Uint64` and `Timestamp`: the decimal number as a string. -/
def jcUint64 : JC UInt64 where
  enc n := .str (decString n.toNat)
  dec
    | .str s =>
      match parseUnsigned s.toList with
      | some n => if n < 18446744073709551616 then some (UInt64.ofNat n) else none
      | none => none
    | _ => none
/-- `Uint128`: the decimal number as a string. -/
def jcUint128 : JC U128 where
  enc n := .str (decString n.val)
  dec | .str s => parseU128 s | _ => none
/-- `Decimal`. -/
def jcDecimal : JC Decimal where
  enc d := .str d.toString
  dec | .str s => parseDecimal s | _ => none
/-- `Checksum`: hexadecimal text. -/
def jcChecksum : JC Checksum where
  enc c := .str (String.ofList (hexText c.bytes))
  dec | .str s => Checksum.ofHex s.toList | _ => none
/-- `Binary`: base64 text. -/
def jcBin : JC Bytes where
  enc b := .str (String.ofList (b64Enc b))
  dec | .str s => b64Dec s.toList | _ => none

/-- Decode every element. -/
def decList {α : Type} (d : Json → Option α) : List Json → Option (List α)
  | [] => some []
  | j :: js =>
    match d j with
    | none => none
    | some x =>
      match decList d js with
      | none => none
      | some xs => some (x :: xs)
/-- `Vec<T>`. -/
def jcList {α : Type} (c : JC α) : JC (List α) where
  enc l := .arr (l.map c.enc)
  dec | .arr js => decList c.dec js | _ => none
/-- `Option<T>`. -/
def jcOpt {α : Type} (c : JC α) : JC (Option α) where
  enc o := match o with | none => .null | some x => c.enc x
  dec j := match j with | .null => some none | j => (c.dec j).map some
/-- `(A, B)`: a two-element array. -/
def jcPair {α β : Type} (a : JC α) (b : JC β) : JC (α × β) where
  enc p := .arr [a.enc p.1, b.enc p.2]
  dec
    | .arr [x, y] =>
      match a.dec x, b.dec y with
      | some u, some v => some (u, v)
      | _, _ => none
    | _ => none

theorem jcStr_law : jcStr.Law := fun _ => rfl
theorem jcStr_nn : jcStr.NonNull := fun _ h => by cases h
theorem jcBool_law : jcBool.Law := fun _ => rfl
theorem jcBool_nn : jcBool.NonNull := fun _ h => by cases h
theorem jcU64_law : jcU64.Law := fun n => by
  simp only [jcU64]; rw [if_pos n.toNat_lt, UInt64.ofNat_toNat]
theorem jcU64_nn : jcU64.NonNull := fun _ h => by cases h
theorem jcU32_law : jcU32.Law := fun n => by
  simp only [jcU32]; rw [if_pos n.toNat_lt, UInt32.ofNat_toNat]
theorem jcU32_nn : jcU32.NonNull := fun _ h => by cases h
theorem jcU8_law : jcU8.Law := fun n => by
  simp only [jcU8]; rw [if_pos n.toNat_lt, UInt8.ofNat_toNat]
theorem jcU8_nn : jcU8.NonNull := fun _ h => by cases h
theorem parseUnsigned_decString (n : Nat) : parseUnsigned (decString n).toList = some n := by
  simp only [decString, String.toList_ofList]
  cases h : decChars n with
  | nil => exact absurd h (decChars_ne_nil n)
  | cons c cs =>
    have hd := decChars_all_digit n c (by rw [h]; simp)
    have hp := parseDecChars_decChars n
    rw [h] at hp
    have hc : c ≠ '+' := by rintro rfl; revert hd; decide
    simp only [parseUnsigned, if_neg hc, hp]
theorem jcUint64_law : jcUint64.Law := fun n => by
  simp only [jcUint64, parseUnsigned_decString]; rw [if_pos n.toNat_lt, UInt64.ofNat_toNat]
theorem jcUint64_nn : jcUint64.NonNull := fun _ h => by cases h
theorem jcUint128_law : jcUint128.Law := fun n => by simp only [jcUint128]; exact parseU128_decString n
theorem jcUint128_nn : jcUint128.NonNull := fun _ h => by cases h
theorem jcDecimal_law : jcDecimal.Law := fun n => by simp only [jcDecimal]; exact parseDecimal_toString n
theorem jcChecksum_law : jcChecksum.Law := fun c => by
  simp only [jcChecksum, String.toList_ofList]; exact c.ofHex_hexText
theorem jcChecksum_nn : jcChecksum.NonNull := fun _ h => by cases h
theorem jcDecimal_nn : jcDecimal.NonNull := fun _ h => by cases h
theorem jcBin_law : jcBin.Law := fun b => by simp [jcBin, b64Dec_b64Enc]
theorem jcBin_nn : jcBin.NonNull := fun _ h => by cases h
theorem decList_map {α : Type} {c : JC α} (h : c.Law) (l : List α) : decList c.dec (l.map c.enc) = some l := by
  induction l with
  | nil => rfl
  | cons x l ih => simp [decList, h x, ih]
theorem jcList_law {α : Type} {c : JC α} (h : c.Law) : (jcList c).Law := fun l => by
  simp only [jcList]; exact decList_map h l
theorem jcList_nn {α : Type} (c : JC α) : (jcList c).NonNull := fun _ h => by cases h
theorem jcOpt_law {α : Type} {c : JC α} (h : c.Law) (hn : c.NonNull) : (jcOpt c).Law := fun o => by
  cases o with
  | none => rfl
  | some x =>
    simp only [jcOpt]
    split
    · rename_i heq; exact absurd heq (hn x)
    · rw [h x]; rfl
theorem jcPair_law {α β : Type} {a : JC α} {b : JC β} (ha : a.Law) (hb : b.Law) : (jcPair a b).Law :=
  fun p => by simp only [jcPair, ha p.1, hb p.2]
theorem jcPair_nn {α β : Type} (a : JC α) (b : JC β) : (jcPair a b).NonNull := fun _ h => by cases h

/-! ## Structs -/

/-- How often a key occurs. -/
def countKey (k : String) : List (String × Json) → Nat
  | [] => 0
  | (k', _) :: r => (if k' = k then 1 else 0) + countKey k r

/-- The value of a key. -/
def lookupKey (k : String) : List (String × Json) → Option Json
  | [] => none
  | (k', v) :: r => if k' = k then some v else lookupKey k r

/-- The members of an object for a struct with the given field names: no repeated field; with `strict`
(`deny_unknown_fields`) no other member. -/
def getObj (strict : Bool) (keys : List String) (j : Json) : Option (List (String × Json)) :=
  match j with
  | .obj fs =>
    if keys.all (fun k => countKey k fs ≤ 1) && (!strict || fs.all fun p => keys.contains p.1) then some fs
    else none
  | _ => none

/-- A required field. -/
def reqF {α : Type} (c : JC α) (k : String) (fs : List (String × Json)) : Option α :=
  match lookupKey k fs with
  | some j => c.dec j
  | none => none
/-- An `Option` field: absent or `null` is `None`. -/
def optF {α : Type} (c : JC α) (k : String) (fs : List (String × Json)) : Option (Option α) :=
  match lookupKey k fs with
  | some j => (jcOpt c).dec j
  | none => some none
/-- A required list field with `DefaultOnNull`. -/
def nullListF {α : Type} (c : JC α) (k : String) (fs : List (String × Json)) : Option (List α) :=
  match lookupKey k fs with
  | some j => ((jcOpt (jcList c)).dec j).map fun o => o.getD []
  | none => none
/-- A list field with `default` and `DefaultOnNull`. -/
def defListF {α : Type} (c : JC α) (k : String) (fs : List (String × Json)) : Option (List α) :=
  match lookupKey k fs with
  | some j => ((jcOpt (jcList c)).dec j).map fun o => o.getD []
  | none => some []

/-- `skip_serializing_if = "Option::is_none"`. -/
def skipNone {α : Type} (c : JC α) (k : String) (o : Option α) : List (String × Json) :=
  match o with
  | none => []
  | some x => [(k, c.enc x)]
/-- `skip_serializing_if = "Vec::is_empty"`. -/
def skipEmpty {α : Type} (c : JC α) (k : String) (l : List α) : List (String × Json) :=
  match l with
  | [] => []
  | x :: xs => [(k, (jcList c).enc (x :: xs))]

theorem lookupKey_append (k : String) (a b : List (String × Json)) :
    lookupKey k (a ++ b) = (lookupKey k a).or (lookupKey k b) := by
  induction a with
  | nil => rfl
  | cons p a ih =>
    obtain ⟨k', v⟩ := p
    by_cases h : k' = k <;> simp [lookupKey, h, ih]
theorem countKey_append (k : String) (a b : List (String × Json)) :
    countKey k (a ++ b) = countKey k a + countKey k b := by
  induction a with
  | nil => simp [countKey]
  | cons p a ih =>
    obtain ⟨k', v⟩ := p
    simp [countKey, ih]; omega

theorem jcOpt_dec_enc {α : Type} {c : JC α} (h : c.Law) (hn : c.NonNull) (x : α) :
    (jcOpt c).dec (c.enc x) = some (some x) := jcOpt_law h hn (some x)

end Ica
