import Mathlib.Tactic.Ring
import Mathlib.Tactic.NormNum
import Mathlib.Data.List.Forall2
/-!
# Basics: results, bytes, text

Rust `Result<T, ContractError>` plus the possibility of an abort (`panic!`, `unreachable!`,
`unwrap` on `None`, overflow with `overflow-checks = true`, see `/repo/Cargo.toml`) is modelled by `Res`.
-/
namespace Ica

/-- A Rust byte string (`Vec<u8>`, `&[u8]`, `Binary`). -/
abbrev Bytes := List UInt8

/-- The bytes of a Rust `String` (Rust strings are valid UTF-8, and so are Lean's). -/
def utf8 (s : String) : Bytes := s.toByteArray.data.toList

/-- `String::from_utf8` / `str::from_utf8`: `none` when the bytes are not valid UTF-8. -/
def ofUtf8 (bs : Bytes) : Option String := String.fromUTF8? ⟨bs.toArray⟩

theorem ofUtf8_utf8 (s : String) : ofUtf8 (utf8 s) = some s := by
  have h : (ByteArray.mk (utf8 s).toArray) = s.toByteArray := by
    simp [utf8]
  unfold ofUtf8
  rw [h]
  unfold String.fromUTF8?
  rw [dif_pos s.isValidUTF8]
  rfl

theorem utf8_inj {s t : String} (h : utf8 s = utf8 t) : s = t := by
  have := congrArg ofUtf8 h
  simpa [ofUtf8_utf8] using this

theorem utf8_of_ofUtf8 {bs : Bytes} {s : String} (h : ofUtf8 bs = some s) : utf8 s = bs := by
  unfold ofUtf8 String.fromUTF8? at h
  split at h
  · injection h with h
    subst h
    simp [utf8, String.fromUTF8]
  · cases h

@[simp] theorem utf8_empty : utf8 "" = [] := by
  simp [utf8]

theorem utf8_eq_nil {s : String} : utf8 s = [] ↔ s = "" := by
  constructor
  · intro h; exact utf8_inj (by simpa using h)
  · rintro rfl; exact utf8_empty

/-- Errors of `cw_ownable` (cw-ownable 2.0.0, not in /repo). -/
inductive OwnershipError where
  | noOwner
  | notOwner
  | notPendingOwner
  | transferNotFound
  | transferExpired
  deriving DecidableEq, Repr, Inhabited

/-- Errors returned by the contract (`/repo/src/types/error.rs` 8-106). Variants never
constructed by the modelled code are omitted. Messages of third-party errors are kept only where they
are observable (they are in `IcaQueryResult::Error`). -/
inductive Err where
  /-- `ContractError::Std` (storage `NotFound`, `GenericErr`, parse errors of cosmwasm-std). -/
  | std (msg : String)
  | prostDecode (msg : String)
  | semver
  | ownership (e : OwnershipError)
  | bufany
  | ownershipCannotBeRenounced
  | invalidMigrationVersion (expected actual : String)
  | invalidHostPort
  | invalidControllerPort
  | invalidVersion (expected actual : String)
  | channelOpenInitNotAllowed
  | channelCloseInitNotAllowed
  | invalidIcaAddress
  | unsupportedTxType (t : String)
  | invalidConnection
  | unknownDataType (t : String)
  | activeChannelAlreadySet
  | invalidChannelInContractState
  | icaInfoNotSet
  | noChannelInitOptions
  | invalidChannelStatus (expected actual : String)
  | unsupportedPacketEncoding (e : String)
  | emptyResponse (p : String)
  | unknownReplyId (id : UInt64)
  deriving DecidableEq, Repr, Inhabited

/-- The outcome of running contract code: a value, a returned error, or an abort of the VM. -/
inductive Res (α : Type) where
  | ok (a : α)
  | err (e : Err)
  | panic (why : String)
  deriving DecidableEq, Repr

namespace Res
variable {α β : Type}

/-- Rust's `?`. -/
@[inline] def bind : Res α → (α → Res β) → Res β
  | ok a, f => f a
  | err e, _ => err e
  | panic w, _ => panic w

instance : Monad Res where
  pure := ok
  bind := bind

@[simp] theorem pure_eq (a : α) : (pure a : Res α) = ok a := rfl
@[simp] theorem bind_ok (a : α) (f : α → Res β) : (ok a >>= f) = f a := rfl
@[simp] theorem bind_err (e : Err) (f : α → Res β) : ((err e : Res α) >>= f) = err e := rfl
@[simp] theorem bind_panic (w : String) (f : α → Res β) : ((panic w : Res α) >>= f) = panic w := rfl

theorem bind_eq_ok {x : Res α} {f : α → Res β} {b : β} :
    (x >>= f) = ok b ↔ ∃ a, x = ok a ∧ f a = ok b := by
  cases x <;> simp

/-- `Option::ok_or`. -/
def ofOption (o : Option α) (e : Err) : Res α :=
  match o with
  | some a => ok a
  | none => err e

@[simp] theorem ofOption_some (a : α) (e : Err) : ofOption (some a) e = ok a := rfl
@[simp] theorem ofOption_none (e : Err) : ofOption (none : Option α) e = err e := rfl

theorem ofOption_eq_ok {o : Option α} {e : Err} {a : α} : ofOption o e = ok a ↔ o = some a := by
  cases o <;> simp

/-- The value of a successful result. -/
def toOption : Res α → Option α
  | ok a => some a
  | _ => none

@[simp] theorem toOption_ok (a : α) : (ok a).toOption = some a := rfl
@[simp] theorem toOption_err (e : Err) : (err e : Res α).toOption = none := rfl
@[simp] theorem toOption_panic (w : String) : (panic w : Res α).toOption = none := rfl

theorem toOption_eq_some {x : Res α} {a : α} : x.toOption = some a ↔ x = ok a := by
  cases x <;> simp

end Res

/-- Fail with `e` when the condition holds (`if c { return Err(e) }`). -/
def failIf (c : Bool) (e : Err) : Res Unit := if c then .err e else .ok ()

@[simp] theorem failIf_eq_ok {c : Bool} {e : Err} {u : Unit} : failIf c e = .ok u ↔ c = false := by
  cases c <;> simp [failIf]

/-- `iter().map(f).collect::<Result<Vec<_>, _>>()`: stops at the first failure. -/
def mapRes {α β : Type} (f : α → Res β) : List α → Res (List β)
  | [] => .ok []
  | a :: as => do
    let b ← f a
    let bs ← mapRes f as
    .ok (b :: bs)

theorem mapRes_eq_ok {α β : Type} {f : α → Res β} {as : List α} {bs : List β} :
    mapRes f as = .ok bs ↔ List.Forall₂ (fun a b => f a = .ok b) as bs := by
  induction as generalizing bs with
  | nil => cases bs <;> simp [mapRes]
  | cons a as ih =>
    simp only [mapRes, Res.bind_eq_ok]
    constructor
    · rintro ⟨b, hb, bs', hbs, h⟩
      injection h with h
      subst h
      exact .cons hb (ih.mp hbs)
    · intro h
      cases h with
      | cons hb hbs => exact ⟨_, hb, _, ih.mpr hbs, rfl⟩

/-- `2^128`, as a literal. -/
def u128Bound : Nat := 340282366920938463463374607431768211456

/-- A Rust `u128` / cosmwasm `Uint128`. -/
structure U128 where
  val : Nat
  lt : val < u128Bound
  deriving DecidableEq, Repr

instance : Inhabited U128 := ⟨⟨0, by decide⟩⟩

/-- The `Uint128` of a number in range. -/
def U128.ofNat? (n : Nat) : Option U128 := if h : n < u128Bound then some ⟨n, h⟩ else none

@[simp] theorem U128.ofNat?_val (u : U128) : U128.ofNat? u.val = some u := by
  unfold ofNat?; rw [dif_pos u.lt]

end Ica
