import Verif.Model.Helpers

/-!
# What wasmd does with the messages the helpers build

From wasmd's `x/wasm` keeper and wasmvm's message encoding (not in /repo): the small part needed to say where a message
goes and which address a new contract gets. Written after the Go code, not after cosmwasm-std.
-/
namespace Ica.Wasmd

/-- The chain's table of codes: checksum of each uploaded code. Codes are never changed or removed. -/
abbrev Codes := UInt64 → Option Bytes

/-- `UInt64LengthPrefix` (wasmd `x/wasm/keeper/addresses.go`). -/
def uint64LengthPrefix (bz : Bytes) : Bytes :=
  (List.range 8).map (fun i => UInt8.ofNat (bz.length / 256 ^ (7 - i))) ++ bz

/-- `address.Module(name, key)` of the SDK: the hash of `"module"` hashed, the name, a zero byte and the key. -/
def moduleAddress (sha256 : Bytes → Bytes) (name : String) (key : Bytes) : Bytes :=
  sha256 (sha256 (utf8 "module") ++ (utf8 name ++ [0] ++ key))

/-- `BuildContractAddressPredictable` (wasmd `x/wasm/keeper/addresses.go`) with an empty `initMsg` (`FixMsg` is false for
messages of contracts). It aborts on a bad checksum, creator or salt. -/
def predictable (sha256 : Bytes → Bytes) (checksum creator salt : Bytes) : Option Bytes :=
  if checksum.length = 32 ∧ creator ≠ [] ∧ creator.length ≤ 255 ∧ 1 ≤ salt.length ∧ salt.length ≤ 64 then
    some (moduleAddress sha256 "wasm"
      (uint64LengthPrefix checksum ++ uint64LengthPrefix creator ++ uint64LengthPrefix salt ++ uint64LengthPrefix []))
  else none

/-- A contract that comes into being: address, code, creator, admin, label, first message and deposit. -/
structure Created where
  addr : String
  codeId : UInt64
  creator : String
  admin : Option String
  label : String
  msg : Bytes
  funds : List Coin

/-- The chain executes `WasmMsg::Instantiate2` sent by `sender` (`MsgInstantiateContract2`): the code must exist and the
address must be free. -/
def instantiate2 (api : Helpers.AddrApi) (codes : Codes) (taken : String → Bool) (sender : String) (m : CosmosMsg) :
    Option Created :=
  match m with
  | .wasm (.instantiate2 admin codeId label msg funds salt) =>
    match codes codeId, api.canonicalize sender with
    | some checksum, some creator =>
      match predictable api.sha256 checksum creator salt with
      | some a =>
        match api.humanize a with
        | some addr => if taken addr then none else some ⟨addr, codeId, sender, admin, label, msg, funds⟩
        | none => none
      | none => none
    | _, _ => none
  | _ => none

end Ica.Wasmd
