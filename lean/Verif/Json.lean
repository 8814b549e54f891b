import Verif.Dec
import Verif.Base64

/-!
# JSON

`serde_json_wasm` (also behind cosmwasm-std's `to_json_binary` / `from_json`), modelled in two stages:
text ↔ tree here, tree ↔ typed value in the codecs of each type. Used at
`/repo/src/ibc/types/metadata.rs` 90, 147; `/repo/src/ibc/handshake.rs` 120, 161;
`/repo/src/ibc/relay.rs` 32; `/repo/src/ibc/types/packet.rs` 190; `/repo/src/types/callbacks.rs` 67.

Simplifications: only non-negative integers (no type of the contract has other numbers); the
recursion limit of the library (128) is not modelled (no type of the contract nests that deep).
-/
namespace Ica

/-- JSON values. -/
inductive Json where
  | null
  | bool (b : Bool)
  | num (n : Nat)
  | str (s : String)
  | arr (xs : List Json)
  | obj (fs : List (String × Json))

/-! ## Printing (compact, as `serde_json_wasm::to_string`) -/

/-- Upper-case hexadecimal digit. -/
def hexChar (n : Nat) : Char := if n < 10 then Char.ofNat (48 + n) else Char.ofNat (55 + n)

/-- One character of a JSON string (`serde_json_wasm` `serialize_str`). -/
def escChar (c : Char) : List Char :=
  if c = '\\' then ['\\', '\\']
  else if c = '"' then ['\\', '"']
  else if c.toNat = 8 then ['\\', 'b']
  else if c.toNat = 9 then ['\\', 't']
  else if c.toNat = 10 then ['\\', 'n']
  else if c.toNat = 12 then ['\\', 'f']
  else if c.toNat = 13 then ['\\', 'r']
  else if c.toNat < 32 then ['\\', 'u', '0', '0', hexChar (c.toNat / 16), hexChar (c.toNat % 16)]
  else [c]

/-- The escaped body of a string and its closing quote. -/
def escBody : List Char → List Char
  | [] => ['"']
  | c :: cs => escChar c ++ escBody cs

/-- A quoted, escaped string. -/
def printStr (s : String) : List Char := '"' :: escBody s.toList

mutual
/-- Compact JSON text. -/
def printJson : Json → List Char
  | .null => ['n', 'u', 'l', 'l']
  | .bool true => ['t', 'r', 'u', 'e']
  | .bool false => ['f', 'a', 'l', 's', 'e']
  | .num n => decChars n
  | .str s => printStr s
  | .arr [] => ['[', ']']
  | .arr (x :: xs) => '[' :: (printJson x ++ printElemTail xs)
  | .obj [] => ['{', '}']
  | .obj ((k, v) :: fs) => '{' :: (printStr k ++ ':' :: (printJson v ++ printFieldTail fs))
/-- Further array elements and the closing bracket. -/
def printElemTail : List Json → List Char
  | [] => [']']
  | x :: xs => ',' :: (printJson x ++ printElemTail xs)
/-- Further object members and the closing brace. -/
def printFieldTail : List (String × Json) → List Char
  | [] => ['}']
  | (k, v) :: fs => ',' :: (printStr k ++ ':' :: (printJson v ++ printFieldTail fs))
end

/-- Array elements and the closing bracket. -/
def printElems (x : Json) (xs : List Json) : List Char := printJson x ++ printElemTail xs
/-- Object members and the closing brace. -/
def printFields (f : String × Json) (fs : List (String × Json)) : List Char :=
  printStr f.1 ++ ':' :: (printJson f.2 ++ printFieldTail fs)

/-! ## Parsing -/

/-- JSON whitespace. -/
def isWs (c : Char) : Bool := c = ' ' || c = '\n' || c = '\t' || c = '\r'

/-- Skip leading whitespace. -/
def skipWs : List Char → List Char
  | [] => []
  | c :: cs => if isWs c then skipWs cs else c :: cs

/-- The value of a hexadecimal digit (either case). -/
def hexVal (c : Char) : Option Nat :=
  let n := c.toNat
  if 48 ≤ n ∧ n ≤ 57 then some (n - 48)
  else if 65 ≤ n ∧ n ≤ 70 then some (n - 55)
  else if 97 ≤ n ∧ n ≤ 102 then some (n - 87)
  else none

/-- Four hexadecimal digits. -/
def hex4 (a b c d : Char) : Option Nat := do
  let w ← hexVal a
  let x ← hexVal b
  let y ← hexVal c
  let z ← hexVal d
  some (w * 4096 + x * 256 + y * 16 + z)

/-- Single-character escapes. -/
def simpleEsc (e : Char) : Option Char :=
  if e = '"' then some '"'
  else if e = '\\' then some '\\'
  else if e = '/' then some '/'
  else if e = 'b' then some (Char.ofNat 8)
  else if e = 'f' then some (Char.ofNat 12)
  else if e = 'n' then some '\n'
  else if e = 'r' then some '\r'
  else if e = 't' then some '\t'
  else none

/-- Body of a string after the opening quote: decoded characters and the rest of the input.
Control characters must be escaped; `\u` escapes accept surrogate pairs, lone surrogates are errors. -/
def parseStrBody : List Char → Option (List Char × List Char)
  | [] => none
  | c :: r =>
    if c = '"' then some ([], r)
    else if c = '\\' then
      match r with
      | [] => none
      | e :: r1 =>
        if e = 'u' then
          match r1 with
          | h1 :: h2 :: h3 :: h4 :: r2 =>
            match hex4 h1 h2 h3 h4 with
            | none => none
            | some n =>
              if 0xD800 ≤ n ∧ n < 0xDC00 then
                match r2 with
                | b :: u :: g1 :: g2 :: g3 :: g4 :: r3 =>
                  if b = '\\' ∧ u = 'u' then
                    match hex4 g1 g2 g3 g4 with
                    | none => none
                    | some m =>
                      if 0xDC00 ≤ m ∧ m < 0xE000 then
                        match parseStrBody r3 with
                        | none => none
                        | some (s, t) =>
                          some (Char.ofNat (0x10000 + (n - 0xD800) * 0x400 + (m - 0xDC00)) :: s, t)
                      else none
                  else none
                | _ => none
              else if 0xDC00 ≤ n ∧ n < 0xE000 then none
              else
                match parseStrBody r2 with
                | none => none
                | some (s, t) => some (Char.ofNat n :: s, t)
          | _ => none
        else
          match simpleEsc e with
          | none => none
          | some x =>
            match parseStrBody r1 with
            | none => none
            | some (s, t) => some (x :: s, t)
    else if c.toNat < 32 then none
    else
      match parseStrBody r with
      | none => none
      | some (s, t) => some (c :: s, t)

/-- Take digits from the input. -/
def takeDigits : List Char → List Char × List Char
  | [] => ([], [])
  | c :: cs => if isDigit c then let (d, r) := takeDigits cs; (c :: d, r) else ([], c :: cs)

/-- A non-negative integer without leading zeros. -/
def parseNum (cs : List Char) : Option (Nat × List Char) :=
  match cs with
  | [] => none
  | c :: r =>
    if c = '0' then some (0, r)
    else
      match takeDigits (c :: r) with
      | (d, rest) =>
        match parseDecChars d with
        | some n => some (n, rest)
        | none => none

/-- Consume a fixed word. -/
def expect : List Char → List Char → Option (List Char)
  | [], cs => some cs
  | _ :: _, [] => none
  | w :: ws, c :: cs => if w = c then expect ws cs else none

mutual
/-- Parse one value. `fuel` bounds the nesting and the number of siblings; `parseJson` supplies enough. -/
def parseValue : Nat → List Char → Option (Json × List Char)
  | 0, _ => none
  | f + 1, cs =>
    match skipWs cs with
    | [] => none
    | c :: r =>
      if c = 'n' then (expect ['u', 'l', 'l'] r).map fun t => (Json.null, t)
      else if c = 't' then (expect ['r', 'u', 'e'] r).map fun t => (Json.bool true, t)
      else if c = 'f' then (expect ['a', 'l', 's', 'e'] r).map fun t => (Json.bool false, t)
      else if c = '"' then (parseStrBody r).map fun p => (Json.str (String.ofList p.1), p.2)
      else if c = '[' then
        match skipWs r with
        | [] => none
        | c' :: r' =>
          if c' = ']' then some (Json.arr [], r')
          else (parseElems f (c' :: r')).map fun p => (Json.arr p.1, p.2)
      else if c = '{' then
        match skipWs r with
        | [] => none
        | c' :: r' =>
          if c' = '}' then some (Json.obj [], r')
          else (parseFields f (c' :: r')).map fun p => (Json.obj p.1, p.2)
      else (parseNum (c :: r)).map fun p => (Json.num p.1, p.2)
/-- Parse array elements up to and including `]`. -/
def parseElems : Nat → List Char → Option (List Json × List Char)
  | 0, _ => none
  | f + 1, cs =>
    match parseValue f cs with
    | none => none
    | some (v, r) =>
      match skipWs r with
      | [] => none
      | c :: r' =>
        if c = ',' then (parseElems f r').map fun p => (v :: p.1, p.2)
        else if c = ']' then some ([v], r')
        else none
/-- Parse object members up to and including the closing brace. -/
def parseFields : Nat → List Char → Option (List (String × Json) × List Char)
  | 0, _ => none
  | f + 1, cs =>
    match skipWs cs with
    | [] => none
    | q :: r =>
      if q = '"' then
        match parseStrBody r with
        | none => none
        | some (k, r1) =>
          match skipWs r1 with
          | [] => none
          | c :: r2 =>
            if c = ':' then
              match parseValue f r2 with
              | none => none
              | some (v, r3) =>
                match skipWs r3 with
                | [] => none
                | c' :: r4 =>
                  if c' = ',' then (parseFields f r4).map fun p => ((String.ofList k, v) :: p.1, p.2)
                  else if c' = '}' then some ([(String.ofList k, v)], r4)
                  else none
            else none
      else none
end

/-- Parse a complete document: one value, then only whitespace. -/
def parseJson (cs : List Char) : Option Json :=
  match parseValue (cs.length + 1) cs with
  | some (j, r) => if skipWs r = [] then some j else none
  | none => none

/-- `serde_json_wasm::to_string`. -/
def jsonToString (j : Json) : String := String.ofList (printJson j)

/-- `serde_json_wasm::from_str` up to the tree. -/
def jsonOfString (s : String) : Option Json := parseJson s.toList

/-- `to_json_binary`. -/
def jsonToBytes (j : Json) : Bytes := utf8 (jsonToString j)

/-- `from_json` up to the tree. -/
def jsonOfBytes (bs : Bytes) : Option Json := (ofUtf8 bs).bind jsonOfString

end Ica
