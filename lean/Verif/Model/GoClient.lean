import Verif.Model.GoOwner
import Verif.Model.Packet

/-!
# The Go client

The hand-written part of `/repo/e2e/interchaintestv8/types`: how a message becomes the text of a call, and the helpers
that build messages. Go's `encoding/json` (Go 1.22, `/repo/e2e/interchaintestv8/go.mod` 3, not in /repo) is modelled by
the tree of a value (`Verif/Model/GoController.lean`, `Verif/Model/GoOwner.lean`) and the text of a tree (here). Not modelled: the transport
(`chain.ExecuteContract`, gRPC), which hands the text to the contract as it is. For the reading of answers see `Verif/Model/GoReader.lean`.
-/
namespace Ica.GoClient

/-- Lower-case hexadecimal digit. -/
def hexDigit (n : Nat) : Char := if n < 10 then Char.ofNat (48 + n) else Char.ofNat (87 + n)

/-- `\uXXXX`. -/
def unicodeEsc (n : Nat) : List Char :=
  ['\\', 'u', hexDigit (n / 4096 % 16), hexDigit (n / 256 % 16), hexDigit (n / 16 % 16), hexDigit (n % 16)]

/-- One character of a string (`appendString` of `encoding/json` with HTML escaping, as `json.Marshal` does; called from
`/repo/e2e/interchaintestv8/types/contract.go` 107). -/
def escape (c : Char) : List Char :=
  if c = '\\' then ['\\', '\\']
  else if c = '"' then ['\\', '"']
  else if c.toNat = 8 then ['\\', 'b']
  else if c.toNat = 9 then ['\\', 't']
  else if c.toNat = 10 then ['\\', 'n']
  else if c.toNat = 12 then ['\\', 'f']
  else if c.toNat = 13 then ['\\', 'r']
  else if c.toNat < 32 ∨ c = '<' ∨ c = '>' ∨ c = '&' ∨ c.toNat = 0x2028 ∨ c.toNat = 0x2029 then unicodeEsc c.toNat
  else [c]

/-- A quoted string. -/
def quote (s : String) : List Char := '"' :: s.toList.flatMap escape ++ ['"']

mutual
/-- The text of a tree, compact (`json.Marshal`, `/repo/e2e/interchaintestv8/types/contract.go` 107). -/
def text : Json → List Char
  | .null => ['n', 'u', 'l', 'l']
  | .bool true => ['t', 'r', 'u', 'e']
  | .bool false => ['f', 'a', 'l', 's', 'e']
  | .num n => decChars n
  | .str s => quote s
  | .arr [] => ['[', ']']
  | .arr (x :: xs) => '[' :: (text x ++ elements xs)
  | .obj [] => ['{', '}']
  | .obj ((k, v) :: fs) => '{' :: (quote k ++ ':' :: (text v ++ members fs))
/-- The further elements of an array and its end. -/
def elements : List Json → List Char
  | [] => [']']
  | x :: xs => ',' :: (text x ++ elements xs)
/-- The further members of an object and its end. -/
def members : List (String × Json) → List Char
  | [] => ['}']
  | (k, v) :: fs => ',' :: (quote k ++ ':' :: (text v ++ members fs))
end

/-- `toString` (`/repo/e2e/interchaintestv8/types/contract.go` 105-113) and the bytes of the call it is put in
(`Instantiate` 39-51, `Execute` 59-61). -/
def toBytes (j : Json) : Bytes := utf8 (String.ofList (text j))

/-- A protobuf message as the helpers see it: its type URL and its bytes (`codectypes.NewAnyWithValue`, not in /repo). -/
abbrev ProtoAny := String × Bytes

/-- `base64.StdEncoding.EncodeToString` (not in /repo). -/
def base64 (b : Bytes) : String := String.ofList (b64Enc b)

/-- `NewExecuteMsg_SendCosmosMsgs_FromProto` (`/repo/e2e/interchaintestv8/types/cwicacontroller/helpers.go` 12-36). -/
def newExecuteMsgSendCosmosMsgsFromProto (msgs : List ProtoAny) (memo : Option String) (timeout : Option Nat) : GoController.ExecuteMsg :=
  { SendCosmosMsgs := some {
      Messages := some (msgs.map fun m => { Stargate := some { TypeUrl := m.1, Value := base64 m.2 } })
      PacketMemo := memo
      TimeoutSeconds := timeout } }

/-- `NewStargateQuery_FromProto` (`/repo/e2e/interchaintestv8/types/cwicacontroller/helpers.go` 39-49). -/
def newStargateQueryFromProto (path : String) (data : Bytes) : GoController.QueryRequest_for_Empty_Stargate :=
  { Data := base64 data, Path := path }

/-- The request of `GetContractState`, `Ownership` and `GetChannel`
(`/repo/e2e/interchaintestv8/types/cwicacontroller/query.go` 69, 88, 107): a map with one member whose value is
a pointer to an empty structure. -/
def queryRequest (tag : String) (req : Option GoController.Empty) : Json :=
  .obj [(tag, match req with
    | none => .null
    | some r => r.json)]

end Ica.GoClient
