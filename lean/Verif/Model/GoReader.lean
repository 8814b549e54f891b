import Verif.Model.GoAnswers
import Verif.Model.GoClient

/-!
# The query clients of the Go client

`/repo/e2e/interchaintestv8/types/*/query.go` and `/repo/e2e/interchaintestv8/types/callbackcounter/helpers.go`. A query
client writes a request, hands it to the chain and reads the answer. Not modelled: gRPC, which hands the request to the
contract's `query` and the answer back as they are; a query that fails comes back as an error. Go's JSON scanner and the
one of the contract read the same texts as the same trees (both RFC 8259; see C67 for the model's), so the model uses
one; Go's scanner also reads numbers with signs, fractions and exponents, which no contract here writes.
-/
namespace Ica.GoClient

/-- `json.Unmarshal` (`/repo/e2e/interchaintestv8/types/cwicacontroller/query.go` 80, 99, 118). -/
def unmarshal {α : Type} (dec : Json → Option α) (answer : Bytes) : Option α := (jsonOfBytes answer).bind dec

/-- `queryContract` (`/repo/e2e/interchaintestv8/types/cwicacontroller/query.go` 55-66): a query that fails, for whatever
reason, is an error. -/
def queryContract (contract : Bytes → Res Bytes) (request : Bytes) : Option Bytes :=
  match contract request with
  | .ok b => some b
  | _ => none

/-- The steps that all methods of the query clients share
(`/repo/e2e/interchaintestv8/types/cwicacontroller/query.go` 68-85). -/
def ask {α : Type} (contract : Bytes → Res Bytes) (tag : String) (req : Json) (dec : Json → Option α) : Option α :=
  (queryContract contract (toBytes (.obj [(tag, req)]))).bind (unmarshal dec)

/-- A pointer, as written. -/
def pointer {α : Type} (f : α → Json) : Option α → Json
  | none => .null
  | some x => f x

/-- `GetContractState` (`/repo/e2e/interchaintestv8/types/cwicacontroller/query.go` 68-85). -/
def getContractState (contract : Bytes → Res Bytes) (req : Option GoController.Empty) : Option GoController.State :=
  ask contract "get_contract_state" (pointer GoController.Empty.json req) GoController.State.ofJson

/-- `Ownership` (`/repo/e2e/interchaintestv8/types/cwicacontroller/query.go` 87-104). -/
def ownership (contract : Bytes → Res Bytes) (req : Option GoController.Empty) : Option GoController.Ownership_for_String :=
  ask contract "ownership" (pointer GoController.Empty.json req) GoController.Ownership_for_String.ofJson

/-- `GetChannel` (`/repo/e2e/interchaintestv8/types/cwicacontroller/query.go` 106-123). -/
def getChannel (contract : Bytes → Res Bytes) (req : Option GoController.Empty) : Option GoController.ChannelState :=
  ask contract "get_channel" (pointer GoController.Empty.json req) GoController.ChannelState.ofJson

/-- `GetIcaContractState` (`/repo/e2e/interchaintestv8/types/cwicaowner/query.go` 68-85). -/
def getIcaContractState (contract : Bytes → Res Bytes) (req : Option GoOwner.QueryMsg_GetIcaContractState) :
    Option GoOwner.IcaContractState :=
  ask contract "get_ica_contract_state" (pointer GoOwner.QueryMsg_GetIcaContractState.json req) GoOwner.IcaContractState.ofJson

/-- `GetIcaCount` (`/repo/e2e/interchaintestv8/types/cwicaowner/query.go` 87-104). -/
def getIcaCount (contract : Bytes → Res Bytes) (req : Option GoOwner.QueryMsg_GetIcaCount) : Option Nat :=
  ask contract "get_ica_count" (pointer GoOwner.QueryMsg_GetIcaCount.json req) goInt

/-- `GetContractState` (`/repo/e2e/interchaintestv8/types/cwicaowner/query.go` 106-123). -/
def getOwnerState (contract : Bytes → Res Bytes) (req : Option GoOwner.QueryMsg_GetContractState) : Option GoOwner.ContractState :=
  ask contract "get_contract_state" (pointer GoOwner.QueryMsg_GetContractState.json req) GoOwner.ContractState.ofJson

/-- `GetCallbackCounter` (`/repo/e2e/interchaintestv8/types/callbackcounter/query.go` 64-82); its request is a pointer to an
empty structure (`/repo/e2e/interchaintestv8/types/callbackcounter/msgs.go`). -/
def getCallbackCounter (contract : Bytes → Res Bytes) (req : Option Unit) : Option GoCounter.CallbackCounter :=
  ask contract "get_callback_counter" (pointer (fun _ => .obj []) req) GoCounter.CallbackCounter.ofJson

/-- `base64.StdEncoding.DecodeString` without its treatment of line ends (not in /repo): four symbols at a time, padding
only at the end and required, left-over bits ignored. -/
def decodeQuads : List Char → Option Bytes
  | [] => some []
  | a :: b :: c :: d :: rest =>
    if rest = [] ∧ d = '=' then
      if c = '=' then (b64Val a).bind fun x => (b64Val b).map fun y => [UInt8.ofNat (x * 4 + y / 16)]
      else (b64Val a).bind fun x => (b64Val b).bind fun y => (b64Val c).map fun z =>
        [UInt8.ofNat (x * 4 + y / 16), UInt8.ofNat (y % 16 * 16 + z / 4)]
    else (b64Dec4 a b c d).bind fun x => (decodeQuads rest).map (x ++ ·)
  | _ => none

/-- `Unwrap` (`/repo/e2e/interchaintestv8/types/callbackcounter/helpers.go` 6-12, 15-21): line ends do not count, anything
else that is not base64 panics. -/
def unwrap (s : String) : Res Bytes :=
  match decodeQuads (s.toList.filter fun c => c ≠ '\r' ∧ c ≠ '\n') with
  | some b => .ok b
  | none => .panic "illegal base64 data"

end Ica.GoClient
