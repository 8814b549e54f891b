import Verif.Spec.Admission
import Verif.Spec.Reopen

/-!
# Using the account

A request of the owner on its way there and back: sent, executed by the host, its outcome told to the callback contract.
-/
namespace Ica.Spec

/-- What the owner asks for with one `SendCosmosMsgs`. -/
structure Request where
  messages : List CosmosMsg
  queries : List QueryRequest
  memo : Option String
  timeout : Option UInt64

/-- The request as a message to the contract. -/
def Request.msg (r : Request) : ExecuteMsg := .sendCosmosMsgs r.messages r.queries r.memo r.timeout

/-- The contract and the host can deal with the request: everything in it is of a supported kind, its stargate messages
are signed by the account, and its timeout is a timestamp after the host's clock. -/
structure Request.Fine (r : Request) (n : Net) (ch : IbcChannel) (a : String) : Prop where
  messages : ∀ m ∈ r.messages, Supported m
  queries : ∀ q ∈ r.queries, SupportedQuery q
  signed : ∀ url value, CosmosMsg.stargate url value ∈ r.messages → Authentic a [(url, value)]
  fits : n.w.env.time.toNat + allowedSeconds r.timeout * 1000000000 < 2 ^ 64
  later : (n.hosts ch.connectionId).time.toNat < n.w.env.time.toNat + allowedSeconds r.timeout * 1000000000

/-- The host reads exactly the request, for the account: the messages in order, then one query message with the queries
in order. -/
def Request.ReadAs (r : Request) (a : String) (messages : List (String × Bytes)) : Prop :=
  ∃ l last, messages = l ++ last ∧ List.Forall₂ (HostReads a) r.messages l ∧
    (r.queries = [] ∧ last = [] ∨ r.queries ≠ [] ∧ ∃ url value reqs, last = [(url, value)] ∧
      readHostMsg url value = some (.moduleQuerySafe a reqs) ∧ List.Forall₂ QueryReads r.queries reqs)

/-- The outcome is possible: a success has a fitting response for each message. -/
def Outcome.Fits (height : UInt64) (messages : List (String × Bytes)) : Outcome → Prop
  | .ok rs => List.Forall₂ (Responds height) messages rs
  | .fail _ => True

/-- What a host's log gains: the execution, if there was one. -/
def Outcome.logged (entry : List (String × Bytes) → Executed) : Outcome → List Executed
  | .ok rs => [entry rs]
  | .fail _ => []

/-- The callback contract is told the outcome of the packet. -/
def ToldOutcome (obs : List Obs) (cb : String) (p : IbcPacket) (relayer : String) : Outcome → Prop
  | .ok rs => ∃ res q, CalledBack obs cb (.onAcknowledgementPacketCallback (.result res) p relayer q) ∧
      readTxMsgData res = some rs
  | .fail e => ∃ q, CalledBack obs cb (.onAcknowledgementPacketCallback (.error e) p relayer q)

/-- What it takes to carry out requests: the owner sends, the host receives, a relayer brings the acknowledgement. -/
def Carrying (owner : String) : NetOp → Prop
  | .ctrl (.execute sender (.sendCosmosMsgs ..) _ _) => sender = owner
  | .hostReceive .. => True
  | .ctrl (.relayAck ..) => True
  | _ => False

end Ica.Spec
