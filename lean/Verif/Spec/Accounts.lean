import Verif.Spec.Use
import Verif.Spec.Proposal

/-!
# Which accounts a contract has

The README says that a contract creates and manages one interchain account. Here is what the owner says about
connections, and a plan of the owner to use several accounts in turn.
-/
namespace Ica.Spec

/-- In this history the contract was told this connection, when it was instantiated or in a `CreateChannel`. -/
def ToldConnection (h : List (Op × List Obs)) (connection : String) : Prop :=
  ∃ x ∈ h, (∃ sender msg fresh core, x.1 = Op.instantiate sender msg fresh core ∧
      msg.channelOpenInitOptions.connectionId = connection) ∨
    ∃ sender o fresh core, x.1 = Op.execute sender (.createChannel (some o)) fresh core ∧ o.connectionId = connection

/-- A turn of a plan: a channel is created with these options, to this account, and these requests are made over it. -/
structure Turn where
  options : ChannelOpenInitOptions
  address : String
  requests : List Request

/-- The turn can be taken: the options fit the host, the address is the one the host has given out if it has, and the
requests are of the supported kinds and in time. -/
structure Turn.Fine (t : Turn) (n : Net) : Prop where
  host : t.options.counterpartyConnectionId = (n.hosts t.options.connectionId).connection
  port : t.options.counterpartyPortId = none ∨ t.options.counterpartyPortId = some "icahost"
  account : (n.hosts t.options.connectionId).account = none ∨
    (n.hosts t.options.connectionId).account = some t.address
  named : t.address ≠ ""
  short : (utf8 t.address).length ≤ 128
  plain : ∀ c ∈ t.address.toList, ('0' ≤ c ∧ c ≤ '9') ∨ ('A' ≤ c ∧ c ≤ 'Z') ∨ ('a' ≤ c ∧ c ≤ 'z')
  few : t.requests.length < 2 ^ 64
  requests : ∀ r ∈ t.requests, ∀ ch : IbcChannel, ch.connectionId = t.options.connectionId → r.Fine n ch t.address

/-- These executions are the requests of the turns, in order, each by the account of its turn. -/
inductive Taken : List Turn → List Executed → Prop where
  | nil : Taken [] []
  | turn {t : Turn} {ts : List Turn} {es rest : List Executed} :
      List.Forall₂ (fun (r : Request) (e : Executed) => e.account = t.address ∧ r.ReadAs t.address e.messages)
        t.requests es → Taken ts rest → Taken (t :: ts) (es ++ rest)

/-- What it takes to go through a plan: the owner creates, closes and sends; relayers and hosts do their part. -/
def Planned (owner : String) (op : NetOp) : Prop := ByOwnerAndRelayers owner op ∨ Carrying owner op

end Ica.Spec
