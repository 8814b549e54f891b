import Verif.Spec.Use

/-!
# Lists on the host

How a host of the Cosmos SDK answers the queries that list something: from its books, a page at a time
(`types/query/pagination.go` and the `grpc_query.go` files of the SDK's bank and staking modules). A list is kept by key; a
page starts at the beginning, after an offset, or at a key, and ends after `limit` entries, or after one hundred if no limit is
given; the key of the first entry that is left out comes with the page. Simplification: the SDK refuses a request with
both a key and an offset; the contract sends no offsets.
-/
namespace Ica.Spec

/-- The entries of a list in the order of a request. -/
def inOrder {α : Type} (reverse : Bool) (items : List (Bytes × α)) : List (Bytes × α) :=
  if reverse then items.reverse else items

/-- The entries from a key on. -/
def fromKey {α : Type} (reverse : Bool) (key : Bytes) (items : List (Bytes × α)) : List (Bytes × α) :=
  items.dropWhile fun x => if reverse then key < x.1 else x.1 < key

/-- The number of entries of a page. -/
def pageSize (limit : Nat) : Nat := if limit = 0 then 100 else limit

/-- A page of a list: its entries, the key of the first entry after it (empty if there is none), and the length of the list
if it was asked for or there was no limit (0 otherwise). -/
def pageOf {α : Type} (items : List (Bytes × α)) (req : Option HostPage) : List α × HostPageInfo :=
  let r := req.getD ⟨[], 0, 0, false, false⟩
  let l := inOrder r.reverse items
  let start := if r.key = [] then l.drop r.offset else fromKey r.reverse r.key l
  ((start.take (pageSize r.limit)).map (·.2),
    (((start.drop (pageSize r.limit)).head?.map (·.1)).getD [],
     if r.key = [] ∧ (r.limit = 0 ∨ r.countTotal) then UInt64.ofNat items.length else 0))

/-- The lists a host keeps: the coins of each account, the delegations of each account, the validators, the descriptions of
denominations. -/
structure Books where
  balances : String → List (Bytes × Coin)
  delegations : String → List (Bytes × HostDelegation)
  validators : List (Bytes × HostValidator)
  metadata : List (Bytes × DenomMetadata)

/-- Keys are not empty and in ascending order. -/
def Keyed {α : Type} (items : List (Bytes × α)) : Prop :=
  (∀ x ∈ items, x.1 ≠ []) ∧ items.Pairwise fun x y => x.1 < y.1

/-- The books are in order: descriptions are kept by key, and the rates of validators are at most one. -/
def Books.Proper (b : Books) : Prop := Keyed b.metadata ∧ ∀ v ∈ b.validators, RatesOk v.2

/-- `BondStatus`: 1 unbonded, 2 unbonding, 3 bonded. -/
def statusName (n : UInt64) : String :=
  if n = 1 then "BOND_STATUS_UNBONDED" else if n = 2 then "BOND_STATUS_UNBONDING"
  else if n = 3 then "BOND_STATUS_BONDED" else "BOND_STATUS_UNSPECIFIED"

/-- The active set. -/
def Active (v : HostValidator) : Prop := statusName v.status = "BOND_STATUS_BONDED"

/-- The validators with a status; all of them if no status is named. -/
def Books.withStatus (b : Books) (status : String) : List (Bytes × HostValidator) :=
  b.validators.filter fun v => status = "" || statusName v.2.status = status

/-- The answer to a query that lists something. -/
def Books.answer (b : Books) : HostQuery → Option Bytes
  | .allBalances a p => some (HostAnswer.allBalances (pageOf (b.balances a) p).1 (some (pageOf (b.balances a) p).2)).bytes
  | .delegatorDelegations d p =>
    some (HostAnswer.delegatorDelegations (pageOf (b.delegations d) p).1 (some (pageOf (b.delegations d) p).2)).bytes
  | .denomsMetadata p => some (HostAnswer.denomsMetadata (pageOf b.metadata p).1 (some (pageOf b.metadata p).2)).bytes
  | .validators s p => some (validatorsAnswer (pageOf (b.withStatus s) p).1 (some (pageOf (b.withStatus s) p).2))
  | _ => none

/-- The answer to a request agrees with the books. -/
def Books.Answers (b : Books) (req : String × Bytes) (bs : Bytes) : Prop :=
  ∀ q a, readHostQuery req.1 req.2 = some q → b.answer q = some a → bs = a

/-- The response to a query message agrees with the books. -/
def Books.Responds (b : Books) (m r : String × Bytes) : Prop :=
  ∀ signer reqs, readHostMsg m.1 m.2 = some (.moduleQuerySafe signer reqs) →
    ∃ height answers, readSafeResponse r.2 = some (height, answers) ∧ List.Forall₂ b.Answers reqs answers

/-- The host answered the queries of a packet from its books. -/
def Books.Answered (b : Books) (e : Executed) : Prop := List.Forall₂ b.Responds e.messages e.responses

/-! ## What should be reported, and what is -/

/-- The query asks for a list. -/
def AsksForList : QueryRequest → Prop
  | .bank (.allBalances _) => True
  | .staking (.allDelegations _) => True
  | .staking .allValidators => True
  | .bank (.allDenomMetadata _) => True
  | _ => False

/-- The report lists everything: all coins of the account, all delegations of the account, all active validators. -/
def ListsAll (b : Books) (q : QueryRequest) (r : IcaQueryResponse) : Prop :=
  match q with
  | .bank (.allBalances a) => r = .bank (.allBalances ⟨(b.balances a).map (·.2)⟩)
  | .staking (.allDelegations d) => r = .staking (.allDelegations ⟨(b.delegations d).map (·.2.reported)⟩)
  | _ => True

/-- The report lists the active validators. -/
def ListsActive (b : Books) (q : QueryRequest) (r : IcaQueryResponse) : Prop :=
  match q with
  | .staking .allValidators => ∃ vs, r = .staking (.allValidators ⟨vs⟩) ∧
      vs.map (·.address) = (b.withStatus "BOND_STATUS_BONDED").map (·.2.operator)
  | _ => True

/-- The report lists the first hundred coins of the account, the first hundred delegations of the account, the first hundred validators
whatever their status, or the page asked for. -/
def ListsFirst (b : Books) (q : QueryRequest) (r : IcaQueryResponse) : Prop :=
  match q with
  | .bank (.allBalances a) => r = .bank (.allBalances ⟨((b.balances a).take 100).map (·.2)⟩)
  | .staking (.allDelegations d) => r = .staking (.allDelegations ⟨((b.delegations d).take 100).map (·.2.reported)⟩)
  | .staking .allValidators => ∃ vs, r = .staking (.allValidators ⟨vs⟩) ∧
      List.Forall₂ ScaledRates ((b.validators.take 100).map (·.2)) vs
  | .bank (.allDenomMetadata p) =>
    let page := pageOf b.metadata (p.map fun p => ⟨p.key.getD [], 0, p.limit.toNat, false, p.reverse⟩)
    r = .bank (.allDenomMetadata ⟨page.1, some page.2.1⟩)
  | _ => True

/-- Everything the query asks for fits into one page. -/
def FitsOnePage (b : Books) : QueryRequest → Prop
  | .bank (.allBalances a) => (b.balances a).length ≤ 100
  | .staking (.allDelegations d) => (b.delegations d).length ≤ 100
  | _ => True

/-- In some history of the joint system that begins with `n0`, the host executes a packet with these queries and answers them
from its books, a relayer brings the acknowledgement, and the callback contract is told `r`. -/
def Told (api : Api) (n0 : Net) (b : Books) (qs : List QueryRequest) (r : IcaQueryResult) : Prop :=
  ∃ h n n' e relayer ack obs cb res, NetExec api n0 h n ∧ e ∈ n.log ∧ Sent (onController h) e.packet qs ∧ b.Answered e ∧
    NetStep api n (.ctrl (.relayAck e.packet.src.channelId e.packet.sequence ack relayer)) n' obs ∧
    callbackOf n.w = some cb ∧ CalledBack obs cb (.onAcknowledgementPacketCallback (.result res) e.packet relayer (some r))

/-! ## Going through a list page by page -/

/-- A page of the descriptions of denominations, asked for from a key on, and told. -/
def ToldPage (api : Api) (n0 : Net) (b : Books) (limit : UInt32) (reverse : Bool) (key : Option Bytes)
    (page : List DenomMetadata) (next : Option Bytes) : Prop :=
  ∃ height, Told api n0 b [.bank (.allDenomMetadata (some ⟨key, limit, reverse⟩))]
    (.success height [.bank (.allDenomMetadata ⟨page, next⟩)])

/-- Asking for page after page, each from the key that came with the page before, as long as that key says to go on: the number
of pages, what they held, and the key that came with the last one. -/
inductive Browsed (page : Option Bytes → List DenomMetadata → Option Bytes → Prop) (goOn : Option Bytes → Prop) :
    Nat → List DenomMetadata → Option Bytes → Prop where
  | first {l : List DenomMetadata} {next : Option Bytes} : page none l next → Browsed page goOn 1 l next
  | more {k : Nat} {l l' : List DenomMetadata} {key next : Option Bytes} :
      Browsed page goOn k l key → goOn key → page key l' next → Browsed page goOn (k + 1) (l ++ l') next

end Ica.Spec
