import Verif.Spec.Answer
import Verif.Spec.Formats

/-!
# Answers of other versions of the host

Which differences between two protobuf messages a reader of a given version must not notice: records with numbers it does
not know (as a newer host adds them), the order of records with different numbers, and such differences within embedded
messages. The numbers are those of the `.proto` files of the Cosmos SDK and wasmd that the contract was built with.
-/
namespace Ica.Spec

/-- What a reader knows about a message: the numbers of its fields, and for those that hold a message what it knows about
that. -/
inductive Known where
  | msg (fields : List (Nat × Option Known))

/-- What is known of a field: nothing (`none`), that it is there (`some none`), or that it is a message. -/
def Known.field : Known → Nat → Option (Option Known)
  | .msg fields, t => fields.lookup t

/-- Messages that say the same to a reader with the given knowledge. -/
inductive SaysSame : Known → Fields → Fields → Prop where
  | refl {k : Known} (m : Fields) : SaysSame k m m
  | symm {k : Known} {m m' : Fields} : SaysSame k m m' → SaysSame k m' m
  | trans {k : Known} {m m' m'' : Fields} : SaysSame k m m' → SaysSame k m' m'' → SaysSame k m m''
  /-- A record with an unknown number, whatever it holds, may be left out. -/
  | extra {k : Known} {t : Nat} (a b : Fields) (v : WVal) : k.field t = none → SaysSame k (a ++ (t, v) :: b) (a ++ b)
  /-- Records with different numbers may come in any order. -/
  | order {k : Known} {t u : Nat} (a b : Fields) (v w : WVal) : t ≠ u →
      SaysSame k (a ++ (t, v) :: (u, w) :: b) (a ++ (u, w) :: (t, v) :: b)
  /-- An embedded message may be replaced by one that says the same. -/
  | inner {k sub : Known} {t : Nat} {m m' : Fields} {bs bs' : Bytes} (a b : Fields) : k.field t = some (some sub) →
      Format.IsMessage m bs → Format.IsMessage m' bs' → SaysSame sub m m' →
      SaysSame k (a ++ (t, .len bs) :: b) (a ++ (t, .len bs') :: b)

/-- The same for the bytes of messages. -/
def BytesSaySame (k : Known) (bs bs' : Bytes) : Prop :=
  bs = bs' ∨ ∃ m m', Format.IsMessage m bs ∧ Format.IsMessage m' bs' ∧ SaysSame k m m'

namespace Known

/-- A message with scalar fields only. -/
def plain (ts : List Nat) : Known := .msg (ts.map fun t => (t, none))

/-- `google.protobuf.Any`. -/
def any : Known := plain [1, 2]
/-- `google.protobuf.Timestamp`, `google.protobuf.Duration`. -/
def timestamp : Known := plain [1, 2]
/-- `cosmos.base.v1beta1.Coin`. -/
def coin : Known := plain [1, 2]
/-- `cosmos.base.query.v1beta1.PageResponse`. -/
def page : Known := plain [1, 2]
/-- `cosmos.bank.v1beta1.DenomUnit`. -/
def denomUnit : Known := plain [1, 2, 3]
/-- `cosmos.bank.v1beta1.Metadata`. -/
def metadata : Known :=
  .msg [(1, none), (2, some denomUnit), (3, none), (4, none), (5, none), (6, none), (7, none), (8, none)]
/-- `cosmwasm.wasm.v1.ContractInfo`. -/
def contractInfo : Known :=
  .msg [(1, none), (2, none), (3, none), (4, none), (5, some (plain [1, 2])), (6, none), (7, some any)]
/-- `cosmos.staking.v1beta1.Commission`. -/
def commission : Known := .msg [(1, some (plain [1, 2, 3])), (2, some timestamp)]
/-- `cosmos.staking.v1beta1.Validator`. -/
def validator : Known :=
  .msg [(1, none), (2, some any), (3, none), (4, none), (5, none), (6, none), (7, some (plain [1, 2, 3, 4, 5])), (8, none),
    (9, some timestamp), (10, some commission), (11, none), (12, none), (13, none)]
/-- `cosmos.staking.v1beta1.DelegationResponse`. -/
def delegation : Known := .msg [(1, some (plain [1, 2, 3])), (2, some coin)]
/-- `cosmos.staking.v1beta1.Params`. -/
def params : Known := .msg [(1, some timestamp), (2, none), (3, none), (4, none), (5, none), (6, none)]

/-- The answer of each query, by its gRPC path. -/
def answer : HostQuery → Known
  | .balance .. => .msg [(1, some coin)]
  | .allBalances .. => .msg [(1, some coin), (2, some page)]
  | .denomMetadata .. => .msg [(1, some metadata)]
  | .denomsMetadata .. => .msg [(1, some metadata), (2, some page)]
  | .supplyOf .. => .msg [(1, some coin)]
  | .rawState .. => plain [1]
  | .smartState .. => plain [1]
  | .contractInfo .. => .msg [(1, none), (2, some contractInfo)]
  | .validator .. => .msg [(1, some validator)]
  | .validators .. => .msg [(1, some validator), (2, some page)]
  | .delegation .. => .msg [(1, some delegation)]
  | .delegatorDelegations .. => .msg [(1, some delegation), (2, some page)]
  | .stakingParams => .msg [(1, some params)]

/-- The result of the transaction: `TxMsgData { 1: repeated MsgData, 2: repeated Any }`, where the values of the `Any`s are
taken to be messages with the fields of `MsgModuleQuerySafeResponse { 1: height, 2: repeated bytes }`. -/
def txResult : Known := .msg [(1, some (plain [1, 2])), (2, some (.msg [(1, none), (2, some (plain [1, 2]))]))]

end Known

/-- Two answers to the query `q` that say the same; those to stargate queries are passed on, so they have to be equal. -/
def AnswersSame (q : QueryRequest) (bs bs' : Bytes) : Prop :=
  bs = bs' ∨ ∃ h, denotesQuery q = some h ∧ BytesSaySame (Known.answer h) bs bs'

/-- Two results of a transaction with the queries `qs` that say the same: the same height and as many answers, each saying
the same as the other's. -/
def ResultsSame (qs : List QueryRequest) (res res' : Bytes) : Prop :=
  qs = [] ∨ ∃ height answers answers', readQueryAnswer res = some (height, answers) ∧
    readQueryAnswer res' = some (height, answers') ∧ answers.length = answers'.length ∧
    ∀ (i : Nat) q a a', qs[i]? = some q → answers[i]? = some a → answers'[i]? = some a' → AnswersSame q a a'

end Ica.Spec
