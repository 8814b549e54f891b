import Verif.Spec.Answer
import Verif.Spec.Api
import Verif.Spec.Formats

/-!
# What an arbitrary answer says

`Spec/Answer.lean` says how a host of the known version writes its answers. Here is the other direction: what any byte
string says as the answer to a query, if it says anything. A message has to fit its `.proto` file (Cosmos SDK, wasmd):
every field in it that the file names is of the type it has there. Texts of numbers have to be numbers. Fields that are not
there have their default values. Nothing is taken from the contract's decoding but the splitting of bytes into records
(`parseWire`, which C66 shows to be the protobuf format).
-/
namespace Ica.Spec

/-! ## Messages that fit a `.proto` file -/

/-- Types of fields that are not messages; `number` stands for all integers, enums and booleans, which are one thing on
the wire. -/
inductive Scalar where
  | text | bytes | number | texts | numbers

/-- The values of such a field in a message are of this type. -/
def Scalar.Fits : Scalar → List WVal → Prop
  | .text, vs => ∀ v ∈ vs, ∃ s, v = .len (utf8 s)
  | .texts, vs => ∀ v ∈ vs, ∃ s, v = .len (utf8 s)
  | .bytes, vs => ∀ v ∈ vs, ∃ b, v = .len b
  | .number, vs => ∀ v ∈ vs, ∃ n, v = .varint n
  | .numbers, vs => ∀ v ∈ vs, (∃ n, v = .varint n) ∨
    ∃ ps : List Bytes, v = .len ps.flatten ∧ ∀ q ∈ ps, ∃ n, Format.IsVarint n q

/-- The values are messages. -/
def Messages (vs : List WVal) (l : List Fields) : Prop :=
  List.Forall₂ (fun v x => ∃ b, v = .len b ∧ parseWire b = some x) vs l

/-- What a `.proto` file says about a message: its fields by number. -/
inductive Layout where
  | done
  | field (tag : Nat) (type : Scalar) (more : Layout)
  /-- a message, which may be missing -/
  | one (tag : Nat) (inner more : Layout)
  /-- a repeated message -/
  | many (tag : Nat) (inner more : Layout)

/-- The message fits. The records of a single message are merged, those of a repeated one are its elements. -/
def Layout.Fits : Layout → Fields → Prop
  | .done, _ => True
  | .field t k more, m => k.Fits (sel t m) ∧ more.Fits m
  | .one t inner more, m => (∃ l, Messages (sel t m) l ∧ inner.Fits l.flatten) ∧ more.Fits m
  | .many t inner more, m => (∃ l, Messages (sel t m) l ∧ ∀ x ∈ l, inner.Fits x) ∧ more.Fits m

namespace Layout

/-- Texts with these numbers. -/
def texts : List Nat → Layout → Layout
  | [], more => more
  | t :: ts, more => .field t .text (texts ts more)

/-- `google.protobuf.Any`. -/
def any : Layout := .field 1 .text (.field 2 .bytes .done)
/-- `google.protobuf.Timestamp`, `google.protobuf.Duration`, `cosmwasm.wasm.v1.AbsoluteTxPosition`. -/
def pair : Layout := .field 1 .number (.field 2 .number .done)
/-- `cosmos.base.v1beta1.Coin`. -/
def coin : Layout := texts [1, 2] .done
/-- `cosmos.base.query.v1beta1.PageResponse`. -/
def page : Layout := .field 1 .bytes (.field 2 .number .done)
/-- `cosmos.bank.v1beta1.DenomUnit`. -/
def denomUnit : Layout := .field 1 .text (.field 2 .number (.field 3 .texts .done))
/-- `cosmos.bank.v1beta1.Metadata`. -/
def metadata : Layout := .field 1 .text (.many 2 denomUnit (texts [3, 4, 5, 6, 7, 8] .done))
/-- `cosmwasm.wasm.v1.ContractInfo`. -/
def contractInfo : Layout := .field 1 .number (texts [2, 3, 4] (.one 5 pair (.field 6 .text (.one 7 any .done))))
/-- `cosmos.staking.v1beta1.Commission`. -/
def commission : Layout := .one 1 (texts [1, 2, 3] .done) (.one 2 pair .done)
/-- `cosmos.staking.v1beta1.Validator`. -/
def validator : Layout :=
  .field 1 .text (.one 2 any (.field 3 .number (.field 4 .number (texts [5, 6] (.one 7 (texts [1, 2, 3, 4, 5] .done)
    (.field 8 .number (.one 9 pair (.one 10 commission (.field 11 .text (.field 12 .number (.field 13 .numbers .done)))))))))))
/-- `cosmos.staking.v1beta1.DelegationResponse`. -/
def delegation : Layout := .one 1 (texts [1, 2, 3] .done) (.one 2 coin .done)
/-- `cosmos.staking.v1beta1.Params`. -/
def params : Layout :=
  .one 1 pair (.field 2 .number (.field 3 .number (.field 4 .number (texts [5, 6] .done))))

/-- The answer of each query. -/
def answer : HostQuery → Layout
  | .balance .. => .one 1 coin .done
  | .allBalances .. => .many 1 coin (.one 2 page .done)
  | .denomMetadata .. => .one 1 metadata .done
  | .denomsMetadata .. => .many 1 metadata (.one 2 page .done)
  | .supplyOf .. => .one 1 coin .done
  | .rawState .. => .field 1 .bytes .done
  | .smartState .. => .field 1 .bytes .done
  | .contractInfo .. => .field 1 .text (.one 2 contractInfo .done)
  | .validator .. => .one 1 validator .done
  | .validators .. => .many 1 validator (.one 2 page .done)
  | .delegation .. => .one 1 delegation .done
  | .delegatorDelegations .. => .many 1 delegation (.one 2 page .done)
  | .stakingParams => .one 1 params .done

end Layout

/-! ## What fields say -/

/-- The text of a field: the last one counts, and none is the empty text. -/
def HasText (m : Fields) (t : Nat) (s : String) : Prop :=
  Scalar.text.Fits (sel t m) ∧ (sel t m).getLastD (.len (utf8 "")) = .len (utf8 s)
/-- The bytes of a field. -/
def HasBytes (m : Fields) (t : Nat) (b : Bytes) : Prop :=
  Scalar.bytes.Fits (sel t m) ∧ (sel t m).getLastD (.len []) = .len b
/-- The number of a field. -/
def HasNumber (m : Fields) (t : Nat) (n : UInt64) : Prop :=
  Scalar.number.Fits (sel t m) ∧ (sel t m).getLastD (.varint 0) = .varint n
/-- The texts of a repeated field. -/
def HasTexts (m : Fields) (t : Nat) (l : List String) : Prop := sel t m = l.map fun s => .len (utf8 s)
/-- The field is missing. -/
def Missing (m : Fields) (t : Nat) : Prop := sel t m = []
/-- The message in a field. -/
def HasMessage (m : Fields) (t : Nat) (x : Fields) : Prop :=
  ∃ l, sel t m ≠ [] ∧ Messages (sel t m) l ∧ x = l.flatten
/-- The messages in a repeated field. -/
def HasMessages (m : Fields) (t : Nat) (l : List Fields) : Prop := Messages (sel t m) l

/-- A coin. The amount is a number. -/
def SaysCoin (m : Fields) (c : Coin) : Prop :=
  HasText m 1 c.denom ∧ ∃ s, HasText m 2 s ∧ Api.Numeral s.toList c.amount.val

/-- A coin that may be missing, which is reported as nothing of no denomination. -/
def SaysSomeCoin (m : Fields) (t : Nat) (c : Coin) : Prop :=
  (Missing m t ∧ c = ⟨"", ⟨0, by decide⟩⟩) ∨ ∃ x, HasMessage m t x ∧ SaysCoin x c

/-- The unit of a denomination. Its exponent has 32 bits. -/
def SaysUnit (m : Fields) (u : DenomUnit) : Prop :=
  HasText m 1 u.denom ∧ (∃ n, HasNumber m 2 n ∧ u.exponent = n.toUInt32) ∧ HasTexts m 3 u.aliases

/-- The metadata of a denomination. -/
def SaysMetadata (m : Fields) (d : DenomMetadata) : Prop :=
  HasText m 1 d.description ∧ (∃ l, HasMessages m 2 l ∧ List.Forall₂ SaysUnit l d.denomUnits) ∧ HasText m 3 d.base ∧
    HasText m 4 d.display ∧ HasText m 5 d.name ∧ HasText m 6 d.symbol ∧ HasText m 7 d.uri ∧ HasText m 8 d.uriHash

/-- A contract. -/
def SaysContract (m : Fields) (i : ContractInfoResponse) : Prop :=
  HasNumber m 1 i.codeId ∧ HasText m 2 i.creator ∧ (∃ a, HasText m 3 a ∧ i.admin = unlessEmpty "" a) ∧
    (∃ p, HasText m 6 p ∧ i.ibcPort = unlessEmpty "" p) ∧ i.pinned = false

/-- A rate, as it is read: a number with at most eighteen decimal places. -/
def SaysRate (m : Fields) (t : Nat) (d : Decimal) : Prop := ∃ s, HasText m t s ∧ Api.QuotedDecimal (.str s) d

/-- A validator with its rates. -/
def SaysValidator (m : Fields) (v : Validator) : Prop :=
  HasText m 1 v.address ∧ ∃ c r, HasMessage m 10 c ∧ HasMessage c 1 r ∧ SaysRate r 1 v.commission ∧
    SaysRate r 2 v.maxCommission ∧ SaysRate r 3 v.maxChangeRate

/-- A delegation with its balance. -/
def SaysDelegation (m : Fields) (d : Delegation) : Prop :=
  ∃ x c, HasMessage m 1 x ∧ HasText x 1 d.delegator ∧ HasText x 2 d.validator ∧ HasMessage m 2 c ∧ SaysCoin c d.amount

/-! ## What answers say -/

/-- What the message says as the answer to a query. -/
def SaysAnswer (m : Fields) : HostQuery → IcaQueryResponse → Prop
  | .balance .., r => ∃ c, SaysSomeCoin m 1 c ∧ r = .bank (.balance ⟨c⟩)
  | .allBalances .., r => ∃ l cs, HasMessages m 1 l ∧ List.Forall₂ SaysCoin l cs ∧ r = .bank (.allBalances ⟨cs⟩)
  | .denomMetadata .., r => ∃ d, ((Missing m 1 ∧ d = ⟨"", [], "", "", "", "", "", ""⟩) ∨
      ∃ x, HasMessage m 1 x ∧ SaysMetadata x d) ∧ r = .bank (.denomMetadata ⟨d⟩)
  | .denomsMetadata .., r => ∃ l ds key, HasMessages m 1 l ∧ List.Forall₂ SaysMetadata l ds ∧
      ((Missing m 2 ∧ key = none) ∨ ∃ p k, HasMessage m 2 p ∧ HasBytes p 1 k ∧ key = some k) ∧
      r = .bank (.allDenomMetadata ⟨ds, key⟩)
  | .supplyOf .., r => ∃ c, SaysSomeCoin m 1 c ∧ r = .bank (.supply ⟨c⟩)
  | .rawState .., r => ∃ b, HasBytes m 1 b ∧ r = .wasm (.rawContractState (unlessEmpty [] b))
  | .smartState .., r => ∃ b, HasBytes m 1 b ∧ r = .wasm (.smartContractState b)
  | .contractInfo .., r => (Missing m 2 ∧ r = .wasm (.contractInfo none)) ∨
      ∃ x i, HasMessage m 2 x ∧ SaysContract x i ∧ r = .wasm (.contractInfo (some i))
  | .validator .., r => (Missing m 1 ∧ r = .staking (.validator ⟨none⟩)) ∨
      ∃ x v, HasMessage m 1 x ∧ SaysValidator x v ∧ r = .staking (.validator ⟨some v⟩)
  | .validators .., r => ∃ l vs, HasMessages m 1 l ∧ List.Forall₂ SaysValidator l vs ∧ r = .staking (.allValidators ⟨vs⟩)
  | .delegation .., r =>
      ((Missing m 1 ∨ ∃ x, HasMessage m 1 x ∧ Missing x 1) ∧ r = .staking (.delegation ⟨none⟩)) ∨
      ∃ x d, HasMessage m 1 x ∧ SaysDelegation x d ∧ r = .staking (.delegation ⟨some d⟩)
  | .delegatorDelegations .., r => ∃ l ds, HasMessages m 1 l ∧
      List.Forall₂ SaysDelegation (l.filter fun x => sel 1 x ≠ []) ds ∧ r = .staking (.allDelegations ⟨ds⟩)
  | .stakingParams, r => ∃ x denom, HasMessage m 1 x ∧ HasText x 5 denom ∧ r = .staking (.bondedDenom ⟨denom⟩)

/-- What the bytes say as the answer to a query of the contract's user: for a stargate query they stand for themselves. -/
def SaysReply (q : QueryRequest) (bs : Bytes) (r : IcaQueryResponse) : Prop :=
  match q with
  | .stargate path _ => r = .stargate bs path
  | q => ∃ h m, denotesQuery q = some h ∧ parseWire bs = some m ∧ (Layout.answer h).Fits m ∧ SaysAnswer m h r

end Ica.Spec
