import Verif.Facts.Reading
import Verif.Props.Queries

/-! # Every answer is reported as it reads (C109) -/
namespace Ica
open Spec Reads

/-- What is recorded for a query decides how its answer is read, and that is what the answer says. -/
theorem reads_iff {q : QueryRequest} {r : String × Bool} (hr : RecordedAs q r) (bs : Bytes) (x : IcaQueryResponse) :
    DecodesTo (r, bs) x ↔ SaysReply q bs x := by
  have gen : ∀ o : Option HostQuery, (∃ h, o = some h ∧ r = (h.path, false)) →
      (DecodesTo (r, bs) x ↔ ∃ h m, o = some h ∧ parseWire bs = some m ∧ (Layout.answer h).Fits m ∧ SaysAnswer m h x) := by
    rintro o ⟨h, rfl, rfl⟩
    refine (reads_answer h bs x).trans ?_
    constructor
    · rintro ⟨m, a⟩; exact ⟨h, m, rfl, a⟩
    · rintro ⟨h', m, e, a⟩; cases e; exact ⟨m, a⟩
  cases q with
  | stargate p d =>
    have e : r = (p, true) := hr
    subst e
    simp only [DecodesTo, responseFromProtobuf, if_true, Res.ok.injEq, SaysReply]
    exact eq_comm
  | bank b => exact gen _ hr
  | wasm b => exact gen _ hr
  | staking b => exact gen _ hr
  | ibc b => obtain ⟨h, e, -⟩ := hr; cases e
  | custom b => obtain ⟨h, e, -⟩ := hr; cases e
  | distribution b => obtain ⟨h, e, -⟩ := hr; cases e

theorem recorded_of_supported {q : QueryRequest} (h : SupportedQuery q) : ∃ r, RecordedAs q r := by
  rcases h with ⟨p, d, rfl⟩ | ⟨x, hx⟩
  · exact ⟨_, rfl⟩
  · cases q with
    | stargate p d => cases hx
    | _ => exact ⟨_, x, hx, rfl⟩

/-- **C109, at most one thing.** A byte string says at most one thing as the answer to a query. -/
theorem C109_unambiguous {q : QueryRequest} {bs : Bytes} {x y : IcaQueryResponse} (h : SaysReply q bs x)
    (h' : SaysReply q bs y) : x = y := by
  have hq : SupportedQuery q := by
    cases q with
    | stargate p d => exact .inl ⟨_, _, rfl⟩
    | _ => obtain ⟨k, m, e, -⟩ := h; exact .inr ⟨k, e⟩
  obtain ⟨r, hr⟩ := recorded_of_supported hq
  have a := (reads_iff hr bs x).2 h
  have b := (reads_iff hr bs y).2 h'
  rw [DecodesTo] at a b
  rw [a] at b
  injection b

theorem zip_reads {qs : List QueryRequest} {rec : List (String × Bool)} (h : List.Forall₂ RecordedAs qs rec)
    (answers : List Bytes) (rs : List IcaQueryResponse) :
    List.Forall₂ DecodesTo (rec.zip answers) rs ↔
      List.Forall₂ (fun (a : QueryRequest × Bytes) x => SaysReply a.1 a.2 x) (qs.zip answers) rs := by
  induction h generalizing answers rs with
  | nil => simp
  | cons h1 _ ih =>
    cases answers with
    | nil => simp
    | cons a answers =>
      simp only [List.zip_cons_cons]
      cases rs with
      | nil => simp
      | cons x rs => simp only [List.forall₂_cons, ih, reads_iff h1]

/-- **C109.** Whatever bytes a host puts into its answers to the queries of a packet, the callback reports success exactly
if there are as many answers as queries and each of them says something as the answer to its query, and then it reports
exactly what they say, in the order of the queries; otherwise it reports an error. -/
theorem C109_reported {api : Api} {env : Env} {h : List (Op × List Obs)} {w w' : World}
    (he : Exec api (World.genesis env) h w) {id : String} {n : UInt64} {ack : Bytes} {relayer : String} {obs : List Obs}
    (hc : Commits api w (.relayAck id n ack relayer) w' obs) {res : Bytes} (hr : readAck ack = some (.result res))
    {p : IbcPacket} {qs : List QueryRequest} (hs : Sent h p qs) (hid : p.src.channelId = id) (hn : p.sequence = n)
    (hq : qs ≠ []) {cb : String} (hcb : callbackOf w = some cb) :
    ∃ height answers r, readQueryAnswer res = some (height, answers) ∧
      CalledBack obs cb (.onAcknowledgementPacketCallback (.result res) p relayer (some r)) ∧
      (∀ rs, r = .success height rs ↔ answers.length = qs.length ∧
        List.Forall₂ (fun (a : QueryRequest × Bytes) x => SaysReply a.1 a.2 x) (qs.zip answers) rs) ∧
      ((∃ rs, r = .success height rs) ∨ ∃ e, r = .error e) := by
  obtain ⟨ht, answers, r, rec, k1, k2, k3, k4, -, k5⟩ := C38_positional he hc hr hs hid hn hq hcb
  refine ⟨ht, answers, r, k1, k3, fun rs => ?_, k5⟩
  rw [k4 rs, zip_reads k2]

/-- **C109, one bad answer.** If one of the answers says nothing as the answer to its query, the callback reports an error
and none of the other answers. -/
theorem C109_one_bad {api : Api} {env : Env} {h : List (Op × List Obs)} {w w' : World}
    (he : Exec api (World.genesis env) h w) {id : String} {n : UInt64} {ack : Bytes} {relayer : String} {obs : List Obs}
    (hc : Commits api w (.relayAck id n ack relayer) w' obs) {res : Bytes} (hr : readAck ack = some (.result res))
    {p : IbcPacket} {qs : List QueryRequest} (hs : Sent h p qs) (hid : p.src.channelId = id) (hn : p.sequence = n)
    (hq : qs ≠ []) {cb : String} (hcb : callbackOf w = some cb) {height : UInt64} {answers : List Bytes}
    (ha : readQueryAnswer res = some (height, answers)) {i : Nat} {q : QueryRequest} {a : Bytes}
    (hi : qs[i]? = some q) (hai : answers[i]? = some a) (hbad : ∀ x, ¬ SaysReply q a x) :
    ∃ e, CalledBack obs cb (.onAcknowledgementPacketCallback (.result res) p relayer (some (.error e))) := by
  obtain ⟨ht, answers', r, k1, k2, k3, k4⟩ := C109_reported he hc hr hs hid hn hq hcb
  rw [ha] at k1
  cases k1
  rcases k4 with ⟨rs, rfl⟩ | ⟨e, rfl⟩
  · obtain ⟨-, hf⟩ := (k3 rs).1 rfl
    have hz : (qs.zip answers)[i]? = some (q, a) := by
      rw [List.getElem?_zip_eq_some]; exact ⟨hi, hai⟩
    obtain ⟨hl, hg⟩ := List.getElem?_eq_some_iff.1 hz
    have hx := List.forall₂_iff_get.1 hf
    have := hx.2 i hl (by rw [← hf.length_eq]; exact hl)
    simp only [List.get_eq_getElem, hg] at this
    exact absurd this (hbad _)
  · exact ⟨e, k2⟩

/-! ## Cases -/

/-- A balance with a field of a later version says the balance; one without an amount says nothing, and neither does a
text that is not UTF-8; no balance at all says nothing of no denomination. -/
example : SaysReply (.bank (.balance "bob" "uatom"))
      (encFields [(1, .len (encFields [(1, .len (utf8 "uatom")), (2, .len (utf8 "12")), (9, .varint 3)]))])
      (.bank (.balance ⟨⟨"uatom", ⟨12, by decide⟩⟩⟩)) ∧
    (∀ x, ¬ SaysReply (.bank (.balance "bob" "uatom")) (encFields [(1, .len (encFields [(1, .len (utf8 "uatom"))]))]) x) ∧
    (∀ x, ¬ SaysReply (.bank (.balance "bob" "uatom")) (encFields [(1, .len [10, 1, 255])]) x) ∧
    SaysReply (.bank (.balance "bob" "uatom")) [] (.bank (.balance ⟨⟨"", ⟨0, by decide⟩⟩⟩)) := by
  have hr : RecordedAs (.bank (.balance "bob" "uatom")) ("/cosmos.bank.v1beta1.Query/Balance", false) := ⟨_, rfl, rfl⟩
  refine ⟨(reads_iff hr _ _).1 (by decide +kernel), fun x h => ?_, fun x h => ?_, (reads_iff hr _ _).1 (by decide +kernel)⟩
  · have h := (reads_iff hr _ _).2 h
    have e : ∃ er, responseFromProtobuf "/cosmos.bank.v1beta1.Query/Balance"
      (encFields [(1, .len (encFields [(1, .len (utf8 "uatom"))]))]) false = .err er := ⟨.std "Generic error: Parsing u128", by decide +kernel⟩
    obtain ⟨er, e⟩ := e
    exact absurd (e.symm.trans h) (by simp)
  · have h := (reads_iff hr _ _).2 h
    have e : responseFromProtobuf "/cosmos.bank.v1beta1.Query/Balance" (encFields [(1, .len [10, 1, 255])]) false =
      .err (.prostDecode "failed to decode Protobuf message") := by decide +kernel
    exact absurd (e.symm.trans h) (by simp)

/-- A list of delegations one of which has no delegation in it says the others; one of which has no balance says nothing. -/
example : SaysReply (.staking (.allDelegations "bob"))
      (encFields [(1, .len []), (1, .len (encFields [(1, .len (encFields [(1, .len (utf8 "bob")), (2, .len (utf8 "val"))])),
        (2, .len (encFields [(1, .len (utf8 "uatom")), (2, .len (utf8 "12"))]))]))])
      (.staking (.allDelegations ⟨[⟨"bob", "val", ⟨"uatom", ⟨12, by decide⟩⟩⟩]⟩)) ∧
    ∀ x, ¬ SaysReply (.staking (.allDelegations "bob"))
      (encFields [(1, .len (encFields [(1, .len (encFields [(1, .len (utf8 "bob"))]))]))]) x := by
  have hr : RecordedAs (.staking (.allDelegations "bob")) ("/cosmos.staking.v1beta1.Query/DelegatorDelegations", false) :=
    ⟨_, rfl, rfl⟩
  refine ⟨(reads_iff hr _ _).1 (by decide +kernel), fun x h => ?_⟩
  have h := (reads_iff hr _ _).2 h
  have e : responseFromProtobuf "/cosmos.staking.v1beta1.Query/DelegatorDelegations"
    (encFields [(1, .len (encFields [(1, .len (encFields [(1, .len (utf8 "bob"))]))]))]) false =
      .err (.std "Generic error: Parsing u128") := by decide +kernel
  exact absurd (e.symm.trans h) (by simp)

/-- The packet of the scenario, whose two queries were answered. -/
example : ∃ obs, Commits Ex.api Ex.w3 (.relayAck "channel-0" 1 Ex.okAck "relayer") Ex.w4s obs ∧
    readAck Ex.okAck = some (.result Ex.okRes) ∧ callbackOf Ex.w3 = some "cb" ∧ Ex.qs ≠ [] ∧
    readQueryAnswer Ex.okRes = some (77, [Ex.ans1.bytes, [9]]) ∧ SaysReply (.stargate "/z.Q/W" [7]) [9] (.stargate [9] "/z.Q/W") :=
  ⟨_, (apply_iff_step (inv_of_reachable Ex.r3)).2 Ex.s4s, Ex.okAckRead, by simp [callbackOf, Ex.cb3, Ex.st],
    by simp [Ex.qs], Ex.okAnswer, rfl⟩

end Ica
