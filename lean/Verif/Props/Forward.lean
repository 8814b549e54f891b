import Verif.Facts.Forward
import Verif.Props.Queries

/-!
# C98: answers of newer hosts

A host of another version may add fields to its answers or order them differently. The contract reports such answers like
those of the version it was built for.
-/
namespace Ica
open Spec

/-- **C98.** Two answers to a query that say the same are read in the same way, be it as a response or as an error. -/
theorem C98_answers_read_alike {q : QueryRequest} {bs bs' : Bytes} (h : AnswersSame q bs bs') {r : String × Bool}
    (hr : RecordedAs q r) : responseFromProtobuf r.1 bs r.2 = responseFromProtobuf r.1 bs' r.2 := by
  rcases h with rfl | ⟨y, h1, h2⟩
  · rfl
  have hp : r = (y.path, false) := by
    have gen : (∃ x, denotesQuery q = some x ∧ r = (x.path, false)) → r = (y.path, false) := by
      rintro ⟨x, a, b⟩
      rw [a] at h1
      cases h1
      exact b
    cases q with
    | stargate p d => cases h1
    | _ => exact gen hr
  rw [hp]
  exact response_same h2

/-- **C98.** The answers are found in the same way in results that say the same. -/
theorem C98_results_read_alike {res res' : Bytes} (h : BytesSaySame Known.txResult res res') :
    readQueryAnswer res = readQueryAnswer res' := readQueryAnswer_same h

theorem result_same {qs : List QueryRequest} {paths : QueryPaths} (hf : List.Forall₂ RecordedAs qs paths)
    {m m' : P.MsgModuleQuerySafeResponse} (hh : m.height = m'.height) (hl : m.responses.length = m'.responses.length)
    (ha : ∀ (i : Nat) q a a', qs[i]? = some q → m.responses[i]? = some a → m'.responses[i]? = some a' → AnswersSame q a a') :
    resultFromResponse paths m = resultFromResponse paths m' := by
  obtain ⟨ht, l⟩ := m
  obtain ⟨ht', l'⟩ := m'
  dsimp only at hh hl ha
  subst hh
  unfold resultFromResponse
  simp only [hl]
  suffices e : mapRes (fun p => responseFromProtobuf p.1.1 p.2 p.1.2) (paths.zip l) =
      mapRes (fun p => responseFromProtobuf p.1.1 p.2 p.1.2) (paths.zip l') by rw [e]
  clear ht
  induction hf generalizing l l' with
  | nil => rfl
  | @cons q r qs rs hr _ ih =>
    cases l with
    | nil => cases l' with
      | nil => rfl
      | cons => cases hl
    | cons a l =>
      cases l' with
      | nil => cases hl
      | cons a' l' =>
        have h0 := C98_answers_read_alike (ha 0 q a a' rfl rfl rfl) hr
        have h1 := ih l l' (by simpa using hl) fun i q x x' g1 g2 g3 => ha (i + 1) q x x' g1 g2 g3
        simp only [List.zip_cons_cons, mapRes, h0, h1]

/-- **C98, end to end.** If the acknowledgement with one result is processed, so is that with a result saying the same, it
leaves the contract in the same state, and the callback reports the same answers. -/
theorem C98_reported_alike {api : Api} {env : Env} {h : List (Op × List Obs)} {w w' : World}
    (he : Exec api (World.genesis env) h w) {id : String} {n : UInt64} {ack ack' : Bytes} {relayer : String}
    {obs : List Obs} (hc : Commits api w (.relayAck id n ack relayer) w' obs) {res res' : Bytes}
    (hr : readAck ack = some (.result res)) (hr' : readAck ack' = some (.result res'))
    {p : IbcPacket} {qs : List QueryRequest} (hs : Sent h p qs) (hid : p.src.channelId = id) (hn : p.sequence = n)
    (hsame : ResultsSame qs res res') :
    ∃ obs', Commits api w (.relayAck id n ack' relayer) w' obs' ∧ ∀ cb, callbackOf w = some cb →
      ∃ q, CalledBack obs cb (.onAcknowledgementPacketCallback (.result res) p relayer q) ∧
        CalledBack obs' cb (.onAcknowledgementPacketCallback (.result res') p relayer q) := by
  have hv := inv_exec (inv_genesis api env) he
  have hst := step_of_apply hv hc
  cases hst with
  | ackErr _ _ _ _ _ _ _ e _ _ _ _ hres => rw [readAck_eq, hres] at hr; cases hr
  | ackOk _ _ _ _ p' c st res0 q hp hch ho hstt hres hq =>
    rw [readAck_eq, hres] at hr
    injection hr with hr
    injection hr with hr
    subst hr
    obtain ⟨k1, k2, ⟨qs', k3⟩, k4⟩ := (commits_iff he _ _ _).1 hp
    obtain ⟨e1, e2⟩ := sent_unique he _ _ _ _ hs k3 (by rw [hid, k1]) (by rw [hn, k2])
    subst e1
    subst e2
    have hq' : ackQueryResult (w.store.pending id n) res' = .ok q := by
      cases hpe : w.store.pending id n with
      | none => rw [hpe] at hq; cases hq; rfl
      | some paths =>
        obtain ⟨p2, qs2, m1, m2, m3, m4, m5, -⟩ := (pending_iff he _ _ _).1 hpe
        obtain ⟨-, e2⟩ := sent_unique he _ _ _ _ hs m1 (by rw [k1, m2]) (by rw [k2, m3])
        subst e2
        rcases hsame with h0 | ⟨ht, l, l', a1, a2, a3, a4⟩
        · exact absurd h0 m4
        have d1 : decodeModuleQuerySafeRespLast (.result res0) = .ok ⟨ht, l⟩ := decodeLast_eq_ok.2 a1
        have d2 : decodeModuleQuerySafeRespLast (.result res') = .ok ⟨ht, l'⟩ := decodeLast_eq_ok.2 a2
        rw [hpe] at hq
        simp only [ackQueryResult, d1, Res.bind_ok'] at hq
        simp only [ackQueryResult, d2, Res.bind_ok']
        rw [← hq, result_same m5 (m := ⟨ht, l⟩) (m' := ⟨ht, l'⟩) rfl a3 a4]
    have hcm := (apply_iff_step hv).2 (Step.ackOk id n ack' relayer p c st res' q hp hch ho hstt
      (by rw [← readAck_eq]; exact hr') hq')
    refine ⟨_, hcm, fun cb hcb => ⟨q, ?_, ?_⟩⟩
    all_goals
      have hcb' : st.callbackAddress = some cb := by simpa [callbackOf, hstt] using hcb
      rw [hcb']
      exact calledBack_callObs (by simp [callsOf])

/-! ## A newer host -/

namespace Ex

/-- The coin of the scenario's first answer. -/
def coinOld : Fields := coinFields ⟨"uatom", ⟨12, by decide⟩⟩
/-- The coin with the fields in the other order and a field more. -/
def coinNew : Fields := [(2, .len (utf8 (decString 12))), (7, .varint 1), (1, .len (utf8 "uatom"))]
/-- The answer of a newer host: a field more in front of the coin. -/
def ansNew : Bytes := encFields [(9, .len [1, 2, 3]), (1, .len (encFields coinNew))]
/-- The result of the packet with that answer. -/
def newRes : Bytes :=
  P.TxMsgData.toBytes ⟨[], [⟨"/cosmos.bank.v1beta1.MsgSendResponse", []⟩, ⟨"/x.YResponse", []⟩,
    ⟨"/ibc.applications.interchain_accounts.host.v1.MsgModuleQuerySafeResponse",
      P.MsgModuleQuerySafeResponse.toBytes ⟨77, [ansNew, [9]]⟩⟩]⟩

theorem coinsSame : SaysSame Known.coin coinNew coinOld := by
  have h0 : coinOld = [(1, .len (utf8 "uatom")), (2, .len (utf8 (decString 12)))] := by
    have : decString 12 ≠ "" := by decide +kernel
    simp [coinOld, coinFields, vStr, tagged, this]
  rw [h0]
  exact (SaysSame.extra [(2, .len (utf8 (decString 12)))] [(1, .len (utf8 "uatom"))] (.varint 1) rfl).trans
    (SaysSame.order [] [] _ _ (by decide))

theorem answersSame : AnswersSame (.bank (.balance "cosmos1bob" "uatom")) ans1.bytes ansNew := by
  refine .inr ⟨.balance "cosmos1bob" "uatom", rfl, .inr ⟨[(1, .len (encFields coinOld))],
    [(9, .len [1, 2, 3]), (1, .len (encFields coinNew))], ?_, ?_, ?_⟩⟩
  · exact isMessage_encFields (by intro p hp; simp at hp; subst hp; exact ⟨by decide, by decide⟩) (by decide +kernel)
  · exact isMessage_encFields
      (by intro p hp; simp at hp; rcases hp with rfl | rfl <;> exact ⟨by decide, by decide⟩) (by decide +kernel)
  · refine SaysSame.symm ((SaysSame.extra [] _ _ rfl).trans (SaysSame.inner [] [] (m := coinNew) (m' := coinOld) rfl
      (isMessage_encFields ?_ ?_) (isMessage_encFields (valid_coin _) ?_) coinsSame))
    · intro p hp
      simp only [coinNew, List.mem_cons, List.not_mem_nil, or_false] at hp
      rcases hp with rfl | rfl | rfl <;> exact ⟨by decide, by decide⟩
    · decide +kernel
    · decide +kernel

theorem newAnswer : readQueryAnswer newRes = some (77, [ansNew, [9]]) := by
  refine decodeLast_eq_ok (m := ⟨77, [ansNew, [9]]⟩).1 ?_
  simp only [decodeModuleQuerySafeRespLast, toTxMsgData, newRes, P.TxMsgData.ofBytes_toBytes, decodeOr, Res.bind,
    List.getLast?_cons_cons, List.getLast?_singleton, P.MsgModuleQuerySafeResponse.ofBytes_toBytes]

theorem resultsSame : ResultsSame qs okRes newRes := by
  refine .inr ⟨77, _, _, okAnswer, newAnswer, rfl, fun i q a a' h1 h2 h3 => ?_⟩
  match i with
  | 0 => cases h1; cases h2; cases h3; exact answersSame
  | 1 => cases h1; cases h2; cases h3; exact .inl rfl
  | i + 2 => cases h1

end Ex

/-- The newer host's answer differs and is reported as the same twelve atoms. -/
example : Ex.ansNew ≠ Ex.ans1.bytes ∧
    responseFromProtobuf Path.balance Ex.ansNew false = .ok (.bank (.balance ⟨⟨"uatom", ⟨12, by decide⟩⟩⟩)) :=
  ⟨by decide +kernel, (C98_answers_read_alike Ex.answersSame (r := (Path.balance, false)) ⟨_, rfl, rfl⟩).symm.trans
    (response_of_answer (a := Ex.ans1) trivial)⟩

/-- A result with an unknown group in front is read like the one without. -/
example : readQueryAnswer ([0x2b, 0x08, 0x01, 0x2c] ++ Ex.okRes) = some (77, [Ex.ans1.bytes, [9]]) := by
  have one : ∀ (b : UInt8) (n : Nat), b &&& 0x80 = 0 → n = (b &&& 0x7f).toNat → Format.IsVarint n [b] := by
    intro b n h1 h2
    refine ⟨[], b, rfl, by simp, by simp [Format.More, h1], by simp, by simp [Format.payload, h2], ?_⟩
    have := (b &&& 0x7f).toNat_lt
    omega
  have hm := isMessage_encFields (P.TxMsgData.valid ⟨[], [⟨"/cosmos.bank.v1beta1.MsgSendResponse", []⟩, ⟨"/x.YResponse", []⟩,
    ⟨"/ibc.applications.interchain_accounts.host.v1.MsgModuleQuerySafeResponse", Ex.qresp.toBytes⟩]⟩) (by decide +kernel)
  refine (C98_results_read_alike (.inr ⟨_, _, .group (t := 5) (key := [0x2b]) (body := [0x08, 0x01, 0x2c]) (by decide) (by decide)
    ?_ ?_ hm, hm, .extra [] _ _ rfl⟩)).trans Ex.okAnswer
  · exact one 0x2b _ (by decide) rfl
  · exact .record (key := [0x08]) (value := [0x01]) (u := 1) (v := .varint 1) (by decide) (by decide)
      (one 0x08 _ (by decide) rfl) (one 0x01 _ (by decide) rfl) (.done (one 0x2c _ (by decide) rfl))

/-- The scenario's acknowledgement, from the newer host: the callback is told the same. -/
example : ∃ obs', Commits Ex.api Ex.w3 (.relayAck "channel-0" 1 (AckData.jc.toBytes (.result Ex.newRes)) "relayer")
      Ex.w4s obs' ∧
    ∃ q, CalledBack obs' "cb" (.onAcknowledgementPacketCallback (.result Ex.newRes) Ex.pkt "relayer" q) := by
  obtain ⟨obs', h1, h2⟩ := C98_reported_alike Ex.e3 ((apply_iff_step (inv_of_reachable Ex.r3)).2 Ex.s4s) Ex.okAckRead
    (by rw [readAck_eq]; exact JC.ofBytes_toBytes AckData.jc_law _) Ex.sent3 rfl rfl Ex.resultsSame
  obtain ⟨q, -, h3⟩ := h2 "cb" rfl
  exact ⟨obs', h1, q, h3⟩

end Ica
