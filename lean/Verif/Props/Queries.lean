import Verif.Props.Answers

/-!
# Pending queries, query results and acknowledgements (C34-C42)
-/
namespace Ica
open Spec

/-- **C34.** There is a pending-query record at (channel, sequence) exactly if a packet with this channel and sequence
was sent with queries and neither its success acknowledgement nor its timeout has been processed; it holds the paths of
exactly the queries of that packet, in order. -/
theorem C34_pending_records {api : Api} {env : Env} {h : List (Op × List Obs)} {w : World}
    (he : Exec api (World.genesis env) h w) (id : String) (n : UInt64) (paths : QueryPaths) :
    w.store.pending id n = some paths ↔
      ∃ p qs, Sent h p qs ∧ p.src.channelId = id ∧ p.sequence = n ∧ qs ≠ [] ∧ List.Forall₂ RecordedAs qs paths ∧
        ∀ x ∈ h, ¬ Clears id n x.1 := pending_iff he id n paths

/-- The record of the scenario's packet before and after its success acknowledgement. -/
example : Ex.w3.store.pending "channel-0" 1 = some [("/cosmos.bank.v1beta1.Query/Balance", false), ("/z.Q/W", true)] ∧
    Ex.w4s.store.pending "channel-0" 1 = none := ⟨Ex.pending3, by simp [Ex.w4s, Ex.eAckOk, setPending]⟩

/-- **C35 is false.** A packet with queries whose acknowledgement is an error is settled, but its record stays. -/
theorem C35_error_ack_leaks : ¬ ∀ (api : Api) (env : Env) (h : List (Op × List Obs)) (w : World) (id : String)
    (n : UInt64), Exec api (World.genesis env) h w → (∃ x ∈ h, x.1.settles id n = true) →
    w.store.pending id n = none := by
  intro hall
  have h1 := hall Ex.api Ex.env Ex.h4e Ex.w4e "channel-0" 1 Ex.e4e
    ⟨_, List.mem_append_right _ (List.mem_singleton.2 rfl), by decide⟩
  have h2 : Ex.w4e.store.pending "channel-0" 1 = Ex.w3.store.pending "channel-0" 1 := rfl
  rw [h2, Ex.pending3] at h1
  cases h1

/-- **C35**, for success acknowledgements and timeouts: no record remains, then or at any later time. Missing for the
full claim: error acknowledgements (`C35_error_ack_leaks`). -/
theorem C35_settled_clears_partial {api : Api} {env : Env} {h : List (Op × List Obs)} {w : World}
    (he : Exec api (World.genesis env) h w) {id : String} {n : UInt64} (hc : ∃ x ∈ h, Clears id n x.1) :
    w.store.pending id n = none := by
  cases hp : w.store.pending id n with
  | none => rfl
  | some paths =>
    obtain ⟨p, qs, -, -, -, -, -, h6⟩ := (pending_iff he id n paths).1 hp
    obtain ⟨x, hx, hcl⟩ := hc
    exact absurd hcl (h6 x hx)

/-- **C35**, what stays: a record of a settled packet is there only if the packet carried queries and was settled by an
error acknowledgement. -/
theorem C35_only_error_acks_leak_partial {api : Api} {env : Env} {h : List (Op × List Obs)} {w : World}
    (he : Exec api (World.genesis env) h w) {id : String} {n : UInt64} {paths : QueryPaths}
    (hp : w.store.pending id n = some paths) {x : Op × List Obs} (hx : x ∈ h) (hs : x.1.settles id n = true) :
    ∃ ack relayer e, x.1 = .relayAck id n ack relayer ∧ readAck ack = some (.error e) := by
  obtain ⟨p, qs, -, -, -, -, -, h6⟩ := (pending_iff he id n paths).1 hp
  have hn := h6 x hx
  obtain ⟨op, obs⟩ := x
  cases op with
  | relayAck id' n' ack r =>
    simp only [Op.settles, decide_eq_true_eq] at hs
    obtain ⟨rfl, rfl⟩ := hs
    refine ⟨ack, r, ?_⟩
    obtain ⟨l1, l2, hl⟩ := List.append_of_mem hx
    obtain ⟨w1, e1, e2⟩ := he.split l1 _ hl
    obtain ⟨w2, e3, e4⟩ := e2.split [(Op.relayAck id' n' ack r, obs)] l2 rfl
    obtain ⟨w3, e5, e6⟩ := Exec.concat_inv (h := []) e3
    have hinv := inv_exec (inv_exec (inv_genesis api env) e1) e5
    have hst := step_of_apply hinv e6
    cases hst with
    | ackOk _ _ _ _ _ _ _ res _ _ _ _ _ hres => exact absurd ⟨rfl, rfl, res, by rw [readAck_eq]; exact hres⟩ hn
    | ackErr _ _ _ _ _ _ _ e _ _ _ _ hres => exact ⟨e, rfl, by rw [readAck_eq]; exact hres⟩
  | relayTimeout id' n' r =>
    simp only [Op.settles, decide_eq_true_eq] at hs
    exact absurd hs hn
  | _ => cases hs

/-- After the scenario's success acknowledgement the history clears the record. -/
example : ∃ x ∈ Ex.h4s, Clears "channel-0" 1 x.1 :=
  ⟨_, List.mem_append_right _ (List.mem_singleton.2 rfl), rfl, rfl, Ex.okRes, Ex.okAckRead⟩

/-- **C36.** Processing the acknowledgement or the timeout of one packet changes neither the record nor the commitment
of any other packet. -/
theorem C36_others_untouched {api : Api} {w w' : World} {op : Op} {obs : List Obs} (h : Reachable api w)
    (hc : Commits api w op w' obs) {id : String} {n : UInt64} (hs : op.settles id n = true) {id' : String} {n' : UInt64}
    (hne : (id', n') ≠ (id, n)) :
    w'.store.pending id' n' = w.store.pending id' n' ∧ w'.commits id' n' = w.commits id' n' := by
  have hst := step_of_apply (inv_of_reachable h) hc
  have hx : ¬ (id' = id ∧ n' = n) := fun e => hne (by rw [e.1, e.2])
  cases hst with
  | ackOk i m ack r =>
    simp only [Op.settles, decide_eq_true_eq] at hs
    obtain ⟨rfl, rfl⟩ := hs
    simp [setPending, setCommit, hx]
  | ackErr i m ack r =>
    simp only [Op.settles, decide_eq_true_eq] at hs
    obtain ⟨rfl, rfl⟩ := hs
    simp [setCommit, hx]
  | timeout i m r =>
    simp only [Op.settles, decide_eq_true_eq] at hs
    obtain ⟨rfl, rfl⟩ := hs
    simp [setPending, setCommit, hx]
  | _ => cases hs

/-- The scenario's acknowledgement settles its packet. -/
example : ∃ obs, Commits Ex.api Ex.w3 (.relayAck "channel-0" 1 Ex.okAck "relayer") Ex.w4s obs ∧
    (Op.relayAck "channel-0" 1 Ex.okAck "relayer").settles "channel-0" 1 = true :=
  ⟨_, (apply_iff_step (inv_of_reachable Ex.r3)).2 Ex.s4s, by decide⟩

theorem calledBack_callObs {obs : List Obs} {cb : String} {m : CallbackMsg}
    (h : callsOf obs = callsOf (callObs (some cb) m)) : CalledBack obs cb m :=
  ⟨_, h, JC.ofBytes_toBytes ReceiverExecuteMsg.jc_law _⟩

/-- The success acknowledgement of a packet, in terms of the history; used for C37-C39. -/
theorem success_ack {api : Api} {env : Env} {h : List (Op × List Obs)} {w w' : World}
    (he : Exec api (World.genesis env) h w) {id : String} {n : UInt64} {ack : Bytes} {relayer : String} {obs : List Obs}
    (hc : Commits api w (.relayAck id n ack relayer) w' obs) {res : Bytes} (hr : readAck ack = some (.result res))
    {p : IbcPacket} {qs : List QueryRequest} (hs : Sent h p qs) (hid : p.src.channelId = id) (hn : p.sequence = n)
    {cb : String} (hcb : callbackOf w = some cb) :
    ∃ q, CalledBack obs cb (.onAcknowledgementPacketCallback (.result res) p relayer q) ∧
      ((qs = [] ∧ q = none) ∨ (qs ≠ [] ∧ ∃ paths m r, List.Forall₂ RecordedAs qs paths ∧
        readQueryAnswer res = some (m.height, m.responses) ∧ resultFromResponse paths m = .ok r ∧ q = some r)) := by
  have hv := inv_exec (inv_genesis api env) he
  have hst := step_of_apply hv hc
  cases hst with
  | ackErr _ _ _ _ _ _ _ e _ _ _ _ hres => rw [readAck_eq, hres] at hr; cases hr
  | ackOk _ _ _ _ p' c st res' q hp hch ho hstt hres hq =>
    rw [readAck_eq, hres] at hr
    injection hr with hr
    injection hr with hr
    subst hr
    obtain ⟨k1, k2, ⟨qs', k3⟩, k4⟩ := (commits_iff he _ _ _).1 hp
    obtain ⟨e1, e2⟩ := sent_unique he _ _ _ _ hs k3 (by rw [hid, k1]) (by rw [hn, k2])
    subst e1
    subst e2
    have hcb' : st.callbackAddress = some cb := by simpa [callbackOf, hstt] using hcb
    refine ⟨q, calledBack_callObs (by simp [hcb', callsOf]), ?_⟩
    have hnc : ∀ x ∈ h, ¬ Clears id n x.1 := by
      intro x hx hcl
      have := k4 x hx
      rw [clears_settles hcl] at this
      cases this
    by_cases hqs : qs = []
    · left
      refine ⟨hqs, ?_⟩
      cases hpe : w.store.pending id n with
      | none => rw [hpe] at hq; simp only [ackQueryResult] at hq; injection hq with hq; exact hq.symm
      | some paths =>
        obtain ⟨p2, qs2, m1, m2, m3, m4, -, -⟩ := (pending_iff he _ _ _).1 hpe
        obtain ⟨-, e2⟩ := sent_unique he _ _ _ _ hs m1 (by rw [hid, m2]) (by rw [hn, m3])
        exact absurd (e2.symm.trans hqs) m4
    · right
      refine ⟨hqs, ?_⟩
      cases hpe : w.store.pending id n with
      | none =>
        exfalso
        have hex : ∃ paths, List.Forall₂ RecordedAs qs paths := by
          obtain ⟨sender, ms, memo, t, fresh, core, hm⟩ := hs
          obtain ⟨l1, l2, hl⟩ := List.append_of_mem hm
          obtain ⟨w1, f1, f2⟩ := he.split l1 _ hl
          obtain ⟨w2, f3, f4⟩ := f2.split [(_, _)] l2 rfl
          obtain ⟨w3, f5, f6⟩ := Exec.concat_inv (h := []) f3
          obtain ⟨_, _, _, _, g3⟩ := C33_record_exact (w := w3) ⟨env, _, f1.append f5⟩ f6
          obtain ⟨paths, _, g⟩ := g3 hqs
          exact ⟨paths, g⟩
        obtain ⟨paths, hf⟩ := hex
        have := (pending_iff he id n paths).2 ⟨p, qs, hs, hid, hn, hqs, hf, hnc⟩
        rw [hpe] at this
        cases this
      | some paths =>
        obtain ⟨p2, qs2, m1, m2, m3, m4, m5, -⟩ := (pending_iff he _ _ _).1 hpe
        obtain ⟨-, e2⟩ := sent_unique he _ _ _ _ hs m1 (by rw [hid, m2]) (by rw [hn, m3])
        subst e2
        rw [hpe] at hq
        obtain ⟨m, hm, hq⟩ := Res.bind_eq_ok.1 hq
        obtain ⟨r, hr, hq⟩ := Res.bind_eq_ok.1 hq
        injection hq with hq
        exact ⟨paths, m, r, m5, decodeLast_eq_ok.1 hm, hr, hq.symm⟩

/-- **C37 is false.** The error acknowledgement of a packet without queries is reported with a query result. -/
theorem C37_error_ack_reports : ¬ ∀ (api : Api) (env : Env) (h : List (Op × List Obs)) (w w' : World) (id : String)
    (n : UInt64) (ack : Bytes) (relayer : String) (obs : List Obs) (p : IbcPacket) (qs : List QueryRequest)
    (cb : String) (a : AckData) (q : Option IcaQueryResult),
    Exec api (World.genesis env) h w → Commits api w (.relayAck id n ack relayer) w' obs → Sent h p qs →
    p.src.channelId = id → p.sequence = n → CalledBack obs cb (.onAcknowledgementPacketCallback a p relayer q) →
    (q.isSome ↔ qs ≠ []) := by
  intro hall
  have := hall Ex.api Ex.env Ex.hn3 Ex.n3 Ex.n4 "channel-0" 1 Ex.errAck "relayer" _ Ex.pktN [] "cb" (.error "out of gas")
    (some (.error "out of gas")) Ex.en3 ((apply_iff_step (inv_of_reachable Ex.rn3)).2 Ex.sn4) Ex.sentN rfl rfl
    (calledBack_callObs (by simp [callsOf]))
  simp at this

/-- **C37**, for success acknowledgements: the callback carries a query result exactly if the packet carried queries.
Missing for the full claim: error acknowledgements, whose callback always carries one (`C37_error_ack_reports`,
`C37_error_partial`). -/
theorem C37_success_partial {api : Api} {env : Env} {h : List (Op × List Obs)} {w w' : World}
    (he : Exec api (World.genesis env) h w) {id : String} {n : UInt64} {ack : Bytes} {relayer : String} {obs : List Obs}
    (hc : Commits api w (.relayAck id n ack relayer) w' obs) {res : Bytes} (hr : readAck ack = some (.result res))
    {cb : String} (hcb : callbackOf w = some cb) :
    ∃ p qs q, Sent h p qs ∧ p.src.channelId = id ∧ p.sequence = n ∧
      CalledBack obs cb (.onAcknowledgementPacketCallback (.result res) p relayer q) ∧ (q.isSome ↔ qs ≠ []) := by
  have hst := step_of_apply (inv_exec (inv_genesis api env) he) hc
  have hcm : ∃ p, w.commits id n = some p := by
    cases hst with
    | ackOk _ _ _ _ p _ _ _ _ hp => exact ⟨p, hp⟩
    | ackErr _ _ _ _ p _ _ _ hp => exact ⟨p, hp⟩
  obtain ⟨p, hp⟩ := hcm
  obtain ⟨k1, k2, ⟨qs, k3⟩, -⟩ := (commits_iff he _ _ _).1 hp
  obtain ⟨q, h1, h2⟩ := success_ack he hc hr k3 k1 k2 hcb
  refine ⟨p, qs, q, k3, k1, k2, h1, ?_⟩
  rcases h2 with ⟨a, b⟩ | ⟨a, _, _, r, _, _, _, b⟩
  · simp [a, b]
  · simp [a, b]

/-- **C37**, for error acknowledgements: the callback carries the error, and as query result the same error, whether or
not the packet carried queries. -/
theorem C37_error_partial {api : Api} {env : Env} {h : List (Op × List Obs)} {w w' : World}
    (he : Exec api (World.genesis env) h w) {id : String} {n : UInt64} {ack : Bytes} {relayer : String} {obs : List Obs}
    (hc : Commits api w (.relayAck id n ack relayer) w' obs) {e : String} (hr : readAck ack = some (.error e))
    {cb : String} (hcb : callbackOf w = some cb) :
    ∃ p qs, Sent h p qs ∧ p.src.channelId = id ∧ p.sequence = n ∧
      CalledBack obs cb (.onAcknowledgementPacketCallback (.error e) p relayer (some (.error e))) := by
  have hst := step_of_apply (inv_exec (inv_genesis api env) he) hc
  cases hst with
  | ackOk _ _ _ _ _ _ _ res _ _ _ _ _ hres => rw [readAck_eq, hres] at hr; cases hr
  | ackErr _ _ _ _ p _ st e' hp _ _ hstt hres =>
    rw [readAck_eq, hres] at hr
    injection hr with hr
    injection hr with hr
    subst hr
    obtain ⟨k1, k2, ⟨qs, k3⟩, -⟩ := (commits_iff he _ _ _).1 hp
    have hcb' : st.callbackAddress = some cb := by simpa [callbackOf, hstt] using hcb
    exact ⟨p, qs, k3, k1, k2, calledBack_callObs (by simp [hcb', callsOf])⟩

/-- The scenario's success acknowledgement meets the hypotheses. -/
example : ∃ obs, Commits Ex.api Ex.w3 (.relayAck "channel-0" 1 Ex.okAck "relayer") Ex.w4s obs ∧
    readAck Ex.okAck = some (.result Ex.okRes) ∧ callbackOf Ex.w3 = some "cb" ∧
    CalledBack obs "cb" (.onAcknowledgementPacketCallback (.result Ex.okRes) Ex.pkt "relayer" (some Ex.okResult)) :=
  ⟨_, (apply_iff_step (inv_of_reachable Ex.r3)).2 Ex.s4s, Ex.okAckRead, by simp [callbackOf, Ex.cb3, Ex.st],
    calledBack_callObs (by simp [callsOf])⟩

/-- The contract decodes the answer `bs` to a query recorded as `r` into the response `x`. -/
abbrev DecodesTo (rb : (String × Bool) × Bytes) (x : IcaQueryResponse) : Prop :=
  responseFromProtobuf rb.1.1 rb.2 rb.1.2 = .ok x

theorem response_no_panic (path : String) (bs : Bytes) (raw : Bool) (e : String) :
    responseFromProtobuf path bs raw ≠ .panic e := by
  have hmap : ∀ {α β : Type} (f : α → Res β) (l : List α), (∀ x e, f x ≠ .panic e) → ∀ e, mapRes f l ≠ .panic e := by
    intro α β f l hf
    induction l with
    | nil => intro e h; cases h
    | cons x l ih =>
      intro e h
      simp only [mapRes] at h
      cases hx : f x with
      | ok y =>
        rw [hx] at h
        simp only [Res.bind_ok] at h
        cases hl : mapRes f l with
        | ok ys => rw [hl] at h; cases h
        | err e' => rw [hl] at h; cases h
        | panic e' => exact ih e' hl
      | err e' => rw [hx] at h; cases h
      | panic e' => exact hf x e' hx
  have hcoin : ∀ c e, convertToCoin c ≠ .panic e := by
    intro c e h; unfold convertToCoin at h; split at h <;> cases h
  have hdec : ∀ s e, decimalOr s ≠ .panic e := by
    intro c e h; unfold decimalOr at h; split at h <;> cases h
  have hbind : ∀ {α β : Type} (x : Res α) (f : α → Res β), (∀ e, x ≠ .panic e) → (∀ a e, f a ≠ .panic e) →
      ∀ e, x.bind f ≠ .panic e := by
    intro α β x f hx hf e h
    cases x with
    | ok a => exact hf a e h
    | err e' => cases h
    | panic e' => exact hx e' rfl
  have hor : ∀ {α : Type} (o : Option α) e, decodeOr o ≠ .panic e := by
    intro α o e h; unfold decodeOr at h; split at h <;> cases h
  have hok : ∀ {α : Type} (a : α) e, Res.ok a ≠ .panic e := by intro α a e h; cases h
  have hval : ∀ v e, convertToValidator v ≠ .panic e := by
    intro v
    exact hbind _ _ (hdec _) fun _ => hbind _ _ (hdec _) fun _ => hbind _ _ (hdec _) fun _ => hok _
  have hdel : ∀ b d e, convertToDelegation b d ≠ .panic e := fun b d =>
    hbind _ _ (hcoin _) fun _ => hok _
  have hcol : ∀ ds e, collectDelegations ds ≠ .panic e := by
    intro ds
    induction ds with
    | nil => exact hok _
    | cons d ds ih =>
      rw [collectDelegations]
      split
      · exact ih
      · exact hbind _ _ (hdel _ _) fun _ => hbind _ _ ih fun _ => hok _
  have hcd : ∀ o e, coinOrDefault o ≠ .panic e := by
    intro o; unfold coinOrDefault; split
    · exact hok _
    · exact hcoin _
  have hopt : ∀ {α β : Type} (o : Option α) (f : α → Res β), (∀ x e, f x ≠ .panic e) → ∀ e, optRes o f ≠ .panic e := by
    intro α β o f hf
    unfold optRes
    split
    · exact hok _
    · exact hbind _ _ (hf _) fun _ => hok _
  unfold responseFromProtobuf
  split
  · exact hok _ e
  split
  · unfold bankResponse
    split
    · exact hbind _ _ (hor _) (fun _ => hbind _ _ (hcd _) fun _ => hok _) e
    split
    · exact hbind _ _ (hor _) (fun _ => hbind _ _ (hmap _ _ hcoin) fun _ => hok _) e
    split
    · exact hbind _ _ (hor _) (fun _ => hok _) e
    split
    · exact hbind _ _ (hor _) (fun _ => hok _) e
    split
    · exact hbind _ _ (hor _) (fun _ => hbind _ _ (hcd _) fun _ => hok _) e
    · intro h; cases h
  split
  · unfold wasmResponse
    split
    · exact hbind _ _ (hor _) (fun _ => hok _) e
    split
    · exact hbind _ _ (hor _) (fun _ => hok _) e
    split
    · exact hbind _ _ (hor _) (fun _ => hok _) e
    · intro h; cases h
  split
  · unfold stakingResponse
    split
    · exact hbind _ _ (hor _) (fun _ => hbind _ _ (hopt _ _ hval) fun _ => hok _) e
    split
    · exact hbind _ _ (hor _) (fun _ => hbind _ _ (hmap _ _ hval) fun _ => hok _) e
    split
    · exact hbind _ _ (hor _) (fun _ => hbind _ _ (hopt _ _ (fun _ => hdel _ _)) fun _ => hok _) e
    split
    · exact hbind _ _ (hor _) (fun _ => hbind _ _ (hcol _) fun _ => hok _) e
    split
    · refine hbind _ _ (hor _) (fun r => ?_) e
      split
      · intro e h; cases h
      · exact hok _
    · intro h; cases h
  · intro h; cases h

/-- The result made from the answers: `Success` with the height and one response per query, decoded position by position,
if there are as many answers as queries and all decode; otherwise an `Error`. -/
theorem result_iff {paths : QueryPaths} {m : P.MsgModuleQuerySafeResponse} {r : IcaQueryResult}
    (h : resultFromResponse paths m = .ok r) :
    (∀ rs, r = .success m.height rs ↔
      m.responses.length = paths.length ∧ List.Forall₂ DecodesTo (paths.zip m.responses) rs) ∧
    ((∃ rs, r = .success m.height rs) ∨ ∃ e, r = .error e) := by
  unfold resultFromResponse at h
  split at h
  · rename_i hl
    injection h with h
    subst h
    refine ⟨fun rs => ⟨fun hh => (by cases hh), fun hh => absurd hh.1.symm hl⟩, .inr ⟨_, rfl⟩⟩
  · rename_i hl
    have hl : paths.length = m.responses.length := Classical.not_not.1 hl
    split at h
    · rename_i rs hrs
      injection h with h
      subst h
      refine ⟨fun rs' => ?_, .inl ⟨rs, rfl⟩⟩
      rw [mapRes_eq_ok] at hrs
      constructor
      · intro hh; injection hh with _ hh; subst hh; exact ⟨hl.symm, hrs⟩
      · rintro ⟨-, hh⟩
        have : rs = rs' := forall₂_unique (R := DecodesTo)
          (fun a b b' h1 h2 => by rw [DecodesTo, h1] at h2; injection h2) hrs hh
        rw [this]
    · rename_i e he
      injection h with h
      subst h
      refine ⟨fun rs => ⟨fun hh => (by cases hh), ?_⟩, .inr ⟨_, rfl⟩⟩
      rintro ⟨-, hh⟩
      have := mapRes_eq_ok.2 hh
      rw [he] at this
      cases this
    · cases h

/-- **C38.** A processed success acknowledgement of a packet with queries has its answers in the last message response,
and the callback carries either `Success` with the host's height and exactly one response per query, the i-th decoded
from the i-th answer according to what was recorded for the i-th query, or an `Error`; the former exactly when there are
as many answers as queries and all of them decode. -/
theorem C38_positional {api : Api} {env : Env} {h : List (Op × List Obs)} {w w' : World}
    (he : Exec api (World.genesis env) h w) {id : String} {n : UInt64} {ack : Bytes} {relayer : String} {obs : List Obs}
    (hc : Commits api w (.relayAck id n ack relayer) w' obs) {res : Bytes} (hr : readAck ack = some (.result res))
    {p : IbcPacket} {qs : List QueryRequest} (hs : Sent h p qs) (hid : p.src.channelId = id) (hn : p.sequence = n)
    (hq : qs ≠ []) {cb : String} (hcb : callbackOf w = some cb) :
    ∃ height answers r recorded, readQueryAnswer res = some (height, answers) ∧
      List.Forall₂ RecordedAs qs recorded ∧
      CalledBack obs cb (.onAcknowledgementPacketCallback (.result res) p relayer (some r)) ∧
      (∀ rs, r = .success height rs ↔
        answers.length = qs.length ∧ List.Forall₂ DecodesTo (recorded.zip answers) rs) ∧
      (∀ rs, r = .success height rs → rs.length = qs.length) ∧
      ((∃ rs, r = .success height rs) ∨ ∃ e, r = .error e) := by
  obtain ⟨q, h1, h2⟩ := success_ack he hc hr hs hid hn hcb
  rcases h2 with ⟨a, _⟩ | ⟨_, paths, m, r, m1, m2, m3, rfl⟩
  · exact absurd a hq
  · obtain ⟨k1, k2⟩ := result_iff m3
    have hl : qs.length = paths.length := m1.length_eq
    refine ⟨m.height, m.responses, r, paths, m2, m1, h1, ?_, ?_, k2⟩
    · intro rs; rw [k1 rs, hl]
    · intro rs hrs
      obtain ⟨a, b⟩ := (k1 rs).1 hrs
      rw [← b.length_eq, List.length_zip, a, Nat.min_self, hl]

/-- **C39.** The answer to a query of any supported kind (validators apart, see C40) is decoded to exactly the value the
host encoded. -/
theorem C39_answer_decoded {a : HostAnswer} (h : a.Wf) {q : QueryRequest} {x : HostQuery}
    (hq : denotesQuery q = some x) (hp : a.path = x.path) {r : String × Bool} (hr : RecordedAs q r) :
    DecodesTo (r, a.bytes) a.reported := by
  have hrec : RecordedAs q (x.path, false) := by
    cases q with
    | stargate p d => cases hq
    | _ => exact ⟨x, hq, rfl⟩
  rw [recordedAs_unique hr hrec, ← hp]
  exact response_of_answer h

theorem decodesTo_of_answered {q : QueryRequest} {bs : Bytes} {x : IcaQueryResponse} {r : String × Bool}
    (hr : RecordedAs q r) (h : Answered q bs x) : DecodesTo (r, bs) x := by
  have gen : ∀ o : Option HostQuery, denotesQuery q = o →
      (∃ (y : HostQuery) (a : HostAnswer), o = some y ∧ a.path = y.path ∧ a.Wf ∧ bs = a.bytes ∧ x = a.reported) →
      DecodesTo (r, bs) x := by
    rintro o ho ⟨y, a, h1, h2, h3, rfl, rfl⟩
    exact C39_answer_decoded h3 (ho.trans h1) h2 hr
  cases q with
  | stargate p d => rw [show r = (p, true) from hr, show x = _ from h]; rfl
  | _ => exact gen _ rfl h

/-- **C39, end to end.** If the host answered every query of the packet, the callback reports exactly those answers, in
order: the values the host encoded, and for stargate queries the bytes. -/
theorem C39_reported {api : Api} {env : Env} {h : List (Op × List Obs)} {w w' : World}
    (he : Exec api (World.genesis env) h w) {id : String} {n : UInt64} {ack : Bytes} {relayer : String} {obs : List Obs}
    (hc : Commits api w (.relayAck id n ack relayer) w' obs) {res : Bytes} (hr : readAck ack = some (.result res))
    {p : IbcPacket} {qs : List QueryRequest} (hs : Sent h p qs) (hid : p.src.channelId = id) (hn : p.sequence = n)
    (hq : qs ≠ []) {cb : String} (hcb : callbackOf w = some cb) {height : UInt64}
    {l : List (Bytes × IcaQueryResponse)} (ha : readQueryAnswer res = some (height, l.map (·.1)))
    (hl : List.Forall₂ (fun q x => Answered q x.1 x.2) qs l) :
    CalledBack obs cb
      (.onAcknowledgementPacketCallback (.result res) p relayer (some (.success height (l.map (·.2))))) := by
  obtain ⟨ht, answers, r, recorded, k1, k2, k3, k4, -, -⟩ := C38_positional he hc hr hs hid hn hq hcb
  rw [ha] at k1
  injection k1 with k1
  injection k1 with k1 k1'
  subst k1
  subst k1'
  have : r = .success height (l.map (·.2)) := by
    rw [k4]
    refine ⟨by rw [List.length_map, hl.length_eq], ?_⟩
    clear k4 ha hc hs hq he
    induction k2 generalizing l with
    | nil => cases hl; exact .nil
    | cons a _ ih =>
      cases hl with
      | cons b t => exact .cons (decodesTo_of_answered a b) (ih t)
  rw [this] at k3
  exact k3

/-- The answers of the scenario meet the hypotheses. -/
example : List.Forall₂ (fun q x => Answered q x.1 x.2) Ex.qs
    [(Ex.ans1.bytes, .bank (.balance ⟨⟨"uatom", ⟨12, by decide⟩⟩⟩)), ([9], .stargate [9] "/z.Q/W")] ∧
    readQueryAnswer Ex.okRes = some (77, [Ex.ans1.bytes, [9]]) :=
  ⟨.cons ⟨.balance "cosmos1bob" "uatom", Ex.ans1, rfl, rfl, trivial, rfl, rfl⟩ (.cons rfl .nil), Ex.okAnswer⟩

/-! ## Validators -/

theorem parseDecimal_whole {n : Nat} (h : n * 1000000000000000000 < u128Bound) :
    parseDecimal (decString n) = some ⟨⟨n * 1000000000000000000, h⟩⟩ := by
  have hn : n < u128Bound := by omega
  have hnd : ∀ c ∈ decChars n, c ≠ '.' := fun c hc => isDigit_ne_dot (decChars_all_digit n c hc)
  unfold parseDecimal parseDecimalChars decString
  rw [String.toList_ofList, splitDots_nodot hnd]
  simp only [parseU128Chars_decChars hn, decimalFractional, U128.ofNat?_of_lt h, Option.map_some]

theorem decString_ne (n : Nat) : decString n ≠ "" := by
  intro h
  have : (decString n).toList = [] := by rw [h]; rfl
  rw [decString, String.toList_ofList] at this
  exact decChars_ne_nil n this

/-- The protobuf description. -/
def pdesc (d : HostDescription) : P.Description := ⟨d.moniker, d.identity, d.website, d.securityContact, d.details⟩
theorem dOpt_desc (o : Option HostDescription) :
    dOpt P.Description.dec (vMsg (o.map HostDescription.fields)) = some (o.map pdesc) := by
  cases o with
  | none => simp [vMsg, dOpt, dMsg, dMsgs]
  | some p => exact dOpt_some (P.Description.valid (pdesc p)) (P.Description.dec_enc (pdesc p))
/-- The protobuf commission. -/
def pcomm (v : HostValidator) : P.Commission :=
  ⟨some ⟨decString v.rate, decString v.maxRate, decString v.maxChangeRate⟩, v.updateTime.map pt⟩
/-- The protobuf validator. -/
def pval (v : HostValidator) : P.Validator :=
  ⟨v.operator, v.pubkey.map pa, v.jailed, v.status, v.tokens, v.shares, v.description.map pdesc, v.unbondingHeight,
    v.unbondingTime.map pt, some (pcomm v), v.minSelfDelegation, v.onHold, v.unbondingIds⟩

theorem valid_commission {v : HostValidator} (h : v.Wf) : Valid v.commission := by
  simp only [HostValidator.commission, valid_append]
  exact ⟨⟨valid_tagged (okTag _ (by decide)) _, valid_tagged (okTag _ (by decide)) _⟩, h.2.1⟩

theorem dec_commission {v : HostValidator} (h : v.Wf) : P.Commission.dec v.commission = some (pcomm v) := by
  have h1 := dOpt_some (P.CommissionRates.valid ⟨decString v.rate, decString v.maxRate, decString v.maxChangeRate⟩)
    (P.CommissionRates.dec_enc _)
  unfold P.CommissionRates.enc at h1
  simp only [List.append_assoc] at h1
  simp [P.Commission.dec, HostValidator.commission, sel_tagged_ne, sel_extra h.2, dOpt_time, pcomm, h1]

theorem valid_validator {v : HostValidator} (h : v.Wf) : Valid v.fields := by
  simp only [HostValidator.fields, valid_append]
  refine ⟨⟨⟨⟨⟨⟨⟨⟨⟨⟨⟨⟨⟨?_, ?_⟩, ?_⟩, ?_⟩, ?_⟩, ?_⟩, ?_⟩, ?_⟩, ?_⟩, ?_⟩, ?_⟩, ?_⟩, ?_⟩, h.1.1⟩
  all_goals exact valid_tagged (okTag _ (by decide)) _

theorem dec_validator {v : HostValidator} (h : v.Wf) : P.Validator.dec v.fields = some (pval v) := by
  simp [P.Validator.dec, HostValidator.fields, sel_tagged_ne, sel_extra h.1, dOpt_time, dOpt_any, dOpt_desc,
    dOpt_some (valid_commission h) (dec_commission h), pval]

/-- A validator as the contract reports it when the host's rates are `10^-18` units: a factor `10^18` too large. -/
theorem convert_validator {v : HostValidator} (ha : v.rate * 1000000000000000000 < u128Bound)
    (hb : v.maxRate * 1000000000000000000 < u128Bound) (hc : v.maxChangeRate * 1000000000000000000 < u128Bound) :
    convertToValidator (pval v) = .ok ⟨v.operator, ⟨⟨_, ha⟩⟩, ⟨⟨_, hb⟩⟩, ⟨⟨_, hc⟩⟩⟩ := by
  simp [convertToValidator, decimalOr, parseDecimal_whole ha, parseDecimal_whole hb, parseDecimal_whole hc, Res.bind, pval,
    pcomm]

theorem rate_bound {n : Nat} (h : n ≤ 10 ^ 18) : n * 1000000000000000000 < u128Bound := by
  have : n * 1000000000000000000 ≤ 10 ^ 18 * 1000000000000000000 := Nat.mul_le_mul_right _ h
  unfold u128Bound
  omega

theorem convert_scaled {v : HostValidator} (h : RatesOk v) : ∃ r, convertToValidator (pval v) = .ok r ∧
      ScaledRates v r := by
  obtain ⟨h0, h1, h2, h3⟩ := h
  exact ⟨_, convert_validator (rate_bound h1) (rate_bound h2) (rate_bound h3), rfl, by simp, by simp, by simp⟩

/-- **C40**, what holds: every validator (any number of them, any rates up to one) comes back with its address and in
order, but with every rate `10^18` times too large; so a rate is right exactly if it is zero. Missing: the true value
(`C40_wrong_rates`). -/
theorem C40_validator_scaled_partial {v : HostValidator} (h : RatesOk v) :
    ∃ r, responseFromProtobuf "/cosmos.staking.v1beta1.Query/Validator" (validatorAnswer v) false =
      .ok (.staking (.validator ⟨some r⟩)) ∧ ScaledRates v r := by
  obtain ⟨r, h1, h2⟩ := convert_scaled h
  refine ⟨r, ?_, h2⟩
  have hp : parseWire (validatorAnswer v) = some _ := parseWire_encFields (valid_tagged (okTag _ (by decide)) _)
  have hd := dOpt_some (valid_validator h.1) (dec_validator h.1)
  have : P.QueryValidatorResponse.ofBytes (validatorAnswer v) = some ⟨some (pval v)⟩ := by
    unfold P.QueryValidatorResponse.ofBytes
    rw [hp]
    simp [P.QueryValidatorResponse.dec, hd]
  refine (dispatch_validator _).trans ?_
  simp [stakingResponse, this, decodeOr, Res.bind, optRes, h1]

/-- **C40**, for lists of validators. -/
theorem C40_validators_scaled_partial {vs : List HostValidator} {page : Option HostPageInfo}
    (h : ∀ v ∈ vs, RatesOk v) :
    ∃ rs, responseFromProtobuf "/cosmos.staking.v1beta1.Query/Validators" (validatorsAnswer vs page) false =
      .ok (.staking (.allValidators ⟨rs⟩)) ∧ List.Forall₂ ScaledRates vs rs := by
  have hp : parseWire (validatorsAnswer vs page) = some _ := parseWire_encFields (by
    rw [valid_append]; exact ⟨valid_tagged (okTag _ (by decide)) _, valid_tagged (okTag _ (by decide)) _⟩)
  have hm : dMsgs (vMsgs (vs.map HostValidator.fields)) = some (vs.map HostValidator.fields) := dMsgs_vMsgs (by
    intro fs hfs
    simp only [List.mem_map] at hfs
    obtain ⟨v, hv, rfl⟩ := hfs
    exact valid_validator (h v hv).1)
  have hd : decAll P.Validator.dec (vs.map HostValidator.fields) = some (vs.map pval) := by
    clear hp hm
    induction vs with
    | nil => rfl
    | cons v vs ih =>
      simp only [List.map_cons, decAll, dec_validator (h v (by simp)).1, ih (fun x hx => h x (by simp [hx]))]
  have hr : ∃ rs, mapRes convertToValidator (vs.map pval) = .ok rs ∧
      List.Forall₂ ScaledRates vs rs := by
    clear hp hm hd
    induction vs with
    | nil => exact ⟨[], rfl, .nil⟩
    | cons v vs ih =>
      obtain ⟨rs, a, b⟩ := ih (fun x hx => h x (by simp [hx]))
      obtain ⟨r, c, d⟩ := convert_scaled (h v (by simp))
      exact ⟨r :: rs, by simp [mapRes, a, c], .cons d b⟩
  obtain ⟨rs, a, b⟩ := hr
  have : P.QueryValidatorsResponse.ofBytes (validatorsAnswer vs page) = some ⟨vs.map pval,
      page.map fun p => ⟨p.1, p.2⟩⟩ := by
    unfold P.QueryValidatorsResponse.ofBytes
    rw [hp]
    simp [P.QueryValidatorsResponse.dec, sel_tagged_ne, dAll, hm, hd, dOpt_page]
  refine ⟨rs, ?_, b⟩
  refine (dispatch_allValidators _).trans ?_
  simp only [stakingResponse]
  rw [if_neg (by decide +kernel), if_pos trivial]
  simp [this, decodeOr, Res.bind, a]

/-- A bonded validator with a commission of 10%. -/
def Ex.validator (rest : Fields) : HostValidator :=
  ⟨"cosmosvaloper1x", some ("/cosmos.crypto.ed25519.PubKey", [10, 1, 7]), false, 3, "1000000", "1000000000000000000000000",
    some ⟨"me", "", "https://x", "", ""⟩, 0, some (0, 0), 10 ^ 17, 2 * 10 ^ 17, 10 ^ 16, some (1700000000, 5), "1", 0,
    [4, 300], rest, []⟩

/-- **C40 is false**: a validator with a commission of 10% (as the host encodes it) is reported with a commission of
`10^17`, that is 10^19 percent. -/
theorem C40_wrong_rates : ¬ ∀ (v : HostValidator) (r : Validator), RatesOk v →
    responseFromProtobuf "/cosmos.staking.v1beta1.Query/Validator" (validatorAnswer v) false =
      .ok (.staking (.validator ⟨some r⟩)) → TrueRates v r := by
  intro hall
  let v : HostValidator := Ex.validator []
  have hv : RatesOk v := by
    refine ⟨⟨⟨by simp [v, Ex.validator], by simp [v, Ex.validator]⟩, ⟨by simp [v, Ex.validator], by simp [v, Ex.validator]⟩⟩,
      ?_, ?_, ?_⟩ <;> decide
  obtain ⟨r, h1, h2⟩ := C40_validator_scaled_partial hv
  have h3 := hall v r hv h1
  have := h2.2.1.symm.trans h3.2.1
  revert this
  decide

/-- A validator with a commission of 10% meets the hypotheses. -/
example : RatesOk (Ex.validator [(30, .varint 1)]) :=
  ⟨⟨⟨by intro p hp; simp [Ex.validator] at hp; subst hp; exact okTag 30 (by decide), by simp [Ex.validator]⟩,
    ⟨by simp [Ex.validator], by simp [Ex.validator]⟩⟩,
    by decide, by decide, by decide⟩

/-! ## Kinds -/

/-- A successful decoding is of the kind of the decoder, and a decoder never complains about its own path. -/
theorem bind_kind {α : Type} {o : Option α} {f : α → Res IcaQueryResponse} {K : IcaQueryResponse → Prop}
    (h : ∀ a, (∀ s, f a ≠ .err (.unknownDataType s)) ∧ ∀ r, f a = .ok r → K r) :
    (∀ s, (decodeOr o).bind f ≠ .err (.unknownDataType s)) ∧ ∀ r, (decodeOr o).bind f = .ok r → K r := by
  cases o with
  | none => exact ⟨fun s h => (by cases h), fun r h => (by cases h)⟩
  | some a => exact h a

theorem kind_ok {x : IcaQueryResponse} {K : IcaQueryResponse → Prop} (h : K x) :
    (∀ s, (Res.ok x : Res IcaQueryResponse) ≠ .err (.unknownDataType s)) ∧
      ∀ r, (Res.ok x : Res IcaQueryResponse) = .ok r → K r :=
  ⟨fun s h => (by cases h), fun r hr => by injection hr with hr; rw [← hr]; exact h⟩

theorem kind_bind {α : Type} {x : Res α} {f : α → Res IcaQueryResponse} {K : IcaQueryResponse → Prop}
    (hx : ∀ s, x ≠ .err (.unknownDataType s))
    (h : ∀ a, (∀ s, f a ≠ .err (.unknownDataType s)) ∧ ∀ r, f a = .ok r → K r) :
    (∀ s, x.bind f ≠ .err (.unknownDataType s)) ∧ ∀ r, x.bind f = .ok r → K r := by
  cases x with
  | ok a => exact h a
  | err e => exact ⟨fun s h => (by simp only [Res.bind] at h; injection h with h; exact hx s (by rw [h])),
      fun r h => (by cases h)⟩
  | panic e => exact ⟨fun s h => (by cases h), fun r h => (by cases h)⟩

/-- Results that never are "unknown data type". -/
def Knows {α : Type} (x : Res α) : Prop := ∀ s, x ≠ .err (.unknownDataType s)

theorem knows_ok {α : Type} (a : α) : Knows (.ok a) := fun s h => by cases h
theorem knows_bind {α β : Type} {x : Res α} {f : α → Res β} (hx : Knows x) (hf : ∀ a, Knows (f a)) : Knows (x.bind f) := by
  cases x with
  | ok a => exact hf a
  | err e => intro s h; simp only [Res.bind] at h; injection h with h; exact hx s (by rw [h])
  | panic e => intro s h; cases h
theorem knows_mapRes {α β : Type} {f : α → Res β} (hf : ∀ a, Knows (f a)) (l : List α) : Knows (mapRes f l) := by
  induction l with
  | nil => exact knows_ok _
  | cons x l ih => exact knows_bind (hf x) fun _ => knows_bind ih fun _ => knows_ok _
theorem knows_coin (c : P.Coin) : Knows (convertToCoin c) := by
  intro s h; unfold convertToCoin at h; split at h <;> cases h
theorem knows_coinOr (c : Option P.Coin) : Knows (coinOrDefault c) := by
  unfold coinOrDefault; split
  · exact knows_ok _
  · exact knows_coin _
theorem knows_dec (t : String) : Knows (decimalOr t) := by
  intro s h; unfold decimalOr at h; split at h <;> cases h
theorem knows_validator (v : P.Validator) : Knows (convertToValidator v) :=
  knows_bind (knows_dec _) fun _ => knows_bind (knows_dec _) fun _ => knows_bind (knows_dec _) fun _ => knows_ok _
theorem knows_delegation (b : Option P.Coin) (d : P.Delegation) : Knows (convertToDelegation b d) :=
  knows_bind (knows_coin _) fun _ => knows_ok _
theorem knows_collect (ds : List P.DelegationResponse) : Knows (collectDelegations ds) := by
  induction ds with
  | nil => exact knows_ok _
  | cons d ds ih =>
    rw [collectDelegations]
    split
    · exact ih
    · exact knows_bind (knows_delegation _ _) fun _ => knows_bind ih fun _ => knows_ok _
theorem knows_opt {α β : Type} {f : α → Res β} (o : Option α) (hf : ∀ a, Knows (f a)) : Knows (optRes o f) := by
  unfold optRes
  split
  · exact knows_ok _
  · exact knows_bind (hf _) fun _ => knows_ok _

/-- **C41.** For every query the contract accepts, what it records sends the answer to the decoder of exactly that kind:
whatever the answer's bytes are, decoding never fails with "unknown data type", and what it yields is a response of the
kind of the query. -/
theorem C41_same_kind {q : QueryRequest} (h : SupportedQuery q) :
    ∃ r, RecordedAs q r ∧ ∀ bs, (∀ s, responseFromProtobuf r.1 bs r.2 ≠ .err (.unknownDataType s)) ∧
      ∀ x, DecodesTo (r, bs) x → SameKind q x := by
  rcases h with ⟨p, d, rfl⟩ | ⟨y, hy⟩
  · refine ⟨(p, true), rfl, fun bs => ⟨fun s h => (by cases h), fun x hx => ?_⟩⟩
    have : (Res.ok (.stargate bs p) : Res IcaQueryResponse) = .ok x := hx
    injection this with this
    subst this
    exact rfl
  have hrec : ∀ (path : String), y.path = path → (∀ bs, (∀ s, responseFromProtobuf path bs false ≠ .err
      (.unknownDataType s)) ∧ ∀ x, responseFromProtobuf path bs false = .ok x → SameKind q x) →
      ∃ r, RecordedAs q r ∧ ∀ bs, (∀ s, responseFromProtobuf r.1 bs r.2 ≠ .err (.unknownDataType s)) ∧
      ∀ x, DecodesTo (r, bs) x → SameKind q x := by
    intro path hp hh
    refine ⟨(path, false), ?_, hh⟩
    cases q with
    | stargate p d => cases hy
    | _ => exact ⟨y, hy, by rw [hp]⟩
  cases q with
  | stargate p d => cases hy
  | ibc x => cases hy
  | custom x => cases hy
  | distribution x => cases hy
  | bank b =>
    cases b with
    | supply d =>
      cases hy
      refine hrec Path.supply rfl fun bs => ?_
      rw [dispatch_supply]
      simp only [bankResponse]
      rw [if_neg (by decide +kernel), if_neg (by decide +kernel), if_neg (by decide +kernel), if_neg (by decide +kernel),
        if_pos trivial]
      exact bind_kind fun a => kind_bind (knows_coinOr _) fun _ => kind_ok trivial
    | balance a d =>
      cases hy
      refine hrec Path.balance rfl fun bs => ?_
      rw [dispatch_balance]
      simp only [bankResponse]
      rw [if_pos trivial]
      exact bind_kind fun a => kind_bind (knows_coinOr _) fun _ => kind_ok trivial
    | allBalances a =>
      cases hy
      refine hrec Path.allBalances rfl fun bs => ?_
      rw [dispatch_allBalances]
      simp only [bankResponse]
      rw [if_neg (by decide +kernel), if_pos trivial]
      exact bind_kind fun a => kind_bind (knows_mapRes knows_coin _) fun _ => kind_ok trivial
    | denomMetadata d =>
      cases hy
      refine hrec Path.denomMetadata rfl fun bs => ?_
      rw [dispatch_denomMetadata]
      simp only [bankResponse]
      rw [if_neg (by decide +kernel), if_neg (by decide +kernel), if_pos trivial]
      exact bind_kind fun a => kind_ok trivial
    | allDenomMetadata page =>
      cases hy
      refine hrec Path.allDenomMetadata rfl fun bs => ?_
      rw [dispatch_allDenomMetadata]
      simp only [bankResponse]
      rw [if_neg (by decide +kernel), if_neg (by decide +kernel), if_neg (by decide +kernel), if_pos trivial]
      exact bind_kind fun a => kind_ok trivial
  | wasm b =>
    cases b with
    | smart a m =>
      cases hy
      refine hrec Path.smart rfl fun bs => ?_
      rw [dispatch_smart]
      simp only [wasmResponse]
      rw [if_neg (by decide +kernel), if_neg (by decide +kernel), if_pos trivial]
      exact bind_kind fun a => kind_ok trivial
    | raw a k =>
      cases hy
      refine hrec Path.raw rfl fun bs => ?_
      rw [dispatch_raw]
      simp only [wasmResponse]
      rw [if_neg (by decide +kernel), if_pos trivial]
      exact bind_kind fun a => kind_ok trivial
    | contractInfo a =>
      cases hy
      refine hrec Path.contractInfo rfl fun bs => ?_
      rw [dispatch_contractInfo]
      simp only [wasmResponse]
      rw [if_pos trivial]
      exact bind_kind fun a => kind_ok trivial
    | codeInfo c => cases hy
  | staking b =>
    cases b with
    | bondedDenom =>
      cases hy
      refine hrec Path.stakingParams rfl fun bs => ?_
      rw [dispatch_stakingParams]
      simp only [stakingResponse]
      rw [if_neg (by decide +kernel), if_neg (by decide +kernel), if_neg (by decide +kernel), if_neg (by decide +kernel),
        if_pos trivial]
      refine bind_kind fun a => ?_
      split
      · exact ⟨fun s h => (by cases h), fun r h => (by cases h)⟩
      · exact kind_ok trivial
    | allDelegations a =>
      cases hy
      refine hrec Path.allDelegations rfl fun bs => ?_
      rw [dispatch_allDelegations]
      simp only [stakingResponse]
      rw [if_neg (by decide +kernel), if_neg (by decide +kernel), if_neg (by decide +kernel), if_pos trivial]
      exact bind_kind fun a => kind_bind (knows_collect _) fun _ => kind_ok trivial
    | delegation a b =>
      cases hy
      refine hrec Path.delegation rfl fun bs => ?_
      rw [dispatch_delegation]
      simp only [stakingResponse]
      rw [if_neg (by decide +kernel), if_neg (by decide +kernel), if_pos trivial]
      exact bind_kind fun a => kind_bind (knows_opt _ fun _ => knows_delegation _ _) fun _ => kind_ok trivial
    | allValidators =>
      cases hy
      refine hrec Path.allValidators rfl fun bs => ?_
      rw [dispatch_allValidators]
      simp only [stakingResponse]
      rw [if_neg (by decide +kernel), if_pos trivial]
      exact bind_kind fun a => kind_bind (knows_mapRes knows_validator _) fun _ => kind_ok trivial
    | validator a =>
      cases hy
      refine hrec Path.validator rfl fun bs => ?_
      rw [dispatch_validator]
      simp only [stakingResponse]
      rw [if_pos trivial]
      exact bind_kind fun a => kind_bind (knows_opt _ knows_validator) fun _ => kind_ok trivial

/-- A query of each module is supported. -/
example : SupportedQuery (.bank (.supply "uatom")) ∧ SupportedQuery (.wasm (.raw "c" [1])) ∧
    SupportedQuery (.staking .bondedDenom) ∧ SupportedQuery (.stargate "/a.B/C" [1]) :=
  ⟨.inr ⟨_, rfl⟩, .inr ⟨_, rfl⟩, .inr ⟨_, rfl⟩, .inl ⟨_, _, rfl⟩⟩

/-- **C42.** An acknowledgement that is not of the form `{"result": base64}` or `{"error": text}` is refused, in any
storage whatever. -/
theorem C42_malformed_refused (api : Api) (w : World) (id : String) (n : UInt64) (ack : Bytes) (relayer : String)
    (h : readAck ack = none) : Refused api w (.relayAck id n ack relayer) := by
  unfold Refused
  cases ha : apply api w (.relayAck id n ack relayer) with
  | none => rfl
  | some r =>
    obtain ⟨p, c, st, _, _, _, _, h2⟩ := apply_ack.1 ha
    rw [readAck_eq] at h
    rcases h2 with ⟨res, q, b1, _⟩ | ⟨e, b1, _⟩ <;> rw [h] at b1 <;> cases b1

/-- **C42.** The acknowledgement of a packet in flight on an open channel is processed if and only if it is well formed
and, if it is a success and the packet carried queries, the query response is found where it belongs. -/
theorem C42_processed_iff {api : Api} {env : Env} {h : List (Op × List Obs)} {w : World}
    (he : Exec api (World.genesis env) h w) {id : String} {n : UInt64} {p : IbcPacket} (hp : w.commits id n = some p)
    {ch : IbcChannel} (hc : ChainOpen w id ch) {qs : List QueryRequest} (hs : Sent h p qs) (ack : Bytes)
    (relayer : String) :
    (∃ w' obs, Commits api w (.relayAck id n ack relayer) w' obs) ↔
      ∃ a, readAck ack = some a ∧ ∀ res, a = .result res → qs ≠ [] → (readQueryAnswer res).isSome := by
  have hv := inv_exec (inv_genesis api env) he
  have hl : w.live = true := hv.live_of_chan hc
  obtain ⟨st, hst⟩ := hv.state hl
  obtain ⟨k1, k2, ⟨qs', k3⟩, k4⟩ := (commits_iff he _ _ _).1 hp
  have hpend : w.store.pending id n = none ∨ ∃ paths, w.store.pending id n = some paths ∧ qs ≠ [] := by
    cases hpe : w.store.pending id n with
    | none => exact .inl rfl
    | some paths =>
      obtain ⟨p2, qs2, m1, m2, m3, m4, -, -⟩ := (pending_iff he _ _ _).1 hpe
      obtain ⟨-, e2⟩ := sent_unique he _ _ _ _ hs m1 (by rw [k1, m2]) (by rw [k2, m3])
      subst e2
      exact .inr ⟨paths, rfl, m4⟩
  constructor
  · rintro ⟨w', obs, hcm⟩
    have hstep := step_of_apply hv hcm
    cases hstep with
    | ackErr _ _ _ _ _ _ _ e _ _ _ _ hres =>
      exact ⟨.error e, by rw [readAck_eq]; exact hres, fun res hr => (by cases hr)⟩
    | ackOk _ _ _ _ p' c st' res q hp' hch ho hstt hres hq =>
      refine ⟨.result res, by rw [readAck_eq]; exact hres, fun res' hr hqs => ?_⟩
      injection hr with hr
      subst hr
      rcases hpend with hpe | ⟨paths, hpe, _⟩
      · exfalso
        have hex : ∃ paths, List.Forall₂ RecordedAs qs paths := by
          obtain ⟨sender, ms, memo, t, fresh, core, hm⟩ := hs
          obtain ⟨l1, l2, hl⟩ := List.append_of_mem hm
          obtain ⟨w1, f1, f2⟩ := he.split l1 _ hl
          obtain ⟨w2, f3, f4⟩ := f2.split [(_, _)] l2 rfl
          obtain ⟨w3, f5, f6⟩ := Exec.concat_inv (h := []) f3
          obtain ⟨_, _, _, _, g3⟩ := C33_record_exact (w := w3) ⟨env, _, f1.append f5⟩ f6
          obtain ⟨paths, _, g⟩ := g3 hqs
          exact ⟨paths, g⟩
        obtain ⟨paths, hf⟩ := hex
        have := (pending_iff he id n paths).2 ⟨p, qs, hs, k1, k2, hqs, hf, fun x hx hcl => by
          have := k4 x hx
          rw [clears_settles hcl] at this
          cases this⟩
        rw [hpe] at this
        cases this
      · rw [hpe] at hq
        obtain ⟨m, hm, -⟩ := Res.bind_eq_ok.1 hq
        rw [← decodeLast_ok_iff]
        exact ⟨m, hm⟩
  · rintro ⟨a, ha, hh⟩
    rw [readAck_eq] at ha
    cases a with
    | error e => exact ⟨_, _, (apply_iff_step hv).2 (.ackErr _ _ _ relayer _ _ _ _ hp hc rfl hst ha)⟩
    | result res =>
      rcases hpend with hpe | ⟨paths, hpe, hqs⟩
      · exact ⟨_, _, (apply_iff_step hv).2 (.ackOk _ _ _ relayer _ _ _ _ none hp hc rfl hst ha (by rw [hpe]; rfl))⟩
      · obtain ⟨m, hm⟩ := decodeLast_ok_iff.2 (hh res rfl hqs)
        have hres : ∃ r, resultFromResponse paths m = .ok r := by
          unfold resultFromResponse
          split
          · exact ⟨_, rfl⟩
          · split
            · exact ⟨_, rfl⟩
            · exact ⟨_, rfl⟩
            · rename_i e he'
              exfalso
              have hmap : ∀ (l : List ((String × Bool) × Bytes)),
                  mapRes (fun p => responseFromProtobuf p.1.1 p.2 p.1.2) l ≠ .panic e := by
                intro l
                induction l with
                | nil => intro h; cases h
                | cons x l ih =>
                  intro h
                  simp only [mapRes] at h
                  cases hx : responseFromProtobuf x.1.1 x.2 x.1.2 with
                  | ok y =>
                    rw [hx] at h
                    simp only [Res.bind_ok] at h
                    cases hl : mapRes (fun p : (String × Bool) × Bytes => responseFromProtobuf p.1.1 p.2 p.1.2) l with
                    | ok ys => rw [hl] at h; cases h
                    | err e' => rw [hl] at h; cases h
                    | panic e' => rw [hl] at h; injection h with h; subst h; exact ih hl
                  | err e' => rw [hx] at h; cases h
                  | panic e' => exact response_no_panic _ _ _ _ hx
              exact hmap _ he'
        obtain ⟨r, hr⟩ := hres
        exact ⟨_, _, (apply_iff_step hv).2 (.ackOk _ _ _ relayer _ _ _ _ (some r) hp hc rfl hst ha (by
          rw [hpe]
          exact Res.bind_eq_ok.2 ⟨m, hm, Res.bind_eq_ok.2 ⟨r, hr, rfl⟩⟩))⟩

/-- A malformed acknowledgement, and a success acknowledgement of the scenario's query packet without a query
response. -/
example : readAck [1, 2, 3] = none ∧ readQueryAnswer [] = none := by
  constructor <;> decide +kernel

end Ica
