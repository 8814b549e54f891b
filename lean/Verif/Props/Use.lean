import Verif.Spec.Use
import Verif.Props.Order
import Verif.Props.Reopen

/-!
# The account can be used (C97)

While a channel is working, whatever the owner asks for can be carried out by the host, and the outcome is told; and
afterwards the channel is working as before.
-/
namespace Ica
open Spec

section
variable {api : Api} {env : Env} {n0 n : Net} {h : List (NetOp × List Obs)}

theorem nextSeq_pos {h : List (Op × List Obs)} {w : World} (he : Exec api (World.genesis env) h w) (id : String) :
    1 ≤ w.nextSeq id :=
  exec_induction (C := fun _ w => 1 ≤ w.nextSeq id) (Nat.le_refl 1)
    (fun _ _ _ _ _ _ _ ih hs => ih.trans (nextSeq_mono hs id)) he

/-- With nothing on its way on an open ordered channel, the host has received everything. -/
theorem caught_up (h0 : n0.Initial env) (he : NetExec api n0 h n) {id : String} {ch : IbcChannel}
    (hc : ChainOpen n.w id ch) (ho : ch.order = .ordered) (hi : Idle n id)
    (hq : n.w.nextSeq id < 18446744073709551616) {hch : HostChan}
    (hh : (n.hosts ch.connectionId).chans ch.counterpartyEndpoint.channelId = some hch) (hctl : hch.controller = ch.endpoint) :
    hch.nextRecv = n.w.nextSeq id := by
  have hv := ninv_exec h0 he
  have hid : ch.endpoint.channelId = id := hv.inv.chan_id hc
  have hord : hch.order = .ordered := by
    obtain ⟨_, c', -, -, q3, -, -, q6⟩ := hv.host _ _ _ hh
    rw [hctl, hid, show n.w.chans id = _ from hc] at q3
    obtain rfl := Option.some.inj q3
    rw [← q6]; exact ho
  obtain ⟨h1, h2⟩ := hv.ordered _ _ _ hh
  have h2 := h2 hord
  have hseq := nextSeq_pos hv.exec id
  rcases Nat.lt_trichotomy hch.nextRecv (n.w.nextSeq id) with hlt | heq | hgt
  · exfalso
    obtain ⟨p, qs, k1, k2, k3⟩ := sent_all hv.exec id _ h1 hlt
    have hset : ¬ ∀ x ∈ onController h, x.1.settles id p.sequence = false := by
      intro hall
      have := hi p.sequence
      rw [(commits_iff hv.exec _ _ p).2 ⟨k2, rfl, ⟨qs, k1⟩, hall⟩] at this
      cases this
    simp only [not_forall, Bool.not_eq_false] at hset
    obtain ⟨⟨op, o⟩, hx, hs⟩ := hset
    cases op <;> try cases hs
    · next id' k' ack' r' =>
      simp only [Op.settles, decide_eq_true_eq] at hs
      obtain ⟨rfl, rfl⟩ := hs
      obtain ⟨c, p', hc', g1, g2, g3, g4, g5, g6⟩ := hv.acks _ hx _ _ _ _ rfl
      obtain rfl : p' = p := hv.unique g2 ((hv.sentIff p).2 ⟨qs, k1⟩) (g3.trans k2.symm) g4
      obtain ⟨cp, _, _, _, n1, n2, n3, n4, -⟩ := hv.packets _ g2
      rw [k2, show n.w.chans id' = _ from hc] at n1
      obtain rfl := Option.some.inj n1
      rw [show n.w.chans id' = _ from hc] at g1
      obtain rfl := Option.some.inj g1
      rw [n4, hh] at g5
      obtain rfl := Option.some.inj g5
      have := (h2 p'.sequence).1 ⟨_, g6⟩
      omega
    · next id' k' r' =>
      simp only [Op.settles, decide_eq_true_eq] at hs
      obtain ⟨rfl, rfl⟩ := hs
      obtain ⟨c2, d1, d2⟩ := closed_of_timeout hv.exec _ _ hx _ _ rfl
      rw [show n.w.chans id' = _ from hc] at d1
      obtain rfl := Option.some.inj d1
      cases d2 ho
  · exact heq
  · exfalso
    obtain ⟨ack, ha⟩ := (h2 (UInt64.ofNat (n.w.nextSeq id))).2 (by rw [ofNat_toNat hq]; omega)
    obtain ⟨p, g1, g2, g3, -⟩ := hv.acked _ _ _ _ _ hh ha
    obtain ⟨qs, g4⟩ := (hv.sentIff p).1 g1
    have := sent_lt hv.exec _ _ g4
    rw [g3, g2, hctl, hid, ofNat_toNat hq] at this
    omega

/-- A request there and back, with everything the next one needs. -/
theorem use_once (h0 : n0.Initial env) (he : NetExec api n0 h n) {owner : String} (ho : ownerOf n.w = some owner)
    {ch : IbcChannel} {a : String} (hw : Working n ch a)
    (hidle : ch.order = .ordered → Idle n ch.endpoint.channelId) (hq : n.w.nextSeq ch.endpoint.channelId < 2 ^ 64)
    {r : Request} (hr : r.Fine n ch a) :
    ∃ p n1 messages, NetStep api n (.ctrl (.execute owner r.msg "" true)) n1 [.packetSent p] ∧ r.ReadAs a messages ∧
      ∀ outcome ack relayer, outcome.Fits (n.hosts ch.connectionId).height messages → AckSays ack outcome →
        ∃ n2 n3 obs,
          NetStep api n1 (.hostReceive ch.connectionId ch.counterpartyEndpoint.channelId p outcome ack) n2 [] ∧
          NetStep api n2 (.ctrl (.relayAck ch.endpoint.channelId p.sequence ack relayer)) n3 obs ∧
          n3.log = n.log ++ outcome.logged (fun rs =>
            ⟨ch.connectionId, ch.counterpartyEndpoint.channelId, p, (n.hosts ch.connectionId).height, a, messages, rs⟩) ∧
          (∀ cb, callbackOf n.w = some cb → ToldOutcome obs cb p relayer outcome) ∧
          Working n3 ch a ∧ (ch.order = .ordered → Idle n3 ch.endpoint.channelId) ∧
          ownerOf n3.w = some owner ∧ callbackOf n3.w = callbackOf n.w ∧ n3.w.env = n.w.env ∧
          (n3.hosts ch.connectionId).time = (n.hosts ch.connectionId).time ∧
          (n3.hosts ch.connectionId).height = (n.hosts ch.connectionId).height ∧
          n3.w.nextSeq ch.endpoint.channelId = n.w.nextSeq ch.endpoint.channelId + 1 := by
  have hv := ninv_exec h0 he
  obtain ⟨hrep, hco, hica, hacc, hc, hh, hctl, hst⟩ := hw
  obtain ⟨w1, obs1, hs⟩ := (C31_send_iff (api := api) ⟨env, _, hv.exec⟩ owner r.messages r.queries r.memo r.timeout "").2
    ⟨ho, ⟨_, ch, hica, hco, hq⟩, hr.messages, hr.queries, hr.fits⟩
  obtain ⟨info', p', j1, j2, l, last, j3, j4, j5⟩ := C27_host_reads hs
  rw [hica] at j1
  obtain rfl := Option.some.inj j1
  obtain ⟨info, anys, cqs, c, ts, p, i1, i2, i3, i4, i5, i6, i7, i8, i9, i10⟩ := send_inv hs
  rw [hica] at i1
  obtain rfl := Option.some.inj i1
  dsimp only at i5 i7 i8 i9 j4 j5
  rw [show n.w.chans ch.endpoint.channelId = _ from hco] at i5
  obtain rfl := Option.some.inj i5
  subst i10
  obtain rfl : p = p' := by simpa using j2
  have s1 : NetStep api n (.ctrl (.execute owner r.msg "" true)) _ _ := .ctrl _ _ _ trivial hs
  have he1 := he.step s1
  have hv1 := ninv_exec h0 he1
  have hsrc : p.src = ch.endpoint := by rw [i8]
  have hdst : p.dest = ch.counterpartyEndpoint := by rw [i8]
  have hsq : p.sequence = UInt64.ofNat (n.w.nextSeq ch.endpoint.channelId) := by rw [i8]
  have hsn : p.sequence.toNat = n.w.nextSeq ch.endpoint.channelId := by rw [hsq, ofNat_toNat i7]
  have htm : p.timeout = ⟨none, some ts⟩ := by rw [i8]
  have hport : ch.counterpartyEndpoint.portId = "icahost" := (hv.inv.chans _ _ hco).2
  have hend : p.dest = ⟨"icahost", ch.counterpartyEndpoint.channelId⟩ := by rw [hdst, ← hport]
  have hnew : hc.acks p.sequence = none := by
    cases hx : hc.acks p.sequence with
    | none => rfl
    | some ack =>
      obtain ⟨p', g1, g2, g3, -⟩ := hv.acked _ _ _ _ _ hh hx
      obtain ⟨qs, g4⟩ := (hv.sentIff p').1 g1
      have := sent_lt hv.exec _ _ g4
      rw [g3, g2, hctl, hsn] at this
      omega
  have hnext : hc.order = .ordered → p.sequence.toNat = hc.nextRecv := by
    intro hord
    have ho' : ch.order = .ordered := by
      obtain ⟨_, c', -, -, q3, -, -, q6⟩ := hv.host _ _ _ hh
      rw [hctl, show n.w.chans ch.endpoint.channelId = _ from hco] at q3
      obtain rfl := Option.some.inj q3
      rw [← q6] at hord; exact hord
    rw [hsn, caught_up h0 he hco ho' (hidle ho') i7 hh hctl]
  have htime : ¬ Elapsed (n.hosts ch.connectionId) p.timeout := by
    rw [htm]
    rintro (⟨ts', g1, -, g3⟩ | ⟨b, g1, -⟩)
    · obtain rfl := Option.some.inj g1
      have g3 := UInt64.le_iff_toNat_le.1 g3
      have := hr.later
      rw [allowedSeconds_eq] at i4
      omega
    · cases g1
  have hauth : Authentic a (l ++ last) := by
    refine C85_authentic (h := [(Op.execute owner r.msg "" true, [Obs.packetSent p])]) (p := p)
      ⟨owner, r.messages, r.queries, r.memo, r.timeout, "", true, List.mem_singleton.2 rfl, l, last, rfl, j4, j5⟩ ?_
    intro s ms qs memo t f co url value hm hs
    simp only [Request.msg, List.mem_singleton, Prod.mk.injEq, Op.execute.injEq, ExecuteMsg.sendCosmosMsgs.injEq] at hm
    obtain ⟨⟨-, ⟨rfl, -⟩, -⟩, -⟩ := hm
    exact hr.signed url value hs
  refine ⟨p, _, l ++ last, s1, ⟨l, last, rfl, j4, j5⟩, fun outcome ack relayer hfit hsays => ?_⟩
  generalize hn1 : n.moved (.execute owner r.msg "" true) w1 [.packetSent p] = n1 at s1 he1 hv1
  have hw1 : n1.w = w1 := by rw [← hn1]; rfl
  have hhosts : n1.hosts = n.hosts := by rw [← hn1]; rfl
  have hlog : n1.log = n.log := by rw [← hn1]; rfl
  have hp1 : p ∈ n1.sent := by
    rw [← hn1]
    exact List.mem_append_right _ (sentPackets_one.2 (List.mem_singleton.2 rfl))
  -- the host receives
  have hrecv : ∃ n2, NetStep api n1 (.hostReceive ch.connectionId ch.counterpartyEndpoint.channelId p outcome ack) n2 [] ∧
      n2.w = n1.w ∧ n2.hosts = setHost n1.hosts ch.connectionId
        ((n1.hosts ch.connectionId).setChan ch.counterpartyEndpoint.channelId (hc.receive p.sequence ack)) ∧
      n2.log = n.log ++ outcome.logged fun rs =>
            ⟨ch.connectionId, ch.counterpartyEndpoint.channelId, p, (n.hosts ch.connectionId).height, a, l ++ last, rs⟩ := by
    cases outcome with
    | ok rs =>
      refine ⟨_, .execute _ _ hc p ack a r.memo (l ++ last) rs (by rw [hhosts]; exact hh) hst hp1 (hsrc.trans hctl.symm) hend
        (by rw [hhosts]; exact htime) hnew hnext (by rw [hhosts]; exact hacc) j3 hauth (by rw [hhosts]; exact hfit) hsays,
        rfl, rfl, ?_⟩
      show n1.log ++ _ = _
      rw [hlog, hhosts]
      rfl
    | fail e =>
      refine ⟨_, .fail _ _ hc p ack e (by rw [hhosts]; exact hh) hst hp1 (hsrc.trans hctl.symm) hend
        (by rw [hhosts]; exact htime) hnew hnext hsays, rfl, rfl, ?_⟩
      show n1.log = n.log ++ []
      rw [hlog, List.append_nil]
  obtain ⟨n2, s2, e1, e2, e3⟩ := hrecv
  have he2 := he1.step s2
  have hcom : n2.w.commits ch.endpoint.channelId p.sequence = some p := by
    rw [e1, hw1, i9, hsq]
    simp [setCommit]
  have hco2 : ChainOpen n2.w ch.endpoint.channelId ch := by
    show n2.w.chans _ = _
    rw [e1, hw1, i9]
    exact hco
  have hh2 : (n2.hosts ch.connectionId).chans ch.counterpartyEndpoint.channelId = some (hc.receive p.sequence ack) := by
    rw [e2, setHost_same]
    simp [HostSide.setChan]
  obtain ⟨n3, obs, s3⟩ := C85_can_acknowledge h0 he2 hcom hco2 hh2 (ack := ack) (by simp [HostChan.receive]) (by
    intro hord j hj
    rw [e1, hw1, i9]
    have hne : j ≠ UInt64.ofNat (n.w.nextSeq ch.endpoint.channelId) := by
      rw [← hsq]
      rintro rfl
      exact absurd (UInt64.lt_iff_toNat_lt.1 hj) (Nat.lt_irrefl _)
    simp only [setCommit, hne, and_false, if_false]
    exact hidle hord j) relayer
  refine ⟨n2, n3, obs, s2, s3, ?_⟩
  obtain ⟨w3, rfl, -, hap⟩ := netStep_ctrl s3
  obtain ⟨p', c', st, a1, a2, a3, a4, hcase⟩ := apply_ack.1 hap
  rw [hcom] at a1
  obtain rfl := Option.some.inj a1
  have hidle3 : ch.order = .ordered → ∀ k, setCommit n2.w.commits ch.endpoint.channelId p.sequence none ch.endpoint.channelId k = none := by
    intro hord k
    rw [e1, hw1, i9, hsq]
    by_cases e : k = UInt64.ofNat (n.w.nextSeq ch.endpoint.channelId)
    · simp [setCommit, e]
    · simp only [setCommit, e, and_false, if_false]
      exact hidle hord k
  obtain ⟨-, f1, f2, f3, -⟩ := storeAfterSend_fields n.w.store ch.endpoint.channelId
    (UInt64.ofNat (n.w.nextSeq ch.endpoint.channelId)) r.queries cqs
  have g1 : n2.w.store.ownership = n.w.store.ownership := by rw [e1, hw1, i9]; exact f1
  have g2 : n2.w.store.state = n.w.store.state := by rw [e1, hw1, i9]; exact f2
  have g3 : n2.w.store.channel = n.w.store.channel := by rw [e1, hw1, i9]; exact f3
  have g4 : n2.w.env = n.w.env := by rw [e1, hw1, i9]
  have g5 : n2.w.nextSeq ch.endpoint.channelId = n.w.nextSeq ch.endpoint.channelId + 1 := by
    rw [e1, hw1, i9]
    simp [setSeq]
  have hcall : callbackOf n.w = st.callbackAddress := by
    unfold callbackOf
    rw [← g2, a4]
  have fin : w3.store.ownership = n2.w.store.ownership → w3.store.state = n2.w.store.state →
      w3.store.channel = n2.w.store.channel → w3.env = n2.w.env → w3.nextSeq = n2.w.nextSeq → w3.chans = n2.w.chans →
      w3.commits = setCommit n2.w.commits ch.endpoint.channelId p.sequence none →
      (∀ cb, callbackOf n.w = some cb → ToldOutcome obs cb p relayer outcome) →
      let n3 := n2.moved (.relayAck ch.endpoint.channelId p.sequence ack relayer) w3 obs
      n3.log = n.log ++ outcome.logged (fun rs =>
            ⟨ch.connectionId, ch.counterpartyEndpoint.channelId, p, (n.hosts ch.connectionId).height, a, l ++ last, rs⟩) ∧
          (∀ cb, callbackOf n.w = some cb → ToldOutcome obs cb p relayer outcome) ∧
          Working n3 ch a ∧ (ch.order = .ordered → Idle n3 ch.endpoint.channelId) ∧
          ownerOf n3.w = some owner ∧ callbackOf n3.w = callbackOf n.w ∧ n3.w.env = n.w.env ∧
          (n3.hosts ch.connectionId).time = (n.hosts ch.connectionId).time ∧
          (n3.hosts ch.connectionId).height = (n.hosts ch.connectionId).height ∧
          n3.w.nextSeq ch.endpoint.channelId = n.w.nextSeq ch.endpoint.channelId + 1 := by
    intro k1 k2 k3 k4 k5 k6 k7 k8 n3
    have hst3 : n3.w = w3 := rfl
    refine ⟨e3, k8, ⟨?_, ?_, ?_, ?_, hc.receive p.sequence ack, hh2, hctl, hst⟩, fun hord k => ?_, ?_, ?_, ?_, ?_, ?_, ?_⟩
    · show w3.store.channel = _
      rw [k3, g3]; exact hrep
    · show w3.chans _ = _
      rw [k6]; exact hco2
    · show icaOf w3 = _
      unfold icaOf
      rw [k2, g2]; exact hica
    · show (n2.hosts _).account = _
      rw [e2, setHost_same, hhosts]; exact hacc
    · show w3.commits _ _ = _
      rw [k7]; exact hidle3 hord k
    · show ownerOf w3 = _
      unfold ownerOf
      rw [k1, g1]; exact ho
    · show callbackOf w3 = _
      unfold callbackOf
      rw [k2, g2]
    · exact k4.trans g4
    · show (n2.hosts _).time = _
      rw [e2, setHost_same, hhosts]; rfl
    · show (n2.hosts _).height = _
      rw [e2, setHost_same, hhosts]; rfl
    · show w3.nextSeq _ = _
      rw [k5, g5]
  rcases hcase with ⟨res, q, b1, b2, rfl, rfl⟩ | ⟨e, b1, rfl, rfl⟩
  · refine fin rfl rfl rfl rfl rfl rfl rfl fun cb hcb => ?_
    cases outcome with
    | ok rs =>
      obtain ⟨res', m1, m2⟩ := hsays
      rw [readAck_eq, b1] at m1
      cases m1
      exact ⟨res, q, toldEnd_callObs (a := st.callbackAddress) (by rw [← hcall]; exact hcb) rfl, m2⟩
    | fail e =>
      have m1 : readAck ack = some (.error e) := hsays
      rw [readAck_eq, b1] at m1
      cases m1
  · refine fin rfl rfl rfl rfl rfl rfl rfl fun cb hcb => ?_
    cases outcome with
    | ok rs =>
      obtain ⟨res', m1, m2⟩ := hsays
      rw [readAck_eq, b1] at m1
      cases m1
    | fail e' =>
      have m1 : readAck ack = some (.error e') := hsays
      rw [readAck_eq, b1] at m1
      cases m1
      exact ⟨_, toldEnd_callObs (a := st.callbackAddress) (by rw [← hcall]; exact hcb) rfl⟩

/-- **C97.** While a channel is working (on an ordered channel: with nothing on its way), the host can carry out or fail
whatever the owner asks for, with any outcome. The host reads exactly the request; an execution is logged with the
responses given; the contract takes the acknowledgement and the callback contract is told the outcome; and the channel is
working as before. -/
theorem C97_request_answered (h0 : n0.Initial env) (he : NetExec api n0 h n) {owner : String}
    (ho : ownerOf n.w = some owner) {ch : IbcChannel} {a : String} (hw : Working n ch a)
    (hidle : ch.order = .ordered → Idle n ch.endpoint.channelId) (hq : n.w.nextSeq ch.endpoint.channelId < 2 ^ 64)
    {r : Request} (hr : r.Fine n ch a) :
    ∃ p n1 messages, NetStep api n (.ctrl (.execute owner r.msg "" true)) n1 [.packetSent p] ∧ r.ReadAs a messages ∧
      ∀ outcome ack relayer, outcome.Fits (n.hosts ch.connectionId).height messages → AckSays ack outcome →
        ∃ n2 n3 obs,
          NetStep api n1 (.hostReceive ch.connectionId ch.counterpartyEndpoint.channelId p outcome ack) n2 [] ∧
          NetStep api n2 (.ctrl (.relayAck ch.endpoint.channelId p.sequence ack relayer)) n3 obs ∧
          n3.log = n.log ++ outcome.logged (fun rs =>
            ⟨ch.connectionId, ch.counterpartyEndpoint.channelId, p, (n.hosts ch.connectionId).height, a, messages, rs⟩) ∧
          (∀ cb, callbackOf n.w = some cb → ToldOutcome obs cb p relayer outcome) ∧
          Working n3 ch a ∧ (ch.order = .ordered → Idle n3 ch.endpoint.channelId) := by
  obtain ⟨p, n1, ms, h1, h2, h3⟩ := use_once h0 he ho hw hidle hq hr
  refine ⟨p, n1, ms, h1, h2, fun o ack rel f s => ?_⟩
  obtain ⟨n2, n3, obs, k1, k2, k3, k4, k5, k6, -⟩ := h3 o ack rel f s
  exact ⟨n2, n3, obs, k1, k2, k3, k4, k5, k6⟩

/-- **C97.** And so on, any number of times: a sequence of requests can all be executed, in order, each with its outcome
told. -/
theorem C97_any_number (h0 : n0.Initial env) (he : NetExec api n0 h n) {owner : String}
    (ho : ownerOf n.w = some owner) {ch : IbcChannel} {a : String} (hw : Working n ch a)
    (hidle : ch.order = .ordered → Idle n ch.endpoint.channelId) (rs : List Request)
    (hq : n.w.nextSeq ch.endpoint.channelId + rs.length ≤ 2 ^ 64) (hr : ∀ r ∈ rs, r.Fine n ch a) :
    ∃ l n' es, NetExec api n l n' ∧ (∀ x ∈ l, Carrying owner x.1) ∧ n'.log = n.log ++ es ∧
      List.Forall₂ (fun (r : Request) (e : Executed) => e.account = a ∧ r.ReadAs a e.messages) rs es ∧
      (∀ e ∈ es, ∃ x ∈ l, ∃ relayer, ∀ cb, callbackOf n.w = some cb →
        ToldOutcome x.2 cb e.packet relayer (.ok e.responses)) ∧
      Working n' ch a ∧ (ch.order = .ordered → Idle n' ch.endpoint.channelId) := by
  induction rs generalizing n h with
  | nil => exact ⟨[], n, [], .nil, fun _ h => (by cases h), (List.append_nil _).symm, .nil, fun _ h => (by cases h), hw, hidle⟩
  | cons r rs ih =>
    simp only [List.length_cons] at hq
    obtain ⟨p, n1, ms, s1, s2, s3⟩ := use_once h0 he ho hw hidle (by omega) (hr r (List.mem_cons_self ..))
    obtain ⟨resp, hresp⟩ := responses_exist (n.hosts ch.connectionId).height ms
    obtain ⟨n2, n3, obs, k1, k2, k3, k4, k5, k6, k7, k8, k9, k10, k11, k12⟩ := s3 (.ok resp)
      (AckData.jc.toBytes (.result (P.TxMsgData.toBytes ⟨[], resp.map fun a => ⟨a.1, a.2⟩⟩))) "" hresp
      ⟨_, by rw [readAck_eq]; exact JC.ofBytes_toBytes AckData.jc_law _, readTxMsgData_toBytes resp⟩
    obtain ⟨l, n', es, m1, m0, m2, m3, m4, m5⟩ := ih (((he.step s1).step k1).step k2) k7 k5 k6 (by rw [k12]; omega)
      (fun r' hr' => by
        have f := hr r' (List.mem_cons_of_mem _ hr')
        exact ⟨f.messages, f.queries, f.signed, by rw [k9]; exact f.fits, by rw [k9, k10]; exact f.later⟩)
    refine ⟨_, n', ⟨ch.connectionId, ch.counterpartyEndpoint.channelId, p, (n.hosts ch.connectionId).height, a, ms, resp⟩ :: es,
      netExec_append (((NetExec.nil.step s1).step k1).step k2) m1, ?_, ?_, .cons ⟨?_, ?_⟩ m3, ?_, m5⟩
    · intro x hx
      simp only [List.nil_append, List.mem_append, List.mem_singleton] at hx
      rcases hx with ((rfl | rfl) | rfl) | hx
      · rfl
      · trivial
      · trivial
      · exact m0 x hx
    · rw [m2, k3, List.append_assoc]; rfl
    · rfl
    · exact s2
    · intro e he'
      rcases List.mem_cons.1 he' with rfl | he'
      · exact ⟨_, List.mem_append_left _ (List.mem_append_right _ (List.mem_singleton.2 rfl)), "", k4⟩
      · obtain ⟨x, x1, rel, x2⟩ := m4 e he'
        exact ⟨x, List.mem_append_right _ x1, rel, fun cb hcb => x2 cb (by rw [k8]; exact hcb)⟩

end

/-- In the scenario the channel works and the scenario's request can be carried out; here nothing is on its way yet. -/
theorem Ex.usable : Working Ex.net4 (Ex.chan "channel-0" Ex.opts) "cosmos1ica" ∧ Idle Ex.net4 "channel-0" ∧
    Request.Fine ⟨Ex.msgs, Ex.qs, some "hi", none⟩ Ex.net4 (Ex.chan "channel-0" Ex.opts) "cosmos1ica" := by
  refine ⟨⟨rfl, Ex.chan2, rfl, ?_, { Ex.hchan Ex.ver with status := .opened }, ?_, rfl, rfl⟩, fun _ => rfl, ?_, ?_, ?_, ?_, ?_⟩
  · show (Ex.net4.hosts "connection-0").account = _
    simp [Ex.net4, Ex.net3, Ex.net2, Net.moved, setHost, HostSide.setChan, HostSide.setAccount]
  · show (Ex.net4.hosts "connection-0").chans "channel-5" = _
    simp [Ex.net4, setHost, HostSide.setChan]
  · intro m hm
    simp only [Ex.msgs, List.mem_cons, List.not_mem_nil, or_false] at hm
    rcases hm with rfl | rfl
    · exact .inr ⟨_, rfl⟩
    · exact .inl ⟨_, _, rfl⟩
  · intro q hq
    simp only [Ex.qs, List.mem_cons, List.not_mem_nil, or_false] at hq
    rcases hq with rfl | rfl
    · exact .inr ⟨_, rfl⟩
    · exact .inl ⟨_, _, rfl⟩
  · intro url value hs m hm x hx
    simp only [Ex.msgs, List.mem_cons, CosmosMsg.stargate.injEq, reduceCtorEq, false_or, List.not_mem_nil, or_false] at hs
    obtain ⟨rfl, rfl⟩ := hs
    obtain rfl := List.mem_singleton.1 hm
    have : readHostMsg "/x.Y" [1, 2] = none := by decide +kernel
    rw [this] at hx
    cases hx
  · decide +kernel
  · have e : (Ex.net4.hosts "connection-0").time = 1700000000000000000 := by
      simp [Ex.net4, Ex.net3, Ex.net2, Ex.net1, Ex.net0, Ex.host0, Net.moved, setHost, HostSide.setChan, HostSide.setAccount]
    show (Ex.net4.hosts "connection-0").time.toNat < _
    rw [e]
    decide +kernel

/-- The scenario's request twice in a row, each executed and told. -/
example : ∃ l n' e1 e2, NetExec Ex.api Ex.net4 l n' ∧ n'.log = [e1, e2] ∧
    ∃ x ∈ l, ∃ relayer, ToldOutcome x.2 "cb" e2.packet relayer (.ok e2.responses) := by
  obtain ⟨h1, h2, h3⟩ := Ex.usable
  have he : NetExec Ex.api Ex.net0 _ Ex.net4 := (((NetExec.nil.step Ex.ns1).step Ex.ns2).step Ex.ns3).step Ex.ns4
  obtain ⟨l, n', es, k1, -, k2, k3, k4, -⟩ := C97_any_number Ex.initial0 he (owner := "alice") rfl h1 (fun _ => h2)
    [⟨Ex.msgs, Ex.qs, some "hi", none⟩, ⟨Ex.msgs, Ex.qs, some "hi", none⟩] (by decide +kernel) (by
      intro r hr
      simp only [List.mem_cons, List.not_mem_nil, or_false, or_self] at hr
      subst hr
      exact h3)
  cases k3 with
  | @cons _ e1 _ _ _ t =>
    cases t with
    | @cons _ e2 _ _ _ t =>
      cases t
      obtain ⟨x, x1, rel, x2⟩ := k4 e2 (by simp)
      exact ⟨l, n', e1, e2, k1, k2, x, x1, rel, x2 "cb" rfl⟩

end Ica
