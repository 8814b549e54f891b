import Verif.Spec.Retry
import Verif.Facts.Script
import Verif.Props.Use

/-!
# Trying again until it is done does it once (C126)
-/
namespace Ica
open Spec

section
variable {api : Api} {env : Env} {n0 n : Net} {h : List (NetOp × List Obs)}

theorem toldFailed_not_executed (h0 : n0.Initial env) (he : NetExec api n0 h n) {k : Nat} {x : Op × List Obs} {p : IbcPacket}
    (hx : (onController h)[k]? = some x) (ht : ToldFailed x.2 p) : ∀ e ∈ n.log, e.packet ≠ p := by
  obtain ⟨cb, relayer, ⟨err, q, hc⟩ | hc⟩ := ht
  · exact C83_error_told h0 he (List.mem_of_getElem? hx) hc
  · exact C83_timeout_told h0 he (List.mem_of_getElem? hx) hc

/-- **C126**, at most once: if messages of some kind are sent again only after the earlier ones were told to have failed, then in
all, over all channels and hosts, at most one execution comes of them. -/
theorem C126_at_most_once (h0 : n0.Initial env) (he : NetExec api n0 h n) {R : ExecuteMsg → Prop} (hR : Patient R (onController h))
    {i j s t : Nat} {a b : Executed} (ha : n.log[i]? = some a) (hb : n.log[j]? = some b)
    (sa : SentFor R (onController h) s a.packet) (sb : SentFor R (onController h) t b.packet) : i = j := by
  have key : ∀ {i j s t : Nat} {a b : Executed}, n.log[i]? = some a → n.log[j]? = some b →
      SentFor R (onController h) s a.packet → SentFor R (onController h) t b.packet → ¬ s < t := by
    intro i j s t a b ha hb sa sb hlt
    obtain ⟨k, x, -, -, hx, ht⟩ := hR _ _ _ _ hlt sa sb
    exact toldFailed_not_executed h0 he hx ht a (List.mem_of_getElem? ha) rfl
  have h1 := key ha hb sa sb
  have h2 := key hb ha sb sa
  obtain rfl : s = t := by omega
  obtain ⟨_, _, _, _, _, e1⟩ := sa
  obtain ⟨_, _, _, _, _, e2⟩ := sb
  rw [e1] at e2
  have : a.packet = b.packet := by
    have := congrArg Prod.snd (Option.some.inj e2)
    simpa using this
  exact C82_at_most_once h0 he ha hb this

/-- **C126**, told: once it is told that one of them succeeded, it is the one that was executed, and no other ever was. -/
theorem C126_done_once (h0 : n0.Initial env) (he : NetExec api n0 h n) {R : ExecuteMsg → Prop} (hR : Patient R (onController h))
    {i : Nat} {p : IbcPacket} (hs : SentFor R (onController h) i p) {x : Op × List Obs} (hx : x ∈ onController h)
    {cb relayer : String} {res : Bytes} {q : Option IcaQueryResult}
    (hc : CalledBack x.2 cb (.onAcknowledgementPacketCallback (.result res) p relayer q)) :
    ∃ (k : Nat) (e : Executed), n.log[k]? = some e ∧ e.packet = p ∧ readTxMsgData res = some e.responses ∧
      ∀ (k' : Nat) (e' : Executed) (j : Nat), n.log[k']? = some e' → SentFor R (onController h) j e'.packet → k' = k := by
  obtain ⟨e, e1, e2, e3⟩ := C83_success_told h0 he hx hc
  obtain ⟨k, hk⟩ := List.getElem?_of_mem e1
  exact ⟨k, e, hk, e2, e3, fun k' e' j h1 h2 => C126_at_most_once h0 he hR h1 hk h2 (e2 ▸ hs)⟩

theorem onController_three (l : List (NetOp × List Obs)) {conn hid : String} {p : IbcPacket} {o : Outcome} {ack : Bytes}
    (x y : Op × List Obs) (obs : List Obs) :
    onController (l ++ ([] ++ [(NetOp.ctrl x.1, x.2)] ++ [(NetOp.hostReceive conn hid p o ack, obs)] ++ [(NetOp.ctrl y.1, y.2)])) =
      onController l ++ [x] ++ [y] := by
  simp [onController]

theorem sentFor_old {R : ExecuteMsg → Prop} {l : List (Op × List Obs)} {x : Op × List Obs} {i : Nat} {p : IbcPacket}
    (hs : SentFor R (l ++ [x]) i p) (hi : i < l.length) : SentFor R l i p := by
  obtain ⟨a, b, c, d, e, f⟩ := hs
  rw [List.getElem?_append_left hi] at f
  exact ⟨a, b, c, d, e, f⟩

theorem sentFor_le {R : ExecuteMsg → Prop} {l : List (Op × List Obs)} {i : Nat} {p : IbcPacket} (hs : SentFor R l i p) :
    i < l.length := by
  obtain ⟨a, b, c, d, e, f⟩ := hs
  exact (List.getElem?_eq_some_iff.1 f).1

theorem at_le {l : List (Op × List Obs)} {x : Op × List Obs} {i : Nat} (f : l[i]? = some x) : i < l.length :=
  (List.getElem?_eq_some_iff.1 f).1

/-- After all have failed, sending again is patient. -/
theorem Spec.Patient.again {R : ExecuteMsg → Prop} {l : List (Op × List Obs)} (hc : Patient R l) (hf : AllFailed R l)
    (x : Op × List Obs) : Patient R (l ++ [x]) := by
  intro i j p q hij h1 h2
  have hj := sentFor_le h2
  rw [List.length_append, List.length_singleton] at hj
  have h1' := sentFor_old h1 (by omega)
  by_cases hj' : j < l.length
  · obtain ⟨k, y, a, b, c, d⟩ := hc i j p q hij h1' (sentFor_old h2 hj')
    exact ⟨k, y, a, b, by rw [List.getElem?_append_left (by omega)]; exact c, d⟩
  · obtain ⟨k, y, a, c, d⟩ := hf i p h1'
    have := at_le c
    exact ⟨k, y, a, by omega, by rw [List.getElem?_append_left (by omega)]; exact c, d⟩

/-- What is no message to the contract changes nothing in this. -/
theorem Spec.Patient.quiet {R : ExecuteMsg → Prop} {l : List (Op × List Obs)} (hc : Patient R l) {x : Op × List Obs}
    (hx : ∀ s m f c, x.1 ≠ Op.execute s m f c) : Patient R (l ++ [x]) := by
  intro i j p q hij h1 h2
  have hj := sentFor_le h2
  rw [List.length_append, List.length_singleton] at hj
  have hj' : j < l.length := by
    by_contra hn
    obtain rfl : j = l.length := by omega
    obtain ⟨a, b, c, d, e, f⟩ := h2
    rw [List.getElem?_append_right (Nat.le_refl _)] at f
    simp only [Nat.sub_self, List.getElem?_cons_zero, Option.some.injEq] at f
    exact hx a b c d (by rw [f])
  obtain ⟨k, y, a, b, c, d⟩ := hc i j p q hij (sentFor_old h1 (by omega)) (sentFor_old h2 hj')
  exact ⟨k, y, a, b, by rw [List.getElem?_append_left (by omega)]; exact c, d⟩

/-- One more that failed. -/
theorem Spec.AllFailed.more {R : ExecuteMsg → Prop} {l : List (Op × List Obs)} (hf : AllFailed R l) {op : Op} {p : IbcPacket}
    {y : Op × List Obs} (hy : ∀ s m f c, y.1 ≠ Op.execute s m f c) (ht : ToldFailed y.2 p) :
    AllFailed R (l ++ [(op, [Obs.packetSent p])] ++ [y]) := by
  intro i q hs
  have hi := sentFor_le hs
  simp only [List.length_append, List.length_singleton] at hi
  by_cases h1 : i < l.length
  · obtain ⟨k, x, a, b, c⟩ := hf i q (sentFor_old (sentFor_old hs (by rw [List.length_append]; omega)) h1)
    have := at_le b
    exact ⟨k, x, a, by
      rw [List.getElem?_append_left (by rw [List.length_append]; omega), List.getElem?_append_left this]; exact b, c⟩
  · by_cases h2 : i = l.length
    · obtain ⟨a, b, c, d, e, f⟩ := sentFor_old hs (by rw [List.length_append, List.length_singleton]; omega)
      rw [h2, List.getElem?_append_right (Nat.le_refl _)] at f
      simp only [Nat.sub_self, List.getElem?_cons_zero, Option.some.injEq, Prod.mk.injEq, List.cons.injEq, and_true,
        Obs.packetSent.injEq] at f
      obtain ⟨-, rfl⟩ := f
      exact ⟨l.length + 1, y, by omega, by
        rw [List.getElem?_append_right (by rw [List.length_append, List.length_singleton])]
        simp, ht⟩
    · obtain rfl : i = (l ++ [(op, [Obs.packetSent p])]).length := by rw [List.length_append, List.length_singleton]; omega
      obtain ⟨a, b, c, d, e, f⟩ := hs
      rw [List.getElem?_append_right (Nat.le_refl _)] at f
      simp only [Nat.sub_self, List.getElem?_cons_zero, Option.some.injEq] at f
      exact absurd (by rw [f]) (hy a b c d)

/-- **C126**, until it is done: while the channel works, an owner whose requests of some kind all failed can go on. Whatever errors
the next attempts end with, and however many there are, the one after them can succeed; each outcome is told; and in all there is
exactly one execution. -/
theorem C126_until_done (h0 : n0.Initial env) (he : NetExec api n0 h n) {owner cb : String} (ho : ownerOf n.w = some owner)
    (hcb : callbackOf n.w = some cb) {ch : IbcChannel} {a : String} (hw : Working n ch a)
    (hidle : ch.order = .ordered → Idle n ch.endpoint.channelId) {R : ExecuteMsg → Prop} (hR : Patient R (onController h))
    (hF : AllFailed R (onController h)) {r : Request} (hr : r.Fine n ch a) (hm : R r.msg) (errors : List String)
    (hq : n.w.nextSeq ch.endpoint.channelId + errors.length < 2 ^ 64) :
    ∃ l n' e failed, NetExec api n l n' ∧ (∀ x ∈ l, Carrying owner x.1) ∧ Patient R (onController (h ++ l)) ∧
      List.Forall₂ (fun err p => ∃ x ∈ onController l, ∃ relayer, ToldOutcome x.2 cb p relayer (.fail err)) errors failed ∧
      n'.log = n.log ++ [e] ∧ e.account = a ∧ r.ReadAs a e.messages ∧
      (∃ i, SentFor R (onController (h ++ l)) i e.packet) ∧
      (∃ x ∈ onController l, ∃ relayer, ToldOutcome x.2 cb e.packet relayer (.ok e.responses)) ∧
      (∀ e' ∈ n.log, ∀ i, ¬ SentFor R (onController (h ++ l)) i e'.packet) := by
  induction errors generalizing n h with
  | nil =>
    simp only [List.length_nil, Nat.add_zero] at hq
    obtain ⟨p, n1, ms, s1, s2, s3⟩ := use_once h0 he ho hw hidle hq hr
    obtain ⟨resp, hresp⟩ := responses_exist (n.hosts ch.connectionId).height ms
    obtain ⟨n2, n3, obs, k1, k2, k3, k4, -⟩ := s3 (.ok resp)
      (AckData.jc.toBytes (.result (P.TxMsgData.toBytes ⟨[], resp.map fun a => ⟨a.1, a.2⟩⟩))) "" hresp
      ⟨_, by rw [readAck_eq]; exact JC.ofBytes_toBytes AckData.jc_law _, readTxMsgData_toBytes resp⟩
    have hex := ((NetExec.nil.step s1).step k1).step k2
    have hon : ∀ l : List (NetOp × List Obs), onController (l ++
        ([] ++ [(NetOp.ctrl (.execute owner r.msg "" true), [Obs.packetSent p])] ++
          [(NetOp.hostReceive ch.connectionId ch.counterpartyEndpoint.channelId p (.ok resp)
            (AckData.jc.toBytes (.result (P.TxMsgData.toBytes ⟨[], resp.map fun a => ⟨a.1, a.2⟩⟩))), [])] ++
          [(NetOp.ctrl (.relayAck ch.endpoint.channelId p.sequence
            (AckData.jc.toBytes (.result (P.TxMsgData.toBytes ⟨[], resp.map fun a => ⟨a.1, a.2⟩⟩))) ""), obs)])) =
        onController l ++ [(Op.execute owner r.msg "" true, [Obs.packetSent p])] ++
          [(Op.relayAck ch.endpoint.channelId p.sequence
            (AckData.jc.toBytes (.result (P.TxMsgData.toBytes ⟨[], resp.map fun a => ⟨a.1, a.2⟩⟩))) "", obs)] := fun l =>
      onController_three l (_, _) (_, _) []
    have hcar := (hR.again hF (Op.execute owner r.msg "" true, [Obs.packetSent p])).quiet
      (x := (Op.relayAck ch.endpoint.channelId p.sequence
        (AckData.jc.toBytes (.result (P.TxMsgData.toBytes ⟨[], resp.map fun a => ⟨a.1, a.2⟩⟩))) "", obs)) (by intros; simp)
    have hsent : SentFor R (onController h ++ [(Op.execute owner r.msg "" true, [Obs.packetSent p])] ++
          [(Op.relayAck ch.endpoint.channelId p.sequence
            (AckData.jc.toBytes (.result (P.TxMsgData.toBytes ⟨[], resp.map fun a => ⟨a.1, a.2⟩⟩))) "", obs)])
          (onController h).length p := ⟨owner, r.msg, "", true, hm, by simp⟩
    have hlog : n3.log = n.log ++ [⟨ch.connectionId, ch.counterpartyEndpoint.channelId, p, (n.hosts ch.connectionId).height, a, ms,
      resp⟩] := k3
    refine ⟨_, n3, _, [], hex, ?_, by rw [hon]; exact hcar, .nil, hlog, rfl, s2, ⟨_, by rw [hon]; exact hsent⟩, ?_, ?_⟩
    · intro x hx
      simp only [List.nil_append, List.mem_append, List.mem_singleton] at hx
      rcases hx with (rfl | rfl) | rfl
      · rfl
      · trivial
      · trivial
    · refine ⟨(Op.relayAck ch.endpoint.channelId p.sequence
        (AckData.jc.toBytes (.result (P.TxMsgData.toBytes ⟨[], resp.map fun a => ⟨a.1, a.2⟩⟩))) "", obs), ?_, "", k4 cb hcb⟩
      have := hon []
      rw [List.nil_append] at this
      rw [this]
      exact List.mem_append_right _ (List.mem_singleton.2 rfl)
    · intro e' he' i hs
      obtain ⟨j, hj⟩ := List.getElem?_of_mem he'
      have hlt : j < n.log.length := (List.getElem?_eq_some_iff.1 hj).1
      have h1 : n3.log[j]? = some e' := by rw [hlog, List.getElem?_append_left hlt]; exact hj
      have h2 : n3.log[n.log.length]? = some ⟨ch.connectionId, ch.counterpartyEndpoint.channelId, p,
          (n.hosts ch.connectionId).height, a, ms, resp⟩ := by rw [hlog]; simp
      have hall := netExec_append he hex
      rw [hon] at hs
      have := C126_at_most_once h0 hall (by rw [hon]; exact hcar) h1 h2 (by rw [hon]; exact hs) (by rw [hon]; exact hsent)
      omega
  | cons err errors ih =>
    simp only [List.length_cons] at hq
    obtain ⟨p, n1, ms, s1, s2, s3⟩ := use_once h0 he ho hw hidle (by omega) hr
    obtain ⟨n2, n3, obs, k1, k2, k3, k4, k5, k6, k7, k8, k9, k10, k11, k12⟩ := s3 (.fail err)
      (AckData.jc.toBytes (.error err)) "" trivial (by
        show readAck _ = _
        rw [readAck_eq]
        exact JC.ofBytes_toBytes AckData.jc_law _)
    have hex := ((NetExec.nil.step s1).step k1).step k2
    have htold := k4 cb hcb
    have hon : ∀ l : List (NetOp × List Obs), onController (l ++
        ([] ++ [(NetOp.ctrl (.execute owner r.msg "" true), [Obs.packetSent p])] ++
          [(NetOp.hostReceive ch.connectionId ch.counterpartyEndpoint.channelId p (.fail err) (AckData.jc.toBytes (.error err)), [])] ++
          [(NetOp.ctrl (.relayAck ch.endpoint.channelId p.sequence (AckData.jc.toBytes (.error err)) ""), obs)])) =
        onController l ++ [(Op.execute owner r.msg "" true, [Obs.packetSent p])] ++
          [(Op.relayAck ch.endpoint.channelId p.sequence (AckData.jc.toBytes (.error err)) "", obs)] := fun l =>
      onController_three l (_, _) (_, _) []
    have hcar := (hR.again hF (Op.execute owner r.msg "" true, [Obs.packetSent p])).quiet
      (x := (Op.relayAck ch.endpoint.channelId p.sequence (AckData.jc.toBytes (.error err)) "", obs)) (by intros; simp)
    have hfail := hF.more (op := Op.execute owner r.msg "" true) (p := p)
      (y := (Op.relayAck ch.endpoint.channelId p.sequence (AckData.jc.toBytes (.error err)) "", obs)) (by intros; simp)
      ⟨cb, "", Or.inl ⟨err, htold⟩⟩
    obtain ⟨l, n', e, failed, m1, m2, m3, m4, m5, m6, m7, m8, m9, m10⟩ := ih (netExec_append he hex) k7 (k8.trans hcb) k5 k6
      (by rw [hon]; exact hcar) (by rw [hon]; exact hfail)
      ⟨hr.messages, hr.queries, hr.signed, by rw [k9]; exact hr.fits, by rw [k9, k10]; exact hr.later⟩ (by rw [k12]; omega)
    have hlog : n3.log = n.log := by rw [k3]; exact List.append_nil _
    refine ⟨_, n', e, p :: failed, netExec_append hex m1, ?_, by rw [← List.append_assoc]; exact m3, .cons ?_ (m4.imp ?_),
      by rw [m5, hlog], m6, m7, by rw [← List.append_assoc]; exact m8, ?_, by rw [← List.append_assoc, ← hlog]; exact m10⟩
    · intro x hx
      rcases List.mem_append.1 hx with hx | hx
      · simp only [List.nil_append, List.mem_append, List.mem_singleton] at hx
        rcases hx with (rfl | rfl) | rfl
        · rfl
        · trivial
        · trivial
      · exact m2 x hx
    · refine ⟨(Op.relayAck ch.endpoint.channelId p.sequence (AckData.jc.toBytes (.error err)) "", obs), ?_, "", htold⟩
      have := hon []
      rw [List.nil_append] at this
      rw [onController_append, this]
      exact List.mem_append_left _ (List.mem_append_right _ (List.mem_singleton.2 rfl))
    · rintro x y ⟨z, z1, z2⟩
      exact ⟨z, by rw [onController_append]; exact List.mem_append_right _ z1, z2⟩
    · obtain ⟨z, z1, z2⟩ := m9
      exact ⟨z, by rw [onController_append]; exact List.mem_append_right _ z1, z2⟩

end

/-- In the scenario a request fails twice and then succeeds. All three are of one kind, they are patient, and there is one execution. -/
example : ∃ l n' e p1 p2, NetExec Ex.api Ex.net4 l n' ∧ Patient (fun m => ∃ r : Request, m = r.msg) (onController (Ex.nh5.take 4 ++ l)) ∧
    (∃ x ∈ onController l, ∃ relayer, ToldOutcome x.2 "cb" p1 relayer (.fail "out of gas")) ∧
    (∃ x ∈ onController l, ∃ relayer, ToldOutcome x.2 "cb" p2 relayer (.fail "no funds")) ∧
    (∃ x ∈ onController l, ∃ relayer, ToldOutcome x.2 "cb" e.packet relayer (.ok e.responses)) ∧
    (∃ i, SentFor (fun m => ∃ r : Request, m = r.msg) (onController (Ex.nh5.take 4 ++ l)) i e.packet) ∧ n'.log = [e] := by
  obtain ⟨h1, h2, h3⟩ := Ex.usable
  have he : NetExec Ex.api Ex.net0 (Ex.nh5.take 4) Ex.net4 := (((NetExec.nil.step Ex.ns1).step Ex.ns2).step Ex.ns3).step Ex.ns4
  have none : ∀ i p, ¬ SentFor (fun m => ∃ r : Request, m = r.msg) (onController (Ex.nh5.take 4)) i p := by
    rintro i p ⟨s, m, f, c, -, h⟩
    have := List.mem_of_getElem? h
    simp [onController, Ex.nh5] at this
  obtain ⟨l, n', e, failed, m1, -, m3, m4, m5, -, -, m8, m9, -⟩ := C126_until_done Ex.initial0 he (owner := "alice") (cb := "cb") rfl rfl
    h1 (fun _ => h2) (R := fun m => ∃ r : Request, m = r.msg) (fun i j p q _ h => absurd h (none i p)) (fun i p h => absurd h (none i p))
    h3 ⟨_, rfl⟩ ["out of gas", "no funds"] (by decide +kernel)
  cases m4 with
  | @cons _ p1 _ _ a1 t =>
    cases t with
    | @cons _ p2 _ _ a2 t => exact ⟨l, n', e, p1, p2, m1, m3, a1, a2, m9, m8, m5⟩

end Ica
