import Verif.Facts.Interchain
import Verif.Props.Callbacks

/-!
# The controller together with the host chains (C81-C86)

End-to-end properties: the contract on its chain, ICS-27 hosts at the other ends of its connections, relayers in
between. The environment is `Spec/Interchain.lean`.
-/
namespace Ica
open Spec

/-! ## Histories -/

theorem netExec_append {api : Api} {n0 n1 n2 : Net} {h1 h2 : List (NetOp × List Obs)} (a : NetExec api n0 h1 n1)
    (b : NetExec api n1 h2 n2) : NetExec api n0 (h1 ++ h2) n2 := by
  induction b with
  | nil => simpa using a
  | step _ hs ih => rw [← List.append_assoc]; exact .step ih hs

theorem netExec_hosts {api : Api} {n0 n : Net} {h : List (NetOp × List Obs)} (he : NetExec api n0 h n) (conn : String)
    {a : String} (ha : (n0.hosts conn).account = some a) : (n.hosts conn).account = some a := by
  induction he with
  | nil => exact ha
  | step _ hs ih => exact (hosts_step hs conn).account _ ih

/-- Where an entry of a history happened. -/
theorem exec_at {api : Api} {w0 w : World} {h : List (Op × List Obs)} (he : Exec api w0 h w) {x : Op × List Obs}
    (hx : x ∈ h) : ∃ h1 h2 w1 w2, h = h1 ++ x :: h2 ∧ Exec api w0 h1 w1 ∧ apply api w1 x.1 = some (w2, x.2) := by
  obtain ⟨h1, h2, e⟩ := List.append_of_mem hx
  obtain ⟨w1, f1, f2⟩ := he.split h1 _ e
  obtain ⟨w2, f3, -⟩ := f2.split [x] h2 rfl
  obtain ⟨w3, f5, f6⟩ := Exec.concat_inv (h := []) f3
  have e1 : w3 = w1 := by
    generalize hn : ([] : List (Op × List Obs)) = l at f5
    cases f5 with
    | nil => rfl
    | step => simp at hn
  exact ⟨h1, h2, w1, w2, e, f1, e1 ▸ f6⟩

theorem calledBack_inv {obs : List Obs} {cb : String} {m m0 : CallbackMsg} {a : Option String}
    (hc : CalledBack obs cb m) (h : callsOf obs = callsOf (callObs a m0)) : m = m0 := by
  obtain ⟨bytes, h1, h2⟩ := hc
  rw [h, callsOf_callObs] at h1
  cases a with
  | none => cases h1
  | some a =>
    simp only [List.cons.injEq, Prod.mk.injEq, and_true] at h1
    obtain ⟨-, rfl⟩ := h1
    have := JC.ofBytes_toBytes ReceiverExecuteMsg.jc_law (.receiveIcaCallback m0)
    rw [show ReceiverExecuteMsg.jc.toBytes (.receiveIcaCallback m0) = m0.intoJsonBinary from rfl, h2] at this
    injection this with this
    injection this

/-- Who tells what. -/
theorem told {api : Api} {w w' : World} {op : Op} {obs : List Obs} (h : apply api w op = some (w', obs)) {cb : String}
    {m : CallbackMsg} (hm : CalledBack obs cb m) :
    (∃ id cpId v, op = .relayOpenAck id cpId v ∧ ∃ c i, m = .onChannelOpenAckCallback c i.icaAddress i.encoding ∧
      icaOf w' = some i ∧ w'.store.channel = some ⟨c, .opened⟩) ∨
    (∃ id k ack r, op = .relayAck id k ack r ∧ ∃ a p q, m = .onAcknowledgementPacketCallback a p r q ∧
      readAck ack = some a ∧ w.commits id k = some p) ∨
    ∃ id k r, op = .relayTimeout id k r ∧ ∃ p, m = .onTimeoutPacketCallback p r ∧ w.commits id k = some p := by
  cases hn : op.notifies with
  | false =>
    obtain ⟨b, h1, -⟩ := hm
    rw [no_calls h hn] at h1
    cases h1
  | true =>
    cases op with
    | relayOpenAck id cpId v =>
      obtain ⟨c, st, x, _, _, hs, _, _, _, _, rfl, rfl⟩ := apply_openAck.1 h
      exact .inl ⟨_, _, _, rfl, _, ⟨x.address, c.chan.endpoint.channelId, x.encoding⟩, calledBack_inv hm rfl, rfl, rfl⟩
    | relayAck id k ack r =>
      obtain ⟨p, c, st, hp, _, _, hs, h2⟩ := apply_ack.1 h
      refine .inr (.inl ⟨_, _, _, _, rfl, ?_⟩)
      rcases h2 with ⟨res, q, b, _, _, rfl⟩ | ⟨e, b, _, rfl⟩
      · exact ⟨_, p, q, calledBack_inv (a := st.callbackAddress) hm rfl, by rw [readAck_eq]; exact b, hp⟩
      · exact ⟨_, p, _, calledBack_inv (a := st.callbackAddress) hm rfl, by rw [readAck_eq]; exact b, hp⟩
    | relayTimeout id k r =>
      obtain ⟨p, c, st, cs, hp, _, hs, _, _, rfl⟩ := apply_timeout.1 h
      exact .inr (.inr ⟨_, _, _, rfl, p, calledBack_inv hm rfl, hp⟩)
    | _ => cases hn

/-! ## The interchain account -/

/-- **C81.** The ICA address the contract reports is the account the host keeps for the contract, on the connection of
the channel it reports. -/
theorem C81_reported_account {api : Api} {env : Env} {n0 n : Net} {h : List (NetOp × List Obs)} (h0 : n0.Initial env)
    (he : NetExec api n0 h n) {info : IcaInfo} (hi : icaOf n.w = some info) :
    ∃ ch s, Reports n.w ch s ∧ info.channelId = ch.endpoint.channelId ∧
      (n.hosts ch.connectionId).account = some info.icaAddress := by
  have hv := ninv_exec h0 he
  obtain ⟨ch, s, hr⟩ := (C15_ica_iff_channel ⟨env, _, hv.exec⟩).1 ⟨_, hi⟩
  obtain ⟨info', k1, k2, k3, -⟩ := hv.account hr
  rw [hi] at k1
  injection k1 with k1
  subst k1
  exact ⟨ch, s, hr, k2, k3⟩

/-- **C81.** The metadata of the reported channel names the host's own connection. (A host that does not conform could
name another one, see `C57_host_connection_unchecked`.) -/
theorem C81_host_connection {api : Api} {env : Env} {n0 n : Net} {h : List (NetOp × List Obs)} (h0 : n0.Initial env)
    (he : NetExec api n0 h n) {ch : IbcChannel} {s : ChannelStatus} (hr : Reports n.w ch s) :
    ∃ a, jsonOfString ch.version =
      some (answeredMetadata ch.connectionId (n.hosts ch.connectionId).connection a) ∧
      (n.hosts ch.connectionId).account = some a := by
  have hv := ninv_exec h0 he
  obtain ⟨-, c, k1, k2, k3, -⟩ := hv.inv.tracked _ hr
  obtain ⟨hcn, l1, l2, l3⟩ := hv.linked _ _ k1 k3
  rw [k2] at l1 l2 l3
  obtain ⟨a, c', m1, m2, -⟩ := hv.host _ _ _ l1
  exact ⟨a, by rw [← l3]; exact m2, m1⟩

/-- **C81.** However often channels are closed and created again: on the same connection it is the same address. -/
theorem C81_same_address {api : Api} {env : Env} {n0 n1 n2 : Net} {h1 h2 : List (NetOp × List Obs)}
    (h0 : n0.Initial env) (e1 : NetExec api n0 h1 n1) (e2 : NetExec api n1 h2 n2) {i1 i2 : IcaInfo}
    (hi1 : icaOf n1.w = some i1) (hi2 : icaOf n2.w = some i2) {c1 c2 : IbcChannel} {s1 s2 : ChannelStatus}
    (r1 : Reports n1.w c1 s1) (r2 : Reports n2.w c2 s2) (hc : c1.connectionId = c2.connectionId) :
    i1.icaAddress = i2.icaAddress := by
  obtain ⟨ch1, t1, a1, -, b1⟩ := C81_reported_account h0 e1 hi1
  obtain ⟨ch2, t2, a2, -, b2⟩ := C81_reported_account h0 (netExec_append e1 e2) hi2
  have q1 : ch1 = c1 := by
    have : (some ⟨ch1, t1⟩ : Option ChannelState) = some ⟨c1, s1⟩ := a1.symm.trans r1
    injection this with this; injection this
  have q2 : ch2 = c2 := by
    have : (some ⟨ch2, t2⟩ : Option ChannelState) = some ⟨c2, s2⟩ := a2.symm.trans r2
    injection this with this; injection this
  subst q1 q2
  have := netExec_hosts e2 _ b1
  rw [hc, b2] at this
  injection this with this
  exact this.symm

/-- **C81.** The address told in an OpenAck callback is the host's account on the connection of the told channel. -/
theorem C81_open_ack_told {api : Api} {env : Env} {n0 n : Net} {h : List (NetOp × List Obs)} (h0 : n0.Initial env)
    (he : NetExec api n0 h n) {x : Op × List Obs} (hx : x ∈ onController h) {cb : String} {ch : IbcChannel}
    {a : String} {enc : TxEncoding} (hc : CalledBack x.2 cb (.onChannelOpenAckCallback ch a enc)) :
    (n.hosts ch.connectionId).account = some a := by
  induction he with
  | nil => cases hx
  | @step h n n' op obs hb hs ih =>
    rcases Classical.em (x ∈ onController h) with hx' | hx'
    · exact (hosts_step hs _).account _ (ih hx')
    · have hv := ninv_step (ninv_exec h0 hb) hs
      cases hs with
      | ctrl o w' _ hp ha =>
        rw [onController_ctrl, List.mem_append, List.mem_singleton] at hx
        rcases hx with hx | rfl
        · exact absurd hx hx'
        · rcases told ha hc with ⟨_, _, _, -, c, i, m1, m2, m3⟩ | ⟨_, _, _, _, -, _, _, _, m1, -⟩ | ⟨_, _, _, -, _, m1, -⟩
          · injection m1 with m1 m1' m1''
            subst m1 m1'
            obtain ⟨i', k1, -, k3, -⟩ := hv.account m3
            have k1 : icaOf w' = some i' := k1
            rw [m2] at k1
            injection k1 with k1
            subst k1
            exact k3
          · cases m1
          · cases m1
      | _ => rw [onController_host _ (by simp)] at hx; exact absurd hx hx'

/-! ## What hosts execute -/

/-- **C82.** Whatever a host executes, the owner of the contract asked for: the packet was sent by a transaction of the
then owner, and its messages are exactly those of the transaction, for the account they run under. -/
theorem C82_only_asked {api : Api} {env : Env} {n0 n : Net} {h : List (NetOp × List Obs)} (h0 : n0.Initial env)
    (he : NetExec api n0 h n) {e : Executed} (hx : e ∈ n.log) :
    AskedFor (onController h) e.packet e.account e.messages := by
  have hv := ninv_exec h0 he
  obtain ⟨k1, k2, k3, ⟨⟨memo, k4⟩, -⟩, hc, ack, k5, k6, -⟩ := hv.logged e hx
  obtain ⟨c, a, memo', ms, m1, m2, m3, m4, m5, m6, m7, -⟩ := hv.packets _ k1
  obtain ⟨a', c', q1, q2, q3, q4, q5, q6⟩ := hv.host _ _ _ k5
  rw [k6, m1] at q3
  injection q3 with q3
  subst q3
  rw [q5, k3] at m5
  injection m5 with m5
  rw [k4] at m6
  injection m6 with m6
  injection m6 with _ _ m6
  rw [m5, m6]
  exact m7

/-- **C82.** The transaction that sent an executed packet was the owner's. -/
theorem C82_owner_asked {api : Api} {env : Env} {n0 n : Net} {h : List (NetOp × List Obs)} (h0 : n0.Initial env)
    (he : NetExec api n0 h n) {e : Executed} (hx : e ∈ n.log) :
    ∃ h1 h2 w1 w2 sender ms qs memo t fresh core,
      onController h = h1 ++ (Op.execute sender (.sendCosmosMsgs ms qs memo t) fresh core, [Obs.packetSent e.packet]) :: h2 ∧
      Exec api (World.genesis env) h1 w1 ∧ ownerOf w1 = some sender ∧
      Commits api w1 (.execute sender (.sendCosmosMsgs ms qs memo t) fresh core) w2 [.packetSent e.packet] := by
  obtain ⟨s, ms, qs, memo, t, f, co, m1, -⟩ := C82_only_asked h0 he hx
  obtain ⟨h1, h2, w1, w2, a, b, c⟩ := exec_at (ninv_exec h0 he).exec m1
  exact ⟨h1, h2, w1, w2, s, ms, qs, memo, t, f, co, a, b, C01_only_owner_acts (by simp) c, c⟩

/-- **C82.** No packet is executed twice. -/
theorem C82_at_most_once {api : Api} {env : Env} {n0 n : Net} {h : List (NetOp × List Obs)} (h0 : n0.Initial env)
    (he : NetExec api n0 h n) {i j : Nat} {a b : Executed} (ha : n.log[i]? = some a) (hb : n.log[j]? = some b)
    (hp : a.packet = b.packet) : i = j := by
  have hv := (ninv_exec h0 he).once
  rw [List.pairwise_iff_getElem] at hv
  obtain ⟨hi, rfl⟩ := List.getElem?_eq_some_iff.1 ha
  obtain ⟨hj, rfl⟩ := List.getElem?_eq_some_iff.1 hb
  rcases Nat.lt_trichotomy i j with h | h | h
  · exact absurd hp (hv i j hi hj h)
  · exact h
  · exact absurd hp.symm (hv j i hj hi h)

/-! ## What callbacks tell -/

theorem same_channel {api : Api} {env : Env} {h : List (NetOp × List Obs)} {n : Net} (hv : NInv api env h n)
    {e : Executed} (hx : e ∈ n.log) {c : ChainChan} (hc : n.w.chans e.packet.src.channelId = some c) :
    ∃ hc ack, (n.hosts c.chan.connectionId).chans e.packet.dest.channelId = some hc ∧
      hc.acks e.packet.sequence = some ack ∧ AckSays ack (.ok e.responses) := by
  obtain ⟨-, k2, -, -, hc', ack, k5, k6, k7, k8⟩ := hv.logged e hx
  obtain ⟨a', c', -, -, q3, -, q5, -⟩ := hv.host _ _ _ k5
  rw [k6, hc] at q3
  injection q3 with q3
  subst q3
  exact ⟨hc', ack, by rw [k2, q5]; exact k5, k7, k8⟩

/-- **C83.** Told that a packet succeeded: the host has executed it, with the responses told. -/
theorem C83_success_told {api : Api} {env : Env} {n0 n : Net} {h : List (NetOp × List Obs)} (h0 : n0.Initial env)
    (he : NetExec api n0 h n) {x : Op × List Obs} (hx : x ∈ onController h) {cb relayer : String} {res : Bytes}
    {p : IbcPacket} {q : Option IcaQueryResult}
    (hc : CalledBack x.2 cb (.onAcknowledgementPacketCallback (.result res) p relayer q)) :
    ∃ e ∈ n.log, e.packet = p ∧ readTxMsgData res = some e.responses := by
  have hv := ninv_exec h0 he
  obtain ⟨h1, h2, w1, w2, e1, e2, e3⟩ := exec_at hv.exec hx
  rcases told e3 hc with ⟨_, _, _, -, _, _, m1, -⟩ | ⟨id, k, ack, r, m0, a, p', q', m1, m2, m3⟩ | ⟨_, _, _, -, _, m1, -⟩
  · cases m1
  · injection m1 with m1 m1' _ _
    subst m1 m1'
    obtain ⟨c, p', hcn, g1, g2, g3, g4, g5, g6⟩ := hv.acks x hx _ _ _ _ m0
    obtain ⟨f1, f2, ⟨qs, f3⟩, -⟩ := (commits_iff e2 _ _ _).1 m3
    have hp : p ∈ n.sent := by
      refine (hv.sentIff p).2 ⟨qs, ?_⟩
      obtain ⟨_, _, _, _, _, _, hm⟩ := f3
      exact ⟨_, _, _, _, _, _, by rw [e1]; exact List.mem_append_left _ hm⟩
    have : p' = p := hv.unique g2 hp (g3.trans f1.symm) (g4.trans f2.symm)
    subst this
    obtain ⟨p2, l1, l2, l3, l4, l5⟩ := hv.acked _ _ _ _ _ g5 g6
    obtain ⟨a', c', -, -, q3, q4, q5, -⟩ := hv.host _ _ _ g5
    rcases l5 with ⟨e, l5, l6, l7, l8⟩ | ⟨err, l5⟩
    · obtain ⟨-, -, -, -, hc', ack', k5, k6, k7, k8⟩ := hv.logged e l5
      rw [l7, l8, g5] at k5
      injection k5 with k5
      subst k5
      have : e.packet = p' := by
        refine hv.unique (l6 ▸ l1) hp ?_ (by rw [l6, l3, g4])
        obtain ⟨cp, _, _, _, n1, n2, n3, n4, -⟩ := hv.packets p' hp
        rw [g3, g1] at n1
        injection n1 with n1
        subst n1
        obtain ⟨hl, o1, o2, -⟩ := hv.linked _ _ g1 n2
        rw [← n4, g5] at o1
        injection o1 with o1
        subst o1
        rw [l6, l2, o2, ← n3]
      refine ⟨e, l5, this, ?_⟩
      rw [this, g4, g6] at k7
      injection k7 with k7
      subst k7
      obtain ⟨res', r1, r2⟩ := k8
      rw [m2] at r1
      injection r1 with r1
      injection r1 with r1
      subst r1
      exact r2
    · rw [show readAck ack = some (.error err) from l5] at m2
      cases m2
  · cases m1

/-- **C83.** Told that a packet failed: the host has not executed it, and never does. -/
theorem C83_error_told {api : Api} {env : Env} {n0 n : Net} {h : List (NetOp × List Obs)} (h0 : n0.Initial env)
    (he : NetExec api n0 h n) {x : Op × List Obs} (hx : x ∈ onController h) {cb relayer err : String}
    {p : IbcPacket} {q : Option IcaQueryResult}
    (hc : CalledBack x.2 cb (.onAcknowledgementPacketCallback (.error err) p relayer q)) :
    ∀ e ∈ n.log, e.packet ≠ p := by
  have hv := ninv_exec h0 he
  obtain ⟨h1, h2, w1, w2, e1, e2, e3⟩ := exec_at hv.exec hx
  rcases told e3 hc with ⟨_, _, _, -, _, _, m1, -⟩ | ⟨id, k, ack, r, m0, a, p', q', m1, m2, m3⟩ | ⟨_, _, _, -, _, m1, -⟩
  · cases m1
  · injection m1 with m1 m1' _ _
    subst m1 m1'
    obtain ⟨c, p', hcn, g1, g2, g3, g4, g5, g6⟩ := hv.acks x hx _ _ _ _ m0
    obtain ⟨f1, f2, -⟩ := (commits_iff e2 _ _ _).1 m3
    rintro e hl rfl
    obtain ⟨hc2, ack2, k1, k2, k3⟩ := same_channel hv hl (c := c) (by rw [f1]; exact g1)
    have hp := (hv.logged e hl).1
    have : p' = e.packet := hv.unique g2 hp (g3.trans f1.symm) (g4.trans f2.symm)
    rw [this, k1] at g5
    injection g5 with g5
    subst g5
    rw [f2, g6] at k2
    injection k2 with k2
    subst k2
    obtain ⟨res, r1, -⟩ := k3
    rw [m2] at r1
    cases r1
  · cases m1

/-- **C83.** Told that a packet timed out: the host has not executed it, and never does. -/
theorem C83_timeout_told {api : Api} {env : Env} {n0 n : Net} {h : List (NetOp × List Obs)} (h0 : n0.Initial env)
    (he : NetExec api n0 h n) {x : Op × List Obs} (hx : x ∈ onController h) {cb relayer : String}
    {p : IbcPacket} (hc : CalledBack x.2 cb (.onTimeoutPacketCallback p relayer)) :
    ∀ e ∈ n.log, e.packet ≠ p := by
  have hv := ninv_exec h0 he
  obtain ⟨h1, h2, w1, w2, e1, e2, e3⟩ := exec_at hv.exec hx
  rcases told e3 hc with ⟨_, _, _, -, _, _, m1, -⟩ | ⟨_, _, _, _, -, _, _, _, m1, -⟩ | ⟨id, k, r, m0, p', m1, m2⟩
  · cases m1
  · cases m1
  · injection m1 with m1 _
    subst m1
    obtain ⟨c, p', hcn, g1, g2, g3, g4, g5, g6, -⟩ := hv.timeouts x hx _ _ _ m0
    obtain ⟨f1, f2, -⟩ := (commits_iff e2 _ _ _).1 m2
    rintro e hl rfl
    obtain ⟨hc2, ack2, k1, k2, k3⟩ := same_channel hv hl (c := c) (by rw [f1]; exact g1)
    have hp := (hv.logged e hl).1
    have : p' = e.packet := hv.unique g2 hp (g3.trans f1.symm) (g4.trans f2.symm)
    rw [this, k1] at g5
    injection g5 with g5
    subst g5
    rw [f2, g6] at k2
    cases k2

/-! ## Order -/

/-- **C84.** On an ordered channel packets are executed in the order they were sent. -/
theorem C84_in_order {api : Api} {env : Env} {n0 n : Net} {h : List (NetOp × List Obs)} (h0 : n0.Initial env)
    (he : NetExec api n0 h n) {i j : Nat} {a b : Executed} (ha : n.log[i]? = some a) (hb : n.log[j]? = some b)
    (hij : i < j) (hsrc : a.packet.src = b.packet.src) {c : ChainChan}
    (hc : n.w.chans a.packet.src.channelId = some c) (ho : c.chan.order = .ordered) :
    a.packet.sequence < b.packet.sequence := by
  have hv := ninv_exec h0 he
  have hs := hv.sorted
  rw [List.pairwise_iff_getElem] at hs
  obtain ⟨hi, rfl⟩ := List.getElem?_eq_some_iff.1 ha
  obtain ⟨hj, rfl⟩ := List.getElem?_eq_some_iff.1 hb
  obtain ⟨p1, k1, -, -, ca, acka, a1, a2, -⟩ := hv.logged _ (List.getElem_mem hi)
  obtain ⟨p2, k1', -, -, cb, ackb, b1, b2, -⟩ := hv.logged _ (List.getElem_mem hj)
  obtain ⟨_, c1, -, -, d1, -, d3, d4⟩ := hv.host _ _ _ a1
  obtain ⟨_, c2, -, -, f1, -, f3, -⟩ := hv.host _ _ _ b1
  rw [a2, hc] at d1
  injection d1 with d1
  subst d1
  rw [b2, ← hsrc, hc] at f1
  injection f1 with f1
  subst f1
  obtain ⟨g, _, _, _, m1, -, -, m4, -⟩ := hv.packets _ p1
  obtain ⟨g', _, _, _, m1', -, -, m4', -⟩ := hv.packets _ p2
  rw [hc] at m1
  injection m1 with m1
  subst m1
  rw [← hsrc, hc] at m1'
  injection m1' with m1'
  subst m1'
  have := hs i j hi hj hij (by rw [← d3, ← f3]) (by rw [← k1, ← k1', m4, m4']) _ a1 (by rw [← d4]; exact ho)
  exact UInt64.lt_iff_toNat_lt.2 this

/-- **C84.** On an ordered channel nothing is skipped: when a packet has been executed, every packet sent before it on
the channel has been received by the host, and either executed too or answered with an error. -/
theorem C84_nothing_skipped {api : Api} {env : Env} {n0 n : Net} {h : List (NetOp × List Obs)} (h0 : n0.Initial env)
    (he : NetExec api n0 h n) {e : Executed} (hx : e ∈ n.log) {c : ChainChan}
    (hc : n.w.chans e.packet.src.channelId = some c) (ho : c.chan.order = .ordered) {p : IbcPacket}
    (hp : p ∈ n.sent) (hsrc : p.src = e.packet.src) (hlt : p.sequence < e.packet.sequence) :
    (∃ e' ∈ n.log, e'.packet = p) ∨
      ∃ hc ack err, (n.hosts e.connection).chans e.channel = some hc ∧ hc.acks p.sequence = some ack ∧
        AckSays ack (.fail err) := by
  have hv := ninv_exec h0 he
  obtain ⟨p1, k1, -, -, ca, acka, a1, a2, a3, -⟩ := hv.logged _ hx
  obtain ⟨_, c1, -, -, d1, -, d3, d4⟩ := hv.host _ _ _ a1
  rw [a2, hc] at d1
  injection d1 with d1
  subst d1
  have hord := (hv.ordered _ _ _ a1).2 (by rw [← d4]; exact ho)
  obtain ⟨_, _, _, _, _, _, _, _, _, _, _, hpos⟩ := hv.packets p hp
  have h2 := (hord _).1 ⟨_, a3⟩
  have h3 := UInt64.lt_iff_toNat_lt.1 hlt
  obtain ⟨ack, hack⟩ := (hord p.sequence).2 ⟨hpos, by omega⟩
  obtain ⟨p', l1, l2, l3, l4, l5⟩ := hv.acked _ _ _ _ _ a1 hack
  have : p' = p := hv.unique l1 hp (by rw [l2, a2, hsrc]) l3
  subst this
  rcases l5 with ⟨e', l5, l6, -⟩ | ⟨err, l5⟩
  · exact .inl ⟨e', l5, l6⟩
  · exact .inr ⟨_, _, _, a1, hack, l5⟩

/-! ## Nothing gets stuck -/

/-- **C85.** A host can take up every proposal of the contract that names the right connection. -/
theorem C85_can_try {api : Api} {env : Env} {n0 n : Net} {h : List (NetOp × List Obs)} (h0 : n0.Initial env)
    (he : NetExec api n0 h n) {id : String} {c : ChainChan} (hc : n.w.chans id = some c) (hst : c.status = .init)
    {conn : String} (hconn : c.chan.connectionId = conn)
    {m : IcaMetadata} (hm : IcaMetadata.parse c.chan.version = some m)
    (hname : m.hostConnectionId = (n.hosts conn).connection)
    {hid a : String} (hid' : (n.hosts conn).chans hid = none) (ha : a ≠ "")
    (hacc : (n.hosts conn).account = none ∨ (n.hosts conn).account = some a) :
    ∃ v n', NetStep api n (.hostOpenTry conn hid c.chan v a) n' [] ∧
      (n'.hosts conn).account = some a ∧ ∃ hc, (n'.hosts conn).chans hid = some hc ∧
        hc.controller = c.chan.endpoint ∧ hc.order = c.chan.order ∧ hc.version = v ∧
        jsonOfString v = some (answeredMetadata conn (n.hosts conn).connection a) := by
  have hv := ninv_exec h0 he
  have hp := hv.waiting id c hc hst
  obtain ⟨cc, -, -, -, -, addr, o, ho⟩ := hv.proposed _ hp
  have hver : c.chan.version = proposalVersion o := by rw [ho]; rfl
  have hcn : o.connectionId = conn := by rw [← hconn, ho]; rfl
  have hjson : jsonOfString c.chan.version = some (proposedMetadata conn (n.hosts conn).connection) := by
    rw [hver, proposalVersion, parse_display] at hm
    injection hm with hm
    have : o.counterpartyConnectionId = (n.hosts conn).connection := by rw [← hname, ← hm]; rfl
    rw [hver, proposalVersion_json, hcn, this]
  obtain ⟨v, hans⟩ : ∃ v, jsonOfString v = some (answeredMetadata conn (n.hosts conn).connection a) := by
    refine ⟨IcaMetadata.display ⟨"ics27-1", conn, (n.hosts conn).connection, a, .protobuf, "sdk_multi_msg"⟩, ?_⟩
    unfold IcaMetadata.display JC.toStr
    rw [jsonOfString_toString]
    rfl
  refine ⟨_, _, .hostOpenTry conn hid c.chan _ a hp hconn (hv.inv.chans _ _ hc).2 hid' hjson hans ha hacc, ?_,
    ⟨c.chan.endpoint, c.chan.order, v, .tryOpen, 1, fun _ => none⟩, ?_, rfl, rfl, rfl, hans⟩
  · dsimp only; rw [setHost_same]; rfl
  · dsimp only; rw [setHost_same]; simp [HostSide.setChan]

/-- **C85.** The contract accepts what a conforming host answered, as long as the address of the account is one the
contract takes for an address. -/
theorem C85_can_open {api : Api} {env : Env} {n0 n : Net} {h : List (NetOp × List Obs)} (h0 : n0.Initial env)
    (he : NetExec api n0 h n) {id : String} {c : ChainChan} (hc : n.w.chans id = some c) (hst : c.status = .init)
    {conn hid : String} {hch : HostChan} (hh : (n.hosts conn).chans hid = some hch)
    (hctl : hch.controller = c.chan.endpoint) {a : String} (hacc : (n.hosts conn).account = some a)
    (hne : a ≠ "") (hlen : (utf8 a).length ≤ 128)
    (halnum : ∀ c ∈ a.toList, ('0' ≤ c ∧ c ≤ '9') ∨ ('A' ≤ c ∧ c ≤ 'Z') ∨ ('a' ≤ c ∧ c ≤ 'z')) :
    ∃ n' obs ch, NetStep api n (.ctrl (.relayOpenAck id hid hch.version)) n' obs ∧ ChainOpen n'.w id ch ∧
      Reports n'.w ch .opened ∧ icaOf n'.w = some ⟨a, id, .protobuf⟩ := by
  have hv := ninv_exec h0 he
  obtain ⟨a', c', k1, k2, k3, k4, k5, k6⟩ := hv.host _ _ _ hh
  rw [hacc] at k1
  injection k1 with k1
  subst k1
  obtain ⟨e1, e2⟩ := hv.inv.chans _ _ hc
  rw [hctl, e1, hc] at k3
  injection k3 with k3
  subst k3
  obtain ⟨st, hs⟩ := hv.inv.state (hv.inv.live_of_chan hc)
  have hm := parse_answered k2
  have hok : MetaOk api ⟨"ics27-1", conn, (n.hosts conn).connection, a, .protobuf, "sdk_multi_msg"⟩ c.chan.connectionId := by
    rw [metaOk_iff]
    refine ⟨rfl, k5.symm, rfl, rfl, .inr ⟨hlen, fun x hx => ?_⟩⟩
    rcases halnum x hx with h | h | h
    · exact .inl h
    · exact .inr (.inl h)
    · exact .inr (.inr (.inl h))
  have hport : c.chan.endpoint.portId ≠ "icahost" := by
    rw [e1]
    exact portOf_ne_icahost _
  refine ⟨_, _, _, .ctrl _ _ _ ⟨c, hch, hc, by rw [k5]; exact hh, hctl, k6.symm, rfl⟩
    (apply_openAck.2 ⟨c, st, _, hc, hst, hs, hport, hm, hok, hne, rfl, rfl⟩), ?_, rfl, ?_⟩
  · simp only [Net.moved, ChainOpen, setChan_same]
  · simp [Net.moved, icaOf, e1]

theorem readQueryAnswer_last {res : Bytes} {rs : List (String × Bytes)} (h : readTxMsgData res = some rs)
    {r : String × Bytes} (hr : rs.getLast? = some r) : readQueryAnswer res = readSafeResponse r.2 := by
  have h1 : readQueryAnswer res = (readTxMsgData res).bind fun as => as.getLast?.bind fun last => readSafeResponse last.2 := by
    unfold readQueryAnswer readTxMsgData readSafeResponse
    simp only [bind, Option.bind_assoc]
  rw [h1, h, Option.bind_some, hr, Option.bind_some]

theorem forall₂_getLast {α β : Type} {R : α → β → Prop} {l : List α} {l' : List β} (h : List.Forall₂ R l l') {x : α}
    (hx : l.getLast? = some x) : ∃ y, l'.getLast? = some y ∧ R x y := by
  induction h with
  | nil => cases hx
  | @cons a b l l' hab ht ih =>
    cases ht with
    | nil => simp at hx; subst hx; exact ⟨b, rfl, hab⟩
    | cons h1 h2 =>
      rw [List.getLast?_cons_cons] at hx
      obtain ⟨y, y1, y2⟩ := ih hx
      exact ⟨y, by rw [List.getLast?_cons_cons]; exact y1, y2⟩

/-- **C86.** The answers to the queries of an executed packet: the host read exactly the queries asked for, in order, and
the response holds one answer for each of them, at the height of the block in which the packet was executed. -/
theorem C86_answered_at_height {api : Api} {env : Env} {n0 n : Net} {h : List (NetOp × List Obs)} (h0 : n0.Initial env)
    (he : NetExec api n0 h n) {e : Executed} (hx : e ∈ n.log) {qs : List QueryRequest}
    (hs : Sent (onController h) e.packet qs) (hq : qs ≠ []) {res : Bytes} (hr : readTxMsgData res = some e.responses) :
    ∃ url value reqs answers, e.messages.getLast? = some (url, value) ∧
      readHostMsg url value = some (.moduleQuerySafe e.account reqs) ∧ List.Forall₂ QueryReads qs reqs ∧
      readQueryAnswer res = some (e.height, answers) ∧ answers.length = qs.length := by
  have hv := ninv_exec h0 he
  obtain ⟨s, ms, qs', memo, t, f, co, m1, l, last, m2, -, m4⟩ := C82_only_asked h0 he hx
  have hqs : qs' = qs := (sent_unique hv.exec _ _ _ _ ⟨s, ms, memo, t, f, co, m1⟩ hs rfl rfl).2
  subst hqs
  rcases m4 with ⟨m4, -⟩ | ⟨-, url, value, reqs, rfl, m5, m6⟩
  · exact absurd m4 hq
  · obtain ⟨-, -, -, ⟨-, k4⟩, -⟩ := hv.logged e hx
    have hlast : e.messages.getLast? = some (url, value) := by rw [m2]; simp
    obtain ⟨r, r1, r2⟩ := forall₂_getLast k4 hlast
    obtain ⟨answers, a1, a2⟩ := r2 _ _ m5
    exact ⟨url, value, reqs, answers, hlast, m5, m6, by rw [readQueryAnswer_last hr r1]; exact a1,
      by rw [a2, ← m6.length_eq]⟩

/-- **C85.** The contract accepts every acknowledgement a conforming host wrote, as long as the channel is open (on an
ordered channel: when its turn has come). -/
theorem C85_can_acknowledge {api : Api} {env : Env} {n0 n : Net} {h : List (NetOp × List Obs)} (h0 : n0.Initial env)
    (he : NetExec api n0 h n) {id : String} {k : UInt64} {p : IbcPacket} (hp : n.w.commits id k = some p)
    {ch : IbcChannel} (hc : ChainOpen n.w id ch) {hch : HostChan} {ack : Bytes}
    (hh : (n.hosts ch.connectionId).chans ch.counterpartyEndpoint.channelId = some hch) (ha : hch.acks k = some ack)
    (ho : ch.order = .ordered → ∀ j < k, n.w.commits id j = none) (relayer : String) : ∃ n' obs, NetStep api n (.ctrl (.relayAck id k ack relayer)) n' obs := by
  have hv := ninv_exec h0 he
  obtain ⟨s1, s2, s3⟩ := commits_chan hv hp
  obtain ⟨qs, hs⟩ := (hv.sentIff p).1 s1
  obtain ⟨cp, _, _, _, n1, n2, n3, n4, -⟩ := hv.packets p s1
  rw [s2, show n.w.chans id = _ from hc] at n1
  injection n1 with n1
  subst n1
  have hh' : (n.hosts ch.connectionId).chans p.dest.channelId = some hch := by rw [n4]; exact hh
  have hok : ∃ a, readAck ack = some a ∧ ∀ res, a = .result res → qs ≠ [] → (readQueryAnswer res).isSome := by
    obtain ⟨p2, l1, l2, l3, l4, l5⟩ := hv.acked _ _ _ _ _ hh ha
    rcases l5 with ⟨e, l5, l6, l7, l8⟩ | ⟨err, l5⟩
    · obtain ⟨-, -, -, -, hc', ack', k5, k6, k7, k8⟩ := hv.logged e l5
      rw [l7, l8, hh] at k5
      injection k5 with k5
      subst k5
      rw [l6, l3, ha] at k7
      injection k7 with k7
      subst k7
      obtain ⟨hl, o1, o2, -⟩ := hv.linked _ _ hc (fun x => (by cases x))
      rw [hh] at o1
      injection o1 with o1
      subst o1
      have : e.packet = p := hv.unique (l6 ▸ l1) s1 (by rw [l6, l2, o2, ← n3]) (by rw [l6, l3, s3])
      obtain ⟨res, r1, r2⟩ := k8
      refine ⟨_, r1, ?_⟩
      intro res' hres hq
      injection hres with hres
      subst hres
      obtain ⟨_, _, _, answers, -, -, -, b, -⟩ := C86_answered_at_height h0 he l5 (this ▸ hs) hq r2
      rw [b]; rfl
    · exact ⟨_, l5, fun res hres => (by cases hres)⟩
  obtain ⟨w', obs, hcm⟩ := (C42_processed_iff hv.exec hp hc hs ack relayer).2 hok
  exact ⟨_, _, .ctrl _ w' obs ⟨_, p, hch, hc, hp, hh', ha, ho⟩ hcm⟩

/-- **C85.** The contract accepts every timeout that light clients show, whether the channel is open or not. -/
theorem C85_can_time_out {api : Api} {env : Env} {n0 n : Net} {h : List (NetOp × List Obs)} (h0 : n0.Initial env)
    (he : NetExec api n0 h n) {id : String} {k : UInt64} (relayer : String)
    (hp : Proven n (.relayTimeout id k relayer)) :
    ∃ n' obs, NetStep api n (.ctrl (.relayTimeout id k relayer)) n' obs := by
  have hv := ninv_exec h0 he
  obtain ⟨c, p, hc, h1, h2, -⟩ := (show _ ∧ _ from ⟨hp, trivial⟩).1
  obtain ⟨st, hst⟩ := hv.inv.state (hv.inv.live_of_chan h1)
  obtain ⟨s1, s2, s3⟩ := commits_chan hv h2
  obtain ⟨qs, s, ms, memo, t, f, co, hm⟩ := (hv.sentIff p).1 s1
  obtain ⟨l1, l2, e1⟩ := List.append_of_mem hm
  obtain ⟨w1, f1, f2⟩ := hv.exec.split l1 _ e1
  obtain ⟨w2, f3, f4⟩ := f2.split [_] l2 rfl
  obtain ⟨w3, f5, f6⟩ := Exec.concat_inv (h := []) f3
  obtain ⟨info, _, g1, -⟩ := C27_host_reads f6
  obtain ⟨i, hi⟩ := C15_ica_never_unset ⟨env, _, f1.append f5⟩ ((Exec.step (h := []) .nil f6).append f4) ⟨_, g1⟩
  obtain ⟨ch, stt, hr⟩ := (C15_ica_iff_channel ⟨env, _, hv.exec⟩).1 ⟨_, hi⟩
  exact ⟨_, _, .ctrl _ _ _ hp (apply_timeout.2 ⟨p, c, st, _, h2, h1, hst, hr, rfl, rfl⟩)⟩

/-- **C85.** A host finds the messages of every packet signed by the account, provided the owner's own stargate messages
are: the rest is the contract's work. -/
theorem C85_authentic {h : List (Op × List Obs)} {p : IbcPacket} {a : String} {messages : List (String × Bytes)}
    (hm : AskedFor h p a messages) (hs : ∀ sender ms qs memo t fresh core url value,
      (Op.execute sender (.sendCosmosMsgs ms qs memo t) fresh core, [Obs.packetSent p]) ∈ h →
      CosmosMsg.stargate url value ∈ ms → Authentic a [(url, value)]) : Authentic a messages := by
  obtain ⟨s, ms, qs, memo, t, f, co, m1, l, last, rfl, m3, m4⟩ := hm
  have hs := fun url value => hs _ _ _ _ _ _ _ url value m1
  have hl : Authentic a l := by
    clear m1 m4
    induction m3 with
    | nil => intro m hm; cases hm
    | @cons m x ms l hx _ ih =>
      intro y hy z hz
      rcases List.mem_cons.1 hy with rfl | hy
      · by_cases e : ∃ u v, m = .stargate u v
        · obtain ⟨u, v, rfl⟩ := e
          have e2 : y = (u, v) := hx
          subst e2
          exact hs u v (List.mem_cons_self ..) _ (List.mem_singleton.2 rfl) _ hz
        · have hr : ∃ h, denotes a m = some h ∧ readHostMsg y.1 y.2 = some h := by
            cases m with
            | stargate u v => exact absurd ⟨u, v, rfl⟩ e
            | _ => exact hx
          obtain ⟨x, h1, h2⟩ := hr
          rw [hz] at h2
          injection h2 with h2
          subst h2
          exact denotes_signer h1
      · exact ih (fun u v hu => hs u v (List.mem_cons_of_mem _ hu)) _ hy _ hz
  intro m hm z hz
  rcases List.mem_append.1 hm with hm | hm
  · exact hl m hm z hz
  · rcases m4 with ⟨-, rfl⟩ | ⟨-, u, v, reqs, rfl, h1, -⟩
    · cases hm
    · rw [List.mem_singleton] at hm
      subst hm
      rw [h1] at hz
      injection hz with hz
      subst hz
      rfl

theorem readTxMsgData_toBytes (rs : List (String × Bytes)) :
    readTxMsgData (P.TxMsgData.toBytes ⟨[], rs.map fun a => ⟨a.1, a.2⟩⟩) = some rs := by
  have h := P.TxMsgData.ofBytes_toBytes ⟨[], rs.map fun a => ⟨a.1, a.2⟩⟩
  have hr : ∀ res, readTxMsgData res = ((parseWire res).bind fun tx => ((dMsgs (sel 1 tx)).bind (readAll readMsgData)).bind
    fun _ => (dMsgs (sel 2 tx)).bind (readAll readAny)) := fun _ => rfl
  rcases toTxMsgData_eq (res := P.TxMsgData.toBytes ⟨[], rs.map fun a => ⟨a.1, a.2⟩⟩) with ⟨t, h1, h2⟩ | ⟨⟨e, h1⟩, -⟩
  · rw [hr, h2]
    unfold toTxMsgData at h1
    dsimp only at h1
    rw [h] at h1
    injection h1 with h1
    subst h1
    simp [Function.comp_def]
  · unfold toTxMsgData at h1
    dsimp only at h1
    rw [h] at h1
    cases h1

theorem readSafeResponse_toBytes (m : P.MsgModuleQuerySafeResponse) :
    readSafeResponse m.toBytes = some (m.height, m.responses) := by
  have h := P.MsgModuleQuerySafeResponse.ofBytes_toBytes m
  unfold P.MsgModuleQuerySafeResponse.ofBytes at h
  unfold readSafeResponse
  cases hp : parseWire m.toBytes with
  | none => rw [hp] at h; cases h
  | some fs =>
    rw [hp] at h
    simp only [Option.bind_some, P.MsgModuleQuerySafeResponse.dec, bind] at h ⊢
    cases hd : dU64 (sel 1 fs) with
    | none => rw [hd] at h; cases h
    | some x =>
      rw [hd] at h
      cases hr : dBytess (sel 2 fs) with
      | none => rw [hr] at h; cases h
      | some as =>
        rw [hr] at h
        simp only [Option.some.injEq] at h
        subst h
        rfl

theorem responses_exist (height : UInt64) (ms : List (String × Bytes)) : ∃ rs, List.Forall₂ (Responds height) ms rs := by
  refine forall₂_exists fun m _ => ?_
  cases hr : readHostMsg m.1 m.2 with
  | none => exact ⟨("", []), fun s r h => by rw [hr] at h; cases h⟩
  | some x =>
    by_cases e : ∃ s r, x = .moduleQuerySafe s r
    · obtain ⟨s, r, rfl⟩ := e
      refine ⟨("", P.MsgModuleQuerySafeResponse.toBytes ⟨height, r.map fun _ => []⟩), ?_⟩
      intro s' r' h
      rw [hr] at h
      injection h with h
      injection h with _ h
      subst h
      exact ⟨_, readSafeResponse_toBytes _, by simp⟩
    · refine ⟨("", []), fun s r h => ?_⟩
      rw [hr] at h
      injection h with h
      exact absurd ⟨s, r, h⟩ e

/-- **C85.** Every packet the contract sent can be executed by the host, as long as the channel is open there, the packet
is in time, not yet received and next in order, and the owner's own stargate messages are signed by the account. -/
theorem C85_can_execute {api : Api} {env : Env} {n0 n : Net} {h : List (NetOp × List Obs)} (h0 : n0.Initial env)
    (he : NetExec api n0 h n) {conn hid : String} {hch : HostChan} (hh : (n.hosts conn).chans hid = some hch)
    (hopen : hch.status = .opened) {p : IbcPacket} (hp : p ∈ n.sent) (hsrc : p.src = hch.controller)
    (hdst : p.dest = ⟨"icahost", hid⟩) (htime : ¬ Elapsed (n.hosts conn) p.timeout)
    (hnew : hch.acks p.sequence = none) (hord : hch.order = .ordered → p.sequence.toNat = hch.nextRecv)
    (hs : ∀ a, (n.hosts conn).account = some a → ∀ sender ms qs memo t fresh core url value,
      (Op.execute sender (.sendCosmosMsgs ms qs memo t) fresh core, [Obs.packetSent p]) ∈ onController h →
      CosmosMsg.stargate url value ∈ ms → Authentic a [(url, value)]) :
    ∃ rs ack n' e, NetStep api n (.hostReceive conn hid p (.ok rs) ack) n' [] ∧ n'.log = n.log ++ [e] ∧ e.packet = p ∧
      e.responses = rs := by
  have hv := ninv_exec h0 he
  obtain ⟨c, a, memo, ms, m1, m2, m3, m4, m5, m6, m7, m8⟩ := hv.packets p hp
  obtain ⟨a', c', q1, q2, q3, q4, q5, q6⟩ := hv.host _ _ _ hh
  rw [← hsrc, m1] at q3
  injection q3 with q3
  subst q3
  rw [q5] at m5
  obtain ⟨rs, hrs⟩ := responses_exist (n.hosts conn).height ms
  refine ⟨rs, AckData.jc.toBytes (.result (P.TxMsgData.toBytes ⟨[], rs.map fun a => ⟨a.1, a.2⟩⟩)), _, _,
    .execute conn hid hch p _ a memo ms rs hh hopen hp hsrc hdst htime hnew hord m5 m6
      (C85_authentic m7 (hs a m5)) hrs ⟨_, ?_, readTxMsgData_toBytes rs⟩, rfl, rfl, rfl⟩
  rw [readAck_eq]
  exact JC.ofBytes_toBytes AckData.jc_law _

/-- **C86.** The callback for a packet whose queries the host answered reports the host's answers, one for each query in
order, and the height of the host's block in which they were given. -/
theorem C86_reported {api : Api} {env : Env} {n0 n n' : Net} {h : List (NetOp × List Obs)} (h0 : n0.Initial env)
    (he : NetExec api n0 h n) {e : Executed} (hx : e ∈ n.log) {qs : List QueryRequest}
    (hs : Sent (onController h) e.packet qs) (hq : qs ≠ []) {r : String × Bytes} (hr : e.responses.getLast? = some r)
    {l : List (Bytes × IcaQueryResponse)} {height : UInt64} (hl : readSafeResponse r.2 = some (height, l.map (·.1)))
    (ha : List.Forall₂ (fun q x => Answered q x.1 x.2) qs l) {ack : Bytes} {relayer : String} {obs : List Obs}
    (hst : NetStep api n (.ctrl (.relayAck e.packet.src.channelId e.packet.sequence ack relayer)) n' obs) {cb : String}
    (hcb : callbackOf n.w = some cb) :
    height = e.height ∧ ∃ res, readTxMsgData res = some e.responses ∧
      CalledBack obs cb
        (.onAcknowledgementPacketCallback (.result res) e.packet relayer (some (.success e.height (l.map (·.2))))) := by
  have hv := ninv_exec h0 he
  cases hst with
  | ctrl op w' obs hp hap =>
    obtain ⟨c, p, hc, h1, h2, h3, h4, -⟩ := hp
    obtain ⟨s1, s2, s3⟩ := commits_chan hv h2
    have hpe : p = e.packet := hv.unique s1 (hv.logged e hx).1 s2 s3
    subst hpe
    obtain ⟨hc', ack', k1, k2, k3⟩ := same_channel hv hx h1
    rw [h3] at k1
    injection k1 with k1
    subst k1
    rw [h4] at k2
    injection k2 with k2
    subst k2
    obtain ⟨res, r1, r2⟩ := k3
    obtain ⟨_, _, _, answers, -, -, -, b, -⟩ := C86_answered_at_height h0 he hx hs hq r2
    rw [readQueryAnswer_last r2 hr] at b
    rw [hl] at b
    injection b with b
    injection b with b b'
    subst b
    exact ⟨rfl, res, r2, C39_reported hv.exec hap r1 hs rfl rfl hq hcb (by rw [readQueryAnswer_last r2 hr]; exact hl) ha⟩

/-! ## The scenario with its host -/

namespace Ex

/-- The host of the scenario's connection. -/
def host0 : HostSide := ⟨"connection-7", 76, 1700000000000000000, none, fun _ => none⟩
/-- Nothing has happened. -/
def net0 : Net := ⟨w0, fun _ => host0, [], [], []⟩
theorem initial0 : net0.Initial env where
  w := rfl
  account _ := rfl
  chans _ _ := rfl
  proposed := rfl
  sent := rfl
  log := rfl

/-- The contract is instantiated. -/
def net1 : Net := net0.moved (.instantiate "deployer" inst "channel-0" true) w1 [.channelCreated "channel-0"]
theorem ns1 : NetStep api net0 (.ctrl (.instantiate "deployer" inst "channel-0" true)) net1 [.channelCreated "channel-0"] :=
  .ctrl _ _ _ trivial ((apply_iff_step (inv_of_reachable r0)).2 s1)
theorem proposed1 : net1.proposed = [prop "channel-0" opts] := by
  simp [net1, Net.moved, net0, newChans, w1, eInst, setChan]
  rfl
theorem sent1 : net1.sent = [] := by
  simp [net1, Net.moved, net0, sentPackets]

/-- The host's end. -/
def hchan (v : String) : HostChan := ⟨(prop "channel-0" opts).endpoint, .ordered, v, .tryOpen, 1, fun _ => none⟩
/-- The host takes up the proposal. -/
def net2 : Net :=
  { net1 with hosts := setHost net1.hosts "connection-0" (((net1.hosts "connection-0").setAccount "cosmos1ica").setChan
    "channel-5" (hchan ver)) }
theorem verJson : jsonOfString ver = some (answeredMetadata "connection-0" "connection-7" "cosmos1ica") := by
  unfold ver IcaMetadata.display JC.toStr
  rw [jsonOfString_toString]
  rfl
theorem ns2 : NetStep api net1 (.hostOpenTry "connection-0" "channel-5" (prop "channel-0" opts) ver "cosmos1ica") net2 [] :=
  .hostOpenTry "connection-0" "channel-5" (prop "channel-0" opts) ver "cosmos1ica"
    (by rw [proposed1]; exact List.mem_singleton.2 rfl) rfl rfl rfl (proposalVersion_json opts) verJson
    (by decide) (.inl rfl)

theorem host2 : (net2.hosts "connection-0").chans "channel-5" = some (hchan ver) := by
  simp [net2, setHost, HostSide.setChan]
/-- The controller opens. -/
def net3 : Net := net2.moved (.relayOpenAck "channel-0" "channel-5" ver) w2
  (callObs (some "cb") (.onChannelOpenAckCallback (chan "channel-0" opts) "cosmos1ica" .protobuf))
theorem ns3 : NetStep api net2 (.ctrl (.relayOpenAck "channel-0" "channel-5" ver)) net3
    (callObs (some "cb") (.onChannelOpenAckCallback (chan "channel-0" opts) "cosmos1ica" .protobuf)) :=
  .ctrl _ _ _ ⟨⟨prop "channel-0" opts, .init⟩, hchan ver, by show w1.chans _ = _; simp [w1, eInst, setChan]; rfl,
    host2, rfl, rfl, rfl⟩ ((apply_iff_step (inv_of_reachable r1)).2 s2)

/-- The host opens. -/
def net4 : Net :=
  { net3 with hosts := setHost net3.hosts "connection-0" ((net3.hosts "connection-0").setChan "channel-5"
    { hchan ver with status := .opened }) }
theorem chan2 : w2.chans "channel-0" = some ⟨chan "channel-0" opts, .opened⟩ := by
  simp [w2, eAck, setChan]; rfl
theorem ns4 : NetStep api net3 (.hostOpenConfirm "connection-0" "channel-5") net4 [] :=
  .hostOpenConfirm "connection-0" "channel-5" (hchan ver) ⟨chan "channel-0" opts, .opened⟩ host2 rfl chan2
    (fun h => by cases h) rfl

/-- The owner sends. -/
def net5 : Net := net4.moved (.execute "alice" (.sendCosmosMsgs msgs qs (some "hi") none) "" true) w3 [.packetSent pkt]
theorem ns5 : NetStep api net4 (.ctrl (.execute "alice" (.sendCosmosMsgs msgs qs (some "hi") none) "" true)) net5
    [.packetSent pkt] := .ctrl _ _ _ trivial ((apply_iff_step (inv_of_reachable r2)).2 s3)

/-- The history so far. -/
def nh5 : List (NetOp × List Obs) :=
  [(.ctrl (.instantiate "deployer" inst "channel-0" true), [.channelCreated "channel-0"]),
   (.hostOpenTry "connection-0" "channel-5" (prop "channel-0" opts) ver "cosmos1ica", []),
   (.ctrl (.relayOpenAck "channel-0" "channel-5" ver),
    callObs (some "cb") (.onChannelOpenAckCallback (chan "channel-0" opts) "cosmos1ica" .protobuf)),
   (.hostOpenConfirm "connection-0" "channel-5", []),
   (.ctrl (.execute "alice" (.sendCosmosMsgs msgs qs (some "hi") none) "" true), [.packetSent pkt])]
theorem ne5 : NetExec api net0 nh5 net5 :=
  .step (h := [_, _, _, _]) (.step (h := [_, _, _]) (.step (h := [_, _]) (.step (h := [_]) (.step (h := []) .nil ns1) ns2)
    ns3) ns4) ns5

/-- A new block of the host. -/
def net6 : Net := { net5 with hosts := setHost net5.hosts "connection-0" ((net5.hosts "connection-0").setBlock 77 1700000060000000000) }
theorem ns6 : NetStep api net5 (.hostBlock "connection-0" 77 1700000060000000000) net6 [] :=
  .hostBlock _ _ _ (by decide +kernel) (by decide +kernel)
/-- With it. -/
def nh6 : List (NetOp × List Obs) := nh5 ++ [(.hostBlock "connection-0" 77 1700000060000000000, [])]
theorem ne6 : NetExec api net0 nh6 net6 := .step ne5 ns6

/-- The host's end, open. -/
def hopen : HostChan := { hchan ver with status := .opened }
theorem host6 : (net6.hosts "connection-0").chans "channel-5" = some hopen := by
  simp [net6, net5, net4, net3, Net.moved, setHost, HostSide.setChan, HostSide.setBlock, hopen]
theorem account6 : (net6.hosts "connection-0").account = some "cosmos1ica" := by
  simp [net6, net5, net4, net3, net2, Net.moved, setHost, HostSide.setChan, HostSide.setBlock, HostSide.setAccount]
theorem block6 : (net6.hosts "connection-0").height = 77 ∧ (net6.hosts "connection-0").time = 1700000060000000000 := by
  constructor <;> simp [net6, net5, setHost, HostSide.setBlock]
theorem sent6 : net6.sent = [pkt] := by
  have : net6.sent = net1.sent ++ sentPackets [(Op.relayOpenAck "channel-0" "channel-5" ver,
    callObs (some "cb") (.onChannelOpenAckCallback (chan "channel-0" opts) "cosmos1ica" .protobuf))] ++ [pkt] := rfl
  rw [this, sent1]
  rfl
theorem log6 : net6.log = [] := rfl
theorem inTime6 : ¬ Elapsed (net6.hosts "connection-0") pkt.timeout := by
  rintro (⟨ts, a, -, b⟩ | ⟨b, a, -⟩)
  · injection a with a
    subst a
    rw [block6.2] at b
    revert b
    decide +kernel
  · cases a

theorem send_of_h3 {s : String} {ms : List CosmosMsg} {q : List QueryRequest} {memo : Option String}
    {t : Option UInt64} {f : String} {co : Bool} {o : List Obs}
    (h : (Op.execute s (.sendCosmosMsgs ms q memo t) f co, o) ∈ h3) : ms = msgs := by
  simp only [h3, h2, List.cons_append, List.nil_append, List.mem_cons, Prod.mk.injEq, reduceCtorEq, false_and, false_or,
    List.not_mem_nil, or_false, Op.execute.injEq, ExecuteMsg.sendCosmosMsgs.injEq] at h
  exact h.1.2.1.1

theorem obs_of_h3 {s : String} {ms : List CosmosMsg} {q : List QueryRequest} {memo : Option String}
    {t : Option UInt64} {f : String} {co : Bool} {p : IbcPacket}
    (h : (Op.execute s (.sendCosmosMsgs ms q memo t) f co, [Obs.packetSent p]) ∈ h3) : p.sequence = 1 := by
  simp only [h3, h2, List.cons_append, List.nil_append, List.mem_cons, Prod.mk.injEq, reduceCtorEq, false_and, false_or,
    List.not_mem_nil, or_false, List.cons.injEq, Obs.packetSent.injEq, and_true] at h
  rw [h.2]
  rfl

/-- The packet is the host's to execute: its messages are there, signed by the account. -/
theorem readable6 : ∃ l last, readPacket pkt.data = some ⟨1, some "hi", l ++ last⟩ ∧
    AskedFor (onController nh6) pkt "cosmos1ica" (l ++ last) ∧ Authentic "cosmos1ica" (l ++ last) ∧
    ∃ a b c reqs, l ++ last = [a, b, c] ∧ readHostMsg c.1 c.2 = some (.moduleQuerySafe "cosmos1ica" reqs) ∧
      reqs.length = 2 ∧ (∀ s r, readHostMsg a.1 a.2 ≠ some (.moduleQuerySafe s r)) ∧
      ∀ s r, readHostMsg b.1 b.2 ≠ some (.moduleQuerySafe s r) := by
  obtain ⟨info, p, h1, h2, l, last, h3, h4, h5⟩ := C27_host_reads ((apply_iff_step (inv_of_reachable r2)).2 s3)
  have e1 : info = Ex.info "channel-0" := by injection h1 with h1; exact h1.symm
  have e2 : p = pkt := by simp at h2; exact h2.symm
  subst e1 e2
  have hask : AskedFor (onController nh6) pkt "cosmos1ica" (l ++ last) :=
    ⟨"alice", msgs, qs, some "hi", none, "", true, by simp [onController, nh6, nh5], l, last, rfl, h4, h5⟩
  refine ⟨l, last, h3, hask, ?_, ?_⟩
  · refine C85_authentic hask ?_
    intro s ms' qs' memo t f co url value hm hsg
    have hms : ms' = msgs := by
      rw [show onController nh6 = Ex.h3 from rfl] at hm
      simpa using send_of_h3 hm
    subst hms
    simp only [msgs, List.mem_cons, CosmosMsg.stargate.injEq, reduceCtorEq, false_or, List.not_mem_nil, or_false] at hsg
    obtain ⟨rfl, rfl⟩ := hsg
    intro m hm x hx
    rw [List.mem_singleton] at hm
    subst hm
    have : readHostMsg "/x.Y" [1, 2] = none := by decide +kernel
    rw [this] at hx
    cases hx
  · rcases h5 with ⟨h5, _⟩ | ⟨_, u, v, rs, h5, h6, h7⟩
    · cases h5
    · cases h4 with
      | cons ha hb =>
        cases hb with
        | cons hb hd =>
          cases hd
          obtain ⟨h, hh, hr⟩ := ha
          injection hh with hh
          subst hh
          refine ⟨_, _, (u, v), rs, by rw [h5]; rfl, h6, h7.length_eq.symm, ?_, ?_⟩
          · intro s r hx
            rw [hr] at hx
            cases hx
          · intro s r hx
            rw [show _ = _ from hb] at hx
            have : readHostMsg "/x.Y" [1, 2] = none := by decide +kernel
            rw [this] at hx
            cases hx

/-- The responses in the acknowledgement. -/
def rsps : List (String × Bytes) :=
  [("/cosmos.bank.v1beta1.MsgSendResponse", []), ("/x.YResponse", []),
   ("/ibc.applications.interchain_accounts.host.v1.MsgModuleQuerySafeResponse", qresp.toBytes)]

theorem okRsps : readTxMsgData okRes = some rsps := readTxMsgData_toBytes rsps
theorem okSays : AckSays okAck (.ok rsps) := ⟨okRes, okAckRead, okRsps⟩
theorem okSafe : readSafeResponse qresp.toBytes = some (77, [ans1.bytes, [9]]) := by
  rw [← okAnswer]
  exact (readQueryAnswer_last okRsps (r := (_, qresp.toBytes)) rfl).symm

/-- The host executes the packet. -/
theorem run : ∃ ms n7, NetStep api net6 (.hostReceive "connection-0" "channel-5" pkt (.ok rsps) okAck) n7 [] ∧
    n7.w = w3 ∧ n7.log = [⟨"connection-0", "channel-5", pkt, 77, "cosmos1ica", ms, rsps⟩] ∧ n7.sent = [pkt] ∧
    n7.hosts "connection-0" = (net6.hosts "connection-0").setChan "channel-5" (hopen.receive 1 okAck) := by
  obtain ⟨l, last, h1, h2, h3, a, b, c, reqs, h4, h5, h6, h7, h8⟩ := readable6
  rw [h4] at h1 h3
  refine ⟨[a, b, c], _, .execute "connection-0" "channel-5" hopen pkt okAck "cosmos1ica" (some "hi") [a, b, c] rsps host6 rfl
    (by rw [sent6]; exact List.mem_singleton.2 rfl) rfl rfl inTime6 rfl (fun _ => rfl) account6 h1 h3 ?_ okSays, rfl, ?_,
    sent6, ?_⟩
  · refine .cons ?_ (.cons ?_ (.cons ?_ .nil))
    · intro s r hx; exact absurd hx (h7 s r)
    · intro s r hx; exact absurd hx (h8 s r)
    · intro s r hx
      rw [h5] at hx
      injection hx with hx
      injection hx with _ hx
      subst hx
      exact ⟨[ans1.bytes, [9]], by rw [block6.1]; exact okSafe, h6.symm⟩
  · rw [block6.1]; rfl
  · dsimp only; rw [setHost_same]; rfl

/-- The history up to the execution. -/
def nh7 : List (NetOp × List Obs) := nh6 ++ [(.hostReceive "connection-0" "channel-5" pkt (.ok rsps) okAck, [])]

/-- After the acknowledgement: the whole round. -/
theorem round : ∃ n7 n8, NetExec api net0 nh7 n7 ∧ NetStep api n7 (.ctrl (.relayAck "channel-0" 1 okAck "relayer")) n8
    (.event (ackSuccessEvent pkt okRes) :: callObs (some "cb")
      (.onAcknowledgementPacketCallback (.result okRes) pkt "relayer" (some okResult))) ∧
    n7.w = w3 ∧ (∃ e ∈ n7.log, e.packet = pkt ∧ e.height = 77 ∧ e.account = "cosmos1ica" ∧ e.responses = rsps) ∧
    ∃ hc, (n7.hosts "connection-0").chans "channel-5" = some hc ∧ hc.acks 1 = some okAck := by
  obtain ⟨ms, n7, h1, h2, h3, h4, h5⟩ := run
  have hc : (n7.hosts "connection-0").chans "channel-5" = some (hopen.receive 1 okAck) := by
    rw [h5]; simp [HostSide.setChan]
  refine ⟨n7, n7.moved _ w4s _, .step ne6 h1, .ctrl _ w4s _ ⟨⟨chan "channel-0" opts, .opened⟩, pkt,
    hopen.receive 1 okAck, ?_, ?_, hc, rfl, fun _ => turn_one (ninv_exec initial0 (.step ne6 h1))⟩ ?_, h2,
    ⟨⟨"connection-0", "channel-5", pkt, 77, "cosmos1ica", ms, rsps⟩, ?_, rfl, rfl, rfl, rfl⟩, _, hc, rfl⟩
  · rw [h2]; exact chan3
  · rw [h2]; exact commit3
  · rw [h2]; exact (apply_iff_step (inv_of_reachable r3)).2 s4s
  · rw [h3]; exact List.mem_singleton.2 rfl

/-- A second packet. -/
def pkt2 : IbcPacket :=
  ⟨IcaPacketData.jc.toBytes (.fromProtoAnys (packetAnys "cosmos1ica" (anys.take 1) []) none),
    ⟨portOf "wasm1controller", "channel-0"⟩, ⟨"icahost", "channel-5"⟩, 2, ⟨none, some 1700000600000000000⟩⟩
theorem seq3 : w3.nextSeq "channel-0" = 2 := by
  have : w2.nextSeq "channel-0" = 1 := by decide +kernel
  simp [w3, eSend, setSeq, info, this]
theorem s4p : ∃ w, Step api w3 (.execute "alice" (.sendCosmosMsgs (msgs.take 1) [] none none) "" true) w
    [.packetSent pkt2] ∧ w.chans = w3.chans :=
  ⟨_, .send _ _ _ _ _ _ (st "channel-0") (info "channel-0") (anys.take 1) [] ⟨chan "channel-0" opts, .opened⟩
    1700000600000000000 pkt2 rfl ⟨_, storeOwner3, rfl⟩ cb3 rfl rfl rfl rfl (by decide +kernel) chan3 rfl
    (by rw [show (info "channel-0").channelId = "channel-0" from rfl, seq3]; decide +kernel)
    (by rw [show (info "channel-0").channelId = "channel-0" from rfl, seq3]; rfl), rfl⟩

end Ex

/-- C81: the scenario reports an address and a channel. -/
example : NetExec Ex.api Ex.net0 Ex.nh6 Ex.net6 ∧ icaOf Ex.net6.w = some (Ex.info "channel-0") ∧
    Reports Ex.net6.w (Ex.chan "channel-0" Ex.opts) .opened :=
  ⟨Ex.ne6, by show icaOf Ex.w3 = _; simp [icaOf, Ex.cb3, Ex.st], Ex.channel3⟩

/-- C82, C83, C85, C86: the host executes the packet; the acknowledgement is accepted; the callback tells the success and
the answers at the host's height. -/
example : ∃ n7 n8 obs, NetExec Ex.api Ex.net0 Ex.nh7 n7 ∧
    NetStep Ex.api n7 (.ctrl (.relayAck "channel-0" 1 Ex.okAck "relayer")) n8 obs ∧
    (∃ e ∈ n7.log, e.packet = Ex.pkt ∧ AskedFor (onController Ex.nh7) Ex.pkt "cosmos1ica" e.messages) ∧
    CalledBack obs "cb" (.onAcknowledgementPacketCallback (.result Ex.okRes) Ex.pkt "relayer" (some (.success 77
      [.bank (.balance ⟨⟨"uatom", ⟨12, by decide⟩⟩⟩), .stargate [9] "/z.Q/W"]))) := by
  obtain ⟨n7, n8, h1, h2, h3, ⟨e, h4, rfl', h5, h6, h7⟩, -⟩ := Ex.round
  refine ⟨n7, n8, _, h1, h2, ⟨e, h4, rfl', ?_⟩, calledBack_callObs rfl⟩
  have := C82_only_asked Ex.initial0 h1 h4
  rw [rfl', h6] at this
  exact this

/-- C83, C85: with the host past the timeout, the timeout is accepted and told. -/
example : ∃ n n' obs h, NetExec Ex.api Ex.net0 h n ∧
    NetStep Ex.api n (.ctrl (.relayTimeout "channel-0" 1 "relayer")) n' obs ∧
    CalledBack obs "cb" (.onTimeoutPacketCallback Ex.pkt "relayer") := by
  have hb : NetStep Ex.api Ex.net6 (.hostBlock "connection-0" 78 1700000600000000000) _ [] :=
    .hostBlock _ _ _ (by rw [Ex.block6.1]; decide) (by rw [Ex.block6.2]; decide)
  refine ⟨_, _, _, _, .step Ex.ne6 hb, .ctrl _ Ex.w4t _ ⟨⟨Ex.chan "channel-0" Ex.opts, .opened⟩, Ex.pkt, Ex.hopen, Ex.chan3,
    Ex.commit3, ?_, rfl, fun _ => ?_, .inl (.inl ⟨1700000600000000000, rfl, by decide, ?_⟩)⟩
    ((apply_iff_step (inv_of_reachable Ex.r3)).2 Ex.s4t), calledBack_callObs rfl⟩
  · show (setHost Ex.net6.hosts "connection-0" _ "connection-0").chans _ = _
    rw [setHost_same]
    exact Ex.host6
  · decide +kernel
  · show _ ≤ (setHost Ex.net6.hosts "connection-0" _ "connection-0").time
    rw [setHost_same]
    decide +kernel

/-- C83: an execution that failed is told as an error. -/
example : ∃ n n' obs h, NetExec Ex.api Ex.net0 h n ∧
    NetStep Ex.api n (.ctrl (.relayAck "channel-0" 1 Ex.errAck "relayer")) n' obs ∧
    CalledBack obs "cb" (.onAcknowledgementPacketCallback (.error "out of gas") Ex.pkt "relayer"
      (some (.error "out of gas"))) := by
  have hf : NetStep Ex.api Ex.net6 (.hostReceive "connection-0" "channel-5" Ex.pkt (.fail "out of gas") Ex.errAck) _ [] :=
    .fail "connection-0" "channel-5" Ex.hopen Ex.pkt Ex.errAck "out of gas" Ex.host6 rfl
      (by rw [Ex.sent6]; exact List.mem_singleton.2 rfl) rfl rfl Ex.inTime6 rfl (fun _ => rfl)
      (by show readAck _ = _; rw [readAck_eq]; exact JC.ofBytes_toBytes AckData.jc_law _)
  refine ⟨_, _, _, _, .step Ex.ne6 hf, .ctrl _ Ex.w4e _ ⟨⟨Ex.chan "channel-0" Ex.opts, .opened⟩, Ex.pkt,
    Ex.hopen.receive Ex.pkt.sequence Ex.errAck, Ex.chan3, Ex.commit3, ?_, rfl,
    fun _ => turn_one (ninv_exec Ex.initial0 (.step Ex.ne6 hf))⟩
    ((apply_iff_step (inv_of_reachable Ex.r3)).2 Ex.s4e), calledBack_callObs rfl⟩
  show (setHost Ex.net6.hosts "connection-0" ((Ex.net6.hosts "connection-0").setChan "channel-5" _)
    "connection-0").chans "channel-5" = _
  rw [setHost_same]
  simp [HostSide.setChan]

/-- C84: two packets are executed one after the other on the ordered channel. -/
example : ∃ h n a b, NetExec Ex.api Ex.net0 h n ∧ n.log = [a, b] ∧ a.packet.src = b.packet.src ∧
    n.w.chans a.packet.src.channelId = some ⟨Ex.chan "channel-0" Ex.opts, .opened⟩ ∧
    (Ex.chan "channel-0" Ex.opts).order = .ordered := by
  obtain ⟨ms, n7, h1, h2, h3, h4, h5⟩ := Ex.run
  obtain ⟨w, hw, hch⟩ := Ex.s4p
  have he := (Ex.ne6.step h1).step (.ctrl (.execute "alice" (.sendCosmosMsgs (Ex.msgs.take 1) [] none none) "" true) w
    [.packetSent Ex.pkt2] trivial (by rw [h2]; exact (apply_iff_step (inv_of_reachable Ex.r3)).2 hw))
  obtain ⟨rs, ack, n', e, g1, g2, g3, g4⟩ := C85_can_execute Ex.initial0 he (conn := "connection-0") (hid := "channel-5")
    (hch := Ex.hopen.receive 1 Ex.okAck) (p := Ex.pkt2) (by show (n7.hosts _).chans _ = _; rw [h5]; simp [HostSide.setChan]) rfl
    (List.mem_append_right _ (List.mem_singleton.2 rfl)) rfl rfl
    (by show ¬ Elapsed (n7.hosts _) _; rw [h5]; exact Ex.inTime6) (by decide +kernel) (fun _ => by decide +kernel) (by
      intro a _ sender ms qs memo t fresh core url value hm hs
      exfalso
      have hm' : ms = Ex.msgs.take 1 := by
        have h8 : (Op.execute sender (.sendCosmosMsgs ms qs memo t) fresh core, [Obs.packetSent Ex.pkt2]) ∈
            Ex.h3 ++ [(.execute "alice" (.sendCosmosMsgs (Ex.msgs.take 1) [] none none) "" true,
              [.packetSent Ex.pkt2])] := hm
        rcases List.mem_append.1 h8 with h8 | h8
        · exact absurd (Ex.obs_of_h3 h8) (by decide +kernel)
        · simp only [List.mem_singleton, Prod.mk.injEq, Op.execute.injEq, ExecuteMsg.sendCosmosMsgs.injEq] at h8
          exact h8.1.2.1.1
      subst hm'
      simp [Ex.msgs] at hs)
  refine ⟨_, n', _, e, he.step g1, by rw [g2]; show n7.log ++ _ = _; rw [h3]; rfl, by rw [g3]; rfl, ?_, rfl⟩
  have hw' : n'.w = w := by
    cases g1
    rfl
  rw [hw', hch]
  exact Ex.chan3

end Ica
