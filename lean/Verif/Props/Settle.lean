import Verif.Spec.Settle
import Verif.Props.Interchain

/-!
# Packets come to an end (C90)

While the channel is open nothing can keep an outstanding packet from coming to an end; once it is closed, exactly the
packets the host has received stay without an end for ever.
-/
namespace Ica
open Spec

variable {api : Api} {env : Env} {n0 n : Net} {h : List (NetOp × List Obs)}

theorem env_exec {w0 w : World} {l : List (Op × List Obs)} (he : Exec api w0 l w) (hv : Inv api w0) :
    w0.env.time.toNat ≤ w.env.time.toNat := by
  induction he with
  | nil => exact Nat.le_refl _
  | step a b ih => exact ih.trans (env_mono (step_of_apply (inv_exec hv a) b)).2

theorem le_last (t : UInt64) : t ≤ 18446744073709551615 := by
  have h1 := t.toNat_lt
  rw [UInt64.le_iff_toNat_le]
  have h2 : (18446744073709551615 : UInt64).toNat = 18446744073709551615 := by decide
  omega

/-- Every packet has a timeout, not before the block in which it was sent. -/
theorem timeout_of_sent (hv : NInv api env h n) {p : IbcPacket} (hp : p ∈ n.sent) :
    ∃ ts, p.timeout.timestamp = some ts ∧ env.time.toNat ≤ ts.toNat := by
  obtain ⟨qs, s, ms, memo, t, f, co, hm⟩ := (hv.sentIff p).1 hp
  obtain ⟨h1, h2, w1, w2, -, e2, e3⟩ := exec_at hv.exec hm
  obtain ⟨-, -, -, st, info, anys, cqs, c, ts, p', -, -, -, -, -, t6, -, -, -, hp', -, ho⟩ := apply_send.1 e3
  obtain rfl : p = p' := by simpa using ho
  refine ⟨ts, by rw [hp'], ?_⟩
  have := env_exec e2 (inv_genesis api env)
  rw [t6]
  exact Nat.le_trans this (Nat.le_add_right _ _)

theorem netStep_ctrl {n' : Net} {op : Op} {obs : List Obs} (hs : NetStep api n (.ctrl op) n' obs) :
    ∃ w', n' = n.moved op w' obs ∧ Proven n op ∧ apply api n.w op = some (w', obs) := by
  cases hs with
  | ctrl op w' obs hp hap => exact ⟨w', rfl, hp, hap⟩

theorem toldEnd_callObs {cb : String} {a : Option String} (ha : a = some cb) {o : List Obs} {m : CallbackMsg}
    (ho : callsOf o = callsOf (callObs a m)) : CalledBack o cb m := by
  subst ha
  rw [callsOf_callObs] at ho
  exact ⟨_, ho, JC.ofBytes_toBytes ReceiverExecuteMsg.jc_law (.receiveIcaCallback m)⟩

/-- What delivering an acknowledgement does. -/
theorem ack_effect {n' : Net} {id : String} {k : UInt64} {ack : Bytes} {relayer : String} {obs : List Obs}
    (hs : NetStep api n (.ctrl (.relayAck id k ack relayer)) n' obs) :
    n'.hosts = n.hosts ∧ n'.w.chans = n.w.chans ∧ callbackOf n'.w = callbackOf n.w ∧
      n'.w.commits = setCommit n.w.commits id k none ∧
      ∃ p, n.w.commits id k = some p ∧ ∀ cb, callbackOf n.w = some cb → ToldEnd obs cb p := by
  obtain ⟨w', rfl, -, hap⟩ := netStep_ctrl hs
  obtain ⟨p, c, st, a1, a2, a3, a4, ⟨res, q, b1, b2, rfl, rfl⟩ | ⟨e, b1, rfl, rfl⟩⟩ := apply_ack.1 hap
  all_goals
    refine ⟨rfl, rfl, rfl, rfl, p, a1, fun cb hcb => ⟨relayer, .inr ⟨_, _, toldEnd_callObs (a := st.callbackAddress) ?_ rfl⟩⟩⟩
    simpa [callbackOf, a4] using hcb

/-- What delivering a timeout does. -/
theorem timeout_effect {n' : Net} {id : String} {k : UInt64} {relayer : String} {obs : List Obs}
    (hs : NetStep api n (.ctrl (.relayTimeout id k relayer)) n' obs) :
    n'.hosts = n.hosts ∧ (∀ c, n.w.chans id = some c → ∃ c', n'.w.chans id = some c' ∧ c'.chan = c.chan) ∧
      callbackOf n'.w = callbackOf n.w ∧ n'.w.commits = setCommit n.w.commits id k none ∧
      ∃ p, n.w.commits id k = some p ∧ ∀ cb, callbackOf n.w = some cb → ToldEnd obs cb p := by
  obtain ⟨w', rfl, -, hap⟩ := netStep_ctrl hs
  obtain ⟨p, c, st, cs, a1, a2, a3, a4, rfl, rfl⟩ := apply_timeout.1 hap
  refine ⟨rfl, fun c' hc' => ?_, rfl, rfl, p, a1, fun cb hcb => ⟨relayer, .inl (toldEnd_callObs (a := st.callbackAddress) ?_ rfl)⟩⟩
  · obtain rfl : c = c' := Option.some.inj (a2.symm.trans hc')
    simp only [Net.moved]
    split
    · exact ⟨_, setChan_same _ _ _, rfl⟩
    · exact ⟨c, hc', rfl⟩
  · simpa [callbackOf, a3] using hcb

/-- How far relaying has brought the packets of a channel. -/
structure Ahead (api : Api) (id : String) (n : Net) (l : List (NetOp × List Obs)) (n' : Net) : Prop where
  exec : NetExec api n l n'
  relaying : ∀ x ∈ l, Relaying x.1
  callback : callbackOf n'.w = callbackOf n.w
  commits : ∀ k, n'.w.commits id k = n.w.commits id k ∨ n'.w.commits id k = none
  ended : ∀ k p, n.w.commits id k = some p → n'.w.commits id k = none →
    ∃ x ∈ l, Ends id k x.1 ∧ ∀ cb, callbackOf n.w = some cb → ToldEnd x.2 cb p

theorem Ahead.refl (api : Api) (id : String) (n : Net) : Ahead api id n [] n :=
  ⟨.nil, fun _ h => (by cases h), rfl, fun _ => .inl rfl, fun k p h1 h2 => by rw [h1] at h2; cases h2⟩

theorem Ahead.trans {id : String} {n1 n2 n3 : Net} {l1 l2 : List (NetOp × List Obs)} (a : Ahead api id n1 l1 n2)
    (b : Ahead api id n2 l2 n3) : Ahead api id n1 (l1 ++ l2) n3 where
  exec := netExec_append a.exec b.exec
  relaying x hx := (List.mem_append.1 hx).elim (a.relaying x) (b.relaying x)
  callback := b.callback.trans a.callback
  commits k := by
    rcases b.commits k with e | e
    · rw [e]; exact a.commits k
    · exact .inr e
  ended k p hp hn := by
    rcases a.commits k with e | e
    · obtain ⟨x, x1, x2, x3⟩ := b.ended k p (e.trans hp) hn
      exact ⟨x, List.mem_append_right _ x1, x2, fun cb hcb => x3 cb (a.callback.trans hcb)⟩
    · obtain ⟨x, x1, x2⟩ := a.ended k p hp e
      exact ⟨x, List.mem_append_left _ x1, x2⟩

theorem Ahead.one {id : String} {n1 n2 : Net} {op : NetOp} {obs : List Obs} {k : UInt64} (hs : NetStep api n1 op n2 obs)
    (hr : Relaying op) (he : Ends id k op) (hcb : callbackOf n2.w = callbackOf n1.w)
    (hc : n2.w.commits = setCommit n1.w.commits id k none)
    (ht : ∃ p, n1.w.commits id k = some p ∧ ∀ cb, callbackOf n1.w = some cb → ToldEnd obs cb p) :
    Ahead api id n1 [(op, obs)] n2 where
  exec := NetExec.nil.step hs
  relaying x hx := by obtain rfl := List.mem_singleton.1 hx; exact hr
  callback := hcb
  commits j := by
    rw [hc]
    by_cases e : j = k
    · right; simp [setCommit, e]
    · left; simp [setCommit, e]
  ended j p hp hn := by
    by_cases e : j = k
    · subst e
      obtain ⟨p', h1, h2⟩ := ht
      obtain rfl := Option.some.inj (hp.symm.trans h1)
      exact ⟨_, List.mem_singleton.2 rfl, he, h2⟩
    · rw [hc] at hn
      simp [setCommit, e, hp] at hn

theorem keeps_sent {n' : Net} {op : NetOp} {obs : List Obs} (hs : NetStep api n op n' obs) : ∀ p ∈ n.sent, p ∈ n'.sent := by
  cases hs with
  | ctrl => exact fun p hp => List.mem_append_left _ hp
  | _ => exact fun p hp => hp

theorem not_settles {op : Op} {id : String} {k : UInt64} (h1 : ∀ ack r, op ≠ .relayAck id k ack r)
    (h2 : ∀ r, op ≠ .relayTimeout id k r) : op.settles id k = false := by
  cases op <;> try rfl
  · next id' k' ack r =>
    simp only [Op.settles, decide_eq_false_iff_not]
    rintro ⟨rfl, rfl⟩
    exact h1 _ _ rfl
  · next id' k' r =>
    simp only [Op.settles, decide_eq_false_iff_not]
    rintro ⟨rfl, rfl⟩
    exact h2 _ rfl

/-- The two ends of a channel agree on the order. -/
theorem host_order (hv : NInv api env h n) {id : String} {ch : IbcChannel} (hc : ChainOpen n.w id ch) {hch : HostChan}
    (hh : (n.hosts ch.connectionId).chans ch.counterpartyEndpoint.channelId = some hch) : hch.order = ch.order := by
  obtain ⟨hl, o1, o2, -⟩ := hv.linked _ _ hc (fun x => (by cases x))
  obtain rfl : hch = hl := Option.some.inj (hh.symm.trans o1)
  obtain ⟨_, c, -, -, d1, -, -, d4⟩ := hv.host _ _ _ hh
  obtain ⟨e1, -⟩ := hv.inv.chans _ _ hc
  rw [o2, show ch.endpoint.channelId = id from congrArg (·.channelId) e1, show n.w.chans id = _ from hc] at d1
  obtain rfl := Option.some.inj d1
  exact d4.symm

/-- First: everything the host has acknowledged, in the order of the sequence numbers. -/
theorem ack_all (h0 : n0.Initial env) (he : NetExec api n0 h n) {id : String} {ch : IbcChannel} (hc : ChainOpen n.w id ch)
    {hch : HostChan} (hh : (n.hosts ch.connectionId).chans ch.counterpartyEndpoint.channelId = some hch) (m : Nat) :
    ∃ l n', Ahead api id n l n' ∧ n'.hosts = n.hosts ∧ ChainOpen n'.w id ch ∧
      ∀ k : UInt64, k.toNat < m → ∀ p, n'.w.commits id k = some p → hch.acks k = none := by
  induction m with
  | zero => exact ⟨[], n, .refl api id n, rfl, hc, fun _ h => absurd h (Nat.not_lt_zero _)⟩
  | succ m ih =>
    obtain ⟨l, n1, a1, a2, a3, a4⟩ := ih
    have done : (∀ k : UInt64, k.toNat = m → ∀ p, n1.w.commits id k = some p → hch.acks k = none) →
        ∀ k : UInt64, k.toNat < m + 1 → ∀ p, n1.w.commits id k = some p → hch.acks k = none := by
      intro hm k hk p hp
      rcases Nat.lt_succ_iff_lt_or_eq.1 hk with h | h
      · exact a4 k h p hp
      · exact hm k h p hp
    by_cases hex : ∃ k : UInt64, k.toNat = m ∧ (∃ p, n1.w.commits id k = some p) ∧ ∃ ack, hch.acks k = some ack
    · obtain ⟨k, rfl, ⟨p, hp⟩, ack, hk⟩ := hex
      have he1 := netExec_append he a1.exec
      have hv := ninv_exec h0 he1
      have hh1 : (n1.hosts ch.connectionId).chans ch.counterpartyEndpoint.channelId = some hch := by rw [a2]; exact hh
      have hturn : ch.order = .ordered → ∀ j < k, n1.w.commits id j = none := by
        intro ho j hj
        have hlt := UInt64.lt_iff_toNat_lt.1 hj
        cases hq : n1.w.commits id j with
        | none => rfl
        | some q =>
          exfalso
          obtain ⟨s1, s2, s3⟩ := commits_chan hv hq
          obtain ⟨_, _, _, _, _, _, _, _, _, _, _, q8⟩ := hv.packets q s1
          rw [s3] at q8
          have hord := (hv.ordered _ _ _ hh1).2 (by rw [host_order hv a3 hh1]; exact ho)
          have h1 := (hord k).1 ⟨_, hk⟩
          obtain ⟨ack', h2⟩ := (hord j).2 ⟨q8, by omega⟩
          rw [a4 j hlt q hq] at h2
          cases h2
      obtain ⟨n2, obs, hs⟩ := C85_can_acknowledge h0 he1 hp a3 hh1 hk hturn ""
      obtain ⟨b1, b2, b3, b4, b5⟩ := ack_effect hs
      have b := Ahead.one hs trivial (.inl ⟨_, _, rfl⟩) b3 b4 b5
      refine ⟨_, n2, a1.trans b, b1.trans a2, ?_, fun j hj q hq => ?_⟩
      · rw [ChainOpen, b2]; exact a3
      · by_cases e : j = k
        · subst e
          rw [b4] at hq
          simp [setCommit] at hq
        · have : j.toNat ≠ k.toNat := fun h => e (UInt64.toNat_inj.1 h)
          rw [b4] at hq
          exact a4 j (by omega) q (by simpa [setCommit, e] using hq)
    · refine ⟨l, n1, a1, a2, a3, done fun k hk p hp => ?_⟩
      cases hk' : hch.acks k with
      | none => rfl
      | some ack => exact absurd ⟨k, hk, ⟨p, hp⟩, ack, hk'⟩ hex

/-- Then: everything the host can no longer receive. -/
theorem time_out_all (h0 : n0.Initial env) (he : NetExec api n0 h n) {id : String} {c : ChainChan} (hc : n.w.chans id = some c)
    {hch : HostChan} (hh : (n.hosts c.chan.connectionId).chans c.chan.counterpartyEndpoint.channelId = some hch)
    (hn : ∀ k p, n.w.commits id k = some p → hch.acks k = none ∧
      (Elapsed (n.hosts c.chan.connectionId) p.timeout ∨ hch.status = .closed)) (ks : List UInt64) :
    ∃ l n', Ahead api id n l n' ∧ n'.hosts = n.hosts ∧ (∃ c', n'.w.chans id = some c' ∧ c'.chan = c.chan) ∧
      ∀ k ∈ ks, n'.w.commits id k = none := by
  induction ks with
  | nil => exact ⟨[], n, .refl api id n, rfl, ⟨c, hc, rfl⟩, fun _ h => (by cases h)⟩
  | cons k ks ih =>
    obtain ⟨l, n1, a1, a2, ⟨c1, a3, a3'⟩, a4⟩ := ih
    cases hp : n1.w.commits id k with
    | none =>
      refine ⟨l, n1, a1, a2, ⟨c1, a3, a3'⟩, fun j hj => ?_⟩
      rcases List.mem_cons.1 hj with rfl | hj
      · exact hp
      · exact a4 j hj
    | some p =>
      have he1 := netExec_append he a1.exec
      have hv := ninv_exec h0 he1
      have hp0 : n.w.commits id k = some p := by
        rcases a1.commits k with e | e
        · rw [← e]; exact hp
        · rw [hp] at e; cases e
      obtain ⟨m1, m2⟩ := hn k p hp0
      obtain ⟨s1, s2, s3⟩ := commits_chan hv hp
      obtain ⟨cp, _, _, _, q1, q2, q3, q4, -, -, -, q8⟩ := hv.packets p s1
      obtain rfl : c1 = cp := by rw [s2, a3] at q1; exact Option.some.inj q1
      have hh1 : (n1.hosts c1.chan.connectionId).chans p.dest.channelId = some hch := by rw [q4, a3', a2]; exact hh
      have hpr : Proven n1 (.relayTimeout id k "") := by
        refine ⟨c1, p, hch, a3, hp, hh1, m1, fun ho => ?_, by rw [a3', a2]; exact m2⟩
        have := ((hv.ordered _ _ _ hh1).2 ho k).not.1 (fun ⟨a, ha⟩ => by rw [m1] at ha; cases ha)
        rw [s3] at q8
        omega
      obtain ⟨n2, obs, hs⟩ := C85_can_time_out h0 he1 "" hpr
      obtain ⟨b1, b2, b3, b4, b5⟩ := timeout_effect hs
      have b := Ahead.one hs trivial (.inr ⟨_, rfl⟩) b3 b4 b5
      obtain ⟨c2, b2, b2'⟩ := b2 c1 a3
      refine ⟨_, n2, a1.trans b, b1.trans a2, ⟨c2, b2, b2'.trans a3'⟩, fun j hj => ?_⟩
      rw [b4]
      by_cases e : j = k
      · simp [setCommit, e]
      · rcases List.mem_cons.1 hj with rfl | hj
        · exact absurd rfl e
        · simp [setCommit, e, a4 j hj]

theorem settle_open (h0 : n0.Initial env) (he : NetExec api n0 h n)
    (hts : ∀ p ∈ n.sent, ∃ ts, p.timeout.timestamp = some ts ∧ ts ≠ 0) {id : String} {ch : IbcChannel}
    (hc : ChainOpen n.w id ch) : ∃ l n', NetExec api n l n' ∧ (∀ x ∈ l, Relaying x.1) ∧ (∀ k, n'.w.commits id k = none) ∧
      ∀ k p, n.w.commits id k = some p → ∃ x ∈ l, Ends id k x.1 ∧ ∀ cb, callbackOf n.w = some cb → ToldEnd x.2 cb p := by
  have hv := ninv_exec h0 he
  obtain ⟨hch, g1, g2, g3⟩ := hv.linked id _ hc (fun h => by cases h)
  obtain ⟨l1, n1, a1, a2, a3, a4⟩ := ack_all h0 he hc g1 (2 ^ 64)
  have hin : ∀ k p, n.w.commits id k = some p → k ∈ n.sent.map (·.sequence) := by
    intro k p hp
    obtain ⟨s1, s2, s3⟩ := commits_chan hv hp
    exact List.mem_map.2 ⟨p, s1, s3⟩
  have hback : ∀ k p, n1.w.commits id k = some p → n.w.commits id k = some p := by
    intro k p hp
    rcases a1.commits k with e | e
    · rw [← e]; exact hp
    · rw [hp] at e; cases e
  have hs : NetStep api n1 (.hostBlock ch.connectionId (n1.hosts ch.connectionId).height 18446744073709551615) _ [] :=
    .hostBlock _ _ _ (UInt64.le_refl _) (le_last _)
  have b : Ahead api id n1 [(_, [])] _ :=
    ⟨NetExec.nil.step hs, fun x hx => by obtain rfl := List.mem_singleton.1 hx; trivial, rfl, fun _ => .inl rfl,
      fun k p h1 h2 => by rw [show n1.w.commits id k = none from h2] at h1; cases h1⟩
  have ab := a1.trans b
  obtain ⟨l2, n3, c1, -, -, c4⟩ := time_out_all h0 (netExec_append he ab.exec) (id := id) (c := ⟨ch, .opened⟩) a3
    (hch := hch) (by
      dsimp only
      rw [setHost_same, HostSide.setBlock, a2]
      exact g1) (fun k p hp => by
        have hp' := hback k p hp
        refine ⟨a4 k k.toNat_lt p hp, .inl (.inl ?_)⟩
        obtain ⟨ts, t1, t2⟩ := hts _ (commits_chan hv hp').1
        refine ⟨ts, t1, t2, ?_⟩
        dsimp only
        rw [setHost_same]
        exact le_last _) (n.sent.map (·.sequence))
  have abc := ab.trans c1
  have hnone : ∀ k, n3.w.commits id k = none := by
    intro k
    cases hk : n3.w.commits id k with
    | none => rfl
    | some p =>
      have : n.w.commits id k = some p := by
        rcases abc.commits k with e | e
        · rw [← e]; exact hk
        · rw [hk] at e; cases e
      rw [c4 k (hin k p this)] at hk
      cases hk
  exact ⟨_, n3, abc.exec, abc.relaying, hnone, fun k p hp => abc.ended k p hp (hnone k)⟩

/-- **C90.** While the channel is open, relayers and blocks of the host alone can bring every outstanding packet to an end,
with the callback contract told of each; nothing the owner or anybody else does is needed. -/
theorem C90_can_settle (h0 : n0.Initial env) (he : NetExec api n0 h n) (htime : 0 < env.time) {id : String} {ch : IbcChannel}
    (hc : ChainOpen n.w id ch) : ∃ l n', NetExec api n l n' ∧ (∀ x ∈ l, Relaying x.1) ∧ (∀ k, n'.w.commits id k = none) ∧
      ∀ k p, n.w.commits id k = some p → ∃ x ∈ l, Ends id k x.1 ∧ ∀ cb, callbackOf n.w = some cb → ToldEnd x.2 cb p := by
  refine settle_open h0 he (fun p hp => ?_) hc
  obtain ⟨ts, t1, t2⟩ := timeout_of_sent (ninv_exec h0 he) hp
  refine ⟨ts, t1, ?_⟩
  rintro rfl
  have := UInt64.lt_iff_toNat_lt.1 htime
  simp at t2 this
  omega

/-- **C90.** Once the channel is closed, a packet the host has received never comes to an end: it stays outstanding, no
acknowledgement and no timeout is ever accepted for it, and the callback contract is never told, whatever anybody does. -/
theorem C90_lost_when_closed (h0 : n0.Initial env) (he : NetExec api n0 h n) {id : String} {ch : IbcChannel}
    (hc : n.w.chans id = some ⟨ch, .closed⟩) {k : UInt64} {p : IbcPacket} (hp : n.w.commits id k = some p)
    {hch : HostChan} (hh : (n.hosts ch.connectionId).chans ch.counterpartyEndpoint.channelId = some hch) {ack : Bytes}
    (ha : hch.acks k = some ack) {l : List (NetOp × List Obs)} {n' : Net} (hl : NetExec api n l n') :
    n'.w.commits id k = some p ∧ ∀ x ∈ l, ¬ Ends id k x.1 ∧ ∀ cb, ¬ ToldEnd x.2 cb p := by
  have main : n'.w.commits id k = some p ∧ n'.w.chans id = some ⟨ch, .closed⟩ ∧
      (∃ hch', (n'.hosts ch.connectionId).chans ch.counterpartyEndpoint.channelId = some hch' ∧ ∃ ack, hch'.acks k = some ack) ∧
      ∀ x ∈ l, ¬ Ends id k x.1 ∧ ∀ cb, ¬ ToldEnd x.2 cb p := by
    induction hl with
    | nil => exact ⟨hp, hc, ⟨hch, hh, ack, ha⟩, fun _ h => (by cases h)⟩
    | @step l n1 n2 op obs hl hs ih =>
      obtain ⟨i1, i2, ⟨hc1, i3, ack1, i4⟩, i5⟩ := ih
      have he1 := netExec_append he hl
      have hv := ninv_exec h0 he1
      obtain ⟨s1, s2, s3⟩ := commits_chan hv i1
      have hnot : ¬ Ends id k op := by
        rintro (⟨ack2, r, rfl⟩ | ⟨r, rfl⟩)
        · obtain ⟨w', -, -, hap⟩ := netStep_ctrl hs
          obtain ⟨_, c, _, _, a2, a3, -⟩ := apply_ack.1 hap
          rw [i2] at a2
          obtain rfl := Option.some.inj a2
          cases a3
        · obtain ⟨w', -, ⟨c, q, hc2, g1, g2, g3, g4, -⟩, -⟩ := netStep_ctrl hs
          obtain rfl := Option.some.inj (i2.symm.trans g1)
          obtain rfl := Option.some.inj (i1.symm.trans g2)
          obtain ⟨cp, _, _, _, q1, q2, q3, q4, -⟩ := hv.packets p s1
          obtain rfl : ⟨ch, .closed⟩ = cp := by rw [s2, i2] at q1; exact Option.some.inj q1
          rw [q4, i3] at g3
          obtain rfl := Option.some.inj g3
          rw [i4] at g4
          cases g4
      have hquiet : ∀ cb, ¬ ToldEnd obs cb p := by
        rintro cb ⟨r, ht⟩
        cases op with
        | ctrl op =>
          obtain ⟨w', -, -, hap⟩ := netStep_ctrl hs
          have hu : ∀ {id' k'}, n1.w.commits id' k' = some p → id' = id ∧ k' = k := by
            intro id' k' h
            obtain ⟨-, u2, u3⟩ := commits_chan hv h
            exact ⟨u2.symm.trans s2, u3.symm.trans s3⟩
          rcases ht with ht | ⟨a, q, ht⟩
          · rcases told hap ht with ⟨_, _, _, -, _, _, m1, -⟩ | ⟨_, _, _, _, -, _, _, _, m1, -⟩ | ⟨id', k', r', rfl, p', m1, m2⟩
            · cases m1
            · cases m1
            · injection m1 with m1 _
              subst m1
              obtain ⟨rfl, rfl⟩ := hu m2
              exact hnot (.inr ⟨_, rfl⟩)
          · rcases told hap ht with ⟨_, _, _, -, _, _, m1, -⟩ | ⟨id', k', ak, r', rfl, _, p', _, m1, -, m2⟩ | ⟨_, _, _, -, _, m1, -⟩
            · cases m1
            · injection m1 with _ m1 _ _
              subst m1
              obtain ⟨rfl, rfl⟩ := hu m2
              exact hnot (.inl ⟨_, _, rfl⟩)
            · cases m1
        | _ =>
          cases hs
          all_goals
            rcases ht with ⟨b, hb, -⟩ | ⟨_, _, b, hb, -⟩
            all_goals cases hb
      have hv2 := ninv_step hv hs
      refine ⟨?_, ?_, ?_, ?_⟩
      · rw [commits_iff hv2.exec]
        obtain ⟨c1, c2, c3, c4⟩ := (commits_iff hv.exec _ _ _).1 i1
        refine ⟨c1, c2, (hv2.sentIff p).1 ((keeps_sent hs) p s1), fun x hx => ?_⟩
        cases op with
        | ctrl op =>
          rw [onController_ctrl] at hx
          rcases List.mem_append.1 hx with hx | hx
          · exact c4 x hx
          · obtain rfl := List.mem_singleton.1 hx
            exact not_settles (fun ack r e => hnot (.inl ⟨ack, r, congrArg NetOp.ctrl e⟩)) (fun r e => hnot (.inr ⟨r, congrArg NetOp.ctrl e⟩))
        | _ =>
          rw [onController_host _ (fun op h => by cases h)] at hx
          exact c4 x hx
      · cases op with
        | ctrl op =>
          obtain ⟨w', rfl, -, hap⟩ := netStep_ctrl hs
          exact C23_closed_stays_closed ⟨env, _, hv.exec⟩ (Exec.step (h := []) .nil hap) i2
        | _ => cases hs <;> exact i2
      · obtain ⟨hc2, j1, j2⟩ := (hosts_step hs _).chans _ _ i3
        exact ⟨hc2, j1, ack1, j2.acks _ _ i4⟩
      · intro x hx
        rcases List.mem_append.1 hx with hx | hx
        · exact i5 x hx
        · obtain rfl := List.mem_singleton.1 hx
          exact ⟨hnot, hquiet⟩
  exact ⟨main.1, main.2.2.2⟩

/-- **C90.** On a closed channel exactly the packets the host has not received can still come to an end. -/
theorem C90_closed_iff (h0 : n0.Initial env) (he : NetExec api n0 h n) {id : String} {ch : IbcChannel}
    (hc : n.w.chans id = some ⟨ch, .closed⟩) {k : UInt64} {p : IbcPacket} (hp : n.w.commits id k = some p) :
    (∃ l n', NetExec api n l n' ∧ n'.w.commits id k = none) ↔
      ∃ hch, (n.hosts ch.connectionId).chans ch.counterpartyEndpoint.channelId = some hch ∧ hch.acks k = none := by
  have hv := ninv_exec h0 he
  obtain ⟨hch, g1, g2, g3⟩ := hv.linked id _ hc (fun h => by cases h)
  constructor
  · rintro ⟨l, n', hl, hn⟩
    refine ⟨hch, g1, ?_⟩
    cases hk : hch.acks k with
    | none => rfl
    | some ack =>
      rw [(C90_lost_when_closed h0 he hc hp g1 hk hl).1] at hn
      cases hn
  · rintro ⟨hch', g1', g4⟩
    obtain rfl := Option.some.inj (g1.symm.trans g1')
    obtain ⟨e1, e2⟩ := hv.inv.chans _ _ hc
    obtain ⟨s1, s2, s3⟩ := commits_chan hv hp
    obtain ⟨cp, _, _, _, q1, q2, q3, q4, -, -, -, q8⟩ := hv.packets p s1
    obtain rfl : ⟨ch, .closed⟩ = cp := by rw [s2, hc] at q1; exact Option.some.inj q1
    by_cases hst : hch.status = .closed
    · have hpr : Proven n (.relayTimeout id k "") := by
        refine ⟨_, p, hch, hc, hp, by rw [q4]; exact g1, g4, fun ho => ?_, .inr hst⟩
        have := ((hv.ordered _ _ _ g1).2 ho k).not.1 (fun ⟨a, ha⟩ => by rw [g4] at ha; cases ha)
        rw [s3] at q8
        omega
      obtain ⟨n2, obs, hs⟩ := C85_can_time_out h0 he "" hpr
      obtain ⟨-, -, -, b4, -⟩ := timeout_effect hs
      exact ⟨_, n2, NetExec.nil.step hs, by rw [b4]; simp [setCommit]⟩
    · have hcc : hch.controller.channelId = id := by rw [g2]; exact congrArg (·.channelId) e1
      have hs : NetStep api n (.hostCloseConfirm ch.connectionId ch.counterpartyEndpoint.channelId) _ [] :=
        .hostCloseConfirm _ _ hch ⟨ch, .closed⟩ g1 hst (by rw [hcc]; exact hc) rfl rfl
      have hh2 : (setHost n.hosts ch.connectionId ((n.hosts ch.connectionId).setChan ch.counterpartyEndpoint.channelId
          { hch with status := .closed }) ch.connectionId).chans ch.counterpartyEndpoint.channelId =
            some { hch with status := .closed } := by
        rw [setHost_same]; simp [HostSide.setChan]
      have hpr : Proven { n with hosts := setHost n.hosts ch.connectionId ((n.hosts ch.connectionId).setChan
          ch.counterpartyEndpoint.channelId { hch with status := .closed }) } (.relayTimeout id k "") := by
        refine ⟨_, p, { hch with status := .closed }, hc, hp, by rw [q4]; exact hh2, g4, fun ho => ?_, .inr rfl⟩
        have := ((hv.ordered _ _ _ g1).2 ho k).not.1 (fun ⟨a, ha⟩ => by rw [g4] at ha; cases ha)
        rw [s3] at q8
        show hch.nextRecv ≤ _
        omega
      obtain ⟨n2, obs, hs2⟩ := C85_can_time_out h0 (he.step hs) "" hpr
      obtain ⟨-, -, -, b4, -⟩ := timeout_effect hs2
      exact ⟨_, n2, (NetExec.nil.step hs).step hs2, by rw [b4]; simp [setCommit]⟩

/-- C90_can_settle: an outstanding packet on an open channel. -/
example : NetExec Ex.api Ex.net0 Ex.nh6 Ex.net6 ∧ 0 < Ex.env.time ∧ ChainOpen Ex.net6.w "channel-0" (Ex.chan "channel-0" Ex.opts) ∧
    Ex.net6.w.commits "channel-0" 1 = some Ex.pkt ∧ callbackOf Ex.net6.w = some "cb" :=
  ⟨Ex.ne6, by decide +kernel, Ex.chan3, Ex.commit3, by show callbackOf Ex.w3 = _; simp [callbackOf, Ex.cb3, Ex.st]⟩

/-- The owner closes the channel while the packet is outstanding. -/
theorem Ex.close3 : ∃ w, apply Ex.api Ex.w3 (.execute "alice" .closeChannel "" true) = some (w, [.channelClosed "channel-0"]) ∧
    w.chans "channel-0" = some ⟨Ex.chan "channel-0" Ex.opts, .closed⟩ ∧ w.commits = Ex.w3.commits :=
  ⟨_, (apply_iff_step (inv_of_reachable Ex.r3)).2 (.close "alice" "" ⟨Ex.chan "channel-0" Ex.opts, .opened⟩ rfl
    ⟨_, Ex.storeOwner3, rfl⟩ Ex.channel3 Ex.chan3 rfl), by simp [setChan, show (Ex.chan "channel-0" Ex.opts).endpoint.channelId = "channel-0" from rfl], rfl⟩

/-- C90_lost_when_closed: the host executes the packet, the owner closes the channel, and the callback contract never
learns of the execution. -/
example : ∃ h n hch ack, NetExec Ex.api Ex.net0 h n ∧ n.w.chans "channel-0" = some ⟨Ex.chan "channel-0" Ex.opts, .closed⟩ ∧
    n.w.commits "channel-0" 1 = some Ex.pkt ∧ (∃ e ∈ n.log, e.packet = Ex.pkt) ∧
    (n.hosts "connection-0").chans "channel-5" = some hch ∧ hch.acks 1 = some ack := by
  obtain ⟨n7, n8, h1, -, h3, ⟨e, h4, h5, -⟩, hc, h6, h7⟩ := Ex.round
  obtain ⟨w, k1, k2, k3⟩ := Ex.close3
  refine ⟨_, _, hc, Ex.okAck, h1.step (.ctrl (.execute "alice" .closeChannel "" true) w _ trivial (by rw [h3]; exact k1)), k2, ?_,
    ⟨e, h4, h5⟩, h6, h7⟩
  show w.commits _ _ = _
  rw [k3]
  exact Ex.commit3

/-- C90_closed_iff: a packet outstanding on a closed channel that the host has not received. -/
example : ∃ h n hch, NetExec Ex.api Ex.net0 h n ∧ n.w.chans "channel-0" = some ⟨Ex.chan "channel-0" Ex.opts, .closed⟩ ∧
    n.w.commits "channel-0" 1 = some Ex.pkt ∧ (n.hosts "connection-0").chans "channel-5" = some hch ∧ hch.acks 1 = none := by
  obtain ⟨w, k1, k2, k3⟩ := Ex.close3
  refine ⟨_, _, Ex.hopen, Ex.ne6.step (.ctrl (.execute "alice" .closeChannel "" true) w _ trivial k1), k2, ?_, Ex.host6, rfl⟩
  show w.commits _ _ = _
  rw [k3]
  exact Ex.commit3

end Ica
