import Verif.Facts.Reopen
import Verif.Props.Settle

/-!
# The account can be reached again (C91)

A closed channel can be replaced by a new one to the same account, also with hosts that allow one channel at a time. It
takes that no other channel of the connection is open: two handshakes that overlap can lock the account for ever.
-/
namespace Ica
open Spec

section
variable {api : Api} {env : Env} {n0 n : Net} {h : List (NetOp × List Obs)}

theorem Spec.Continues.exec {n' : Net} {l : List (NetOp × List Obs)} (c : Continues api h n l n') : NetExec api n l n' := by
  induction c with
  | nil => exact .nil
  | step _ hs _ ih => exact .step ih hs

theorem Spec.Continues.trans {n1 n2 : Net} {l1 l2 : List (NetOp × List Obs)} (a : Continues api h n l1 n1)
    (b : Continues api (h ++ l1) n1 l2 n2) : Continues api h n (l1 ++ l2) n2 := by
  induction b with
  | nil => simpa using a
  | step _ hs hp ih =>
    rw [← List.append_assoc]
    exact .step ih hs (by rw [← List.append_assoc]; exact hp)

theorem Spec.Continues.one {n' : Net} {op : NetOp} {obs : List Obs} (hs : NetStep api n op n' obs) (hp : Permitted h n op) :
    Continues api h n [(op, obs)] n' :=
  .step (l := []) .nil hs (by simpa using hp)

theorem setBlock_chans (n : Net) (conn c : String) (ht t : UInt64) :
    (setHost n.hosts conn ((n.hosts conn).setBlock ht t) c).chans = (n.hosts c).chans := by
  by_cases e : c = conn
  · subst e; rw [setHost_same]; rfl
  · rw [setHost_ne _ _ e]

theorem chan_kept (h0 : n0.Initial env) (he : NetExec api n0 h n) {l : List (NetOp × List Obs)} {n' : Net}
    (hl : NetExec api n l n') {id : String} {c : ChainChan} (hc : n.w.chans id = some c) :
    ∃ c', n'.w.chans id = some c' ∧ ChanLe c c' := by
  induction hl with
  | nil => exact ⟨c, hc, .refl c⟩
  | @step l n1 n2 op obs hl hs ih =>
    obtain ⟨c1, k1, k2⟩ := ih
    have hv := ninv_exec h0 (netExec_append he hl)
    have same : n2.w = n1.w → ∃ c', n2.w.chans id = some c' ∧ ChanLe c c' := fun e => ⟨c1, by rw [e]; exact k1, k2⟩
    cases hs with
    | ctrl op w' obs hp hap =>
      obtain ⟨c2, m1, m2⟩ := chan_step hv.inv (step_of_apply hv.inv hap) k1
      refine ⟨c2, m1, m2.endpoint.trans k2.endpoint, m2.connection.trans k2.connection, m2.order.trans k2.order, fun x => ?_⟩
      obtain ⟨y1, y2⟩ := k2.kept x
      obtain ⟨z1, z2⟩ := m2.kept y1
      exact ⟨z1, z2.trans y2⟩
    | _ => exact same rfl

theorem connection_kept {n' : Net} {l : List (NetOp × List Obs)} (hl : NetExec api n l n') (conn : String) :
    (n'.hosts conn).connection = (n.hosts conn).connection := by
  induction hl with
  | nil => rfl
  | step _ hs ih => rw [(hosts_step hs conn).connection, ih]

/-- First: the reported channel is closed, on the chain and in the contract's eyes. -/
theorem become_closed (h0 : n0.Initial env) (he : NetExec api n0 h n) (ht : 0 < env.time) {owner : String}
    (ho : ownerOf n.w = some owner) {ch : IbcChannel} {s : ChannelStatus} (hr : Reports n.w ch s)
    (hu : ∀ id x, ChainOpen n.w id x → x.connectionId = ch.connectionId → id = ch.endpoint.channelId)
    (hq : n.w.nextSeq ch.endpoint.channelId < 18446744073709551616) :
    ∃ l n1, Continues api h n l n1 ∧ (∀ x ∈ l, ByOwnerAndRelayers owner x.1) ∧ Reports n1.w ch .closed ∧
      ownerOf n1.w = some owner ∧
      (∀ id x, n1.w.chans id = some x → x.chan.connectionId = ch.connectionId → x.status ≠ .opened) ∧
      n1.w.env = n.w.env ∧ callbackOf n1.w = callbackOf n.w ∧
      (n1.hosts ch.connectionId).time.toNat ≤ max (n.hosts ch.connectionId).time.toNat n.w.env.time.toNat := by
  have hv := ninv_exec h0 he
  obtain ⟨t1, c, t2, t3, t4, t5⟩ := hv.inv.tracked _ hr
  dsimp only at t1 t2 t3 t5
  have others : ∀ id x, n.w.chans id = some x → x.chan.connectionId = ch.connectionId → id ≠ ch.endpoint.channelId →
      x.status ≠ .opened := by
    intro id x hx hcn hne hst
    obtain ⟨x1, x2⟩ := x
    obtain rfl : x2 = .opened := hst
    exact hne (hu id x1 hx hcn)
  have close_set : ∀ id x, setChan n.w.chans ch.endpoint.channelId ⟨c.chan, .closed⟩ id = some x →
      x.chan.connectionId = ch.connectionId → x.status ≠ .opened := by
    intro id x hx hcn
    rcases setChan_eq_some.1 hx with ⟨-, rfl⟩ | ⟨e, hx⟩
    · exact fun x => by cases x
    · exact others id x hx hcn e
  have hl := hv.inv.live_of_channel hr
  rcases t1 with rfl | rfl
  · -- reported open: the owner closes it
    have hap := (apply_close (api := api) (fresh := "")).2
      ⟨hl, ownerOf_eq.1 ho, rfl, ch, c, hr, t2, t3, by rw [t5 rfl]; decide, rfl, rfl⟩
    have s1 : NetStep api n (.ctrl (.execute owner .closeChannel "" true)) _ _ := .ctrl _ _ _ trivial hap
    refine ⟨_, _, .one s1 trivial, ?_, rfl, ho, ?_, rfl, rfl, Nat.le_max_left ..⟩
    · intro x hx
      obtain rfl := List.mem_singleton.1 hx
      rfl
    · intro id x hx hcn
      exact close_set id x (by rw [t3]; exact hx) hcn
  · by_cases hop : c.status = .opened
    · -- reported closed by mistake: the owner sends a packet, which times out
      obtain ⟨st, hst⟩ := hv.inv.state hl
      obtain ⟨info, a1, a2, -⟩ := hv.account hr
      have a1' : st.icaInfo = some info := by simpa [icaOf, hst] using a1
      obtain ⟨-, a3, -⟩ := hv.inv.icaInfo st info hst a1'
      dsimp only at a2
      have hord : ch.order = .ordered := by
        rcases wrongly_closed hv.exec _ hr rfl with h | ⟨c', k1, k2⟩
        · exact h
        · rw [t2] at k1; cases k1; rw [hop] at k2; cases k2
      obtain ⟨w1, p, hap, w1chan, w1store, w1env, w1c, m2, m3⟩ : ∃ w1 p,
          apply api n.w (.execute owner (.sendCosmosMsgs [] [] none (some 0)) "" true) = some (w1, [.packetSent p]) ∧
          w1.chans = n.w.chans ∧ w1.store = n.w.store ∧ w1.env = n.w.env ∧
          w1.commits ch.endpoint.channelId (UInt64.ofNat (n.w.nextSeq ch.endpoint.channelId)) = some p ∧
          p.dest = ch.counterpartyEndpoint ∧ p.timeout = ⟨none, some n.w.env.time⟩ := by
        refine ⟨_, _, apply_send.2 ⟨hl, ownerOf_eq.1 ho, rfl, st, info, [], [], c, n.w.env.time, _, hst, a1', a3, rfl, rfl,
          by simp, by rw [a2]; exact t2, hop, by rw [a2]; exact hq, rfl, rfl, rfl⟩, rfl, by simp [storeAfterSend], rfl, ?_,
          by rw [t3], rfl⟩
        simp [setCommit, a2]
      have s1 : NetStep api n (.ctrl (.execute owner (.sendCosmosMsgs [] [] none (some 0)) "" true)) _ _ :=
        .ctrl _ _ _ trivial hap
      generalize hn1 : n.moved _ w1 _ = n1 at s1
      have n1w : n1.w = w1 := by rw [← hn1]; rfl
      have n1h : n1.hosts = n.hosts := by rw [← hn1]; rfl
      -- the host's clock reaches the timeout
      let T : UInt64 := if n.w.env.time ≤ (n.hosts ch.connectionId).time then (n.hosts ch.connectionId).time else n.w.env.time
      have hT1 : (n.hosts ch.connectionId).time ≤ T := by
        simp only [T]
        split
        · exact UInt64.le_refl _
        · rename_i e
          exact UInt64.le_of_lt (UInt64.not_le.1 e)
      have hT2 : n.w.env.time ≤ T := by
        simp only [T]
        split
        · assumption
        · exact UInt64.le_refl _
      have s2 := NetStep.hostBlock (api := api) (n := n1) ch.connectionId (n.hosts ch.connectionId).height T
        (by rw [n1h]; exact UInt64.le_refl _) (by rw [n1h]; exact hT1)
      generalize hn2 : ({ n1 with hosts := setHost n1.hosts ch.connectionId _ } : Net) = n2 at s2
      have n2w : n2.w = w1 := by rw [← hn2]; exact n1w
      have n2c : ∀ c, (n2.hosts c).chans = (n.hosts c).chans := by
        intro c; rw [← hn2, ← n1h]; exact setBlock_chans n1 _ _ _ _
      have n2t : (n2.hosts ch.connectionId).time = T := by rw [← hn2]; dsimp only; rw [setHost_same]; rfl
      -- the timeout is delivered
      have he2 : NetExec api n0 (h ++ [_] ++ [_]) n2 := .step (.step he s1) s2
      have hv2 := ninv_exec h0 he2
      obtain ⟨hch, l1, l2, -⟩ := hv.linked _ _ t2 t4
      rw [t3] at l1 l2
      have htime : 0 < n.w.env.time := by
        have := env_exec hv.exec (inv_genesis api env)
        rw [UInt64.lt_iff_toNat_lt] at ht ⊢
        exact Nat.lt_of_lt_of_le ht this
      have hk : hch.acks (UInt64.ofNat (n.w.nextSeq ch.endpoint.channelId)) = none := by
        cases hk : hch.acks (UInt64.ofNat (n.w.nextSeq ch.endpoint.channelId)) with
        | none => rfl
        | some ack =>
          obtain ⟨p, p1, p2, p3, -⟩ := hv.acked _ _ _ _ _ l1 hk
          obtain ⟨qs, p4⟩ := (hv.sentIff p).1 p1
          have := sent_lt hv.exec _ _ p4
          rw [p2, p3, l2, ofNat_toNat hq] at this
          omega
      have m1 : n2.w.commits ch.endpoint.channelId (UInt64.ofNat (n.w.nextSeq ch.endpoint.channelId)) = some p := by
        rw [n2w]; exact w1c
      have hpr : Proven n2 (.relayTimeout ch.endpoint.channelId (UInt64.ofNat (n.w.nextSeq ch.endpoint.channelId)) "") := by
        refine ⟨c, p, hch, by rw [n2w, w1chan]; exact t2, m1, ?_, hk, fun e => ?_, .inl (.inl ⟨n.w.env.time, by rw [m3], ?_, ?_⟩)⟩
        · rw [m2, n2c, t3]; exact l1
        · have := ((hv.ordered _ _ _ l1).2 e (UInt64.ofNat (n.w.nextSeq ch.endpoint.channelId))).not.1
            (fun ⟨a, ha⟩ => by rw [hk] at ha; cases ha)
          rw [ofNat_toNat hq] at this ⊢
          have := hv.inv.seqs ch.endpoint.channelId
          omega
        · intro e
          rw [e] at htime
          exact absurd htime (by decide)
        · rw [t3, n2t]; exact hT2
      have hap3 := (apply_timeout (api := api) (relayer := "")).2 ⟨p, c, st, ⟨ch, .closed⟩, m1, by rw [n2w, w1chan]; exact t2,
        by rw [n2w, w1store]; exact hst, by rw [n2w, w1store]; exact hr, rfl, rfl⟩
      have s3 : NetStep api n2 (.ctrl (.relayTimeout ch.endpoint.channelId
        (UInt64.ofNat (n.w.nextSeq ch.endpoint.channelId)) "")) _ _ := .ctrl _ _ _ hpr hap3
      refine ⟨_, _, (Continues.one s1 trivial).trans ((Continues.one s2 trivial).trans (.one s3 trivial)), ?_, ?_, ?_, ?_, ?_, ?_, ?_⟩
      · intro x hx
        simp only [List.cons_append, List.nil_append, List.mem_cons, List.not_mem_nil, or_false] at hx
        rcases hx with rfl | rfl | rfl
        · rfl
        · trivial
        · trivial
      · simp [Net.moved, Reports, hord]
      · simp only [Net.moved, ownerOf, n2w, w1store]
        exact ho
      · intro id x hx hcn
        simp only [Net.moved, t3, hord, if_true, n2w, w1chan] at hx
        exact close_set id x (by rw [t3]; exact hx) hcn
      · simp only [Net.moved, n2w]
        exact w1env
      · simp only [Net.moved, callbackOf, n2w, w1store]
      · simp only [Net.moved]
        rw [n2t]
        simp only [T]
        split
        · exact Nat.le_max_left ..
        · exact Nat.le_max_right ..
    · refine ⟨[], n, .nil, fun _ h => (by cases h), hr, ho, fun id x hx hcn => ?_, rfl, rfl, Nat.le_max_left ..⟩
      by_cases e : id = ch.endpoint.channelId
      · subst e
        rw [t2] at hx
        cases hx
        exact hop
      · exact others id x hx hcn e

/-- Then: the host closes its active channel, if it has not yet. -/
theorem become_free (h0 : n0.Initial env) (he : NetExec api n0 h n) (conn : String)
    (hu : ∀ id x, n.w.chans id = some x → x.chan.connectionId = conn → x.status ≠ .opened) :
    ∃ l n1, Continues api h n l n1 ∧ (∀ x ∈ l, ByRelayers x.1) ∧ n1.w = n.w ∧ n1.proposed = n.proposed ∧
      (n1.hosts conn).connection = (n.hosts conn).connection ∧ (n1.hosts conn).account = (n.hosts conn).account ∧
      (n1.hosts conn).time = (n.hosts conn).time ∧ (∀ x, x ≠ conn → n1.hosts x = n.hosts x) ∧
      ∀ act, activeChannel (h ++ l) conn = some act → ∃ hc, (n1.hosts conn).chans act = some hc ∧ hc.status = .closed := by
  have stay : (∀ act, activeChannel h conn = some act → ∃ hc, (n.hosts conn).chans act = some hc ∧ hc.status = .closed) →
      ∃ l n1, Continues api h n l n1 ∧ (∀ x ∈ l, ByRelayers x.1) ∧ n1.w = n.w ∧ n1.proposed = n.proposed ∧
        (n1.hosts conn).connection = (n.hosts conn).connection ∧ (n1.hosts conn).account = (n.hosts conn).account ∧
        (n1.hosts conn).time = (n.hosts conn).time ∧ (∀ x, x ≠ conn → n1.hosts x = n.hosts x) ∧
        ∀ act, activeChannel (h ++ l) conn = some act → ∃ hc, (n1.hosts conn).chans act = some hc ∧ hc.status = .closed :=
    fun hx => ⟨[], n, .nil, fun _ h => (by cases h), rfl, rfl, rfl, rfl, rfl, fun _ _ => rfl, by simpa using hx⟩
  cases ha : activeChannel h conn with
  | none => exact stay (fun act h => by rw [ha] at h; cases h)
  | some act =>
    obtain ⟨hc, k1, k2⟩ := active_exec he ha
    by_cases hcl : hc.status = .closed
    · refine stay fun x hx => ?_
      rw [ha] at hx
      cases hx
      exact ⟨hc, k1, hcl⟩
    · obtain ⟨c, m1, m2, m3, m4, -⟩ := paired_exec h0 he _ _ _ k1 k2
      have m5 : c.status = .closed := by
        have := hu _ _ m1 m4
        cases hs : c.status with
        | init => exact absurd hs m2
        | opened => exact absurd hs this
        | closed => rfl
      have s1 := NetStep.hostCloseConfirm (api := api) conn act hc c k1 hcl m1 m5 m3
      refine ⟨_, _, .one s1 trivial, ?_, rfl, rfl, ?_, ?_, ?_, fun x hx => setHost_ne _ _ hx, ?_⟩
      · intro x hx
        obtain rfl := List.mem_singleton.1 hx
        trivial
      · dsimp only; rw [setHost_same]; rfl
      · dsimp only; rw [setHost_same]; rfl
      · dsimp only; rw [setHost_same]; rfl
      · intro x hx
        rw [activeChannel_other (fun _ e => by cases e), ha] at hx
        cases hx
        refine ⟨{ hc with status := .closed }, ?_, rfl⟩
        dsimp only
        rw [setHost_same]
        simp [HostSide.setChan]

theorem tried {n' : Net} {conn hid v a : String} {ch : IbcChannel} {obs : List Obs}
    (hs : NetStep api n (.hostOpenTry conn hid ch v a) n' obs) : n'.w = n.w ∧
      (n'.hosts conn).chans hid = some ⟨ch.endpoint, ch.order, v, .tryOpen, 1, fun _ => none⟩ ∧
      (n'.hosts conn).time = (n.hosts conn).time ∧ ∀ x, x ≠ conn → n'.hosts x = n.hosts x := by
  cases hs with
  | hostOpenTry =>
    refine ⟨rfl, ?_, ?_, fun x hx => setHost_ne _ _ hx⟩
    · dsimp only
      rw [setHost_same]
      simp [HostSide.setChan]
    · dsimp only
      rw [setHost_same]
      rfl

theorem Spec.ByRelayers.too {op : NetOp} (h : ByRelayers op) (owner : String) : ByOwnerAndRelayers owner op := by
  cases op with
  | ctrl op => cases op <;> trivial
  | _ => trivial

/-- Relayers complete a handshake. -/
theorem complete (h0 : n0.Initial env) (he : NetExec api n0 h n) {id : String} {ch : IbcChannel}
    (hc : n.w.chans id = some ⟨ch, .init⟩) {m : IcaMetadata} (hm : IcaMetadata.parse ch.version = some m)
    (hname : m.hostConnectionId = (n.hosts ch.connectionId).connection)
    (hu : ∀ id x, n.w.chans id = some x → x.chan.connectionId = ch.connectionId → x.status ≠ .opened)
    {a : String} (ha : GoodAddr api a)
    (hacc : (n.hosts ch.connectionId).account = none ∨ (n.hosts ch.connectionId).account = some a) :
    ∃ l n' ch', Continues api h n l n' ∧ (∀ x ∈ l, ByRelayers x.1) ∧ Working n' ch' a ∧
      ch'.endpoint = ch.endpoint ∧ ch'.connectionId = ch.connectionId ∧ ch'.order = ch.order ∧
      n'.w.commits = n.w.commits ∧ n'.w.nextSeq = n.w.nextSeq ∧ ownerOf n'.w = ownerOf n.w ∧ n'.w.env = n.w.env ∧
      callbackOf n'.w = callbackOf n.w ∧ (n'.hosts ch.connectionId).time = (n.hosts ch.connectionId).time ∧
      (∀ x, x ≠ id → n'.w.chans x = n.w.chans x) ∧ ∀ x, x ≠ ch.connectionId → n'.hosts x = n.hosts x := by
  have hv := ninv_exec h0 he
  obtain ⟨l2, n2, c2, d2, e1, e2, e3, e4, z4, z6, e5⟩ := become_free h0 he ch.connectionId hu
  have he2 := netExec_append he c2.exec
  have hf2 : n2.w.chans id = some ⟨ch, .init⟩ := by rw [e1]; exact hc
  obtain rfl : ch.endpoint.channelId = id := hv.inv.chan_id hc
  -- the host takes it up
  obtain ⟨hid, hhid⟩ := fresh_host_chan h0 he2 ch.connectionId
  obtain ⟨v, n4, s4, k1, -⟩ := C85_can_try h0 he2 hf2 rfl rfl hm (by rw [e3]; exact hname) hhid ha.1 (by rw [e4]; exact hacc)
  obtain ⟨w4, h4, z5, z7⟩ := tried s4
  have he4 := netExec_append he2 (NetExec.nil.step s4)
  have hv4 := ninv_exec h0 he4
  have hf4 : n4.w.chans ch.endpoint.channelId = some ⟨ch, .init⟩ := by rw [w4]; exact hf2
  -- the controller opens
  obtain ⟨st, hst⟩ := hv4.inv.state (hv4.inv.live_of_chan hf4)
  obtain ⟨a', c', q1, q2, q3, q4, q5, q6⟩ := hv4.host _ _ _ h4
  rw [k1] at q1
  cases q1
  have hp := parse_answered q2
  dsimp only at hp
  have hep := hv4.inv.chans _ _ hf4
  have hne : ch.endpoint.portId ≠ "icahost" := by
    rw [show ch.endpoint = _ from hep.1]; exact portOf_ne_icahost _
  have hok : MetaOk api ⟨"ics27-1", ch.connectionId, (n4.hosts ch.connectionId).connection, a, .protobuf, "sdk_multi_msg"⟩
      ch.connectionId := ⟨rfl, rfl, rfl, .inr ha.2, rfl⟩
  have hap5 := (apply_openAck (api := api) (cpId := hid)).2 ⟨_, st, _, hf4, rfl, hst, hne, hp, hok, ha.1, rfl, rfl⟩
  have s5 : NetStep api n4 (.ctrl (.relayOpenAck ch.endpoint.channelId hid v)) _ _ :=
    .ctrl _ _ _ ⟨_, _, hf4, h4, rfl, rfl, rfl⟩ hap5
  generalize hn5 : n4.moved _ _ _ = n5 at s5
  have hf5 : n5.w.chans ch.endpoint.channelId = some ⟨ackedChan ch hid v, .opened⟩ := by
    rw [← hn5]; exact setChan_same _ _ _
  have hh5 : n5.hosts = n4.hosts := by rw [← hn5]; rfl
  have hr5 : Reports n5.w (ackedChan ch hid v) .opened := by rw [← hn5]; rfl
  have hi5 : icaOf n5.w = some ⟨a, ch.endpoint.channelId, .protobuf⟩ := by rw [← hn5]; rfl
  -- the host opens
  have s6 := NetStep.hostOpenConfirm (api := api) (n := n5) ch.connectionId hid _ _ (by rw [hh5]; exact h4) rfl hf5
    (fun x => by cases x) rfl
  generalize hn6 : ({ n5 with hosts := _ } : Net) = n6 at s6
  have w6 : n6.w = n5.w := by rw [← hn6]
  have hp4 : Permitted (h ++ l2) n2 (.hostOpenTry ch.connectionId hid ch v a) := e5
  refine ⟨_, n6, ackedChan ch hid v, ((c2.trans (.one s4 hp4)).trans (.one s5 trivial)).trans (.one s6 trivial), ?_,
    ⟨?_, ?_, ?_, ?_, ?_⟩, rfl, rfl, rfl, ?_, ?_, ?_, ?_, ?_, ?_, fun x hx => ?_, fun x hx => ?_⟩
  · intro x hx
    simp only [List.mem_append, List.mem_singleton] at hx
    rcases hx with ((hx | rfl) | rfl) | rfl
    · exact d2 x hx
    · trivial
    · trivial
    · trivial
  · rw [w6]; exact hr5
  · rw [w6]; exact hf5
  · rw [w6]; exact hi5
  · rw [← hn6]
    show (setHost n5.hosts ch.connectionId _ ch.connectionId).account = some a
    rw [setHost_same, hh5]
    exact k1
  · rw [← hn6]
    show ∃ hc, (setHost n5.hosts ch.connectionId _ ch.connectionId).chans hid = some hc ∧ _
    rw [setHost_same]
    exact ⟨⟨ch.endpoint, ch.order, v, .opened, 1, fun _ => none⟩, by simp [HostSide.setChan], rfl, rfl⟩
  · have e5 : n5.w.commits = n4.w.commits := by rw [← hn5]; rfl
    rw [w6, e5, w4, e1]
  · have e5 : n5.w.nextSeq = n4.w.nextSeq := by rw [← hn5]; rfl
    rw [w6, e5, w4, e1]
  · have e5 : ownerOf n5.w = ownerOf n4.w := by rw [← hn5]; rfl
    rw [w6, e5, w4, e1]
  · have e5 : n5.w.env = n4.w.env := by rw [← hn5]; rfl
    rw [w6, e5, w4, e1]
  · have e5 : callbackOf n5.w = st.callbackAddress := by rw [← hn5]; rfl
    have e5' : callbackOf n4.w = st.callbackAddress := by simp [callbackOf, hst]
    rw [w6, e5, ← e5', w4, e1]
  · rw [← hn6]
    show (setHost n5.hosts ch.connectionId _ ch.connectionId).time = _
    rw [setHost_same]
    show (n5.hosts ch.connectionId).time = _
    rw [hh5, z5, z4]
  · have e5 : n5.w.chans x = n4.w.chans x := by rw [← hn5]; exact setChan_ne _ hx
    rw [w6, e5, w4, e1]
  · rw [← hn6]
    show setHost n5.hosts ch.connectionId _ x = _
    rw [setHost_ne _ _ hx, hh5, z7 x hx, z6 x hx]

/-- The owner proposes a channel, with new options or the last ones, and relayers complete the handshake. -/
theorem open_asked (h0 : n0.Initial env) (he : NetExec api n0 h n) {owner : String} (ho : ownerOf n.w = some owner)
    (hno : ∀ ch, ¬ Reports n.w ch .opened) {oo : Option ChannelOpenInitOptions}
    {o : ChannelOpenInitOptions} (hoo : oo.or n.w.store.options = some o)
    (hu : ∀ id x, n.w.chans id = some x → x.chan.connectionId = o.connectionId → x.status ≠ .opened)
    (ho2 : o.counterpartyConnectionId = (n.hosts o.connectionId).connection)
    (ho3 : o.counterpartyPortId = none ∨ o.counterpartyPortId = some "icahost") {a : String} (ha : GoodAddr api a)
    (hacc : (n.hosts o.connectionId).account = none ∨ (n.hosts o.connectionId).account = some a) :
    ∃ l n' ch' fresh, Continues api h n ((.ctrl (.execute owner (.createChannel oo) fresh true), [.channelCreated fresh]) :: l) n' ∧
      (∀ x ∈ l, ByRelayers x.1) ∧ Working n' ch' a ∧
      ch'.connectionId = o.connectionId ∧ ch'.order = askedOrder o ∧
        n.w.chans fresh = none ∧ ch'.endpoint.channelId = fresh ∧ Idle n' fresh ∧ n'.w.nextSeq fresh = 1 ∧
        ownerOf n'.w = some owner ∧ n'.w.env = n.w.env ∧ callbackOf n'.w = callbackOf n.w ∧
        (n'.hosts o.connectionId).time = (n.hosts o.connectionId).time ∧
        (∀ x, x ≠ fresh → n'.w.chans x = n.w.chans x) ∧ ∀ x, x ≠ o.connectionId → n'.hosts x = n.hosts x := by
  have hv := ninv_exec h0 he
  obtain ⟨fresh, hf⟩ := fresh_chan hv.exec
  have hl : n.w.live = true := by
    cases hl : n.w.live with
    | true => rfl
    | false => simp [ownerOf, (hv.inv.dead hl).1, Store.empty] at ho
  have hpd : o.counterpartyPortId.getD "icahost" = "icahost" := by rcases ho3 with h | h <;> rw [h] <;> rfl
  have hap := (apply_create (api := api) (o := oo)).2 ⟨hl, ownerOf_eq.1 ho, rfl, hf, (by
    rintro ⟨ch, s⟩ hc rfl
    exact hno ch hc), o, hoo, hpd, rfl, rfl⟩
  have s1 : NetStep api n (.ctrl (.execute owner (.createChannel oo) fresh true)) _ _ := .ctrl _ _ _ trivial hap
  generalize hn1 : n.moved _ _ _ = n1 at s1
  have hf1 : n1.w.chans fresh = some ⟨proposalChannel n.w.env.contractAddr fresh o, .init⟩ := by
    rw [← hn1]; exact setChan_same _ _ _
  have hh1 : n1.hosts = n.hosts := by rw [← hn1]; rfl
  have he1 := netExec_append he (NetExec.nil.step s1)
  obtain ⟨l, n', ch', c, d, w, k1, k2, k3, k4, k5, k6, k7, k8, k9, k10, k11⟩ := complete h0 he1 hf1 (parse_display _)
    (by rw [hh1]; exact ho2) (by
      intro id x hx hcn
      have hx : setChan n.w.chans fresh ⟨proposalChannel n.w.env.contractAddr fresh o, .init⟩ id = some x := by
        rw [← hn1] at hx; exact hx
      rcases setChan_eq_some.1 hx with ⟨-, rfl⟩ | ⟨-, hx⟩
      · exact fun e => by cases e
      · exact hu id x hx hcn) ha (by rw [hh1]; exact hacc)
  refine ⟨l, n', ch', fresh, (Continues.one s1 trivial).trans c, d, w, k2, ?_, hf,
    by rw [k1]; rfl, fun k => ?_, ?_, ?_, ?_, ?_, ?_, fun x hx => ?_, fun x hx => ?_⟩
  · rw [k3]
    unfold askedOrder
    show o.channelOrdering.getD .ordered = _
    cases o.channelOrdering <;> rfl
  · have e1 : n1.w.commits = n.w.commits := by rw [← hn1]; rfl
    rw [k4, e1]
    cases hk : n.w.commits fresh k with
    | none => rfl
    | some p =>
      obtain ⟨s1, s2, -⟩ := commits_chan hv hk
      obtain ⟨c, _, _, _, t1, -⟩ := hv.packets p s1
      rw [s2, hf] at t1
      cases t1
  · have e1 : n1.w.nextSeq = n.w.nextSeq := by rw [← hn1]; rfl
    rw [k5, e1]
    exact unused_seq hv.exec _ hf
  · have e1 : ownerOf n1.w = ownerOf n.w := by rw [← hn1]; rfl
    rw [k6, e1, ho]
  · have e1 : n1.w.env = n.w.env := by rw [← hn1]; rfl
    rw [k7, e1]
  · have e1 : callbackOf n1.w = callbackOf n.w := by rw [← hn1]; rfl
    rw [k8, e1]
  · have e1 : n1.hosts = n.hosts := by rw [← hn1]; rfl
    show (n'.hosts (proposalChannel n.w.env.contractAddr fresh o).connectionId).time = _
    rw [k9, e1]
    rfl
  · have e1 : n1.w.chans x = n.w.chans x := by rw [← hn1]; exact setChan_ne _ hx
    rw [k10 x hx, e1]
  · rw [k11 x hx, hh1]

/-- The owner proposes a channel, and relayers complete the handshake. -/
theorem open_new (h0 : n0.Initial env) (he : NetExec api n0 h n) {owner : String} (ho : ownerOf n.w = some owner)
    (hno : ∀ ch, ¬ Reports n.w ch .opened) {o : ChannelOpenInitOptions}
    (hu : ∀ id x, n.w.chans id = some x → x.chan.connectionId = o.connectionId → x.status ≠ .opened)
    (ho2 : o.counterpartyConnectionId = (n.hosts o.connectionId).connection)
    (ho3 : o.counterpartyPortId = none ∨ o.counterpartyPortId = some "icahost") {a : String} (ha : GoodAddr api a)
    (hacc : (n.hosts o.connectionId).account = none ∨ (n.hosts o.connectionId).account = some a) :
    ∃ l n' ch', Continues api h n l n' ∧ (∀ x ∈ l, ByOwnerAndRelayers owner x.1) ∧ Working n' ch' a ∧
      ch'.connectionId = o.connectionId ∧ ch'.order = askedOrder o ∧
      ∃ fresh obs, (.ctrl (.execute owner (.createChannel (some o)) fresh true), obs) ∈ l ∧
        n.w.chans fresh = none ∧ ch'.endpoint.channelId = fresh ∧ Idle n' fresh ∧ n'.w.nextSeq fresh = 1 ∧
        ownerOf n'.w = some owner ∧ n'.w.env = n.w.env ∧ callbackOf n'.w = callbackOf n.w ∧
        (n'.hosts o.connectionId).time = (n.hosts o.connectionId).time ∧
        (∀ x, x ≠ fresh → n'.w.chans x = n.w.chans x) ∧ ∀ x, x ≠ o.connectionId → n'.hosts x = n.hosts x := by
  obtain ⟨l, n', ch', fresh, a1, a2, a3, a4, a5, a6, a7, a8, a9, a10, a11, a12, a13, a14, a15⟩ :=
    open_asked h0 he ho hno (oo := some o) rfl hu ho2 ho3 ha hacc
  refine ⟨_, n', ch', a1, ?_, a3, a4, a5, fresh, _, List.mem_cons_self .., a6, a7, a8, a9, a10, a11, a12, a13, a14, a15⟩
  intro x hx
  rcases List.mem_cons.1 hx with rfl | hx
  · rfl
  · exact (a2 x hx).too owner

/-- The reopening in full. -/
theorem reopen (h0 : n0.Initial env) (he : NetExec api n0 h n) (ht : 0 < env.time) {owner : String}
    (ho : ownerOf n.w = some owner) {ch : IbcChannel} {s : ChannelStatus} (hr : Reports n.w ch s) {info : IcaInfo}
    (hi : icaOf n.w = some info)
    (hu : ∀ id x, ChainOpen n.w id x → x.connectionId = ch.connectionId → id = ch.endpoint.channelId)
    (hq : n.w.nextSeq ch.endpoint.channelId < 18446744073709551616)
    {o : ChannelOpenInitOptions} (ho1 : o.connectionId = ch.connectionId)
    (ho2 : o.counterpartyConnectionId = (n.hosts ch.connectionId).connection)
    (ho3 : o.counterpartyPortId = none ∨ o.counterpartyPortId = some "icahost") :
    ∃ l n' ch', Continues api h n l n' ∧ (∀ x ∈ l, ByOwnerAndRelayers owner x.1) ∧ Working n' ch' info.icaAddress ∧
      ch'.connectionId = ch.connectionId ∧ ch'.order = askedOrder o ∧
      ∃ fresh obs, (.ctrl (.execute owner (.createChannel (some o)) fresh true), obs) ∈ l ∧
        n.w.chans fresh = none ∧ ch'.endpoint.channelId = fresh ∧ Idle n' fresh ∧ n'.w.nextSeq fresh = 1 ∧
        ownerOf n'.w = some owner ∧ n'.w.env = n.w.env ∧ callbackOf n'.w = callbackOf n.w ∧
        (n'.hosts ch.connectionId).time.toNat ≤ max (n.hosts ch.connectionId).time.toNat n.w.env.time.toNat := by
  have hv := ninv_exec h0 he
  obtain ⟨info', b1, -, b2, -⟩ := hv.account hr
  rw [hi] at b1
  cases b1
  dsimp only at b2
  have hgood : GoodAddr api info.icaAddress := by
    obtain ⟨st, hst⟩ := hv.inv.state (hv.inv.live_of_channel hr)
    obtain ⟨g1, -⟩ := hv.inv.icaInfo st info hst (by simpa [icaOf, hst] using hi)
    exact g1
  obtain ⟨l1, n1, c1, d1, r1, o1, u1, z1, z2, z3⟩ := become_closed h0 he ht ho hr hu hq
  have he1 := netExec_append he c1.exec
  obtain ⟨l, n', ch', c, d, w, k1, k2, fresh, obs, f1, f2, f3, f4, f5, f6, f7, f8, f9, -⟩ := open_new h0 he1 o1 (o := o)
    (a := info.icaAddress) (fun ch' h => by
      have e := r1.symm.trans h
      injection e with e
      injection e with _ e
      cases e)
    (by rw [ho1]; exact u1) (by rw [ho1, connection_kept c1.exec, ho2]) ho3 hgood
    (.inr (by rw [ho1]; exact netExec_hosts c1.exec _ b2))
  refine ⟨_, n', ch', c1.trans c, ?_, w, k1.trans ho1, k2, fresh, obs, List.mem_append_right _ f1, ?_, f3, f4, f5, f6,
    f7.trans z1, f8.trans z2, ?_⟩
  · intro x hx
    rcases List.mem_append.1 hx with hx | hx
    · exact d1 x hx
    · exact d x hx
  · cases hn : n.w.chans fresh with
    | none => rfl
    | some c =>
      obtain ⟨c', k, -⟩ := chan_kept h0 he c1.exec hn
      rw [f2] at k
      cases k
  · rw [← ho1, f9, ho1]
    exact z3

/-- **C91** (partial: it takes that no other channel of the connection is open). In every state in which the contract
reports a channel, open or closed, rightly or not: if every open channel of that connection is the reported one, then the
owner and relayers alone can bring about a new channel to the same account, with any ordering, reported open and open at
both ends, also when hosts allow one channel at a time. -/
theorem C91_can_reopen_partial (h0 : n0.Initial env) (he : NetExec api n0 h n) (ht : 0 < env.time) {owner : String}
    (ho : ownerOf n.w = some owner) {ch : IbcChannel} {s : ChannelStatus} (hr : Reports n.w ch s) {info : IcaInfo}
    (hi : icaOf n.w = some info)
    (hu : ∀ id x, ChainOpen n.w id x → x.connectionId = ch.connectionId → id = ch.endpoint.channelId)
    (hq : n.w.nextSeq ch.endpoint.channelId < 18446744073709551616)
    {o : ChannelOpenInitOptions} (ho1 : o.connectionId = ch.connectionId)
    (ho2 : o.counterpartyConnectionId = (n.hosts ch.connectionId).connection)
    (ho3 : o.counterpartyPortId = none ∨ o.counterpartyPortId = some "icahost") :
    ∃ l n' ch', Continues api h n l n' ∧ (∀ x ∈ l, ByOwnerAndRelayers owner x.1) ∧ Working n' ch' info.icaAddress ∧
      ch'.connectionId = ch.connectionId ∧ ch'.order = askedOrder o ∧
      ∃ fresh obs, (.ctrl (.execute owner (.createChannel (some o)) fresh true), obs) ∈ l ∧
        n.w.chans fresh = none ∧ ch'.endpoint.channelId = fresh ∧ Idle n' fresh := by
  obtain ⟨l, n', ch', a, b, c, d, e, fresh, obs, f1, f2, f3, f4, -⟩ := reopen h0 he ht ho hr hi hu hq ho1 ho2 ho3
  exact ⟨l, n', ch', a, b, c, d, e, fresh, obs, f1, f2, f3, f4⟩

/-- **C91** (partial, as C24). The condition holds as long as no handshake is started while another is under way and packets
time out only on the reported channel. -/
theorem C91_careful_can_reopen_partial (h0 : n0.Initial env) (he : NetExec api n0 h n) (ht : 0 < env.time)
    (hcare : Careful api (World.genesis env) (onController h) n.w) {owner : String}
    (ho : ownerOf n.w = some owner) {ch : IbcChannel} {s : ChannelStatus} (hr : Reports n.w ch s) {info : IcaInfo}
    (hi : icaOf n.w = some info) (hq : n.w.nextSeq ch.endpoint.channelId < 18446744073709551616)
    {o : ChannelOpenInitOptions} (ho1 : o.connectionId = ch.connectionId)
    (ho2 : o.counterpartyConnectionId = (n.hosts ch.connectionId).connection)
    (ho3 : o.counterpartyPortId = none ∨ o.counterpartyPortId = some "icahost") :
    ∃ l n' ch', Continues api h n l n' ∧ (∀ x ∈ l, ByOwnerAndRelayers owner x.1) ∧ Working n' ch' info.icaAddress ∧
      ch'.connectionId = ch.connectionId ∧ ch'.order = askedOrder o := by
  obtain ⟨l, n', ch', a, b, c, d, e, -⟩ := C91_can_reopen_partial h0 he ht ho hr hi (fun id x hx _ => by
    obtain ⟨-, -, hrx⟩ := C24_at_most_one_open_partial hcare hx hx
    have e := hr.symm.trans hrx
    injection e with e
    injection e with e
    subst e
    exact ((ninv_exec h0 he).inv.chan_id hx).symm) hq ho1 ho2 ho3
  exact ⟨l, n', ch', a, b, c, d, e⟩

/-- The open channel-0 can be replaced by an unordered channel. -/
example : ∃ l n' ch', Continues Ex.api (Ex.nh5.take 4) Ex.net4 l n' ∧ (∀ x ∈ l, ByOwnerAndRelayers "alice" x.1) ∧
    Working n' ch' "cosmos1ica" ∧ ch'.connectionId = "connection-0" ∧ ch'.order = .unordered := by
  have he : NetExec Ex.api Ex.net0 (Ex.nh5.take 4) Ex.net4 :=
    .step (h := [_, _, _]) (.step (h := [_, _]) (.step (h := [_]) (.step (h := []) .nil Ex.ns1) Ex.ns2) Ex.ns3) Ex.ns4
  obtain ⟨l, n', ch', a, b, c, d, e, -⟩ := C91_can_reopen_partial (owner := "alice") (ch := Ex.chan "channel-0" Ex.opts)
    (s := .opened) (info := Ex.info "channel-0") (o := Ex.opts') Ex.initial0 he (by decide) rfl rfl rfl (by
      intro id x hx _
      have hx : Ex.w2.chans id = some ⟨x, .opened⟩ := hx
      by_cases h : id = "channel-0"
      · exact h
      · simp [Ex.w2, Ex.eAck, Ex.w1, Ex.eInst, setChan, h, Ex.w0, World.genesis] at hx) (by decide +kernel) rfl rfl (.inr rfl)
  exact ⟨l, n', ch', a, b, c, d, e⟩

/-! ## The lock -/

/-- What stays as it is while the account is locked: `id` is open at both ends, the host's active channel is its other end,
the contract does not track it, nothing is outstanding on it, and no other handshake can be completed. -/
structure Locked (h : List (NetOp × List Obs)) (n : Net) (conn id hid : String) : Prop where
  active : activeChannel h conn = some hid
  host : ∃ hc, (n.hosts conn).chans hid = some hc ∧ hc.status = .opened ∧ hc.controller.channelId = id
  chain : ∃ c, n.w.chans id = some c ∧ c.status = .opened
  untracked : ∀ cs, n.w.store.channel = some cs → cs.channel.endpoint.channelId ≠ id
  settled : ∀ k, n.w.commits id k = none
  noTry : ∀ x hx, (n.hosts conn).chans x = some hx → hx.status ≠ .tryOpen
  others : ∀ x c, n.w.chans x = some c → c.chan.connectionId = conn → x ≠ id → c.status ≠ .opened

theorem locked_ctrl (h0 : n0.Initial env) (he : NetExec api n0 h n) {conn id hid : String} (hk : Locked h n conn id hid)
    {op : Op} {w' : World} {obs : List Obs} (hp : Proven n op) (hs : Step api n.w op w' obs) :
    Locked (h ++ [(.ctrl op, obs)]) (n.moved op w' obs) conn id hid := by
  have hv := ninv_exec h0 he
  have rest := fun (a : ∃ c, w'.chans id = some c ∧ c.status = .opened)
      (b : ∀ cs, w'.store.channel = some cs → cs.channel.endpoint.channelId ≠ id) (c : ∀ k, w'.commits id k = none)
      (d : ∀ x c, w'.chans x = some c → c.chan.connectionId = conn → x ≠ id → c.status ≠ .opened) =>
    (⟨by rw [activeChannel_other (fun _ e => by cases e)]; exact hk.active, hk.host, a, b, c, hk.noTry, d⟩ :
      Locked (h ++ [(.ctrl op, obs)]) (n.moved op w' obs) conn id hid)
  obtain ⟨c0, q1, q2⟩ := hk.chain
  -- writing another channel
  have chain_set : ∀ {i : String} {x : ChainChan}, i ≠ id → ∃ c, setChan n.w.chans i x id = some c ∧ c.status = .opened :=
    fun hne => ⟨c0, by rw [setChan_ne _ (Ne.symm hne)]; exact q1, q2⟩
  have others_set : ∀ {i : String} {x : ChainChan}, (x.chan.connectionId = conn → x.status ≠ .opened) →
      ∀ y c, setChan n.w.chans i x y = some c → c.chan.connectionId = conn → y ≠ id → c.status ≠ .opened := by
    intro i x hx y c hc hcn hne
    rcases setChan_eq_some.1 hc with ⟨-, rfl⟩ | ⟨-, hc⟩
    · exact hx hcn
    · exact hk.others y c hc hcn hne
  have fresh_ne : ∀ {i : String}, n.w.chans i = none → i ≠ id := by
    rintro i hi rfl
    rw [q1] at hi
    cases hi
  have commit_set : ∀ {i : String} {k : UInt64} {v : Option IbcPacket}, i ≠ id ∨ v = none →
      ∀ j, setCommit n.w.commits i k v id j = none := by
    intro i k v hi j
    unfold setCommit
    split
    · rename_i e
      rcases hi with hi | hi
      · exact absurd e.1.symm hi
      · exact hi
    · exact hk.settled j
  cases hs with
  | instantiate sender msg fresh hl hf =>
    rw [(hv.inv.dead hl).2.1] at q1
    cases q1
  | create sender o fresh o' hl ho hf =>
    exact rest (chain_set (fresh_ne hf)) hk.untracked hk.settled (others_set fun _ x => by cases x)
  | close sender fresh c hl ho ht hx hst =>
    exact rest (chain_set (hk.untracked _ ht)) (fun cs hcs => by injection hcs with hcs; subst hcs; exact (hk.untracked _ ht :))
      hk.settled (others_set fun _ x => by cases x)
  | closeConfirm i c hx hst ht =>
    have hne : i ≠ id := by
      rintro rfl
      exact hk.untracked _ ht (hv.inv.chan_id hx)
    exact rest (chain_set hne) (fun cs hcs => by injection hcs with hcs; subst hcs; exact (hk.untracked _ ht :))
      hk.settled (others_set fun _ x => by cases x)
  | openAck i cpId v c st m hx hst =>
    have hne : i ≠ id := by
      rintro rfl
      rw [q1] at hx
      cases hx
      rw [q2] at hst
      cases hst
    have hcn : c.chan.connectionId ≠ conn := by
      intro e
      obtain ⟨c', hc', p1, p2, p3, -⟩ := hp
      rw [hx] at p1
      cases p1
      rw [e] at p2
      obtain ⟨c2, m1, m2, -⟩ := paired_exec h0 he _ _ _ p2 (hk.noTry _ _ p2)
      rw [p3, hv.inv.chan_id hx, hx] at m1
      cases m1
      exact m2 hst
    refine rest (chain_set hne) (fun cs hcs => ?_) hk.settled (others_set fun e => absurd e hcn)
    injection hcs with hcs
    subst hcs
    exact fun e => hne ((hv.inv.chan_id hx).symm.trans e)
  | send sender ms qs memo t fresh st info anys cqs c ts p _ _ hst hi =>
    have hcs : ∃ cs, n.w.store.channel = some cs := by
      cases hcs : n.w.store.channel with
      | some cs => exact ⟨cs, rfl⟩
      | none =>
        have := (hv.inv.icaChannel st hst).2 hcs
        rw [hi] at this
        cases this
    obtain ⟨cs, hcs⟩ := hcs
    have hne : info.channelId ≠ id := by
      rw [← (hv.inv.icaInfo st info hst hi).2.2 cs hcs]
      exact hk.untracked cs hcs
    refine rest ⟨c0, q1, q2⟩ (fun cs' hcs' => ?_) (commit_set (.inl hne)) hk.others
    rw [(storeAfterSend_fields ..).2.2.2.1] at hcs'
    exact hk.untracked _ hcs'
  | timeout i seq r p c st cs hcm hx hst hch =>
    have hne : i ≠ id := by
      rintro rfl
      rw [hk.settled] at hcm
      cases hcm
    refine rest ?_ (fun cs' hcs' => ?_) (commit_set (.inr rfl)) ?_
    · dsimp only
      split
      · exact chain_set hne
      · exact ⟨c0, q1, q2⟩
    · injection hcs' with hcs'
      subst hcs'
      split
      · exact (hk.untracked _ hch :)
      · exact hk.untracked _ hch
    · dsimp only
      split
      · exact others_set fun _ x => by cases x
      · exact hk.others
  | ackOk => exact rest ⟨c0, q1, q2⟩ hk.untracked (commit_set (.inr rfl)) hk.others
  | ackErr => exact rest ⟨c0, q1, q2⟩ hk.untracked (commit_set (.inr rfl)) hk.others
  | _ => exact rest ⟨c0, q1, q2⟩ hk.untracked hk.settled hk.others

theorem locked_step (h0 : n0.Initial env) (he : NetExec api n0 h n) {conn id hid : String} (hk : Locked h n conn id hid)
    {op : NetOp} {n' : Net} {obs : List Obs} (hs : NetStep api n op n' obs) (hp : Permitted h n op) :
    Locked (h ++ [(op, obs)]) n' conn id hid := by
  have hv := ninv_exec h0 he
  obtain ⟨hc, q1, q2, q3⟩ := hk.host
  obtain ⟨c0, r1, r2⟩ := hk.chain
  -- a host writes one of its channels
  have set : ∀ {conn' hid' : String} {d d' : HostChan} {L : List Executed}, (n.hosts conn').chans hid' = some d →
      d'.controller = d.controller → d'.status ≠ .tryOpen → (∀ x, op ≠ .hostOpenConfirm conn x) →
      (conn' = conn → hid' = hid → d.status = .opened → d'.status = .opened) →
      Locked (h ++ [(op, obs)])
        { n with hosts := setHost n.hosts conn' ((n.hosts conn').setChan hid' d'), log := n.log ++ L } conn id hid := by
    intro conn' hid' d d' L hd hctl hst hop hsame
    refine ⟨by rw [activeChannel_other hop]; exact hk.active, ?_, hk.chain, hk.untracked, hk.settled, ?_, hk.others⟩
    · dsimp only
      by_cases e : conn = conn'
      · subst e
        rw [setHost_same]
        by_cases e2 : hid = hid'
        · subst e2
          rw [q1] at hd
          cases hd
          exact ⟨d', by simp [HostSide.setChan], hsame rfl rfl q2, by rw [hctl]; exact q3⟩
        · exact ⟨hc, by simp [HostSide.setChan, e2, q1], q2, q3⟩
      · rw [setHost_ne _ _ e]
        exact ⟨hc, q1, q2, q3⟩
    · intro x hx hh
      rcases chans_set hh with ⟨rfl, rfl, rfl⟩ | ⟨-, hh⟩
      · exact hst
      · exact hk.noTry _ _ hh
  cases hs with
  | ctrl op w' obs hpr hap => exact locked_ctrl h0 he hk hpr (step_of_apply hv.inv hap)
  | hostBlock conn' ht t =>
    refine ⟨by rw [activeChannel_other (fun _ e => by cases e)]; exact hk.active, ?_, hk.chain, hk.untracked, hk.settled, ?_,
      hk.others⟩
    · dsimp only; rw [setBlock_chans]; exact hk.host
    · dsimp only; rw [setBlock_chans]; exact hk.noTry
  | hostOpenTry conn' hid' ch v a =>
    have hne : conn ≠ conn' := by
      rintro rfl
      obtain ⟨hc', k1, k2⟩ := hp _ hk.active
      rw [q1] at k1
      cases k1
      rw [q2] at k2
      cases k2
    refine ⟨by rw [activeChannel_other (fun _ e => by cases e)]; exact hk.active, ?_, hk.chain, hk.untracked, hk.settled, ?_,
      hk.others⟩
    · dsimp only; rw [setHost_ne _ _ hne]; exact hk.host
    · dsimp only; rw [setHost_ne _ _ hne]; exact hk.noTry
  | hostOpenConfirm conn' hid' hc' c k1 k2 =>
    have hne : conn ≠ conn' := by
      rintro rfl
      exact hk.noTry _ _ k1 k2
    have := set (L := []) (d' := { hc' with status := .opened }) k1 rfl (fun x => by cases x)
      (fun x e => by injection e with e; exact hne e.symm) (fun e => absurd e.symm hne)
    simpa using this
  | hostCloseConfirm conn' hid' hc' c k1 k2 k3 k4 k5 =>
    have := set (L := []) (d' := { hc' with status := .closed }) k1 rfl (fun x => by cases x)
      (fun x e => by cases e) (fun e1 e2 e3 => by
        subst e1 e2
        rw [q1] at k1
        cases k1
        rw [q3, r1] at k3
        cases k3
        rw [r2] at k4
        cases k4)
    simpa using this
  | execute conn' hid' hc' p ack a memo ms rs k1 k2 =>
    exact set k1 rfl (fun x => by cases k2.symm.trans x) (fun x e => by cases e) (fun _ _ x => x)
  | fail conn' hid' hc' p ack e k1 k2 =>
    have := set (L := []) (d' := hc'.receive p.sequence ack) k1 rfl (fun x => by cases k2.symm.trans x) (fun x e => by cases e)
      (fun _ _ x => x)
    simpa using this

/-- **C91** (the lock). Suppose a channel of the connection is open at the controller and is the host's active channel, but
the contract does not track it, no packet is outstanding on it, no other channel of the connection is open and no other
handshake of it is under way at the host. Then, whatever anybody does, the contract never again reports an open channel of
this connection and never again sends a packet to the account on it. -/
theorem C91_locked_for_ever (h0 : n0.Initial env) (he : NetExec api n0 h n) {id : String} {ch : IbcChannel}
    (hc : ChainOpen n.w id ch) (ha : activeChannel h ch.connectionId = some ch.counterpartyEndpoint.channelId)
    (hn : ∀ x s, Reports n.w x s → x.endpoint.channelId ≠ id) (hp : ∀ k, n.w.commits id k = none)
    (hx : ∀ x y, ChainOpen n.w x y → y.connectionId = ch.connectionId → x = id)
    (ht : ∀ x hx, (n.hosts ch.connectionId).chans x = some hx → hx.status ≠ .tryOpen)
    {l : List (NetOp × List Obs)} {n' : Net} (hl : Continues api h n l n') :
    (∀ x, Reports n'.w x .opened → x.connectionId ≠ ch.connectionId) ∧
      ∀ x ∈ l, ∀ p, Obs.packetSent p ∈ x.2 →
        ∃ c, n'.w.chans p.src.channelId = some c ∧ c.chan.connectionId ≠ ch.connectionId := by
  have hv := ninv_exec h0 he
  have hk : Locked h n ch.connectionId id ch.counterpartyEndpoint.channelId := by
    obtain ⟨hch, l1, l2, -⟩ := hv.linked _ _ hc (fun x => by cases x)
    refine ⟨ha, ⟨hch, l1, ?_, by rw [l2]; exact hv.inv.chan_id hc⟩, ⟨_, hc, rfl⟩, fun cs hcs => hn cs.channel cs.channelStatus hcs,
      hp, ht, fun x c hxc hcn hne hst => ?_⟩
    · obtain ⟨c, m1, -, -, -, m5⟩ := paired_exec h0 he _ _ _ l1 (ht _ _ l1)
      rw [l2, show ch.endpoint.channelId = id from hv.inv.chan_id hc, show n.w.chans id = _ from hc] at m1
      cases m1
      cases hs : hch.status with
      | tryOpen => exact absurd hs (ht _ _ l1)
      | opened => rfl
      | closed => cases m5 hs
    · obtain ⟨c1, c2⟩ := c
      obtain rfl : c2 = .opened := hst
      exact hne (hx x c1 hxc hcn)
  have key : Locked (h ++ l) n' ch.connectionId id ch.counterpartyEndpoint.channelId ∧
      ∀ x ∈ l, ∀ p, Obs.packetSent p ∈ x.2 →
        ∃ c, n'.w.chans p.src.channelId = some c ∧ c.chan.connectionId ≠ ch.connectionId := by
    induction hl with
    | nil => exact ⟨by simpa using hk, fun _ h => (by cases h)⟩
    | @step l n1 n2 op obs hl hs hpm ih =>
      obtain ⟨i1, i2⟩ := ih
      have he1 := netExec_append he hl.exec
      have hv1 := ninv_exec h0 he1
      refine ⟨by rw [← List.append_assoc]; exact locked_step h0 he1 i1 hs hpm, fun x hx p hp => ?_⟩
      rcases List.mem_append.1 hx with hx | hx
      · obtain ⟨c, k1, k2⟩ := i2 x hx p hp
        obtain ⟨c', m1, m2⟩ := chan_kept h0 he1 (NetExec.nil.step hs) k1
        exact ⟨c', m1, by rw [m2.connection]; exact k2⟩
      · obtain rfl := List.mem_singleton.1 hx
        cases hs with
        | ctrl op w' obs hpr hap =>
          obtain ⟨_, _, _, _, _, _, _, rfl, rfl⟩ := packet_step (step_of_apply hv1.inv hap) hp
          obtain ⟨-, -, -, st, info, _, _, c, _, p', b1, b2, -, -, -, -, b7, b8, -, b10, rfl, b12⟩ := apply_send.1 hap
          have hsrc : p.src.channelId = info.channelId := by
            have e : p = p' := by simpa using b12
            rw [e, b10]
            exact hv1.inv.chan_id b7
          refine ⟨c, by rw [hsrc]; exact b7, fun e => i1.others _ _ b7 e ?_ b8⟩
          obtain ⟨cs, hcs⟩ : ∃ cs, n1.w.store.channel = some cs := by
            cases hcs : n1.w.store.channel with
            | some cs => exact ⟨cs, rfl⟩
            | none =>
              have := (hv1.inv.icaChannel st b1).2 hcs
              rw [b2] at this
              cases this
          rw [← (hv1.inv.icaInfo st info b1 b2).2.2 cs hcs]
          exact i1.untracked cs hcs
        | _ => cases hp
  refine ⟨fun x hx hcn => ?_, key.2⟩
  have he' := netExec_append he hl.exec
  have h1 := C17_reported_open_is_open ⟨env, _, (ninv_exec h0 he').exec⟩ hx
  exact key.1.others _ _ h1 hcn (key.1.untracked _ hx) rfl

end

/-! ## Two overlapping handshakes lock the account -/

namespace Ex

/-- channel-1 as it opens, its other end being channel-6. -/
def chan6 : IbcChannel := ackedChan (prop "channel-1" opts) "channel-6" ver
/-- Both proposals of `y1` are taken up: channel-0 opens (`y2`), then channel-1. -/
def z3 : World := eAck y2 (st "channel-0") "channel-1" "channel-6" ver ⟨prop "channel-1" opts, .init⟩ meta0
/-- The owner closes, which closes channel-1. -/
def z4 : World := eClose z3 ⟨chan6, .opened⟩

theorem v3 : Step api y2 (.relayOpenAck "channel-1" "channel-6" ver) z3
    (callObs (some "cb") (.onChannelOpenAckCallback chan6 "cosmos1ica" .protobuf)) :=
  .openAck _ _ _ ⟨prop "channel-1" opts, .init⟩ (st "channel-0") meta0
    (by simp [y2, eAck, y1, eCreate, setChan]; rfl) rfl rfl verParse metaOk metaNe
theorem rz3 : Reachable api z3 := toStep ry2 v3
theorem v4 : Step api z3 (.execute "alice" .closeChannel "" true) z4 [.channelClosed "channel-1"] :=
  .close _ _ ⟨chan6, .opened⟩ rfl ⟨_, rfl, rfl⟩ rfl
    (by simp [z3, eAck, setChan, chan6, prop, ackedChan, proposalChannel]) rfl

/-- The host's end of channel-1. -/
def hchan6 (v : String) : HostChan := ⟨(prop "channel-1" opts).endpoint, .ordered, v, .tryOpen, 1, fun _ => none⟩

/-- The owner proposes a second channel before the first is taken up. -/
def lock2 : Net := net1.moved (.execute "alice" (.createChannel none) "channel-1" true) y1 [.channelCreated "channel-1"]
/-- The host takes up the first. -/
def lock3 : Net :=
  { lock2 with
    hosts := setHost lock2.hosts "connection-0"
      (((lock2.hosts "connection-0").setAccount "cosmos1ica").setChan "channel-5" (hchan ver)) }
/-- And the second. -/
def lock4 : Net :=
  { lock3 with
    hosts := setHost lock3.hosts "connection-0"
      (((lock3.hosts "connection-0").setAccount "cosmos1ica").setChan "channel-6" (hchan6 ver)) }
/-- The controller opens the first. -/
def lock5 : Net := lock4.moved (.relayOpenAck "channel-0" "channel-5" ver) y2
  (callObs (some "cb") (.onChannelOpenAckCallback (chan "channel-0" opts) "cosmos1ica" .protobuf))
/-- And the second. -/
def lock6 : Net := lock5.moved (.relayOpenAck "channel-1" "channel-6" ver) z3
  (callObs (some "cb") (.onChannelOpenAckCallback chan6 "cosmos1ica" .protobuf))
/-- The host opens the second. -/
def lock7 : Net :=
  { lock6 with
    hosts := setHost lock6.hosts "connection-0"
      ((lock6.hosts "connection-0").setChan "channel-6" { hchan6 ver with status := .opened }) }
/-- And the first, which becomes its active channel. -/
def lock8 : Net :=
  { lock7 with
    hosts := setHost lock7.hosts "connection-0"
      ((lock7.hosts "connection-0").setChan "channel-5" { hchan ver with status := .opened }) }
/-- The owner closes what the contract tracks: the second. -/
def lock9 : Net := lock8.moved (.execute "alice" .closeChannel "" true) z4 [.channelClosed "channel-1"]

theorem proposed2 : lock2.proposed = [prop "channel-0" opts, prop "channel-1" opts] := by
  have : lock2.proposed = net1.proposed ++ newChans y1 [.channelCreated "channel-1"] := rfl
  rw [this, proposed1]
  simp [newChans, y1, eCreate, setChan]
  rfl

theorem lockHost (hid : String) : ((lock9.hosts "connection-0").chans hid) =
    if hid = "channel-5" then some { hchan ver with status := .opened }
    else if hid = "channel-6" then some { hchan6 ver with status := .opened } else none := by
  show (lock8.hosts "connection-0").chans hid = _
  simp only [lock8, lock7, setHost_same, HostSide.setChan]
  show (if hid = "channel-5" then _ else if hid = "channel-6" then _ else (lock4.hosts "connection-0").chans hid) = _
  simp only [lock4, lock3, setHost_same, HostSide.setChan, HostSide.setAccount]
  by_cases e5 : hid = "channel-5"
  · simp [e5]
  · by_cases e6 : hid = "channel-6"
    · simp [e6]
    · simp only [e5, e6, if_false]
      rfl

theorem lockChans (id : String) : lock9.w.chans id =
    if id = "channel-1" then some ⟨chan6, .closed⟩
    else if id = "channel-0" then some ⟨chan "channel-0" opts, .opened⟩ else none := by
  show z4.chans id = _
  by_cases e1 : id = "channel-1"
  · subst e1
    simp [z4, eClose, setChan, chan6, prop, ackedChan, proposalChannel]
  · rw [if_neg e1]
    have e : z4.chans id = y2.chans id := by
      show setChan (setChan y2.chans "channel-1" _) "channel-1" _ id = _
      rw [setChan_ne _ e1, setChan_ne _ e1]
    rw [e]
    by_cases e0 : id = "channel-0"
    · subst e0
      simp [y2, eAck, setChan]
      rfl
    · rw [if_neg e0]
      show setChan (setChan (setChan _ "channel-0" _) "channel-1" _) "channel-0" _ id = _
      rw [setChan_ne _ e0, setChan_ne _ e1, setChan_ne _ e0]
      rfl

/-- What happens, in order. -/
def lockHistory : List (NetOp × List Obs) :=
  [(.ctrl (.instantiate "deployer" inst "channel-0" true), [.channelCreated "channel-0"]),
   (.ctrl (.execute "alice" (.createChannel none) "channel-1" true), [.channelCreated "channel-1"]),
   (.hostOpenTry "connection-0" "channel-5" (prop "channel-0" opts) ver "cosmos1ica", []),
   (.hostOpenTry "connection-0" "channel-6" (prop "channel-1" opts) ver "cosmos1ica", []),
   (.ctrl (.relayOpenAck "channel-0" "channel-5" ver),
    callObs (some "cb") (.onChannelOpenAckCallback (chan "channel-0" opts) "cosmos1ica" .protobuf)),
   (.ctrl (.relayOpenAck "channel-1" "channel-6" ver),
    callObs (some "cb") (.onChannelOpenAckCallback chan6 "cosmos1ica" .protobuf)),
   (.hostOpenConfirm "connection-0" "channel-6", []),
   (.hostOpenConfirm "connection-0" "channel-5", []),
   (.ctrl (.execute "alice" .closeChannel "" true), [.channelClosed "channel-1"])]

theorem lockRun : Continues api [] net0 lockHistory lock9 := by
  have a2 : NetStep api net1 (.ctrl (.execute "alice" (.createChannel none) "channel-1" true)) lock2 _ :=
    .ctrl _ _ _ trivial ((apply_iff_step (inv_of_reachable r1)).2 u1)
  have a3 : NetStep api lock2 (.hostOpenTry "connection-0" "channel-5" (prop "channel-0" opts) ver "cosmos1ica") lock3 [] :=
    .hostOpenTry "connection-0" "channel-5" (prop "channel-0" opts) ver "cosmos1ica"
      (by rw [proposed2]; simp) rfl rfl rfl (proposalVersion_json opts) verJson (by decide) (.inl rfl)
  have a4 : NetStep api lock3 (.hostOpenTry "connection-0" "channel-6" (prop "channel-1" opts) ver "cosmos1ica") lock4 [] :=
    .hostOpenTry "connection-0" "channel-6" (prop "channel-1" opts) ver "cosmos1ica"
      (by show _ ∈ lock2.proposed; rw [proposed2]; simp) rfl rfl
      (by simp only [lock3, setHost_same, HostSide.setChan, HostSide.setAccount]; rfl) (proposalVersion_json opts)
      (by simp only [lock3, setHost_same, HostSide.setChan, HostSide.setAccount]; exact verJson) (by decide)
      (.inr (by simp only [lock3, setHost_same, HostSide.setChan, HostSide.setAccount]))
  have b5 : (lock4.hosts "connection-0").chans "channel-5" = some (hchan ver) := by
    simp [lock4, lock3, setHost, HostSide.setChan, HostSide.setAccount]
  have b6 : (lock4.hosts "connection-0").chans "channel-6" = some (hchan6 ver) := by
    simp [lock4, setHost, HostSide.setChan]
  have a5 : NetStep api lock4 (.ctrl (.relayOpenAck "channel-0" "channel-5" ver)) lock5 _ :=
    .ctrl _ _ _ ⟨⟨prop "channel-0" opts, .init⟩, hchan ver, by show y1.chans _ = _; simp [y1, eCreate, w1, eInst, setChan]; rfl,
      b5, rfl, rfl, rfl⟩ ((apply_iff_step (inv_of_reachable ry1)).2 u2)
  have a6 : NetStep api lock5 (.ctrl (.relayOpenAck "channel-1" "channel-6" ver)) lock6 _ :=
    .ctrl _ _ _ ⟨⟨prop "channel-1" opts, .init⟩, hchan6 ver, by show y2.chans _ = _; simp [y2, eAck, y1, eCreate, setChan]; rfl,
      b6, rfl, rfl, rfl⟩ ((apply_iff_step (inv_of_reachable ry2)).2 v3)
  have c1 : z3.chans "channel-1" = some ⟨chan6, .opened⟩ := by simp [z3, eAck, setChan]; rfl
  have c0 : z3.chans "channel-0" = some ⟨chan "channel-0" opts, .opened⟩ := by simp [z3, y2, eAck, setChan]; rfl
  have a7 : NetStep api lock6 (.hostOpenConfirm "connection-0" "channel-6") lock7 [] :=
    .hostOpenConfirm "connection-0" "channel-6" (hchan6 ver) ⟨chan6, .opened⟩ b6 rfl
      c1 (fun h => by cases h) rfl
  have a8 : NetStep api lock7 (.hostOpenConfirm "connection-0" "channel-5") lock8 [] :=
    .hostOpenConfirm "connection-0" "channel-5" (hchan ver) ⟨chan "channel-0" opts, .opened⟩
      (by simp only [lock7, setHost_same, HostSide.setChan]; exact b5) rfl
      c0 (fun h => by cases h) rfl
  have a9 : NetStep api lock8 (.ctrl (.execute "alice" .closeChannel "" true)) lock9 _ :=
    .ctrl _ _ _ trivial ((apply_iff_step (inv_of_reachable rz3)).2 v4)
  have p3 : Permitted [(.ctrl (.instantiate "deployer" inst "channel-0" true), [.channelCreated "channel-0"]),
      (.ctrl (.execute "alice" (.createChannel none) "channel-1" true), [.channelCreated "channel-1"])] lock2
      (.hostOpenTry "connection-0" "channel-5" (prop "channel-0" opts) ver "cosmos1ica") := fun _ h => by cases h
  have p4 : Permitted [(.ctrl (.instantiate "deployer" inst "channel-0" true), [.channelCreated "channel-0"]),
      (.ctrl (.execute "alice" (.createChannel none) "channel-1" true), [.channelCreated "channel-1"]),
      (.hostOpenTry "connection-0" "channel-5" (prop "channel-0" opts) ver "cosmos1ica", [])] lock3
      (.hostOpenTry "connection-0" "channel-6" (prop "channel-1" opts) ver "cosmos1ica") := fun _ h => by cases h
  exact ((((((((Continues.one ns1 trivial).trans (.one a2 trivial)).trans (.one a3 p3)).trans (.one a4 p4)).trans
    (.one a5 trivial)).trans (.one a6 trivial)).trans (.one a7 trivial)).trans (.one a8 trivial)).trans (.one a9 trivial)

end Ex

/-- **C91** (false without the condition). There is a history, with hosts that keep to the rule and nobody doing anything
forbidden, after which the contract reports a closed channel of a connection on which it has an account, and never again,
whatever anybody does, does it report an open channel of that connection or send a packet to that account. -/
theorem C91_can_be_locked : ∃ api env n0 h n, Net.Initial env n0 ∧ 0 < env.time ∧ Continues api [] n0 h n ∧
    ∃ ch a, Reports n.w ch .closed ∧ icaOf n.w = some ⟨a, ch.endpoint.channelId, .protobuf⟩ ∧
      (n.hosts ch.connectionId).account = some a ∧
      ∀ l n', Continues api h n l n' → (∀ x, Reports n'.w x .opened → x.connectionId ≠ ch.connectionId) ∧
        ∀ x ∈ l, ∀ p, Obs.packetSent p ∈ x.2 →
          ∃ c, n'.w.chans p.src.channelId = some c ∧ c.chan.connectionId ≠ ch.connectionId := by
  refine ⟨Ex.api, Ex.env, Ex.net0, Ex.lockHistory, Ex.lock9, Ex.initial0, by decide, Ex.lockRun, Ex.chan6, "cosmos1ica", rfl,
    rfl, ?_, fun l n' hl => ?_⟩
  · show (Ex.lock4.hosts "connection-0").account = _
    simp [Ex.lock4, setHost, HostSide.setChan, HostSide.setAccount]
  · refine C91_locked_for_ever (id := "channel-0") (ch := Ex.chan "channel-0" Ex.opts) Ex.initial0 Ex.lockRun.exec ?_ rfl ?_ ?_
      ?_ ?_ hl
    · unfold ChainOpen
      rw [Ex.lockChans]
      simp
    · intro x s hx
      have e : Ex.lock9.w.store.channel = some ⟨Ex.chan6, .closed⟩ := rfl
      unfold Reports at hx
      rw [e] at hx
      injection hx with hx
      injection hx with hx
      subst hx
      decide +kernel
    · intro k
      rfl
    · intro x y hy _
      unfold ChainOpen at hy
      rw [Ex.lockChans] at hy
      split at hy
      · cases hy
      · split at hy
        · assumption
        · cases hy
    · intro x hx hh
      rw [show (Ex.chan "channel-0" Ex.opts).connectionId = "connection-0" from rfl, Ex.lockHost] at hh
      split at hh
      · cases hh; exact fun h => by cases h
      · split at hh
        · cases hh; exact fun h => by cases h
        · cases hh

end Ica
