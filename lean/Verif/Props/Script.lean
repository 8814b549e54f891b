import Verif.Facts.Script

/-!
# Every script of the kind of the end-to-end tests (C124)
-/
namespace Ica
open Spec

section
variable {api : Api} {env : Env} {n0 n : Net} {h : List (NetOp × List Obs)}

theorem Spec.Displays.tally {c : Cast} {raw0 raw : Raw.RawStore} {resp : Response} {s : Stage} (h0 : n0.Initial env)
    (he : NetExec api n0 h n) (hi : Counter.instantiate raw0 = (.ok resp, raw)) (hs : Displays c raw h n s) :
    Tally c.counter (onController h) s.success s.errors s.timeout := by
  obtain ⟨ms, e, -⟩ := deliver_all (ninv_exec h0 he).exec c.counter
  exact (counter_shows hi).2 ⟨⟨ms, e⟩, hs.counter⟩

/-- **C124.** One scene: whenever the contract, the chains and the counter show a stage, what the scene says can be
played, by the owner, relayers and hosts that keep to their rules, and then they show what is expected of the scene. -/
theorem C124_scene (h0 : n0.Initial env) (he : NetExec api n0 h n) {c : Cast} (hc : c.Fine) {raw0 raw : Raw.RawStore}
    {resp : Response} (hi : Counter.instantiate raw0 = (.ok resp, raw)) {s s' : Stage} {x : Scene}
    (hs : Displays c raw h n s) (hp : Played c s x s') :
    ∃ l n', Continues api h n l n' ∧ (∀ y ∈ l, Staged c.owner y.1) ∧ Displays c raw (h ++ l) n' s' := by
  have hv := ninv_exec h0 he
  have ht := hs.tally h0 he hi
  -- requests that reach the host
  have request : ∀ (r : Request) (outcome : List (String × Bytes) → Outcome), s.Takes c r →
      (∀ messages, ∃ ack, (outcome messages).Fits (n.hosts c.connection).height messages ∧ AckSays ack (outcome messages)) →
      ∀ (a : Nat) (b : List String) (es : List Request), (∀ messages obs p rel op w w',
        apply api w op = some (w', obs) → ToldOutcome obs c.counter p rel (outcome messages) → Tally c.counter [(op, obs)] a b 0) →
      (∀ messages (f : List (String × Bytes) → Executed), (∀ rs, (f rs).connection = c.connection ∧ (f rs).account = c.account ∧
        r.ReadAs c.account (f rs).messages) → List.Forall₂ (fun (r : Request) (e : Executed) => e.connection = c.connection ∧
          e.account = c.account ∧ r.ReadAs c.account e.messages) es ((outcome messages).logged f)) →
      ∃ l n', Continues api h n l n' ∧ (∀ y ∈ l, Staged c.owner y.1) ∧ Displays c raw (h ++ l) n'
        { s with
          sequence := s.sequence + 1
          success := s.success + a
          errors := s.errors ++ b
          executed := s.executed ++ es } := by
    intro r outcome hr hf a b es htold hlogged
    obtain ⟨ch, w1, w2, w3, w4, w5⟩ := hs.isOpen hr.isOpen
    have fine : r.Fine n ch c.account := by
      have h1 := hr.future
      have h2 := hs.hostClock
      refine ⟨hr.messages, hr.queries, hr.signed, by rw [hs.clock]; exact hr.fits, ?_⟩
      rw [w2, hs.clock]
      omega
    obtain ⟨p, n1, ms, s1, s2, s3⟩ := use_once h0 he hs.owner w1 w4 (by rw [w5]; exact hr.sequence) fine
    obtain ⟨ack, f1, f2⟩ := hf ms
    obtain ⟨n2, n3, obs, k1, k2, k3, k4, k5, k6, k7, k8, k9, k10, k11, k12⟩ := s3 (outcome ms) ack "" (by rw [w2]; exact f1) f2
    have hl : NetExec api n [(.ctrl (.execute c.owner r.msg "" true), [.packetSent p]), (.hostReceive ch.connectionId
        ch.counterpartyEndpoint.channelId p (outcome ms) ack, []), (.ctrl (.relayAck ch.endpoint.channelId p.sequence ack ""), obs)] n3 :=
      .step (h := [_, _]) (.step (h := [_]) (.step (h := []) .nil s1) k1) k2
    have hcar : ∀ y ∈ [((.ctrl (.execute c.owner r.msg "" true), [.packetSent p]) : NetOp × List Obs), (.hostReceive ch.connectionId
        ch.counterpartyEndpoint.channelId p (outcome ms) ack, []), (.ctrl (.relayAck ch.endpoint.channelId p.sequence ack ""), obs)],
        Carrying c.owner y.1 := by
      intro y hy
      simp only [List.mem_cons, List.not_mem_nil, or_false] at hy
      rcases hy with rfl | rfl | rfl
      · rfl
      · trivial
      · trivial
    obtain ⟨d1, d2, d3, d4, d5⟩ := carrying_keeps h0 he hl hcar
    refine ⟨_, n3, continues_of_carrying hl hcar, fun y hy => Planned.staged (.inr (hcar y hy)), ?_⟩
    refine ⟨k7, k8.trans hs.callback, ?_, ?_, ?_, ?_, ?_, ?_, ?_, ?_, ?_, ?_⟩
    · rw [onController_append, lastOptions_kept]
      · exact hs.options
      · intro y hy
        have := hcar y hy
        simp only [List.mem_cons, List.not_mem_nil, or_false] at hy
        rcases hy with rfl | rfl | rfl <;> trivial
    · rw [k9]; exact hs.clock
    · rw [(d5 _).2]; exact hs.hostClock
    · rw [connection_kept hl]; exact hs.hostName
    · rw [(d5 _).1]; exact hs.account
    · intro _
      exact ⟨ch, k5, w2, w3, k6, by rw [k12, w5]⟩
    · intro e
      rw [show s.isOpen = true from hr.isOpen] at e
      cases e
    · intro id x hx
      have hx : ChainOpen n.w id x := (congrFun d1 id).symm.trans hx
      exact d3.trans (hs.only id x hx)
    · refine ((counter_shows hi).1 ?_).2
      rw [onController_append]
      refine ht.append (c' := 0) ?_
      obtain ⟨w', -, -, ha1⟩ := netStep_ctrl s1
      obtain ⟨w'', -, -, ha3⟩ := netStep_ctrl k2
      have t1 := tally_step (api := api) rfl ha1 c.counter
      have t2 := htold ms obs p "" _ _ _ ha3 (k4 _ hs.callback)
      have := t1.append t2
      rwa [Nat.zero_add, List.nil_append, Nat.zero_add] at this
    · rw [k3]
      refine List.rel_append hs.executed (hlogged ms _ fun rs => ⟨w2, rfl, s2⟩)
  cases hp with
  | @done r hr =>
    obtain ⟨l, n', a1, a2, a3⟩ := request r (fun ms => .ok (responses_exist (n.hosts c.connection).height ms).choose) hr
      (fun ms => ⟨AckData.jc.toBytes (.result (P.TxMsgData.toBytes ⟨[], (responses_exist (n.hosts c.connection).height
          ms).choose.map fun a => ⟨a.1, a.2⟩⟩)),
        (responses_exist (n.hosts c.connection).height ms).choose_spec,
        _, by rw [readAck_eq]; exact JC.ofBytes_toBytes AckData.jc_law _, readTxMsgData_toBytes _⟩)
      1 [] [r] (fun ms obs p rel op w w' ha ho => by
        obtain ⟨res, q, k1, -⟩ := ho
        exact tally_told ha k1) (fun ms f hf => .cons (hf _) .nil)
    rw [List.append_nil] at a3
    exact ⟨l, n', a1, a2, a3⟩
  | @failed r e hr =>
    obtain ⟨l, n', a1, a2, a3⟩ := request r (fun ms => .fail e) hr
      (fun ms => ⟨AckData.jc.toBytes (.error e), trivial, by
        show readAck _ = _
        rw [readAck_eq]; exact JC.ofBytes_toBytes AckData.jc_law _⟩)
      0 [e] [] (fun ms obs p rel op w w' ha ho => by
        obtain ⟨q, k1⟩ := ho
        exact tally_told ha k1) (fun ms f hf => .nil)
    rw [List.append_nil] at a3
    exact ⟨l, n', a1, a2, a3⟩
  | @late r hr =>
    obtain ⟨ch, w1, w2, w3, w4, w5⟩ := hs.isOpen hr.isOpen
    have fine : r.Fine n ch c.account := by
      have h1 := hr.future
      have h2 := hs.hostClock
      refine ⟨hr.messages, hr.queries, hr.signed, by rw [hs.clock]; exact hr.fits, ?_⟩
      rw [w2, hs.clock]
      omega
    obtain ⟨p, n1, n2, n3, n4, ts, obs, k0, k1, k2, k3, k4, k5, k6, k7, k8, k9, k10, k11, k12, k13, k14, k15⟩ :=
      late_once h0 he hs.owner w1 (by rw [w5]; exact hr.sequence) fine (by rw [w2, hs.clock]; exact hs.hostClock) ""
    have hcont : Continues api h n [(.ctrl (.execute c.owner r.msg "" true), [.packetSent p]), (.hostBlock ch.connectionId
        (n.hosts ch.connectionId).height ts, []), (.ctrl (.relayTimeout ch.endpoint.channelId p.sequence ""), obs),
        (.ctrl (.block n.w.env.height ts), [])] n4 :=
      .step (l := [_, _, _]) (.step (l := [_, _]) (.step (l := [_]) (.step (l := []) .nil k1 trivial) k2 trivial) k3 trivial)
        k4 trivial
    have hts : ts.toNat = s.clock + allowedSeconds r.timeout * 1000000000 := by rw [k0, hs.clock]
    refine ⟨_, n4, hcont, ?_, ?_⟩
    · intro y hy
      simp only [List.mem_cons, List.not_mem_nil, or_false] at hy
      rcases hy with rfl | rfl | rfl | rfl
      · exact Planned.staged (.inr rfl)
      · exact Planned.staged (.inl trivial)
      · exact Planned.staged (.inl trivial)
      · trivial
    · refine ⟨k6, k7.trans hs.callback, ?_, ?_, ?_, ?_, ?_, ?_, ?_, ?_, ?_, ?_⟩
      · rw [onController_append, lastOptions_kept]
        · exact hs.options
        · intro y hy
          simp only [List.mem_cons, List.not_mem_nil, or_false] at hy
          rcases hy with rfl | rfl | rfl | rfl <;> trivial
      · rw [k8]; exact hts
      · rw [k9, ← w2, setHost_same]
        exact Nat.le_of_eq hts
      · rw [connection_kept hcont.exec]; exact hs.hostName
      · rw [k9, ← w2, setHost_same, w2]; exact hs.account
      · intro e
        have e : askedOrder s.options = .unordered := of_decide_eq_true e
        have e' : ch.order = .unordered := w3.trans e
        rw [e', if_neg (by decide)] at k12 k13
        obtain ⟨q1, q2, q3, q4, hch, q5, q6, q7⟩ := w1
        refine ⟨ch, ⟨k12, k13, k11.trans q3, ?_, hch, ?_, q6, q7⟩, w2, w3, fun e'' => ?_, by rw [k15, w5]⟩
        · rw [k9, setHost_same]; exact q4
        · rw [k9, setHost_same]; exact q5
        · rw [e'] at e''; cases e''
      · intro e
        have e : ¬ askedOrder s.options = .unordered := of_decide_eq_false e
        have e' : ch.order = .ordered := by
          rw [w3]
          cases ha : askedOrder s.options with
          | ordered => rfl
          | unordered => exact absurd ha e
        rw [e', if_pos rfl] at k12
        rintro ⟨y, hy⟩
        have := k12.symm.trans hy
        injection this with this
        injection this with _ this
        cases this
      · intro id y hy
        by_cases e : id = ch.endpoint.channelId
        · subst e
          have := k13.symm.trans hy
          injection this with this
          injection this with e1 e2
          subst e1
          show n4.w.store.channel = _
          rw [k12]
          split at e2
          · cases e2
          · next hne => rw [if_neg hne]
        · have hy' : ChainOpen n.w id y := (k14 id e).symm.trans hy
          have := w1.1.symm.trans (hs.only id y hy')
          injection this with this
          injection this with this
          subst this
          exact absurd (hv.inv.chan_id hy').symm e
      · refine ((counter_shows hi).1 ?_).2
        rw [onController_append]
        obtain ⟨w', -, -, ha1⟩ := netStep_ctrl k1
        obtain ⟨w'', -, -, ha3⟩ := netStep_ctrl k3
        obtain ⟨w''', -, -, ha4⟩ := netStep_ctrl k4
        have t1 := tally_step (api := api) rfl ha1 c.counter
        have t2 : Tally c.counter [(.relayTimeout ch.endpoint.channelId p.sequence "", obs)] 0 [] 1 :=
          tally_told ha3 (k5 _ hs.callback)
        have t3 := tally_step (api := api) rfl ha4 c.counter
        have := ht.append ((t1.append t2).append t3)
        simpa [onController] using this
      · rw [k10]; exact hs.executed
  | close ho =>
    obtain ⟨ch, w1, w2, w3, w4, w5⟩ := hs.isOpen ho
    obtain ⟨w', k1, k2, k3, k4, k5, k6, k7, k8, -⟩ := C19_owner_can_close ⟨env, _, hv.exec⟩ w1.1 hs.owner ""
    have s1 : NetStep api n (.ctrl (.execute c.owner .closeChannel "" true)) _ _ := .ctrl _ _ _ trivial k1
    refine ⟨_, _, .one s1 trivial, ?_, ?_⟩
    · intro y hy
      obtain rfl := List.mem_singleton.1 hy
      exact Planned.staged (.inl rfl)
    · refine ⟨?_, ?_, ?_, ?_, hs.hostClock, hs.hostName, hs.account, fun e => (by cases e), ?_, ?_, ?_, hs.executed⟩
      · show ownerOf w' = _
        simp only [ownerOf, k5]
        exact hs.owner
      · show callbackOf w' = _
        simp only [callbackOf, k5]
        exact hs.callback
      · rw [onController_append, lastOptions_kept]
        · exact hs.options
        · intro y hy
          obtain rfl := List.mem_singleton.1 hy
          trivial
      · show w'.env.time.toNat = _
        rw [k8]; exact hs.clock
      · rintro - ⟨y, hy⟩
        have := k2.symm.trans hy
        injection this with this
        injection this with _ this
        cases this
      · intro id y hy
        by_cases e : id = ch.endpoint.channelId
        · subst e
          have := k3.symm.trans hy
          injection this with this
          injection this with _ this
          cases this
        · have hy' : ChainOpen n.w id y := (k4 id e).symm.trans hy
          have := w1.1.symm.trans (hs.only id y hy')
          injection this with this
          injection this with this
          subst this
          exact absurd (hv.inv.chan_id hy').symm e
      · refine ((counter_shows hi).1 ?_).2
        rw [onController_append]
        have := ht.append (tally_step (api := api) rfl k1 c.counter)
        rwa [Nat.add_zero, List.append_nil, Nat.add_zero] at this
  | @reopen o ho hf =>
    have hno := hs.isClosed ho
    have hopt : n.w.store.options = some s.options := (options_history hv.exec).trans hs.options
    have hoo : o.or n.w.store.options = some (o.getD s.options) := by
      rw [hopt]
      cases o <;> rfl
    obtain ⟨l, n', ch', fresh, a1, a2, a3, a4, a5, a6, a7, a8, a9, a10, a11, a12, a13, a14, a15⟩ :=
      open_asked h0 he hs.owner (fun ch hch => hno ⟨ch, hch⟩) hoo (by
        rintro id ⟨y, st⟩ hy - e
        obtain rfl : st = .opened := e
        exact hno ⟨y, hs.only id y hy⟩) (by rw [hf.connection, hs.hostName]; exact hf.host) hf.port
        (goodAddr hc.named hc.short hc.plain) (by rw [hf.connection]; exact .inr hs.account)
    have hplan : ∀ y ∈ (((.ctrl (.execute c.owner (.createChannel o) fresh true), [.channelCreated fresh]) :: l) :
        List (NetOp × List Obs)), ByOwnerAndRelayers c.owner y.1 := by
      intro y hy
      rcases List.mem_cons.1 hy with rfl | hy
      · rfl
      · exact (a2 y hy).too c.owner
    subst a7
    refine ⟨_, n', a1, fun y hy => Planned.staged (.inl (hplan y hy)), ?_⟩
    refine ⟨a10, a12.trans hs.callback, ?_, ?_, ?_, ?_, ?_, ?_, fun e => (by cases e), ?_, ?_, ?_⟩
    · have e : ∀ y, onController (h ++ y :: l) = (onController h ++ onController [y]) ++ onController l := by
        intro y
        rw [← onController_append, ← onController_append, List.append_assoc]
        rfl
      rw [e, lastOptions_kept]
      · rw [show onController [((.ctrl (.execute c.owner (.createChannel o) ch'.endpoint.channelId true),
          [.channelCreated ch'.endpoint.channelId]) : NetOp × List Obs)] = [(.execute c.owner (.createChannel o)
          ch'.endpoint.channelId true, [.channelCreated ch'.endpoint.channelId])] from rfl, lastOptions_snoc]
        cases o with
        | none => exact hs.options
        | some o => rfl
      · exact fun y hy => (a2 y hy).noOptions
    · rw [a11]; exact hs.clock
    · rw [← hf.connection, a13, hf.connection]; exact hs.hostClock
    · rw [connection_kept a1.exec]; exact hs.hostName
    · rw [← hf.connection, ← a4]; exact a3.2.2.2.1
    · intro _
      exact ⟨ch', a3, a4.trans hf.connection, a5, fun _ => a8, a9⟩
    · intro id y hy
      by_cases e : id = ch'.endpoint.channelId
      · subst e
        have := a3.2.1.symm.trans hy
        injection this with this
        injection this with this
        subst this
        exact a3.1
      · exact absurd ⟨y, hs.only id y ((a14 id e).symm.trans hy)⟩ hno
    · refine ((counter_shows hi).1 ?_).2
      rw [onController_append]
      have := ht.append (tally_quiet a1.exec (fun y hy => by
        rcases List.mem_cons.1 hy with rfl | hy
        · rfl
        · exact (a2 y hy).unsettling) c.counter)
      rwa [Nat.add_zero, List.append_nil, Nat.add_zero] at this
    · rw [log_kept a1.exec hplan]; exact hs.executed

/-- **C124.** A whole script: whenever the contract, the chains and the counter show a stage, any script that can be
expected to be played from there can be played, and then they show what is expected at its end. -/
theorem C124_script (h0 : n0.Initial env) (he : NetExec api n0 h n) {c : Cast} (hc : c.Fine) {raw0 raw : Raw.RawStore}
    {resp : Response} (hi : Counter.instantiate raw0 = (.ok resp, raw)) {s s' : Stage} {xs : List Scene}
    (hs : Displays c raw h n s) (hp : PlayedAll c s xs s') :
    ∃ l n', Continues api h n l n' ∧ (∀ y ∈ l, Staged c.owner y.1) ∧ Displays c raw (h ++ l) n' s' := by
  induction hp generalizing h n with
  | nil => exact ⟨[], n, .nil, fun _ h => (by cases h), by rw [List.append_nil]; exact hs⟩
  | cons hp _ ih =>
    obtain ⟨l, n1, a1, a2, a3⟩ := C124_scene h0 he hc hi hs hp
    obtain ⟨l', n2, b1, b2, b3⟩ := ih (netExec_append he a1.exec) a3
    refine ⟨l ++ l', n2, a1.trans b1, fun y hy => ?_, by rw [← List.append_assoc]; exact b3⟩
    rcases List.mem_append.1 hy with hy | hy
    · exact a2 y hy
    · exact b2 y hy

/-- **C124.** The set-up: anybody instantiates the contract for the owner, with the counter as callback contract; relayers
complete the handshake; and the contract, the chains and the counter show the stage at which scripts start. -/
theorem C124_setup (h0 : n0.Initial env) {c : Cast} (hc : c.Fine) {o : ChannelOpenInitOptions} (hf : c.Fits o)
    (hv1 : api.validAddr c.owner = true) (hv2 : api.validAddr c.counter = true)
    (hn : (n0.hosts c.connection).connection = c.hostConnection)
    (ht : (n0.hosts c.connection).time.toNat ≤ env.time.toNat) {raw0 raw : Raw.RawStore}
    {resp : Response} (hi : Counter.instantiate raw0 = (.ok resp, raw)) (sender fresh : String) :
    ∃ l n, Continues api [] n0 ((.ctrl (.instantiate sender ⟨some c.owner, o, some c.counter⟩ fresh true),
        [.channelCreated fresh]) :: l) n ∧ (∀ y ∈ l, Staged c.owner y.1) ∧
      Displays c raw ((.ctrl (.instantiate sender ⟨some c.owner, o, some c.counter⟩ fresh true), [.channelCreated fresh]) :: l) n
        (.start o env.time.toNat) := by
  have hpd : o.counterpartyPortId.getD "icahost" = "icahost" := by rcases hf.port with h | h <;> rw [h] <;> rfl
  have hap := (apply_instantiate (api := api) (w := n0.w) (sender := sender) (fresh := fresh) (core := true)
    (msg := ⟨some c.owner, o, some c.counter⟩)).2 ⟨by rw [h0.w]; rfl, rfl, by rw [h0.w]; rfl, hv1, (by
      intro a ha
      obtain rfl := Option.some.inj ha
      exact hv2), hpd, (by
      intro cs hcs
      rw [h0.w] at hcs
      cases hcs), rfl, rfl⟩
  have s1 : NetStep api n0 (.ctrl (.instantiate sender ⟨some c.owner, o, some c.counter⟩ fresh true)) _ _ :=
    .ctrl _ _ _ trivial hap
  generalize hn1 : n0.moved _ _ _ = n1 at s1
  have hf1 : n1.w.chans fresh = some ⟨proposalChannel n0.w.env.contractAddr fresh o, .init⟩ := by
    rw [← hn1]; exact setChan_same _ _ _
  have hf2 : ∀ id, id ≠ fresh → n1.w.chans id = none := by
    intro id hid
    rw [← hn1]
    refine (setChan_ne _ hid).trans ?_
    rw [h0.w]
    rfl
  have hh1 : n1.hosts = n0.hosts := by rw [← hn1]; rfl
  have he1 : NetExec api n0 [(.ctrl (.instantiate sender ⟨some c.owner, o, some c.counter⟩ fresh true),
    [.channelCreated fresh])] n1 := NetExec.nil.step s1
  obtain ⟨l, n', ch', c', d, w, k1, k2, k3, k4, k5, k6, k7, k8, k9, k10, k11⟩ := complete h0 he1 hf1 (parse_display _)
    (a := c.account) (by
      rw [hh1]
      show o.counterpartyConnectionId = (n0.hosts o.connectionId).connection
      rw [hf.connection, hn]
      exact hf.host) (by
      intro id x hx _ e
      by_cases hid : id = fresh
      · subst hid
        rw [hf1] at hx
        obtain rfl := Option.some.inj hx
        cases e
      · rw [hf2 id hid] at hx
        cases hx) (goodAddr hc.named hc.short hc.plain) (by rw [hh1]; exact .inl (h0.account _))
  have hc0 : (proposalChannel n0.w.env.contractAddr fresh o).connectionId = c.connection := hf.connection
  have hid : ch'.endpoint.channelId = fresh := by rw [k1]; rfl
  have hcont : Continues api [] n0 ((.ctrl (.instantiate sender ⟨some c.owner, o, some c.counter⟩ fresh true),
      [.channelCreated fresh]) :: l) n' := (Continues.one s1 trivial).trans c'
  refine ⟨l, n', hcont, fun y hy => Planned.staged (.inl ((d y hy).too _)), ?_⟩
  refine ⟨?_, ?_, ?_, ?_, ?_, ?_, ?_, fun _ => ⟨ch', w, k2.trans hc0, ?_, fun _ k => ?_, ?_⟩, fun e => (by cases e), ?_, ?_, ?_⟩
  · rw [k6, ← hn1]; rfl
  · rw [k8, ← hn1]; rfl
  · rw [show onController ((NetOp.ctrl (.instantiate sender ⟨some c.owner, o, some c.counter⟩ fresh true),
      [.channelCreated fresh]) :: l) = [(.instantiate sender ⟨some c.owner, o, some c.counter⟩ fresh true,
      [.channelCreated fresh])] ++ onController l from rfl, lastOptions_kept]
    · rfl
    · exact fun y hy => (d y hy).noOptions
  · rw [k7, ← hn1]
    show n0.w.env.time.toNat = _
    rw [h0.w]; rfl
  · rw [← hc0, k9, hc0, hh1]; exact ht
  · rw [connection_kept hcont.exec]; exact hn
  · rw [← hc0, ← k2]; exact w.2.2.2.1
  · rw [k3]
    show o.channelOrdering.getD .ordered = askedOrder o
    unfold askedOrder
    cases o.channelOrdering <;> rfl
  · rw [k4, ← hn1]
    show n0.w.commits _ _ = _
    rw [h0.w]; rfl
  · rw [k5, ← hn1]
    show n0.w.nextSeq _ = _
    rw [h0.w]; rfl
  · intro id y hy
    by_cases e : id = fresh
    · subst e
      have h1 := w.2.1
      rw [hid] at h1
      have := h1.symm.trans hy
      injection this with this
      injection this with this
      subst this
      exact w.1
    · have h1 := (k10 id e).symm.trans hy
      rw [hf2 id e] at h1
      cases h1
  · refine ((counter_shows hi).1 ?_).2
    have t1 := tally_step (api := api) rfl hap c.counter
    exact t1.append (a' := 0) (b' := []) (c' := 0) (tally_quiet c'.exec (fun y hy => (d y hy).unsettling) c.counter)
  · rw [log_kept c'.exec (owner := c.owner) (fun y hy => (d y hy).too _), ← hn1]
    show List.Forall₂ _ [] n0.log
    rw [h0.log]
    exact .nil

/-- **C124.** So every script can be played from the beginning: set up the contract, play the script, and in the end the
contract, the chains and the counter show what is expected. -/
theorem C124_every_script (h0 : n0.Initial env) {c : Cast} (hc : c.Fine) {o : ChannelOpenInitOptions} (hf : c.Fits o)
    (hv1 : api.validAddr c.owner = true) (hv2 : api.validAddr c.counter = true)
    (hn : (n0.hosts c.connection).connection = c.hostConnection)
    (ht : (n0.hosts c.connection).time.toNat ≤ env.time.toNat) {raw0 raw : Raw.RawStore}
    {resp : Response} (hi : Counter.instantiate raw0 = (.ok resp, raw)) {xs : List Scene} {s : Stage}
    (hp : PlayedAll c (.start o env.time.toNat) xs s) (sender fresh : String) :
    ∃ l n, Continues api [] n0 ((.ctrl (.instantiate sender ⟨some c.owner, o, some c.counter⟩ fresh true),
        [.channelCreated fresh]) :: l) n ∧ (∀ y ∈ l, Staged c.owner y.1) ∧
      Displays c raw ((.ctrl (.instantiate sender ⟨some c.owner, o, some c.counter⟩ fresh true), [.channelCreated fresh]) :: l) n s := by
  obtain ⟨l, n, a1, a2, a3⟩ := C124_setup h0 hc hf hv1 hv2 hn ht hi sender fresh
  obtain ⟨l', n', b1, b2, b3⟩ := C124_script h0 a1.exec hc hi a3 hp
  refine ⟨l ++ l', n', a1.trans (by simpa using b1), fun y hy => ?_, b3⟩
  rcases List.mem_append.1 hy with hy | hy
  · exact a2 y hy
  · exact b2 y hy

end

namespace Ex

/-- The scenario's people. -/
def cast : Cast := ⟨"alice", "cb", "connection-0", "connection-7", "cosmos1ica"⟩
theorem cast_fine : cast.Fine := ⟨by decide, by decide +kernel, by decide +kernel⟩
theorem opts_fits : cast.Fits opts := ⟨rfl, rfl, .inl rfl⟩
theorem opts'_fits : cast.Fits opts' := ⟨rfl, rfl, .inr rfl⟩

/-- A payment can be asked for while a channel is open. -/
theorem payment_taken {s : Stage} (h1 : s.isOpen = true) (h2 : s.clock + 600 * 1000000000 < 2 ^ 64) (h3 : s.sequence < 2 ^ 64) :
    s.Takes cast payment := by
  refine ⟨h1, ?_, ?_, ?_, by decide, h2, h3⟩
  · intro m hm
    obtain rfl := List.mem_singleton.1 hm
    exact .inr ⟨_, rfl⟩
  · intro q hq; cases hq
  · intro u v hm
    cases List.mem_singleton.1 hm

/-- The script played with the scenario's chains. -/
theorem played {o : ChannelOpenInitOptions} (ho : cast.Fits o) {xs : List Scene} {s : Stage}
    (hp : PlayedAll cast (.start o env.time.toNat) xs s) :
    ∃ r raw l n, Counter.instantiate (fun _ => none) = (.ok r, raw) ∧ Continues api [] net0 l n ∧ Displays cast raw l n s := by
  have hi : ∃ r raw, Counter.instantiate (fun _ => none) = (.ok r, raw) := ⟨_, _, rfl⟩
  obtain ⟨r, raw, hi⟩ := hi
  obtain ⟨l, n, a, -, b⟩ := C124_every_script (api := api) initial0 cast_fine ho (by decide) (by decide) rfl
    (by decide +kernel) hi hp "deployer" "channel-0"
  exact ⟨r, raw, _, n, hi, a, b⟩

end Ex

/-- `TestIcaContractExecution`: two requests that succeed and one that fails. -/
example : ∃ r raw l n s, Counter.instantiate (fun _ => none) = (.ok r, raw) ∧ Continues Ex.api [] Ex.net0 l n ∧
    Displays Ex.cast raw l n s ∧ s.isOpen = true ∧ s.success = 2 ∧
    s.errors = ["out of gas"] ∧ s.timeout = 0 ∧ s.executed = [Ex.payment, Ex.payment] := by
  obtain ⟨r, raw, l, n, z, a, b⟩ := Ex.played Ex.opts_fits
    (.cons (.done (r := Ex.payment) (Ex.payment_taken rfl (by decide +kernel) (by decide)))
      (.cons (.done (r := Ex.payment) (Ex.payment_taken rfl (by decide +kernel) (by decide)))
        (.cons (.failed (r := Ex.payment) (e := "out of gas") (Ex.payment_taken rfl (by decide +kernel) (by decide))) .nil)))
  exact ⟨r, raw, l, n, _, z, a, b, rfl, rfl, rfl, rfl, rfl⟩

/-- `TestIcaContractTimeoutPacket_Ordered_Protobuf`: a timeout closes the channel; it is reopened with the last options;
then a request succeeds. -/
example : ∃ r raw l n s, Counter.instantiate (fun _ => none) = (.ok r, raw) ∧ Continues Ex.api [] Ex.net0 l n ∧
    Displays Ex.cast raw l n s ∧ s.isOpen = true ∧ s.success = 1 ∧
    s.errors = [] ∧ s.timeout = 1 ∧ askedOrder s.options = .ordered := by
  obtain ⟨r, raw, l, n, z, a, b⟩ := Ex.played Ex.opts_fits
    (.cons (.late (r := Ex.payment) (Ex.payment_taken rfl (by decide +kernel) (by decide)))
      (.cons (.reopen (o := none) rfl Ex.opts_fits)
        (.cons (.done (r := Ex.payment) (Ex.payment_taken rfl (by decide +kernel) (by decide))) .nil)))
  exact ⟨r, raw, l, n, _, z, a, b, rfl, rfl, rfl, rfl, rfl⟩

/-- `TestIcaContractTimeoutPacket_Unordered_Protobuf`: a timeout leaves the channel open, and a request succeeds over it. -/
example : ∃ r raw l n s, Counter.instantiate (fun _ => none) = (.ok r, raw) ∧ Continues Ex.api [] Ex.net0 l n ∧
    Displays Ex.cast raw l n s ∧ s.isOpen = true ∧ s.success = 1 ∧
    s.timeout = 1 ∧ s.sequence = 3 := by
  obtain ⟨r, raw, l, n, z, a, b⟩ := Ex.played Ex.opts'_fits
    (.cons (.late (r := Ex.payment) (Ex.payment_taken rfl (by decide +kernel) (by decide)))
      (.cons (.done (r := Ex.payment) (Ex.payment_taken rfl (by decide +kernel) (by decide))) .nil))
  exact ⟨r, raw, l, n, _, z, a, b, rfl, rfl, rfl, rfl⟩

/-- `TestMigrateOrderedToUnordered`: closed, reopened with another ordering, and a request succeeds. -/
example : ∃ r raw l n s, Counter.instantiate (fun _ => none) = (.ok r, raw) ∧ Continues Ex.api [] Ex.net0 l n ∧
    Displays Ex.cast raw l n s ∧ s.isOpen = true ∧ s.success = 1 ∧
    s.timeout = 0 ∧ askedOrder s.options = .unordered := by
  obtain ⟨r, raw, l, n, z, a, b⟩ := Ex.played Ex.opts_fits
    (.cons (.close rfl) (.cons (.reopen (o := some Ex.opts') rfl Ex.opts'_fits)
      (.cons (.done (r := Ex.payment) (Ex.payment_taken rfl (by decide +kernel) (by decide))) .nil)))
  exact ⟨r, raw, l, n, _, z, a, b, rfl, rfl, rfl, rfl⟩

/-- `TestCloseChannel_Protobuf_Unordered`. -/
example : ∃ r raw l n s, Counter.instantiate (fun _ => none) = (.ok r, raw) ∧ Continues Ex.api [] Ex.net0 l n ∧
    Displays Ex.cast raw l n s ∧ s.isOpen = false ∧ ¬ ReportsOpen n.w := by
  obtain ⟨r, raw, l, n, z, a, b⟩ := Ex.played Ex.opts'_fits (.cons (.close rfl) .nil)
  exact ⟨r, raw, l, n, _, z, a, b, rfl, b.isClosed rfl⟩

end Ica
