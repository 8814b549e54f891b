import Verif.Props.Mistake
import Verif.Spec.Accounts

/-!
# One interchain account? (C121)

"This contract [creates and manages] **one** interchain account"; "The contract cannot create multiple interchain accounts.
It can only create one." (README.) It is one for each connection the owner names.
-/
namespace Ica
open Spec

section
variable {api : Api} {env : Env} {n0 n : Net} {h : List (NetOp × List Obs)}

theorem lastOptions_told {h : List (Op × List Obs)} {o : ChannelOpenInitOptions} (hl : lastOptions h = some o) :
    ToldConnection h o.connectionId := by
  induction h using List.reverseRecOn with
  | nil => cases hl
  | append_singleton h x ih =>
    obtain ⟨op, obs⟩ := x
    have keep : lastOptions h = some o → ToldConnection (h ++ [(op, obs)]) o.connectionId := fun k => by
      obtain ⟨y, hy, k⟩ := ih k
      exact ⟨y, List.mem_append_left _ hy, k⟩
    rw [lastOptions, List.foldl_append] at hl
    cases op with
    | instantiate sender msg fresh core =>
      cases hl
      exact ⟨_, List.mem_append_right _ (List.mem_singleton.2 rfl), .inl ⟨_, _, _, _, rfl, rfl⟩⟩
    | execute sender msg fresh core =>
      cases msg with
      | createChannel c =>
        cases c with
        | none => exact keep hl
        | some c =>
          cases hl
          exact ⟨_, List.mem_append_right _ (List.mem_singleton.2 rfl), .inr ⟨_, _, _, _, rfl, rfl⟩⟩
      | _ => exact keep hl
    | _ => exact keep hl

theorem asked_told {g1 g2 : List (Op × List Obs)} {op : Op} {obs : List Obs} {o : ChannelOpenInitOptions}
    (ha : askedOptions g1 op = some o) : ToldConnection (g1 ++ (op, obs) :: g2) o.connectionId := by
  have here : (op, obs) ∈ g1 ++ (op, obs) :: g2 := by simp
  cases op with
  | instantiate sender msg fresh core =>
    cases ha
    exact ⟨_, here, .inl ⟨_, _, _, _, rfl, rfl⟩⟩
  | execute sender msg fresh core =>
    cases msg with
    | createChannel c =>
      cases c with
      | none =>
        obtain ⟨y, hy, k⟩ := lastOptions_told (h := g1) ha
        exact ⟨y, List.mem_append_left _ hy, k⟩
      | some c =>
        cases ha
        exact ⟨_, here, .inr ⟨_, _, _, _, rfl, rfl⟩⟩
    | _ => cases ha
  | _ => cases ha

/-- **C121.** A host has an account for the contract only if the contract was told its connection, at instantiation or by
the owner in a `CreateChannel`. -/
theorem C121_only_where_told (h0 : n0.Initial env) (he : NetExec api n0 h n) {conn a : String}
    (ha : (n.hosts conn).account = some a) : ToldConnection (onController h) conn := by
  have hv := ninv_exec h0 he
  obtain ⟨hid, hc, hh⟩ := account_chan h0 he ha
  obtain ⟨_, c, -, -, k3, -, k5, -⟩ := hv.host _ _ _ hh
  obtain ⟨g1, op, g2, o, e1, e2, e3, -⟩ := cameFrom_history hv.exec _ c k3
  rw [e1, ← k5, e3]
  exact asked_told e2

/-- **C121.** Everything the hosts ever execute for the contract on one connection, they execute by one account, the one
the host still has. -/
theorem C121_one_for_each_connection (h0 : n0.Initial env) (he : NetExec api n0 h n) {e : Executed} (hx : e ∈ n.log) :
    (n.hosts e.connection).account = some e.account :=
  ((ninv_exec h0 he).logged e hx).2.2.1

/-- **C121** (partial: the README promises it without the condition). If the contract was never told more than one
connection, it has at most one account: on one chain, the one it reports, and the one that executes everything. -/
theorem C121_one_account_partial (h0 : n0.Initial env) (he : NetExec api n0 h n)
    (hone : ∀ c d, ToldConnection (onController h) c → ToldConnection (onController h) d → c = d) :
    (∀ c d a b, (n.hosts c).account = some a → (n.hosts d).account = some b → c = d ∧ a = b) ∧
    (∀ e ∈ n.log, ∀ f ∈ n.log, e.connection = f.connection ∧ e.account = f.account) ∧
    ∀ info, icaOf n.w = some info → ∀ e ∈ n.log, e.account = info.icaAddress := by
  have key : ∀ c d a b, (n.hosts c).account = some a → (n.hosts d).account = some b → c = d ∧ a = b := by
    intro c d a b ha hb
    obtain rfl := hone _ _ (C121_only_where_told h0 he ha) (C121_only_where_told h0 he hb)
    exact ⟨rfl, Option.some.inj (ha.symm.trans hb)⟩
  refine ⟨key, fun e he' f hf => ?_, fun info hi e hx => ?_⟩
  · exact key _ _ _ _ (C121_one_for_each_connection h0 he he') (C121_one_for_each_connection h0 he hf)
  · obtain ⟨ch, s, -, -, k⟩ := C81_reported_account h0 he hi
    exact (key _ _ _ _ (C121_one_for_each_connection h0 he hx) k).2

theorem carrying_keeps {owner : String} {l : List (NetOp × List Obs)} {n' : Net} (h0 : n0.Initial env)
    (he : NetExec api n0 h n) (hl : NetExec api n l n') (hc : ∀ x ∈ l, Carrying owner x.1) :
    n'.w.chans = n.w.chans ∧ n'.w.env = n.w.env ∧ n'.w.store.channel = n.w.store.channel ∧ ownerOf n'.w = ownerOf n.w ∧
      ∀ conn, (n'.hosts conn).account = (n.hosts conn).account ∧ (n'.hosts conn).time = (n.hosts conn).time := by
  induction hl with
  | nil => exact ⟨rfl, rfl, rfl, rfl, fun _ => ⟨rfl, rfl⟩⟩
  | @step l n1 n2 op obs hl hs ih =>
    obtain ⟨i1, i2, i3, i4, i5⟩ := ih (fun x hx => hc x (List.mem_append_left _ hx))
    have hop : Carrying owner op := hc (op, obs) (List.mem_append_right _ (List.mem_singleton.2 rfl))
    have hv := ninv_exec h0 (netExec_append he hl)
    have host : ∀ {conn0 : String} {s : HostSide}, s.account = (n1.hosts conn0).account →
        s.time = (n1.hosts conn0).time → ∀ conn, (setHost n1.hosts conn0 s conn).account = (n.hosts conn).account ∧
          (setHost n1.hosts conn0 s conn).time = (n.hosts conn).time := by
      intro conn0 s k1 k2 conn
      rw [← (i5 conn).1, ← (i5 conn).2]
      by_cases e : conn = conn0
      · subst e; rw [setHost_same]; exact ⟨k1, k2⟩
      · rw [setHost_ne _ _ e]; exact ⟨rfl, rfl⟩
    cases hs with
    | ctrl op w' obs hp hap =>
      have hst := step_of_apply hv.inv hap
      have : w'.chans = n1.w.chans ∧ w'.env = n1.w.env ∧ w'.store.channel = n1.w.store.channel ∧
          ownerOf w' = ownerOf n1.w := by
        cases hst with
        | send =>
          obtain ⟨f1, f2, f3, f4, -⟩ := storeAfterSend_fields n1.w.store _ _ _ _
          exact ⟨rfl, rfl, f4, by simp only [ownerOf, f2]⟩
        | ackOk => exact ⟨rfl, rfl, rfl, rfl⟩
        | ackErr => exact ⟨rfl, rfl, rfl, rfl⟩
        | _ => exact absurd hop (by simp [Carrying])
      exact ⟨this.1.trans i1, this.2.1.trans i2, this.2.2.1.trans i3, this.2.2.2.trans i4, i5⟩
    | execute => exact ⟨i1, i2, i3, i4, host rfl rfl⟩
    | fail => exact ⟨i1, i2, i3, i4, host rfl rfl⟩
    | _ => exact absurd hop (by simp [Carrying])

theorem log_kept {owner : String} {l : List (NetOp × List Obs)} {n' : Net} (hl : NetExec api n l n')
    (hc : ∀ x ∈ l, ByOwnerAndRelayers owner x.1) : n'.log = n.log := by
  induction hl with
  | nil => rfl
  | @step l n1 n2 op obs hl hs ih =>
    rw [← ih (fun x hx => hc x (List.mem_append_left _ hx))]
    have hop : ByOwnerAndRelayers owner op := hc (op, obs) (List.mem_append_right _ (List.mem_singleton.2 rfl))
    cases hs with
    | execute => exact absurd hop (by simp [ByOwnerAndRelayers])
    | _ => rfl

/-- The channel the contract reports open is closed, if there is one. -/
theorem close_reported (h0 : n0.Initial env) (he : NetExec api n0 h n) {owner : String} (ho : ownerOf n.w = some owner)
    (hu : ∀ id x, ChainOpen n.w id x → Reports n.w x .opened) :
    ∃ l n', Continues api h n l n' ∧ (∀ x ∈ l, ByOwnerAndRelayers owner x.1) ∧ ownerOf n'.w = some owner ∧
      ¬ ReportsOpen n'.w ∧ (∀ id x, ¬ ChainOpen n'.w id x) ∧ n'.hosts = n.hosts ∧ n'.w.env = n.w.env ∧ n'.log = n.log := by
  have hv := ninv_exec h0 he
  by_cases hro : ReportsOpen n.w
  · obtain ⟨ch, hr⟩ := hro
    obtain ⟨w', k1, k2, k3, k4, k5, k6, k7, k8, -⟩ := C19_owner_can_close ⟨env, _, hv.exec⟩ hr ho ""
    refine ⟨_, n.moved (.execute owner .closeChannel "" true) w' _, .one (.ctrl _ _ _ trivial k1) trivial, ?_, ?_, ?_, ?_,
      rfl, k8, rfl⟩
    · intro x hx
      obtain rfl := List.mem_singleton.1 hx
      rfl
    · show ownerOf w' = _
      simp only [ownerOf, k5]
      exact ho
    · rintro ⟨c, hc⟩
      have := k2.symm.trans hc
      injection this with this
      injection this with _ this
      cases this
    · intro id x hx
      by_cases e : id = ch.endpoint.channelId
      · subst e
        have := k3.symm.trans hx
        injection this with this
        injection this with _ this
        cases this
      · have hx' : ChainOpen n.w id x := (k4 id e).symm.trans hx
        have := hr.symm.trans (hu id x hx')
        injection this with this
        injection this with this
        subst this
        exact e (hv.inv.chan_id hx').symm
  · exact ⟨[], n, .nil, fun _ h => (by cases h), ho, hro, fun id x hx => hro ⟨x, hu id x hx⟩, rfl, rfl, rfl⟩

theorem Spec.Turn.Fine.kept {t : Turn} {n' : Net} (f : t.Fine n)
    (h1 : (n'.hosts t.options.connectionId).connection = (n.hosts t.options.connectionId).connection)
    (h2 : (n'.hosts t.options.connectionId).account = none ∨ (n'.hosts t.options.connectionId).account = some t.address)
    (h3 : (n'.hosts t.options.connectionId).time = (n.hosts t.options.connectionId).time) (h4 : n'.w.env = n.w.env) :
    t.Fine n' :=
  ⟨f.host.trans h1.symm, f.port, h2, f.named, f.short, f.plain, f.few, fun r hr ch hc => by
    have g := f.requests r hr ch hc
    exact ⟨g.messages, g.queries, g.signed, by rw [h4]; exact g.fits, by rw [hc, h3, h4, ← hc]; exact g.later⟩⟩

/-- **C121.** As many accounts as connections. Whatever happened before, as long as every open channel is the one the
contract reports: the owner can go through any plan of accounts on any connections, also coming back to earlier ones, and
make any requests of each in its turn; relayers and hosts that do their part bring it about, and then every request has been
executed by the account of its turn, in order, and all these accounts are the contract's. -/
theorem C121_many_accounts (h0 : n0.Initial env) (he : NetExec api n0 h n) {owner : String} (ho : ownerOf n.w = some owner)
    (hu : ∀ id x, ChainOpen n.w id x → Reports n.w x .opened) {plan : List Turn} (hf : ∀ t ∈ plan, t.Fine n)
    (hs : ∀ t ∈ plan, ∀ u ∈ plan, t.options.connectionId = u.options.connectionId → t.address = u.address) :
    ∃ l n' es, Continues api h n l n' ∧ (∀ x ∈ l, Planned owner x.1) ∧ n'.log = n.log ++ es ∧ Taken plan es ∧
      ∀ t ∈ plan, (n'.hosts t.options.connectionId).account = some t.address := by
  induction plan generalizing n h with
  | nil => exact ⟨[], n, [], .nil, fun _ h => (by cases h), (List.append_nil _).symm, .nil, fun _ h => (by cases h)⟩
  | cons t plan ih =>
    have ft := hf t (List.mem_cons_self ..)
    obtain ⟨l1, n1, a1, a2, a3, a4, a5, a6, a7, a8⟩ := close_reported h0 he ho hu
    have he1 := netExec_append he a1.exec
    obtain ⟨l2, n2, ch, b1, b2, b3, b4, -, fresh, obs, -, b5, b6, b7, b8, b9, b10, b11, b12, b13, b14⟩ :=
      open_new h0 he1 a3 (fun ch h => a4 ⟨ch, h⟩) (o := t.options) (a := t.address) (by
        rintro id ⟨x, s⟩ hx - e
        obtain rfl : s = .opened := e
        exact a5 id x hx) (by rw [a6]; exact ft.host) ft.port (goodAddr ft.named ft.short ft.plain)
        (by rw [a6]; exact ft.account)
    have he2 := netExec_append he1 b1.exec
    subst b6
    obtain ⟨l3, n3, es, c1, c2, c3, c4, -, c6, -⟩ := C97_any_number h0 he2 b9 b3 (fun _ => b7) t.requests
      (by have := ft.few; omega) (fun r hr => by
        have g := ft.requests r hr ch b4
        exact ⟨g.messages, g.queries, g.signed, by rw [b10, a7]; exact g.fits, by
          rw [b4, b12, b10, a6, a7, ← b4]; exact g.later⟩)
    obtain ⟨d1, d2, d3, d4, d5⟩ := carrying_keeps h0 he2 c1 c2
    have he3 := netExec_append he2 c1
    have b3a : (n2.hosts t.options.connectionId).account = some t.address := by rw [← b4]; exact b3.2.2.2.1
    have hlog2 := log_kept b1.exec b2
    obtain ⟨l4, n4, es', e1, e2, e3, e4, e5⟩ := ih he3 (d4.trans b9) (by
      intro id x hx
      have hx : n2.w.chans id = some ⟨x, .opened⟩ := by rw [← d1]; exact hx
      show n3.w.store.channel = _
      rw [d3]
      by_cases e : id = ch.endpoint.channelId
      · subst e
        have := b3.2.1.symm.trans hx
        injection this with this
        injection this with this
        subst this
        exact b3.1
      · exact absurd ((b13 id e).symm.trans hx) (a5 id x)) (fun u hu' => by
      have fu := hf u (List.mem_cons_of_mem _ hu')
      have hk := connection_kept (netExec_append (netExec_append a1.exec b1.exec) c1) u.options.connectionId
      refine fu.kept hk ?_ ?_ (by rw [d2, b10, a7])
      · rw [(d5 _).1]
        by_cases e : u.options.connectionId = t.options.connectionId
        · rw [e, b3a, hs u (List.mem_cons_of_mem _ hu') t (List.mem_cons_self ..) e]
          exact .inr rfl
        · rw [b14 _ e, a6]; exact fu.account
      · rw [(d5 _).2]
        by_cases e : u.options.connectionId = t.options.connectionId
        · rw [e, b12, a6]
        · rw [b14 _ e, a6]) (fun x hx y hy => hs x (List.mem_cons_of_mem _ hx) y (List.mem_cons_of_mem _ hy))
    refine ⟨_, n4, es ++ es', ((a1.trans b1).trans (continues_of_carrying c1 c2)).trans (by simpa using e1), ?_, ?_,
      .turn c4 e4, ?_⟩
    · intro x hx
      simp only [List.mem_append] at hx
      rcases hx with ((hx | hx) | hx) | hx
      · exact .inl (a2 x hx)
      · exact .inl (b2 x hx)
      · exact .inr (c2 x hx)
      · exact e2 x hx
    · rw [e3, c3, hlog2, a8, List.append_assoc]
    · intro u hu'
      rcases List.mem_cons.1 hu' with rfl | hu'
      · exact netExec_hosts (netExec_append c1 e1.exec) _ b3a
      · exact e5 u hu'

end

namespace Ex

/-- A payment. -/
def payment : Request := ⟨[.bank (.send "bob" [⟨"utok", ⟨5, by decide⟩⟩])], [], none, none⟩
/-- Options for another connection. -/
def optsB : ChannelOpenInitOptions := ⟨"connection-1", "connection-7", none, none⟩
/-- Two accounts in turn, and the first again. -/
def plan : List Turn :=
  [⟨opts, "cosmos1ica", [payment]⟩, ⟨optsB, "osmo1ica", [payment, payment]⟩, ⟨opts', "cosmos1ica", [payment]⟩]

theorem payment_fine {n : Net} (hw : n.w.env = env) (hh : ∀ c, (n.hosts c).time = host0.time) (ch : IbcChannel) (a : String) :
    payment.Fine n ch a := by
  refine ⟨?_, ?_, ?_, ?_, ?_⟩
  · intro m hm
    obtain rfl := List.mem_singleton.1 hm
    exact .inr ⟨_, rfl⟩
  · intro q hq; cases hq
  · intro u v hm
    cases List.mem_singleton.1 hm
  · rw [hw]; decide +kernel
  · rw [hw, hh]; decide +kernel

theorem plan_fine : ∀ t ∈ plan, t.Fine net1 := by
  have fine : ∀ (o : ChannelOpenInitOptions) (a : String) (rs : List Request), o.counterpartyConnectionId = "connection-7" →
      (o.counterpartyPortId = none ∨ o.counterpartyPortId = some "icahost") → a ≠ "" → (utf8 a).length ≤ 128 →
      (∀ c ∈ a.toList, ('0' ≤ c ∧ c ≤ '9') ∨ ('A' ≤ c ∧ c ≤ 'Z') ∨ ('a' ≤ c ∧ c ≤ 'z')) → rs.length < 2 ^ 64 →
      (∀ r ∈ rs, r = payment) → Turn.Fine ⟨o, a, rs⟩ net1 := by
    intro o a rs h1 h2 h3 h4 h5 h6 h7
    refine ⟨h1, h2, .inl rfl, h3, h4, h5, h6, fun r hr ch _ => ?_⟩
    rw [h7 r hr]
    exact payment_fine rfl (fun _ => rfl) ch a
  intro t ht
  simp only [plan, List.mem_cons, List.not_mem_nil, or_false] at ht
  rcases ht with rfl | rfl | rfl
  · exact fine _ _ _ rfl (.inl rfl) (by decide) (by decide +kernel) (by decide +kernel) (by decide) (by simp)
  · exact fine _ _ _ rfl (.inl rfl) (by decide) (by decide +kernel) (by decide +kernel) (by decide) (by simp)
  · exact fine _ _ _ rfl (.inr rfl) (by decide) (by decide +kernel) (by decide +kernel) (by decide) (by simp)

theorem plan_same : ∀ t ∈ plan, ∀ u ∈ plan, t.options.connectionId = u.options.connectionId → t.address = u.address := by
  intro t ht u hu
  simp only [plan, List.mem_cons, List.not_mem_nil, or_false] at ht hu
  rcases ht with rfl | rfl | rfl <;> rcases hu with rfl | rfl | rfl <;> simp [opts, opts', optsB]

theorem net1_none_open (id : String) (x : IbcChannel) : ¬ ChainOpen net1.w id x := by
  intro hx
  have hx : w1.chans id = some ⟨x, .opened⟩ := hx
  by_cases h : id = "channel-0"
  · subst h
    simp [w1, eInst, setChan] at hx
  · simp [w1, eInst, setChan, h, w0, World.genesis] at hx

end Ex

/-- **C121** (the README's claim is false). There is a history in which one contract has accounts on two chains, with
different addresses, and both execute what its owner asks for, in turn. -/
theorem C121_two_accounts : ∃ api env n0 h n, Net.Initial env n0 ∧ Continues api [] n0 h n ∧
    ∃ e1 e2 e3 e4, n.log = [e1, e2, e3, e4] ∧ e1.account = e4.account ∧ e2.account = e3.account ∧
      e1.account ≠ e2.account ∧ e1.connection ≠ e2.connection := by
  have he : NetExec Ex.api Ex.net0 [(.ctrl (.instantiate "deployer" Ex.inst "channel-0" true),
      [.channelCreated "channel-0"])] Ex.net1 := NetExec.step (h := []) .nil Ex.ns1
  obtain ⟨l, n, es, a, -, b, c, d⟩ := C121_many_accounts (owner := "alice") Ex.initial0 he rfl
    (fun id x hx => absurd hx (Ex.net1_none_open id x)) Ex.plan_fine Ex.plan_same
  have hall := netExec_append he a.exec
  refine ⟨Ex.api, Ex.env, Ex.net0, _, n, Ex.initial0, (Continues.one Ex.ns1 trivial).trans (by simpa using a), ?_⟩
  rw [show Ex.net1.log = [] from rfl, List.nil_append] at b
  unfold Ex.plan at c
  cases c with
  | turn f1 c =>
    cases c with
    | turn f2 c =>
      cases c with
      | turn f3 c =>
        cases c
        cases f1 with
        | @cons _ e1 _ _ p1 t1 =>
          cases t1
          cases f2 with
          | @cons _ e2 _ _ p2 t2 =>
            cases t2 with
            | @cons _ e3 _ _ p3 t3 =>
              cases t3
              cases f3 with
              | @cons _ e4 _ _ p4 t4 =>
                cases t4
                refine ⟨e1, e2, e3, e4, b, by rw [p1.1, p4.1], by rw [p2.1, p3.1], ?_, fun e => ?_⟩
                · rw [p1.1, p2.1]; decide
                · have q1 := C121_one_for_each_connection Ex.initial0 hall (e := e1) (by rw [b]; simp)
                  have q2 := C121_one_for_each_connection Ex.initial0 hall (e := e2) (by rw [b]; simp)
                  rw [e, q2, p1.1, p2.1] at q1
                  exact absurd (Option.some.inj q1) (by decide)

/-- The conditions of `C121_one_account_partial` hold in the scenario, where something was executed. -/
example : ∃ h n, NetExec Ex.api Ex.net0 h n ∧ n.log ≠ [] ∧
    ∀ c d, ToldConnection (onController h) c → ToldConnection (onController h) d → c = d := by
  obtain ⟨n7, -, h1, -, -, ⟨e, he, -⟩, -⟩ := Ex.round
  have told : ∀ c, ToldConnection (onController Ex.nh7) c → c = "connection-0" := by
    rintro c ⟨x, hx, k⟩
    have : onController Ex.nh7 = [(.instantiate "deployer" Ex.inst "channel-0" true, [.channelCreated "channel-0"]),
        (.relayOpenAck "channel-0" "channel-5" Ex.ver, callObs (some "cb")
          (.onChannelOpenAckCallback (Ex.chan "channel-0" Ex.opts) "cosmos1ica" .protobuf)),
        (.execute "alice" (.sendCosmosMsgs Ex.msgs Ex.qs (some "hi") none) "" true, [.packetSent Ex.pkt])] := rfl
    rw [this] at hx
    simp only [List.mem_cons, List.not_mem_nil, or_false] at hx
    rcases hx with rfl | rfl | rfl
    · rcases k with ⟨_, _, _, _, k, rfl⟩ | ⟨_, _, _, _, k, -⟩ <;> cases k
      rfl
    · rcases k with ⟨_, _, _, _, k, rfl⟩ | ⟨_, _, _, _, k, -⟩ <;> cases k
    · rcases k with ⟨_, _, _, _, k, rfl⟩ | ⟨_, _, _, _, k, -⟩ <;> cases k
  exact ⟨_, n7, h1, (fun h => by rw [h] at he; cases he), fun c d hc hd => (told c hc).trans (told d hd).symm⟩

end Ica
