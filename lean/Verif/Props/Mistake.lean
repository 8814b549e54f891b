import Verif.Props.Recover

/-!
# A mistaken proposal (C107)

The documentation says of `counterparty_connection_id` that a wrong value does not make instantiation fail, that the
handshake then cannot be completed, and that the owner can start over with `CreateChannel`.
-/
namespace Ica
open Spec

section
variable {api : Api} {env : Env} {n0 n : Net} {h : List (NetOp × List Obs)}

/-- What a transaction that creates a channel does. -/
theorem created {w w' : World} {op : Op} {obs : List Obs} (hs : Step api w op w' obs) {id : String}
    (h : Obs.channelCreated id ∈ obs) : w.chans id = none ∧ obs = [.channelCreated id] ∧ ∃ addr o,
      ((∃ sender msg, op = .instantiate sender msg id true ∧ msg.channelOpenInitOptions = o) ∨
        ∃ sender c, op = .execute sender (.createChannel c) id true ∧ c.or w.store.options = some o) ∧
      w'.chans = setChan w.chans id ⟨proposalChannel addr id o, .init⟩ := by
  cases hs with
  | instantiate sender msg fresh _ hf =>
    simp only [List.mem_singleton, Obs.channelCreated.injEq] at h
    subst h
    exact ⟨hf, rfl, _, _, .inl ⟨sender, msg, rfl, rfl⟩, rfl⟩
  | create sender c fresh o hl ho hf hc h1 =>
    simp only [List.mem_singleton, Obs.channelCreated.injEq] at h
    subst h
    exact ⟨hf, rfl, _, _, .inr ⟨sender, c, rfl, h1⟩, rfl⟩
  | openAck => exact absurd h no_created_callObs
  | timeout => exact absurd h no_created_callObs
  | ackOk =>
    rcases List.mem_cons.1 h with h | h
    · cases h
    · exact absurd h no_created_callObs
  | ackErr =>
    rcases List.mem_cons.1 h with h | h
    · cases h
    · exact absurd h no_created_callObs
  | _ => simp at h

theorem newChans_created {w w' : World} {op : Op} {obs : List Obs} (hs : Step api w op w' obs) {ch : IbcChannel}
    (h : ch ∈ newChans w' obs) : ∃ id, w.chans id = none ∧ newChans w' obs = [ch] ∧ ch.endpoint.channelId = id := by
  have h' := h
  unfold newChans at h
  rw [List.mem_filterMap] at h
  obtain ⟨o, ho, he⟩ := h
  cases o with
  | channelCreated id =>
    obtain ⟨k1, k2, addr, o, -, k3⟩ := created hs ho
    have e : newChans w' obs = [proposalChannel addr id o] := by
      rw [k2]; simp [newChans, k3, setChan]
    rw [e, List.mem_singleton] at h'
    subst h'
    exact ⟨id, k1, e, rfl⟩
  | _ => simp at he

/-- Every proposal is one of its kind, and every channel of a host comes from a proposal that named the host's connection. -/
theorem proposals (h0 : n0.Initial env) (he : NetExec api n0 h n) :
    (∀ a ∈ n.proposed, ∀ b ∈ n.proposed, a.endpoint.channelId = b.endpoint.channelId → a = b) ∧
    ∀ conn hid hc, (n.hosts conn).chans hid = some hc → ∃ ch ∈ n.proposed, ch.endpoint = hc.controller ∧
      ch.connectionId = conn ∧ jsonOfString ch.version = some (proposedMetadata conn (n.hosts conn).connection) := by
  induction he with
  | nil =>
    refine ⟨fun a ha => ?_, fun conn hid hc hh => ?_⟩
    · rw [h0.proposed] at ha; cases ha
    · rw [h0.chans] at hh; cases hh
  | @step h n n' op obs he hs ih =>
    obtain ⟨ih1, ih2⟩ := ih
    have hv := ninv_exec h0 he
    have host_set : ∀ {conn0 hid0 : String} {x hc0 : HostChan}, (n.hosts conn0).chans hid0 = some hc0 →
        x.controller = hc0.controller → ∀ conn hid hc,
        (setHost n.hosts conn0 ((n.hosts conn0).setChan hid0 x) conn).chans hid = some hc →
        ∃ ch ∈ n.proposed, ch.endpoint = hc.controller ∧ ch.connectionId = conn ∧ jsonOfString ch.version =
          some (proposedMetadata conn (setHost n.hosts conn0 ((n.hosts conn0).setChan hid0 x) conn).connection) := by
      intro conn0 hid0 x hc0 k1 k2 conn hid hc hh
      by_cases e : conn = conn0
      · subst e
        rw [setHost_same] at hh ⊢
        by_cases e2 : hid = hid0
        · subst e2
          simp only [HostSide.setChan, if_true, Option.some.injEq] at hh
          subst hh
          rw [k2]
          exact ih2 _ _ _ k1
        · simp only [HostSide.setChan, e2, if_false] at hh
          exact ih2 _ _ _ hh
      · rw [setHost_ne _ _ e] at hh ⊢
        exact ih2 _ _ _ hh
    cases hs with
    | ctrl op w' obs hp hap =>
      have hs := step_of_apply hv.inv hap
      refine ⟨fun a ha b hb e => ?_, fun conn hid hc hh => ?_⟩
      · have old : ∀ x ∈ n.proposed, ∀ y ∈ newChans w' obs, x.endpoint.channelId ≠ y.endpoint.channelId := by
          intro x hx y hy e
          obtain ⟨c, q, -⟩ := hv.proposed x hx
          obtain ⟨id, k1, -, rfl⟩ := newChans_created hs hy
          rw [e, k1] at q
          cases q
        rcases List.mem_append.1 ha with ha | ha <;> rcases List.mem_append.1 hb with hb | hb
        · exact ih1 a ha b hb e
        · exact absurd e (old a ha b hb)
        · exact absurd e.symm (old b hb a ha)
        · obtain ⟨_, -, k, -⟩ := newChans_created hs ha
          rw [k, List.mem_singleton] at hb
          exact hb.symm
      · obtain ⟨ch, k1, k2⟩ := ih2 conn hid hc hh
        exact ⟨ch, List.mem_append_left _ k1, k2⟩
    | hostBlock conn' ht t =>
      refine ⟨ih1, fun conn hid hc hh => ?_⟩
      by_cases e : conn = conn'
      · subst e; dsimp only at hh ⊢; rw [setHost_same] at hh ⊢; exact ih2 _ _ _ hh
      · dsimp only at hh ⊢; rw [setHost_ne _ _ e] at hh ⊢; exact ih2 _ _ _ hh
    | hostOpenTry conn' hid' ch v a k1 k2 k3 k4 k5 =>
      refine ⟨ih1, fun conn hid hc hh => ?_⟩
      by_cases e : conn = conn'
      · subst e
        dsimp only at hh ⊢
        rw [setHost_same] at hh ⊢
        by_cases e2 : hid = hid'
        · subst e2
          simp only [HostSide.setChan, if_true, Option.some.injEq] at hh
          subst hh
          exact ⟨ch, k1, rfl, k2, k5⟩
        · simp only [HostSide.setChan, e2, if_false, HostSide.setAccount] at hh
          exact ih2 _ _ _ hh
      · dsimp only at hh ⊢; rw [setHost_ne _ _ e] at hh ⊢; exact ih2 _ _ _ hh
    | hostOpenConfirm conn' hid' hc' c k1 => exact ⟨ih1, host_set k1 rfl⟩
    | hostCloseConfirm conn' hid' hc' c k1 => exact ⟨ih1, host_set k1 rfl⟩
    | execute conn' hid' hc' p ack a memo ms rs k1 => exact ⟨ih1, host_set k1 rfl⟩
    | fail conn' hid' hc' p ack e k1 => exact ⟨ih1, host_set k1 rfl⟩

theorem proposed_kept {n' : Net} {l : List (NetOp × List Obs)} (hl : NetExec api n l n') {ch : IbcChannel}
    (hc : ch ∈ n.proposed) : ch ∈ n'.proposed := by
  induction hl with
  | nil => exact hc
  | step _ hs ih => cases hs <;> first | exact ih | exact List.mem_append_left _ ih

theorem netExec_split {n' : Net} {h1 h2 : List (NetOp × List Obs)} {x : NetOp × List Obs}
    (he : NetExec api n (h1 ++ x :: h2) n') :
    ∃ n1 n2, NetExec api n h1 n1 ∧ NetStep api n1 x.1 n2 x.2 ∧ NetExec api n2 h2 n' := by
  generalize hh : h1 ++ x :: h2 = hx at he
  induction he generalizing h2 with
  | nil => simp at hh
  | @step h m m' op obs he hs ih =>
    rcases List.eq_nil_or_concat h2 with rfl | ⟨l, y, rfl⟩
    · obtain ⟨e1, e2⟩ := List.append_inj' hh rfl
      subst e1
      cases e2
      exact ⟨m, m', he, hs, .nil⟩
    · have hh' : (h1 ++ x :: l) ++ [y] = h ++ [(op, obs)] := by simpa using hh
      obtain ⟨e1, e2⟩ := List.append_inj' hh' rfl
      cases e2
      obtain ⟨n1, n2, a, b, c⟩ := ih e1
      exact ⟨n1, n2, a, b, by simpa using NetExec.step c hs⟩

/-- The proposal a transaction of the history made. -/
theorem proposed_with (h0 : n0.Initial env) {h1 h2 : List (NetOp × List Obs)} {op : Op} {obs : List Obs}
    (he : NetExec api n0 (h1 ++ (.ctrl op, obs) :: h2) n) {id : String} (hid : Obs.channelCreated id ∈ obs)
    {o : ChannelOpenInitOptions} (ho : askedOptions (onController h1) op = some o) :
    ∃ addr, proposalChannel addr id o ∈ n.proposed := by
  obtain ⟨n1, n2, e1, s, e2⟩ := netExec_split he
  have hv1 := ninv_exec h0 e1
  dsimp only at s
  obtain ⟨addr, hp⟩ : ∃ addr, proposalChannel addr id o ∈ n2.proposed := by
    cases s with
    | ctrl _ w' _ hpr hap =>
      obtain ⟨-, k2, addr, o', k3, k4⟩ := created (step_of_apply hv1.inv hap) hid
      obtain rfl : o' = o := by
        rcases k3 with ⟨sender, msg, rfl, rfl⟩ | ⟨sender, c, rfl, k⟩
        · exact Option.some.inj ho
        · cases c with
          | none =>
            rw [Option.none_or, options_history hv1.exec] at k
            exact Option.some.inj (k.symm.trans ho)
          | some x => exact (Option.some.inj k).symm.trans (Option.some.inj ho)
      exact ⟨addr, List.mem_append_right _ (by rw [k2]; simp [newChans, k4, setChan])⟩
  exact ⟨addr, proposed_kept e2 hp⟩

/-- **C107.** A channel proposed with a `counterparty_connection_id` that is not the host's connection is never opened, by
whatever anyone does on any chain: it stays as proposed, the contract never reports it, and no host has an end for it. -/
theorem C107_never_opens (h0 : n0.Initial env) {h1 h2 : List (NetOp × List Obs)} {op : Op} {obs : List Obs}
    (he : NetExec api n0 (h1 ++ (.ctrl op, obs) :: h2) n) {id : String} (hid : Obs.channelCreated id ∈ obs)
    {o : ChannelOpenInitOptions} (ho : askedOptions (onController h1) op = some o)
    (hw : o.counterpartyConnectionId ≠ (n.hosts o.connectionId).connection) :
    (∃ ch, n.w.chans id = some ⟨ch, .init⟩) ∧ (∀ ch s, Reports n.w ch s → ch.endpoint.channelId ≠ id) ∧
      ∀ conn hid hc, (n.hosts conn).chans hid = some hc → hc.controller.channelId ≠ id := by
  have hv := ninv_exec h0 he
  obtain ⟨p1, p2⟩ := proposals h0 he
  obtain ⟨addr, hp⟩ := proposed_with h0 he hid ho
  have hosts : ∀ conn hid hc, (n.hosts conn).chans hid = some hc → hc.controller.channelId ≠ id := by
    rintro conn hid hc hh rfl
    obtain ⟨ch, q1, q2, q3, q4⟩ := p2 _ _ _ hh
    have := p1 _ q1 _ hp (by rw [q2]; rfl)
    subst this
    obtain rfl : o.connectionId = conn := q3
    have q5 : jsonOfString (proposalVersion o) = _ := q4
    rw [proposalVersion_json] at q5
    simp only [proposedMetadata, Option.some.injEq, Json.obj.injEq, List.cons.injEq, Prod.mk.injEq, Json.str.injEq,
      true_and, and_true] at q5
    exact hw q5
  obtain ⟨c, c1, c2, -⟩ := hv.proposed _ hp
  obtain ⟨ch, st⟩ := c
  have hinit : st = .init := by
    by_cases e : st = .init
    · exact e
    · obtain ⟨hc, l1, l2, -⟩ := hv.linked _ _ c1 e
      exact absurd (by rw [l2, show ch.endpoint = _ from c2]; rfl) (hosts _ _ _ l1)
  subst hinit
  refine ⟨⟨ch, c1⟩, fun ch' s' hr e => ?_, hosts⟩
  obtain ⟨-, c', t1, -, t2, -⟩ := hv.inv.tracked _ hr
  dsimp only at t1
  rw [e] at t1
  have := c1.symm.trans t1
  injection this with this
  subst this
  exact t2 rfl

theorem goodAddr {a : String} (hne : a ≠ "") (hlen : (utf8 a).length ≤ 128)
    (halnum : ∀ c ∈ a.toList, ('0' ≤ c ∧ c ≤ '9') ∨ ('A' ≤ c ∧ c ≤ 'Z') ∨ ('a' ≤ c ∧ c ≤ 'z')) : GoodAddr api a := by
  have hok : MetaOk api ⟨"ics27-1", "", "", a, .protobuf, "sdk_multi_msg"⟩ "" := by
    rw [metaOk_iff]
    refine ⟨rfl, rfl, rfl, rfl, .inr ⟨hlen, fun x hx => ?_⟩⟩
    rcases halnum x hx with h | h | h
    · exact .inl h
    · exact .inr (.inl h)
    · exact .inr (.inr (.inl h))
  exact metaOk_goodAddr hok hne

/-- **C107.** A channel proposed with the right `counterparty_connection_id` can be opened by relayers alone, as long as
it is still in INIT and no other channel of its connection is open; the host may give the contract any address that the
contract takes for one, if it has not given it one before. -/
theorem C107_right_opens (h0 : n0.Initial env) {h1 h2 : List (NetOp × List Obs)} {op : Op} {obs : List Obs}
    (he : NetExec api n0 (h1 ++ (.ctrl op, obs) :: h2) n) {id : String} (hid : Obs.channelCreated id ∈ obs)
    {o : ChannelOpenInitOptions} (ho : askedOptions (onController h1) op = some o)
    (hw : o.counterpartyConnectionId = (n.hosts o.connectionId).connection)
    {ch : IbcChannel} (hc : n.w.chans id = some ⟨ch, .init⟩)
    (hu : ∀ id x, ChainOpen n.w id x → x.connectionId ≠ o.connectionId) {a : String}
    (hacc : (n.hosts o.connectionId).account = none ∨ (n.hosts o.connectionId).account = some a)
    (hne : a ≠ "") (hlen : (utf8 a).length ≤ 128)
    (halnum : ∀ c ∈ a.toList, ('0' ≤ c ∧ c ≤ '9') ∨ ('A' ≤ c ∧ c ≤ 'Z') ∨ ('a' ≤ c ∧ c ≤ 'z')) :
    ∃ l n' ch', Continues api (h1 ++ (.ctrl op, obs) :: h2) n l n' ∧ (∀ x ∈ l, ByRelayers x.1) ∧ Working n' ch' a ∧
      ch'.endpoint.channelId = id ∧ ch'.connectionId = o.connectionId ∧ ch'.order = askedOrder o := by
  have hv := ninv_exec h0 he
  obtain ⟨addr, hp⟩ := proposed_with h0 he hid ho
  obtain rfl := (proposals h0 he).1 _ hp _ (hv.waiting _ _ hc rfl) (by rw [hv.inv.chan_id hc]; rfl)
  obtain ⟨l, n', ch', c, d, w, k1, k2, k3, -⟩ := complete h0 he hc (parse_display _) hw (by
    rintro id ⟨x, s⟩ hx hcn e
    obtain rfl : s = .opened := e
    exact hu id x hx hcn) (goodAddr hne hlen halnum) hacc
  refine ⟨l, n', ch', c, d, w, by rw [k1]; rfl, k2, ?_⟩
  rw [k3]
  unfold askedOrder
  show o.channelOrdering.getD .ordered = _
  cases o.channelOrdering <;> rfl

/-- **C107.** Whatever happened before, as long as the contract reports no open channel and the chain holds none on the
connection: the owner and relayers can bring about a channel with the right options, to the account that is there or to a
new one, and then whatever the owner asks for can be carried out under the account and is answered, any number of times.
Hosts may allow one channel at a time. -/
theorem C107_start_over (h0 : n0.Initial env) (he : NetExec api n0 h n) {owner : String} (ho : ownerOf n.w = some owner)
    (hno : ¬ ReportsOpen n.w) {o : ChannelOpenInitOptions} (hu : ∀ id x, ChainOpen n.w id x → x.connectionId ≠ o.connectionId)
    (ho2 : o.counterpartyConnectionId = (n.hosts o.connectionId).connection)
    (ho3 : o.counterpartyPortId = none ∨ o.counterpartyPortId = some "icahost") {a : String}
    (hacc : (n.hosts o.connectionId).account = none ∨ (n.hosts o.connectionId).account = some a)
    (hne : a ≠ "") (hlen : (utf8 a).length ≤ 128)
    (halnum : ∀ c ∈ a.toList, ('0' ≤ c ∧ c ≤ '9') ∨ ('A' ≤ c ∧ c ≤ 'Z') ∨ ('a' ≤ c ∧ c ≤ 'z'))
    {rs : List Request} (hrs : rs.length < 2 ^ 64)
    (hf : ∀ r ∈ rs, ∀ ch : IbcChannel, ch.connectionId = o.connectionId → r.Fine n ch a) :
    ∃ l n1 ch' l' n2 es, Continues api h n l n1 ∧ (∀ x ∈ l, ByOwnerAndRelayers owner x.1) ∧
      Working n1 ch' a ∧ ch'.connectionId = o.connectionId ∧ ch'.order = askedOrder o ∧
      Continues api (h ++ l) n1 l' n2 ∧ (∀ x ∈ l', Carrying owner x.1) ∧ n2.log = n1.log ++ es ∧
      List.Forall₂ (fun (r : Request) (e : Executed) => e.account = a ∧ r.ReadAs a e.messages) rs es ∧
      (∀ e ∈ es, ∃ x ∈ l', ∃ relayer, ∀ cb, callbackOf n.w = some cb →
        ToldOutcome x.2 cb e.packet relayer (.ok e.responses)) ∧
      Working n2 ch' a := by
  obtain ⟨l, n1, ch', x, b, c, d, e, fresh, obs, -, -, f3, f4, f5, f6, f7, f8, f9, -⟩ :=
    open_new h0 he ho (fun ch h => hno ⟨ch, h⟩) (by
      rintro id ⟨x, s⟩ hx hcn e
      obtain rfl : s = .opened := e
      exact hu id x hx hcn) ho2 ho3 (goodAddr hne hlen halnum) hacc
  subst f3
  obtain ⟨l', n2, es, k1, k2, k3, k4, k5, k6, -⟩ := C97_any_number h0 (netExec_append he x.exec) f6 c (fun _ => f4) rs
    (by omega) (fun r hr => by
      have f := hf r hr ch' d
      exact ⟨f.messages, f.queries, f.signed, by rw [f7]; exact f.fits, by rw [d, f7, f9, ← d]; exact f.later⟩)
  exact ⟨l, n1, ch', l', n2, es, x, b, c, d, e, continues_of_carrying k1 k2, k2, k3, k4,
    fun e he => by rw [f8] at k5; exact k5 e he, k6⟩

theorem onController_split {h : List (NetOp × List Obs)} {g1 g2 : List (Op × List Obs)} {x : Op × List Obs}
    (e : onController h = g1 ++ x :: g2) : ∃ h1 h2, h = h1 ++ (.ctrl x.1, x.2) :: h2 ∧ onController h1 = g1 := by
  induction h generalizing g1 with
  | nil => simp [onController] at e
  | cons y h ih =>
    obtain ⟨op, obs⟩ := y
    cases op with
    | ctrl op =>
      rw [show onController ((.ctrl op, obs) :: h) = (op, obs) :: onController h from rfl] at e
      cases g1 with
      | nil =>
        injection e with e1 e2
        subst e1
        exact ⟨[], h, rfl, rfl⟩
      | cons z g1 =>
        injection e with e1 e2
        subst e1
        obtain ⟨h1, h2, rfl, k⟩ := ih e2
        exact ⟨(.ctrl op, obs) :: h1, h2, rfl, by rw [← k]; rfl⟩
    | _ =>
      obtain ⟨h1, h2, rfl, k⟩ := ih (g1 := g1) e
      exact ⟨(_, obs) :: h1, h2, rfl, by rw [← k]; rfl⟩

theorem account_chan (h0 : n0.Initial env) (he : NetExec api n0 h n) {conn a : String}
    (ha : (n.hosts conn).account = some a) : ∃ hid hc, (n.hosts conn).chans hid = some hc := by
  induction he with
  | nil => rw [h0.account] at ha; cases ha
  | @step h n n' op obs he hs ih =>
    have host_set : ∀ {conn0 hid0 : String} {x : HostChan},
        (setHost n.hosts conn0 ((n.hosts conn0).setChan hid0 x) conn).account = some a →
        ∃ hid hc, (setHost n.hosts conn0 ((n.hosts conn0).setChan hid0 x) conn).chans hid = some hc := by
      intro conn0 hid0 x ha
      by_cases e : conn = conn0
      · subst e
        rw [setHost_same]
        exact ⟨hid0, x, by simp [HostSide.setChan]⟩
      · rw [setHost_ne _ _ e] at ha ⊢
        exact ih ha
    cases hs with
    | ctrl => exact ih ha
    | hostBlock conn' ht t =>
      by_cases e : conn = conn'
      · subst e; dsimp only at ha ⊢; rw [setHost_same] at ha ⊢; exact ih ha
      · dsimp only at ha ⊢; rw [setHost_ne _ _ e] at ha ⊢; exact ih ha
    | hostOpenTry conn' hid' ch v a' =>
      by_cases e : conn = conn'
      · subst e
        dsimp only
        rw [setHost_same]
        exact ⟨hid', ⟨ch.endpoint, ch.order, v, .tryOpen, 1, fun _ => none⟩, by simp [HostSide.setChan]⟩
      · dsimp only at ha ⊢; rw [setHost_ne _ _ e] at ha ⊢; exact ih ha
    | _ => exact host_set ha

/-- **C107.** The conditions of `C107_start_over` hold as long as there were only mistakes, however many; and then no host
has an account for the contract. -/
theorem C107_only_mistakes (h0 : n0.Initial env) (he : NetExec api n0 h n)
    (hw : ∀ h1 op obs h2 id o, h = h1 ++ (.ctrl op, obs) :: h2 → Obs.channelCreated id ∈ obs →
      askedOptions (onController h1) op = some o →
      o.counterpartyConnectionId ≠ (n.hosts o.connectionId).connection) :
    ¬ ReportsOpen n.w ∧ (∀ id x, ¬ ChainOpen n.w id x) ∧ ∀ conn, (n.hosts conn).account = none := by
  have hv := ninv_exec h0 he
  have key : ∀ id c, n.w.chans id = some c → c.status = .init ∧
      ∀ conn hid hc, (n.hosts conn).chans hid = some hc → hc.controller.channelId ≠ id := by
    intro id c hc
    obtain ⟨g1, op, g2, o, e1, e2, -⟩ := cameFrom_history hv.exec id c hc
    obtain ⟨h1, h2, rfl, rfl⟩ := onController_split e1
    obtain ⟨⟨ch, k1⟩, -, k2⟩ := C107_never_opens h0 he (id := id) (by simp) e2 (hw _ _ _ _ id o rfl (by simp) e2)
    rw [hc] at k1
    cases k1
    exact ⟨rfl, k2⟩
  refine ⟨?_, fun id x hx => ?_, fun conn => ?_⟩
  · rintro ⟨ch, hr⟩
    obtain ⟨-, c, t1, -, t2, -⟩ := hv.inv.tracked _ hr
    exact t2 (key _ _ t1).1
  · cases (key _ _ hx).1
  · cases ha : (n.hosts conn).account with
    | none => rfl
    | some a =>
      obtain ⟨hid, hc, hh⟩ := account_chan h0 he ha
      obtain ⟨_, c, -, -, k3, -⟩ := hv.host _ _ _ hh
      exact absurd rfl ((key _ _ k3).2 _ _ _ hh)

end

namespace Ex

/-- The scenario's instantiation, but with a mistake in the host's connection id. -/
def wrong : ChannelOpenInitOptions := ⟨"connection-0", "connection-8", none, none⟩
/-- The message. -/
def instWrong : InstantiateMsg := ⟨some "alice", wrong, some "cb"⟩
/-- The world after it. -/
def wWrong : World := eInst w0 "deployer" instWrong "channel-0"
/-- The joint system after it. -/
def netWrong : Net := net0.moved (.instantiate "deployer" instWrong "channel-0" true) wWrong [.channelCreated "channel-0"]

theorem nsWrong : NetStep api net0 (.ctrl (.instantiate "deployer" instWrong "channel-0" true)) netWrong
    [.channelCreated "channel-0"] :=
  .ctrl _ _ _ trivial ((apply_iff_step (inv_of_reachable r0)).2
    (.instantiate _ _ _ rfl rfl (by decide +kernel) (by simp [instWrong, api]) rfl))

end Ex

/-- An instantiation that names connection-8 instead of the host's connection-7: its channel is never opened; but then the
owner can have a channel with the right id, and the scenario's request is carried out over it. -/
example :
    (∀ l n', NetExec Ex.api Ex.netWrong l n' → ∃ ch, n'.w.chans "channel-0" = some ⟨ch, .init⟩) ∧
    ∃ l n1 ch' l' n2 e, Continues Ex.api [(.ctrl (.instantiate "deployer" Ex.instWrong "channel-0" true),
        [.channelCreated "channel-0"])] Ex.netWrong l n1 ∧ Working n1 ch' "cosmos1ica" ∧ ch'.order = .unordered ∧
      NetExec Ex.api n1 l' n2 ∧ n2.log = n1.log ++ [e] ∧ e.account = "cosmos1ica" ∧
      Request.ReadAs ⟨Ex.msgs, Ex.qs, some "hi", none⟩ "cosmos1ica" e.messages := by
  have he : NetExec Ex.api Ex.net0 [(.ctrl (.instantiate "deployer" Ex.instWrong "channel-0" true),
      [.channelCreated "channel-0"])] Ex.netWrong := NetExec.step (h := []) .nil Ex.nsWrong
  refine ⟨fun l n' hl => ?_, ?_⟩
  · have e := netExec_append he hl
    exact (C107_never_opens (h1 := []) (h2 := l) (op := .instantiate "deployer" Ex.instWrong "channel-0" true)
      (obs := [.channelCreated "channel-0"]) (o := Ex.wrong) Ex.initial0 e (List.mem_singleton.2 rfl) rfl
      (by rw [connection_kept hl]; decide +kernel)).1
  · obtain ⟨k1, k2, k3⟩ := C107_only_mistakes Ex.initial0 he (by
      intro h1 op obs h2 id o e hid ho
      cases h1 with
      | nil =>
        injection e with e1 e2
        injection e1 with e1 e3
        cases e1
        cases ho
        decide +kernel
      | cons x h1 => simp at e)
    obtain ⟨l, n1, ch', l', n2, es, a, -, b, -, c, d, -, e, f, -⟩ := C107_start_over (owner := "alice") (o := Ex.opts')
      (a := "cosmos1ica") (rs := [⟨Ex.msgs, Ex.qs, some "hi", none⟩]) Ex.initial0 he rfl k1
      (fun id x h => absurd h (k2 id x)) rfl (.inr rfl) (.inl (k3 _)) (by decide) (by decide +kernel)
      (by decide +kernel) (by decide) (by
        intro r hr ch hc
        obtain rfl := List.mem_singleton.1 hr
        have u := Ex.usable.2.2
        exact ⟨u.messages, u.queries, u.signed, by decide +kernel, by rw [hc]; decide +kernel⟩)
    cases f with
    | @cons _ x _ _ k t => cases t; exact ⟨l, n1, ch', l', n2, x, a, b, c, d.exec, e, k.1, k.2⟩

/-- The scenario's own instantiation can be brought to an open channel by relayers alone. -/
example : ∃ l n' ch', Continues Ex.api [(.ctrl (.instantiate "deployer" Ex.inst "channel-0" true),
      [.channelCreated "channel-0"])] Ex.net1 l n' ∧ (∀ x ∈ l, ByRelayers x.1) ∧ Working n' ch' "cosmos1ica" ∧
    ch'.endpoint.channelId = "channel-0" := by
  have he : NetExec Ex.api Ex.net0 ([] ++ (.ctrl (.instantiate "deployer" Ex.inst "channel-0" true),
      [.channelCreated "channel-0"]) :: []) Ex.net1 := NetExec.step (h := []) .nil Ex.ns1
  obtain ⟨l, n', ch', a, b, c, d, -⟩ := C107_right_opens (a := "cosmos1ica") (id := "channel-0") (o := Ex.opts)
    (ch := Ex.prop "channel-0" Ex.opts) Ex.initial0 he (by simp) rfl rfl
    (by simp [Ex.net1, Net.moved, Ex.w1, Ex.eInst, setChan]; rfl) (by
      intro id x hx
      have hx : Ex.w1.chans id = some ⟨x, .opened⟩ := hx
      by_cases h : id = "channel-0"
      · subst h
        simp [Ex.w1, Ex.eInst, setChan] at hx
      · simp [Ex.w1, Ex.eInst, setChan, h, Ex.w0, World.genesis] at hx) (.inl rfl) (by decide) (by decide +kernel)
    (by decide +kernel)
  exact ⟨l, n', ch', a, b, c, d⟩

end Ica
