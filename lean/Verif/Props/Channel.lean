import Verif.Props.Handshake

/-!
# The tracked channel: C15 to C21, C23, C24
-/
namespace Ica
open Spec

/-- **C15**. In every reachable world, ICA info has a non-empty address of at most 128 bytes of alphanumeric
characters, protobuf encoding, and the id of the tracked channel. -/
theorem C15_ica_info_usable {api : Api} {w : World} (h : Reachable api w) {i : IcaInfo} (hi : icaOf w = some i) :
    i.icaAddress ≠ "" ∧ (utf8 i.icaAddress).length ≤ 128 ∧
    (∀ c ∈ i.icaAddress.toList, ('0' ≤ c ∧ c ≤ '9') ∨ ('A' ≤ c ∧ c ≤ 'Z') ∨ ('a' ≤ c ∧ c ≤ 'z') ∨
      (128 ≤ c.toNat ∧ api.alnumNonAscii c = true)) ∧
    i.encoding = .protobuf ∧ ∃ ch s, Reports w ch s ∧ ch.endpoint.channelId = i.channelId := by
  obtain ⟨a, b, c⟩ := C56_address_partial h hi
  refine ⟨a, b, c, ?_⟩
  have hv := inv_of_reachable h
  unfold icaOf at hi
  split at hi
  · rename_i st hst
    obtain ⟨_, d, e⟩ := hv.icaInfo _ _ hst hi
    refine ⟨d, ?_⟩
    cases hc : w.store.channel with
    | none =>
      rw [(hv.icaChannel _ hst).2 hc] at hi
      cases hi
    | some cs => exact ⟨cs.channel, cs.channelStatus, hc, e _ hc⟩
  · cases hi

/-- **C15** (set exactly when a channel is tracked). -/
theorem C15_ica_iff_channel {api : Api} {w : World} (h : Reachable api w) :
    (∃ i, icaOf w = some i) ↔ ∃ ch s, Reports w ch s := by
  have hv := inv_of_reachable h
  constructor
  · rintro ⟨i, hi⟩
    obtain ⟨_, _, _, _, ch, s, hr, _⟩ := C15_ica_info_usable h hi
    exact ⟨ch, s, hr⟩
  · rintro ⟨ch, s, hr⟩
    have hl := hv.live_of_channel hr
    obtain ⟨st, hst⟩ := hv.state hl
    cases hi : st.icaInfo with
    | none =>
      unfold Reports at hr
      rw [(hv.icaChannel _ hst).1 hi] at hr
      cases hr
    | some i => exact ⟨i, by unfold icaOf; rw [hst]; exact hi⟩

/-- **C15** (never unset again). -/
theorem C15_ica_never_unset {api : Api} {w w' : World} {h : List (Op × List Obs)} (hr : Reachable api w)
    (he : Exec api w h w') (hi : ∃ i, icaOf w = some i) : ∃ i, icaOf w' = some i := by
  refine exec_induction' (C := fun _ w' => ∃ i, icaOf w' = some i) (inv_of_reachable hr) hi ?_ he
  intro h w op w' obs _ hv ih hs
  obtain ⟨i, hi⟩ := ih
  cases hs with
  | instantiate _ _ _ hl =>
    unfold icaOf at hi
    rw [(hv.dead hl).1] at hi
    cases hi
  | send =>
    refine ⟨i, ?_⟩
    unfold icaOf at hi ⊢
    rw [(storeAfterSend_fields _ _ _ _ _).2.2.1]
    exact hi
  | callback _ _ _ _ st _ _ _ hst =>
    refine ⟨i, ?_⟩
    unfold icaOf at hi ⊢
    rw [hst] at hi
    exact hi
  | openAck => exact ⟨_, rfl⟩
  | _ => exact ⟨i, hi⟩

example : icaOf Ex.w2 = some ⟨"cosmos1ica", "channel-0", .protobuf⟩ := rfl

/-- **C16** (the statuses). -/
theorem C16_open_or_closed {api : Api} {w : World} (h : Reachable api w) {ch : IbcChannel} {s : ChannelStatus}
    (hr : Reports w ch s) : s = .opened ∨ s = .closed := ((inv_of_reachable h).tracked _ hr).1

/-- **C16** (OPEN only by OpenAck of that very channel): if an operation makes the contract report `ch` OPEN and it
did not before, the operation is an OpenAck for the id of `ch`, and the reported counterparty channel and version
are the acknowledged ones. -/
theorem C16_open_only_by_open_ack {api : Api} {w w' : World} {op : Op} {obs : List Obs} (h : Reachable api w)
    (hc : Commits api w op w' obs) {ch : IbcChannel} (hn : ¬ Reports w ch .opened) (ho : Reports w' ch .opened) :
    op = .relayOpenAck ch.endpoint.channelId ch.counterpartyEndpoint.channelId ch.version := by
  have hv := inv_of_reachable h
  have hs := step_of_apply hv hc
  unfold Reports at hn ho
  cases hs with
  | instantiate => exact absurd ho hn
  | openAck id cpId v c _ _ hc' =>
    have hid := hv.chan_id hc'
    simp only [Option.some.injEq, ChannelState.mk.injEq, and_true] at ho
    subst ho
    simp only [ackedChan, hid]
  | send => exact absurd (by rw [(storeAfterSend_fields _ _ _ _ _).2.2.2.1] at ho; exact ho) hn
  | close => simp at ho
  | closeConfirm => simp at ho
  | timeout _ _ _ _ _ _ cs _ _ _ hcs =>
    simp only [Option.some.injEq] at ho
    split at ho
    · simp at ho
    · subst ho; exact absurd hcs hn
  | _ => exact absurd ho hn

/-- **C16** (before any handshake nothing is reported). -/
theorem C16_nothing_before_open_ack {api : Api} {env : Env} {h : List (Op × List Obs)} {w : World}
    (he : Exec api (World.genesis env) h w)
    (hn : ∀ x ∈ h, ∀ id cpId v, x.1 ≠ .relayOpenAck id cpId v) : w.store.channel = none ∧ icaOf w = none := by
  revert hn
  refine exec_induction (C := fun h w => (∀ x ∈ h, ∀ id cpId v, x.1 ≠ .relayOpenAck id cpId v) →
    w.store.channel = none ∧ icaOf w = none) (fun _ => ⟨rfl, rfl⟩) ?_ he
  intro h w op w' obs _ hv ih hs hn
  obtain ⟨i1, i2⟩ := ih (fun x hx => hn x (List.mem_append_left _ hx))
  have hop := hn (op, obs) (by simp)
  cases hs with
  | openAck id cpId v => exact absurd rfl (hop id cpId v)
  | close _ _ c _ _ h1 => rw [i1] at h1; cases h1
  | closeConfirm _ c _ _ h1 => rw [i1] at h1; cases h1
  | timeout _ _ _ _ _ _ _ _ _ _ h1 => rw [i1] at h1; cases h1
  | send _ _ _ _ _ _ st info _ _ _ _ _ _ _ h1 h2 =>
    unfold icaOf at i2
    rw [h1] at i2
    dsimp only at i2
    rw [h2] at i2
    cases i2
  | instantiate => exact ⟨i1, rfl⟩
  | callback _ _ _ _ st _ _ _ hst =>
    unfold icaOf at i2 ⊢
    rw [hst] at i2
    exact ⟨i1, i2⟩
  | _ => exact ⟨i1, i2⟩

example : ¬ ReportsOpen Ex.w1 ∧ Reports Ex.w2 (Ex.chan "channel-0" Ex.opts) .opened :=
  ⟨(by rintro ⟨_, h⟩; cases h), rfl⟩

/-- **C17**. A channel reported OPEN is open on the chain, with exactly the reported fields. -/
theorem C17_reported_open_is_open {api : Api} {w : World} (h : Reachable api w) {ch : IbcChannel}
    (hr : Reports w ch .opened) : ChainOpen w ch.endpoint.channelId ch := by
  obtain ⟨_, c, h1, h2, _, h3⟩ := (inv_of_reachable h).tracked _ hr
  obtain ⟨c1, c2⟩ := c
  cases h2
  cases (h3 rfl : c2 = .opened)
  exact h1

/-- Also with two overlapping handshakes (`y3`). -/
example : ChainOpen Ex.y3 "channel-1" (Ex.chan "channel-1" Ex.opts) :=
  C17_reported_open_is_open (ch := Ex.chan "channel-1" Ex.opts) Ex.ry3 rfl

/-- **C18** (partial). A committed timeout of a packet of channel `id`: if `id` is the reported channel, or the
reported channel is unordered, then afterwards the reported channel is CLOSED exactly if it was before or it is
ordered and the packet's, its other fields unchanged. Missing: timeouts of packets of another channel while
the reported channel is ordered; there the statement is false, see `C18_other_channels_timeout_closes`. -/
theorem C18_timeout_closes_own_channel_partial {api : Api} {w w' : World} {id relayer : String} {seq : UInt64}
    {obs : List Obs} {ch : IbcChannel} {s : ChannelStatus} (h : Reachable api w)
    (hc : Commits api w (.relayTimeout id seq relayer) w' obs) (hr : Reports w ch s)
    (hown : ch.endpoint.channelId = id ∨ ch.order = .unordered) :
    Reports w' ch (if ch.endpoint.channelId = id ∧ ch.order = .ordered then .closed else s) := by
  have hs := step_of_apply (inv_of_reachable h) hc
  cases hs with
  | timeout _ _ _ p c st cs hp hcc hst hcs =>
    have hcs' := hcs.symm.trans hr
    simp only [Option.some.injEq] at hcs'
    subst hcs'
    unfold Reports
    dsimp only
    cases hord : ch.order with
    | unordered => simp
    | ordered =>
      rw [hord] at hown
      have hid := hown.resolve_right (by simp)
      simp [hid]

/-- On the chain a timeout touches only the packet's own channel, and closes it exactly if it is ordered. -/
theorem C18_chain_timeout_own_channel {api : Api} {w w' : World} {id relayer : String} {seq : UInt64}
    {obs : List Obs} (h : Reachable api w) (hc : Commits api w (.relayTimeout id seq relayer) w' obs) :
    ∃ c, w.chans id = some c ∧
      w'.chans id = some (if c.chan.order = .ordered then ⟨c.chan, .closed⟩ else c) ∧
      ∀ x, x ≠ id → w'.chans x = w.chans x := by
  cases step_of_apply (inv_of_reachable h) hc with
  | timeout _ _ _ p c st cs hp hcc hst hcs =>
    refine ⟨c, hcc, ?_, ?_⟩
    · dsimp only; split
      · exact setChan_same _ _ _
      · exact hcc
    · intro x hx; dsimp only; split
      · exact setChan_ne _ hx
      · rfl

example : ∃ w' obs, Commits Ex.api Ex.w3 (.relayTimeout "channel-0" 1 "relayer") w' obs ∧
    Reports Ex.w3 (Ex.chan "channel-0" Ex.opts) .opened :=
  ⟨_, _, (apply_iff_step (inv_of_reachable Ex.r3)).2 Ex.s4t, Ex.channel3⟩

/-- **C18** is false of the code: a packet of the old channel-0 times out and the contract from then on reports the
new channel-1 CLOSED, though on the chain it is open. -/
theorem C18_other_channels_timeout_closes :
    ∃ w w' obs ch, Reachable Ex.api w ∧ Reports w ch .opened ∧ ch.endpoint.channelId = "channel-1" ∧
      Commits Ex.api w (.relayTimeout "channel-0" 1 "relayer") w' obs ∧ Reports w' ch .closed ∧
      ChainOpen w' "channel-1" ch := by
  refine ⟨Ex.x3, Ex.x4, _, Ex.chan "channel-1" Ex.opts, Ex.rx3, rfl, rfl,
    (apply_iff_step (inv_of_reachable Ex.rx3)).2 Ex.t4, rfl, ?_⟩
  obtain ⟨c, _, _, h2⟩ := C18_chain_timeout_own_channel Ex.rx3
    ((apply_iff_step (inv_of_reachable Ex.rx3)).2 Ex.t4)
  unfold ChainOpen
  rw [h2 "channel-1" (by decide +kernel)]
  exact C17_reported_open_is_open (ch := Ex.chan "channel-1" Ex.opts) Ex.rx3 rfl

/-- **C19**. Whenever the contract reports an open channel, `CloseChannel` of the owner commits (if the chain's own
checks pass); the contract and the chain then report exactly that channel CLOSED, everything else in the contract
and on the chain is as before, and nobody has a permission to close. -/
theorem C19_owner_can_close {api : Api} {w : World} (h : Reachable api w) {ch : IbcChannel} {owner : String}
    (hr : Reports w ch .opened) (ho : ownerOf w = some owner) (fresh : String) :
    ∃ w', Commits api w (.execute owner .closeChannel fresh true) w' [.channelClosed ch.endpoint.channelId] ∧
      Reports w' ch .closed ∧ w'.chans ch.endpoint.channelId = some ⟨ch, .closed⟩ ∧
      (∀ x, x ≠ ch.endpoint.channelId → w'.chans x = w.chans x) ∧
      w'.store = { w.store with channel := some ⟨ch, .closed⟩, allowCloseInit := some false } ∧
      w'.commits = w.commits ∧ w'.nextSeq = w.nextSeq ∧ w'.env = w.env ∧
      ∀ id, Refused api w' (.relayCloseInit id) := by
  have hv := inv_of_reachable h
  have hco := C17_reported_open_is_open h hr
  have hs : Step api w (.execute owner .closeChannel fresh true) _ _ :=
    .close owner fresh ⟨ch, .opened⟩ (hv.live_of_channel hr) (ownerOf_eq.1 ho) hr hco rfl
  have ha := (apply_iff_step hv).2 hs
  exact ⟨_, ha, rfl, setChan_same _ _ _, fun x hx => setChan_ne _ hx, rfl, rfl, rfl, rfl,
    fun id => C07_relayer_cannot_close (h.step ha) id⟩

example : Reports Ex.w2 (Ex.chan "channel-0" Ex.opts) .opened ∧ ownerOf Ex.w2 = some "alice" := ⟨rfl, rfl⟩

/-- **C20** (CloseConfirm). In every storage: accepted exactly for the channel equal in every field to the tracked one
while it is OPEN; it becomes CLOSED and nothing else changes. -/
theorem C20_close_confirm_iff {s s' : Store} {ch : IbcChannel} {r : Response} :
    ibcChannelClose s (.closeConfirm ch) = .ok (s', r) ↔
      s.channel = some ⟨ch, .opened⟩ ∧ s' = { s with channel := some ⟨ch, .closed⟩ } ∧ r.messages = [] ∧
      r.events = [] := by
  refine channelCloseConfirm_eq_ok.trans ?_
  obtain ⟨ms, es⟩ := r
  simp [Response.empty]

/-- **C20** (CloseInit). The same, and the permission must have been given and is used up. -/
theorem C20_close_init_iff {s s' : Store} {ch : IbcChannel} {r : Response} :
    ibcChannelClose s (.closeInit ch) = .ok (s', r) ↔
      s.allowCloseInit = some true ∧ s.channel = some ⟨ch, .opened⟩ ∧
      s' = { s with allowCloseInit := some false, channel := some ⟨ch, .closed⟩ } ∧ r.messages = [] ∧
      r.events = [] := by
  refine channelCloseInit_eq_ok.trans ?_
  obtain ⟨ms, es⟩ := r
  simp [Response.empty]

example : ∃ s', ibcChannelClose Ex.w2.store (.closeConfirm (Ex.chan "channel-0" Ex.opts)) = .ok (s', .empty) :=
  ⟨_, C20_close_confirm_iff.2 ⟨rfl, rfl, rfl, rfl⟩⟩

/-- **C21**. In every reachable world of an existing contract that reports no open channel, the owner can create a
new channel to the default port, with given options or (if they name the default port) the remembered ones,
whatever happened before. -/
theorem C21_closed_can_be_replaced {api : Api} {w : World} (h : Reachable api w) (hl : w.live = true)
    (hn : ¬ ReportsOpen w) {fresh : String} (hf : w.chans fresh = none) :
    ∃ owner, ownerOf w = some owner ∧
      (∀ o : ChannelOpenInitOptions, (o.counterpartyPortId = none ∨ o.counterpartyPortId = some "icahost") →
        ∃ w', Commits api w (.execute owner (.createChannel (some o)) fresh true) w' [.channelCreated fresh]) ∧
      (∀ o : ChannelOpenInitOptions, w.store.options = some o →
        (o.counterpartyPortId = none ∨ o.counterpartyPortId = some "icahost") →
        ∃ w', Commits api w (.execute owner (.createChannel none) fresh true) w' [.channelCreated fresh]) := by
  have hv := inv_of_reachable h
  obtain ⟨ow, o, h1, h2⟩ := hv.owner hl
  have hown : ownerOf w = some o := by unfold ownerOf; rw [h1]; exact h2
  refine ⟨o, hown, ?_, ?_⟩
  · intro x hp
    obtain ⟨w', _, hc, _⟩ := C11_create_commits (api := api) hl hown hn hf hp
    exact ⟨w', hc⟩
  · intro x hx hp
    have hpd : x.counterpartyPortId.getD "icahost" = "icahost" := by rcases hp with hp | hp <;> rw [hp] <;> rfl
    refine ⟨_, apply_create.2 ⟨hl, ⟨ow, h1, h2⟩, rfl, hf, ?_, x, hx, hpd, rfl, rfl⟩⟩
    intro c hc he
    obtain ⟨ch, st⟩ := c
    cases he
    exact hn ⟨ch, hc⟩

/-- After a timeout on an ordered channel the world `w4t` is such a world. -/
example : Ex.w4t.live = true ∧ ¬ ReportsOpen Ex.w4t ∧ Ex.w4t.store.options = some Ex.opts := by
  refine ⟨rfl, ?_, Ex.options3⟩
  rintro ⟨ch, h⟩
  cases h

/-- **C23** (chain). A channel closed on the chain stays exactly as it is for ever. -/
theorem C23_closed_stays_closed {api : Api} {w w' : World} {h : List (Op × List Obs)} {id : String}
    {ch : IbcChannel} (hr : Reachable api w) (he : Exec api w h w') (hc : w.chans id = some ⟨ch, .closed⟩) :
    w'.chans id = some ⟨ch, .closed⟩ := by
  refine exec_induction' (C := fun _ w' => w'.chans id = some ⟨ch, .closed⟩) (inv_of_reachable hr) hc ?_ he
  intro h w op w' obs _ hv ih hs
  have upd : ∀ {x c0 c1}, w.chans x = some c0 → c0.status ≠ .closed →
      setChan w.chans x c1 id = some ⟨ch, .closed⟩ := by
    intro x c0 c1 h0 h1
    by_cases hx : id = x
    · subst hx
      rw [ih] at h0
      cases h0
      exact absurd rfl h1
    · rw [setChan_ne _ hx]; exact ih
  have updn : ∀ {x c1}, w.chans x = none → setChan w.chans x c1 id = some ⟨ch, .closed⟩ := by
    intro x c1 h0
    by_cases hx : id = x
    · subst hx; rw [ih] at h0; cases h0
    · rw [setChan_ne _ hx]; exact ih
  cases hs with
  | instantiate _ _ fresh _ hf => exact updn hf
  | create _ _ fresh _ _ _ hf => exact updn hf
  | close _ _ c0 _ _ _ h0 h1 => exact upd h0 (by rw [h1]; simp)
  | closeConfirm x c0 h0 h1 => exact upd h0 (by rw [h1]; simp)
  | openAck x _ _ c0 _ _ h0 h1 => exact upd h0 (by rw [h1]; simp)
  | timeout x seq _ p c0 _ _ _ h0 =>
    dsimp only
    split
    · by_cases hx : id = x
      · subst hx
        rw [ih] at h0
        cases h0
        exact setChan_same _ _ _
      · rw [setChan_ne _ hx]; exact ih
    · exact ih
  | _ => exact ih

/-- **C23** (contract). Once the chain has closed a channel the contract never again reports it OPEN. -/
theorem C23_never_reported_open_again {api : Api} {w w' : World} {h : List (Op × List Obs)} {id : String}
    {ch ch' : IbcChannel} (hr : Reachable api w) (he : Exec api w h w') (hc : w.chans id = some ⟨ch, .closed⟩)
    (hid : ch'.endpoint.channelId = id) : ¬ Reports w' ch' .opened := by
  intro ho
  obtain ⟨env, h0, he0⟩ := hr
  have hr' : Reachable api w' := ⟨env, _, he0.append he⟩
  have h1 := C23_closed_stays_closed ⟨env, h0, he0⟩ he hc
  have h2 := C17_reported_open_is_open hr' ho
  rw [hid] at h2
  unfold ChainOpen at h2
  rw [h1] at h2
  cases h2

example : Ex.w5.chans "channel-0" = some ⟨Ex.chan "channel-0" Ex.opts, .closed⟩ :=
  setChan_same Ex.w2.chans "channel-0" _

/-- **C24** is false of the code: with two overlapping handshakes, both channels end up open. -/
theorem C24_two_open_channels :
    ∃ w ch ch', Reachable Ex.api w ∧ ChainOpen w "channel-0" ch ∧ ChainOpen w "channel-1" ch' := by
  refine ⟨Ex.y3, Ex.chan "channel-0" Ex.opts, Ex.chan "channel-1" Ex.opts, Ex.ry3, ?_, ?_⟩
  · unfold ChainOpen
    simp [Ex.y3, Ex.y2, Ex.eAck, setChan]; rfl
  · unfold ChainOpen
    simp [Ex.y3, Ex.eAck, setChan]; rfl

/-- Histories in which the owner asks for a channel only when no handshake is under way, and packets time out only
on the reported channel (or when that is unordered). -/
inductive Careful (api : Api) (w0 : World) : List (Op × List Obs) → World → Prop where
  | nil : Careful api w0 [] w0
  | step {h : List (Op × List Obs)} {w w' : World} {op : Op} {obs : List Obs} :
      Careful api w0 h w → Commits api w op w' obs →
      (op.asksChannel = true → ∀ id c, w.chans id = some c → c.status ≠ .init) →
      (∀ id seq relayer, op = .relayTimeout id seq relayer → ∀ ch s, Reports w ch s → ch.order = .ordered →
        ch.endpoint.channelId = id) →
      Careful api w0 (h ++ [(op, obs)]) w'

/-- A careful history is a history. -/
theorem Careful.exec {api : Api} {w0 w : World} {h : List (Op × List Obs)} (hc : Careful api w0 h w) :
    Exec api w0 h w := by
  induction hc with
  | nil => exact .nil
  | step _ b _ _ ih => exact ih.step b

/-- In careful histories: channels open on the chain are reported open; handshakes are one at a time and only while
nothing is open. -/
theorem careful_inv {api : Api} {env : Env} {h : List (Op × List Obs)} {w : World}
    (hc : Careful api (World.genesis env) h w) :
    (∀ id c, w.chans id = some c → c.status = .opened → Reports w c.chan .opened) ∧
    (∀ id c, w.chans id = some c → c.status = .init →
      (¬ ReportsOpen w) ∧ ∀ id' c', w.chans id' = some c' → c'.status = .init → id' = id) := by
  induction hc with
  | nil => exact ⟨(fun id c h => by cases h), (fun id c h => by cases h)⟩
  | @step h w w' op obs hprev hcom hask htmo ih =>
    obtain ⟨i1, i2⟩ := ih
    have hv := inv_exec (inv_genesis api env) hprev.exec
    have hs := step_of_apply hv hcom
    have fresh : ∀ {fresh o'}, op.asksChannel = true → ¬ ReportsOpen w → w'.store.channel = w.store.channel →
        w'.chans = setChan w.chans fresh ⟨o', .init⟩ →
        (∀ id c, w'.chans id = some c → c.status = .opened → Reports w' c.chan .opened) ∧
        (∀ id c, w'.chans id = some c → c.status = .init →
          (¬ ReportsOpen w') ∧ ∀ id' c', w'.chans id' = some c' → c'.status = .init → id' = id) := by
      intro fresh o' ha hn hch hcs
      have hro : ¬ ReportsOpen w' := by
        rintro ⟨x, hx⟩
        exact hn ⟨x, by unfold Reports at hx ⊢; rw [← hch]; exact hx⟩
      have honly : ∀ id c, w'.chans id = some c → c.status = .init → id = fresh := by
        intro id c h1 h2
        rw [hcs] at h1
        rcases setChan_eq_some.1 h1 with ⟨e, _⟩ | ⟨_, e⟩
        · exact e
        · exact absurd h2 (hask ha id c e)
      refine ⟨?_, ?_⟩
      · intro id c h1 h2
        rw [hcs] at h1
        rcases setChan_eq_some.1 h1 with ⟨_, rfl⟩ | ⟨_, e⟩
        · cases h2
        · unfold Reports
          rw [hch]
          exact i1 id c e h2
      · intro id c h1 h2
        exact ⟨hro, fun id' c' h3 h4 => (honly id' c' h3 h4).trans (honly id c h1 h2).symm⟩
    have closing : ∀ {x : String} {c0 : ChainChan}, w.chans x = some c0 →
        w.store.channel = some ⟨c0.chan, .opened⟩ → c0.status = .opened →
        w'.store.channel = some ⟨c0.chan, .closed⟩ → w'.chans = setChan w.chans x ⟨c0.chan, .closed⟩ →
        (∀ id c, w'.chans id = some c → c.status = .opened → Reports w' c.chan .opened) ∧
        (∀ id c, w'.chans id = some c → c.status = .init →
          (¬ ReportsOpen w') ∧ ∀ id' c', w'.chans id' = some c' → c'.status = .init → id' = id) := by
      intro x c0 h0 h1 h2 h3 h4
      have back : ∀ {id c}, w'.chans id = some c → c.status ≠ .closed → id ≠ x ∧ w.chans id = some c := by
        intro id c h5 h6
        rw [h4] at h5
        rcases setChan_eq_some.1 h5 with ⟨_, rfl⟩ | e
        · exact absurd rfl h6
        · exact e
      refine ⟨?_, ?_⟩
      · intro id c h5 h6
        obtain ⟨a, b⟩ := back h5 (by rw [h6]; simp)
        have := i1 id c b h6
        unfold Reports at this
        rw [h1] at this
        simp only [Option.some.injEq, ChannelState.mk.injEq, and_true] at this
        have e1 := hv.chan_id b
        have e2 := hv.chan_id h0
        rw [← this] at e1
        exact absurd (e1.symm.trans e2) a
      · intro id c h5 h6
        obtain ⟨a, b⟩ := back h5 (by rw [h6]; simp)
        exact absurd ⟨_, h1⟩ (i2 id c b h6).1
    cases hs with
    | instantiate sender msg fr hl hf =>
      refine fresh rfl ?_ rfl rfl
      rintro ⟨x, hx⟩
      unfold Reports at hx
      rw [(hv.dead hl).1] at hx
      cases hx
    | create sender o fr o' hl ho hf hc' =>
      refine fresh rfl ?_ rfl rfl
      rintro ⟨x, hx⟩
      exact hc' _ hx rfl
    | close sender fr c0 hl ho h1 h2 h3 => exact closing h2 h1 h3 rfl rfl
    | closeConfirm x c0 h1 h2 h3 => exact closing h1 h3 h2 rfl rfl
    | openAck x cpId v c0 st m h0 h1 =>
      obtain ⟨j1, j2⟩ := i2 x c0 h0 h1
      refine ⟨?_, ?_⟩
      · intro id c h5 h6
        rcases setChan_eq_some.1 h5 with ⟨_, rfl⟩ | ⟨_, e⟩
        · rfl
        · exact absurd ⟨_, i1 id c e h6⟩ j1
      · intro id c h5 h6
        rcases setChan_eq_some.1 h5 with ⟨_, rfl⟩ | ⟨hne, e⟩
        · cases h6
        · exact absurd (j2 id c e h6) hne
    | send =>
      have hch : ∀ {s}, s = w.store.channel → s = w.store.channel := id
      refine ⟨?_, ?_⟩
      · intro id c h5 h6
        unfold Reports
        rw [(storeAfterSend_fields _ _ _ _ _).2.2.2.1]
        exact i1 id c h5 h6
      · intro id c h5 h6
        obtain ⟨a, b⟩ := i2 id c h5 h6
        refine ⟨?_, b⟩
        rintro ⟨x, hx⟩
        unfold Reports at hx
        rw [(storeAfterSend_fields _ _ _ _ _).2.2.2.1] at hx
        exact a ⟨x, hx⟩
    | timeout x seq relayer p c0 st cs hp h0 hst hcs =>
      obtain ⟨ch, s⟩ := cs
      by_cases hord : ch.order = .ordered
      · have hid := htmo x seq relayer rfl ch s hcs hord
        obtain ⟨hs', c1, k1, k2, k3, k4⟩ := hv.tracked _ hcs
        dsimp only at k1 k2 k4
        rw [hid, h0] at k1
        cases k1
        have hord' : c0.chan.order = .ordered := by rw [k2]; exact hord
        have hw : ∀ {id c}, (if c0.chan.order = .ordered then setChan w.chans x ⟨c0.chan, .closed⟩
            else w.chans) id = some c → c.status ≠ .closed → id ≠ x ∧ w.chans id = some c := by
          intro id c h5 h6
          rw [if_pos hord'] at h5
          rcases setChan_eq_some.1 h5 with ⟨_, rfl⟩ | e
          · exact absurd rfl h6
          · exact e
        refine ⟨?_, ?_⟩
        · intro id c h5 h6
          obtain ⟨a, b⟩ := hw h5 (by rw [h6]; simp)
          have := i1 id c b h6
          unfold Reports at this
          rw [hcs] at this
          simp only [Option.some.injEq, ChannelState.mk.injEq] at this
          have e1 := hv.chan_id b
          rw [← this.1, hid] at e1
          exact absurd e1.symm a
        · intro id c h5 h6
          obtain ⟨a, b⟩ := hw h5 (by rw [h6]; simp)
          obtain ⟨d, e⟩ := i2 id c b h6
          refine ⟨?_, ?_⟩
          · rintro ⟨y, hy⟩
            unfold Reports at hy
            simp [hord] at hy
          · intro id' c' h7 h8
            exact e id' c' (hw h7 (by rw [h8]; simp)).2 h8
      · have hkeep : ∀ {id c}, (if c0.chan.order = .ordered then setChan w.chans x ⟨c0.chan, .closed⟩
            else w.chans) id = some c → c.status ≠ .closed → w.chans id = some c := by
          intro id c h5 h6
          split at h5
          · rcases setChan_eq_some.1 h5 with ⟨_, rfl⟩ | e
            · exact absurd rfl h6
            · exact e.2
          · exact h5
        refine ⟨?_, ?_⟩
        · intro id c h5 h6
          have := i1 id c (hkeep h5 (by rw [h6]; simp)) h6
          unfold Reports at this ⊢
          rw [hcs] at this
          simp only [hord, if_false]
          exact this
        · intro id c h5 h6
          obtain ⟨d, e⟩ := i2 id c (hkeep h5 (by rw [h6]; simp)) h6
          refine ⟨?_, fun id' c' h7 h8 => e id' c' (hkeep h7 (by rw [h8]; simp)) h8⟩
          rintro ⟨y, hy⟩
          unfold Reports at hy
          simp only [hord, if_false] at hy
          exact d ⟨y, hcs.trans hy⟩
    | _ => exact ⟨i1, i2⟩

/-- **C24** (partial). In careful histories at most one channel is open on the chain at every moment, and it is the
reported one. Missing: histories with overlapping handshakes or with timeouts of other channels' packets, where
the statement is false (`C24_two_open_channels`). -/
theorem C24_at_most_one_open_partial {api : Api} {env : Env} {h : List (Op × List Obs)} {w : World}
    (hc : Careful api (World.genesis env) h w) {id id' : String} {ch ch' : IbcChannel}
    (h1 : ChainOpen w id ch) (h2 : ChainOpen w id' ch') : id = id' ∧ ch = ch' ∧ Reports w ch .opened := by
  have hv := inv_exec (inv_genesis api env) hc.exec
  obtain ⟨i1, _⟩ := careful_inv hc
  have a := i1 _ _ h1 rfl
  have b := i1 _ _ h2 rfl
  have e := a.symm.trans b
  simp only [Option.some.injEq, ChannelState.mk.injEq, and_true] at e
  refine ⟨?_, e, a⟩
  rw [← hv.chan_id h1, ← hv.chan_id h2]
  show ch.endpoint.channelId = ch'.endpoint.channelId
  rw [e]

/-- A careful history with a channel replaced by another. -/
example : ∃ h, Careful Ex.api Ex.w0 h Ex.w7 ∧ ChainOpen Ex.w7 "channel-1" (Ex.chan "channel-1" Ex.opts') := by
  have c1 := Careful.step (.nil (api := Ex.api) (w0 := Ex.w0))
    ((apply_iff_step (inv_of_reachable Ex.r0)).2 Ex.s1) (fun _ id c h => by cases h)
    (fun _ _ _ h => by cases h)
  have c2 := c1.step ((apply_iff_step (inv_of_reachable Ex.r1)).2 Ex.s2) (fun h => by cases h)
    (fun _ _ _ h => by cases h)
  have c5 := c2.step ((apply_iff_step (inv_of_reachable Ex.r2)).2 Ex.s5) (fun h => by cases h)
    (fun _ _ _ h => by cases h)
  have c6 := c5.step ((apply_iff_step (inv_of_reachable Ex.r5)).2 Ex.s6) (fun _ id c h => by
      simp only [Ex.w5, Ex.eClose, Ex.w2, Ex.eAck, Ex.w1, Ex.eInst, Ex.w0, World.genesis] at h
      rcases setChan_eq_some.1 h with ⟨_, rfl⟩ | ⟨_, h⟩
      · simp
      · rcases setChan_eq_some.1 h with ⟨_, rfl⟩ | ⟨_, h⟩
        · simp
        · rcases setChan_eq_some.1 h with ⟨e, _⟩ | ⟨_, h⟩
          · rename_i k _ ; exact absurd e k
          · cases h)
    (fun _ _ _ h => by cases h)
  have c7 := c6.step ((apply_iff_step (inv_of_reachable Ex.r6)).2 Ex.s7) (fun h => by cases h)
    (fun _ _ _ h => by cases h)
  exact ⟨_, c7, C17_reported_open_is_open (ch := Ex.chan "channel-1" Ex.opts') Ex.r7 rfl⟩

end Ica
