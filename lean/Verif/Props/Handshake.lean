import Verif.Props.Ownership
import Verif.Spec.Proposal

/-!
# The handshake: C06 to C14, C22, C56, C57
-/
namespace Ica
open Spec

/-- **C06**. In every reachable world, a `MsgChannelOpenInit` for the contract's port by anybody but the contract
fails, whatever it proposes. -/
theorem C06_relayer_cannot_open {api : Api} {w : World} (h : Reachable api w) (m : P.MsgChannelOpenInit)
    (fresh : String) : Refused api w (.relayOpenInit m fresh) := by
  cases ha : apply api w (.relayOpenInit m fresh) with
  | none => exact ha
  | some r => exact absurd (apply_relayOpenInit_needs ha) (inv_of_reachable h).noOpenFlag

/-- The same proposal, were the permission left behind after instantiation, would be accepted: the theorem is about
the permission, not about the proposal. -/
example : ∃ r, coreOpenInit Ex.api
    { Ex.w1 with store := { Ex.w1.store with allowOpenInit := some true } }
    (proposalOpenInit "wasm1controller" Ex.opts) "channel-9" true = some r :=
  ⟨_, coreOpenInit_proposal (w := { Ex.w1 with store := { Ex.w1.store with allowOpenInit := some true } }).2
    ⟨rfl, rfl, by simp [Ex.w1, Ex.eInst, setChan, Ex.w0, World.genesis], rfl, rfl, (fun c h => by cases h), rfl, rfl⟩⟩

/-- **C07**. In every reachable world, a `MsgChannelCloseInit` by anybody but the contract fails. -/
theorem C07_relayer_cannot_close {api : Api} {w : World} (h : Reachable api w) (id : String) :
    Refused api w (.relayCloseInit id) := by
  cases ha : apply api w (.relayCloseInit id) with
  | none => exact ha
  | some r =>
    obtain ⟨c, _, _, hf, _⟩ := apply_relayCloseInit.1 ha
    exact absurd hf (inv_of_reachable h).noCloseFlag

/-- In `w2` the channel is open and the owner could close it. -/
example : ReportsOpen Ex.w2 ∧ Refused Ex.api Ex.w2 (.relayCloseInit "channel-0") :=
  ⟨⟨Ex.chan "channel-0" Ex.opts, rfl⟩, C07_relayer_cannot_close Ex.r2 _⟩

/-- What a step does to the set of channels. -/
theorem chans_step {api : Api} {w w' : World} {op : Op} {obs : List Obs} (hs : Step api w op w' obs) :
    (op.asksChannel = true ∧ ∃ id, obs = [.channelCreated id] ∧ w.chans id = none ∧
      ∀ x, (∃ c, w'.chans x = some c) ↔ x = id ∨ ∃ c, w.chans x = some c) ∨
    (op.asksChannel = false ∧ createdIds [(op, obs)] = [] ∧
      ∀ x, (∃ c, w'.chans x = some c) ↔ ∃ c, w.chans x = some c) := by
  have key : ∀ (f : String → Option ChainChan) id c c', f id = some c →
      ∀ x, (∃ d, setChan f id c' x = some d) ↔ ∃ d, f x = some d := by
    intro f id c c' h x
    by_cases hx : x = id
    · subst hx; simp [setChan, h]
    · simp [setChan, hx]
  have keyn : ∀ (f : String → Option ChainChan) id c', f id = none →
      ∀ x, (∃ d, setChan f id c' x = some d) ↔ x = id ∨ ∃ d, f x = some d := by
    intro f id c' h x
    by_cases hx : x = id
    · subst hx; simp [setChan]
    · simp [setChan, hx]
  have hc0 : ∀ cb m, createdIds [(op, callObs cb m)] = [] := by
    intro cb m; cases cb <;> simp [createdIds, callObs]
  cases hs with
  | instantiate _ _ fresh _ hf => exact Or.inl ⟨rfl, fresh, rfl, hf, keyn _ _ _ hf⟩
  | create _ _ fresh _ _ _ hf => exact Or.inl ⟨rfl, fresh, rfl, hf, keyn _ _ _ hf⟩
  | close _ _ c _ _ _ hc _ => exact Or.inr ⟨rfl, rfl, key _ _ _ _ hc⟩
  | openAck id _ _ c _ _ hc => exact Or.inr ⟨rfl, hc0 _ _, key _ _ _ _ hc⟩
  | closeConfirm id c hc => exact Or.inr ⟨rfl, rfl, key _ _ _ _ hc⟩
  | ackOk =>
    refine Or.inr ⟨rfl, ?_, fun _ => Iff.rfl⟩
    rename_i st _ _ _ _ _ _ _ _
    cases st.callbackAddress <;> simp [createdIds, callObs]
  | ackErr =>
    refine Or.inr ⟨rfl, ?_, fun _ => Iff.rfl⟩
    rename_i st _ _ _ _ _ _
    cases st.callbackAddress <;> simp [createdIds, callObs]
  | timeout id seq _ p c _ _ _ hc =>
    refine Or.inr ⟨rfl, hc0 _ _, fun x => ?_⟩
    dsimp only
    split
    · exact key _ _ _ _ hc x
    · exact Iff.rfl
  | _ => exact Or.inr ⟨rfl, rfl, fun _ => Iff.rfl⟩

theorem createdIds_append (a b : List (Op × List Obs)) : createdIds (a ++ b) = createdIds a ++ createdIds b := by
  simp [createdIds]

/-- **C08**. In every history each instantiation and each committed `CreateChannel` creates exactly one channel and
nothing else creates one: the created ids are pairwise different, there are exactly as many as such operations, and
they are exactly the channels of the contract's port. -/
theorem C08_one_channel_per_authorisation {api : Api} {env : Env} {h : List (Op × List Obs)} {w : World}
    (he : Exec api (World.genesis env) h w) :
    (createdIds h).Nodup ∧ (createdIds h).length = h.countP (fun x => x.1.asksChannel) ∧
      ∀ id, id ∈ createdIds h ↔ ∃ c, w.chans id = some c := by
  refine exec_induction (C := fun h w => (createdIds h).Nodup ∧
    (createdIds h).length = h.countP (fun x => x.1.asksChannel) ∧
      ∀ id, id ∈ createdIds h ↔ ∃ c, w.chans id = some c) ?_ ?_ he
  · simp [createdIds, World.genesis]
  · intro h w op w' obs _ _ ih hs
    obtain ⟨i1, i2, i3⟩ := ih
    rw [createdIds_append, List.countP_append]
    rcases chans_step hs with ⟨ha, id, rfl, hn, hx⟩ | ⟨ha, hc, hx⟩
    · have hid : createdIds [(op, [.channelCreated id])] = [id] := rfl
      rw [hid]
      refine ⟨?_, ?_, ?_⟩
      · rw [List.nodup_append]
        refine ⟨i1, by simp, ?_⟩
        intro a ha' b hb
        simp only [List.mem_singleton] at hb
        subst hb
        rintro rfl
        obtain ⟨c, hc⟩ := (i3 _).1 ha'
        rw [hn] at hc; cases hc
      · simp [i2, ha]
      · intro x
        rw [hx x, List.mem_append, i3 x, List.mem_singleton, or_comm]
    · rw [hc]
      refine ⟨by simpa using i1, by simp [i2, ha], ?_⟩
      intro x
      rw [hx x, List.append_nil, i3 x]

/-- Two channels in the scenario. -/
example : ∃ h w, Exec Ex.api Ex.w0 h w ∧ createdIds h = ["channel-0", "channel-1"] := by
  have e1 := Exec.step (.nil (api := Ex.api) (w0 := Ex.w0)) ((apply_iff_step (inv_of_reachable Ex.r0)).2 Ex.s1)
  have e2 := e1.step ((apply_iff_step (inv_of_reachable Ex.r1)).2 Ex.u1)
  exact ⟨_, _, e2, rfl⟩

/-- **C09**. While the contract reports an open channel, `CreateChannel` fails, whatever the options and whoever
sends it. -/
theorem C09_no_second_handshake {api : Api} {w : World} (h : ReportsOpen w) (sender : String)
    (o : Option ChannelOpenInitOptions) (fresh : String) (core : Bool) :
    Refused api w (.execute sender (.createChannel o) fresh core) := by
  cases ha : apply api w (.execute sender (.createChannel o) fresh core) with
  | none => exact ha
  | some r =>
    obtain ⟨_, _, _, _, hc, _⟩ := apply_create.1 ha
    obtain ⟨ch, hch⟩ := h
    exact absurd rfl (hc _ hch)

example : Reachable Ex.api Ex.w2 ∧ ReportsOpen Ex.w2 := ⟨Ex.r2, ⟨Ex.chan "channel-0" Ex.opts, rfl⟩⟩

theorem orderNum_eq (o : ChannelOpenInitOptions) :
    (orderNum o.channelOrdering).toNat = orderNumber (askedOrder o) := by
  unfold orderNum askedOrder
  rcases o.channelOrdering with _ | _ | _ <;> rfl

theorem getD_port (o : ChannelOpenInitOptions) : o.counterpartyPortId.getD "icahost" = askedPort o := by
  unfold askedPort
  cases o.counterpartyPortId <;> rfl

/-- Reading an encoded message. -/
theorem readProposal_enc (port : String) (st ord : UInt64) (cpPort cpCh : String) (hops : List String)
    (v signer : String) :
    readProposal (P.MsgChannelOpenInit.toBytes ⟨port, some ⟨st, ord, some ⟨cpPort, cpCh⟩, hops, v⟩, signer⟩) =
      some ⟨port, st.toNat, ord.toNat, cpPort, cpCh, hops, v, signer⟩ := by
  have hd : ∀ c : P.Channel, dMsg (vMsg (some c.enc)) = some (some c.enc) := fun c =>
    dMsg_vMsg (by intro fs hfs; cases hfs; exact c.valid)
  have hd' : ∀ c : P.Counterparty, dMsg (vMsg (some c.enc)) = some (some c.enc) := fun c =>
    dMsg_vMsg (by intro fs hfs; cases hfs; exact c.valid)
  have f1 : ∀ m : P.MsgChannelOpenInit, sel 1 m.enc = vStr m.portId := by
    intro m; simp [P.MsgChannelOpenInit.enc, sel_tagged_ne]
  have f2 : ∀ m : P.MsgChannelOpenInit, sel 2 m.enc = vMsg (m.channel.map P.Channel.enc) := by
    intro m; simp [P.MsgChannelOpenInit.enc, sel_tagged_ne]
  have f3 : ∀ m : P.MsgChannelOpenInit, sel 3 m.enc = vStr m.signer := by
    intro m; simp [P.MsgChannelOpenInit.enc, sel_tagged_ne]
  have g1 : ∀ m : P.Channel, sel 1 m.enc = vU64 m.state := by
    intro m; simp [P.Channel.enc, sel_tagged_ne]
  have g2 : ∀ m : P.Channel, sel 2 m.enc = vU64 m.ordering := by
    intro m; simp [P.Channel.enc, sel_tagged_ne]
  have g3 : ∀ m : P.Channel, sel 3 m.enc = vMsg (m.counterparty.map P.Counterparty.enc) := by
    intro m; simp [P.Channel.enc, sel_tagged_ne]
  have g4 : ∀ m : P.Channel, sel 4 m.enc = vStrs m.connectionHops := by
    intro m; simp [P.Channel.enc, sel_tagged_ne]
  have g5 : ∀ m : P.Channel, sel 5 m.enc = vStr m.version := by
    intro m; simp [P.Channel.enc, sel_tagged_ne]
  have k1 : ∀ m : P.Counterparty, sel 1 m.enc = vStr m.portId := by
    intro m; simp [P.Counterparty.enc, sel_tagged_ne]
  have k2 : ∀ m : P.Counterparty, sel 2 m.enc = vStr m.channelId := by
    intro m; simp [P.Counterparty.enc, sel_tagged_ne]
  unfold readProposal P.MsgChannelOpenInit.toBytes
  rw [parseWire_encFields (P.MsgChannelOpenInit.valid _)]
  simp only [f1, f2, f3, Option.map_some, hd, dStr_vStr, Option.bind_eq_bind, Option.bind_some, g1, g2, g3, g4, g5,
    hd', k1, k2, dU64_vU64, dStrs_vStrs]

theorem readProposal_toBytes (addr : String) (o : ChannelOpenInitOptions) :
    readProposal (proposalOpenInit addr o).toBytes =
      some ⟨"wasm." ++ addr, 1, orderNumber (askedOrder o), askedPort o, "", [o.connectionId], proposalVersion o,
        addr⟩ := by
  rw [← getD_port, ← orderNum_eq]
  exact readProposal_enc _ _ _ _ _ _ _ _

theorem proposalVersion_json (o : ChannelOpenInitOptions) :
    jsonOfString (proposalVersion o) = some (proposedMetadata o.connectionId o.counterpartyConnectionId) := by
  unfold proposalVersion IcaMetadata.display JC.toStr
  rw [jsonOfString_toString]
  rfl

/-- **C10** (the message). The one message of `instantiate` and of `CreateChannel` is a `MsgChannelOpenInit` whose
bytes, read with the field numbers of ibc-go, say: port `wasm.<contract>`, state INIT, the asked ordering, the
asked counterparty port, no counterparty channel yet, exactly the asked connection, signed by the contract; and
whose version is the JSON text of the ICS-27 metadata with the two asked connection ids. -/
theorem C10_own_proposal (addr : String) (o : ChannelOpenInitOptions) :
    ∃ bytes v, proposalMsg addr o = .stargate "/ibc.core.channel.v1.MsgChannelOpenInit" bytes ∧
      readProposal bytes = some ⟨"wasm." ++ addr, 1, orderNumber (askedOrder o), askedPort o, "",
        [o.connectionId], v, addr⟩ ∧
      jsonOfString v = some (proposedMetadata o.connectionId o.counterpartyConnectionId) :=
  ⟨_, _, proposalMsg_eq addr o, readProposal_toBytes addr o, proposalVersion_json o⟩

/-- **C10** (instantiate sends it). -/
theorem C10_instantiate_sends {api : Api} {env : Env} {s : Store} {sender : String} {msg : InstantiateMsg}
    {r : Store × Response} (h : instantiate api env s sender msg = .ok r) :
    r.2 = ⟨[.new (proposalMsg env.contractAddr msg.channelOpenInitOptions)], []⟩ :=
  (instantiate_eq_ok.1 h).2.2.2

/-- **C10** (`CreateChannel` sends it, for the given options or else the stored ones). -/
theorem C10_create_sends {env : Env} {s : Store} {sender : String} {o : Option ChannelOpenInitOptions}
    {r : Store × Response} (h : createChannel env s sender o = .ok r) :
    ∃ o', (o = some o' ∨ (o = none ∧ s.options = some o')) ∧
      r.2 = ⟨[.new (proposalMsg env.contractAddr o')], []⟩ := by
  obtain ⟨_, o', h1, _, h2⟩ := createChannel_eq_ok.1 h
  refine ⟨o', ?_, h2⟩
  cases o with
  | none => exact Or.inr ⟨rfl, by simpa using h1⟩
  | some x => exact Or.inl (by simpa using h1)

/-- **C10** (`instantiate`). Whatever is asked for: if it succeeds, its response is one message, which the chain reads as
the proposal of exactly the channel asked for. -/
theorem C10_instantiate_proposes {api : Api} {env : Env} {s : Store} {sender : String} {msg : InstantiateMsg}
    {r : Store × Response} (h : instantiate api env s sender msg = .ok r) :
    ∃ bytes v, r.2 = ⟨[.new (.stargate "/ibc.core.channel.v1.MsgChannelOpenInit" bytes)], []⟩ ∧
      readProposal bytes = some ⟨"wasm." ++ env.contractAddr, 1, orderNumber (askedOrder msg.channelOpenInitOptions),
        askedPort msg.channelOpenInitOptions, "", [msg.channelOpenInitOptions.connectionId], v, env.contractAddr⟩ ∧
      jsonOfString v = some (proposedMetadata msg.channelOpenInitOptions.connectionId
        msg.channelOpenInitOptions.counterpartyConnectionId) := by
  obtain ⟨bytes, v, e, k⟩ := C10_own_proposal env.contractAddr msg.channelOpenInitOptions
  exact ⟨bytes, v, e ▸ C10_instantiate_sends h, k⟩

/-- **C10** (`CreateChannel`). Likewise, for the options given or else the stored ones. -/
theorem C10_create_proposes {env : Env} {s : Store} {sender : String} {o : Option ChannelOpenInitOptions}
    {r : Store × Response} (h : createChannel env s sender o = .ok r) :
    ∃ o' bytes v, (o = some o' ∨ (o = none ∧ s.options = some o')) ∧
      r.2 = ⟨[.new (.stargate "/ibc.core.channel.v1.MsgChannelOpenInit" bytes)], []⟩ ∧
      readProposal bytes = some ⟨"wasm." ++ env.contractAddr, 1, orderNumber (askedOrder o'), askedPort o', "",
        [o'.connectionId], v, env.contractAddr⟩ ∧
      jsonOfString v = some (proposedMetadata o'.connectionId o'.counterpartyConnectionId) := by
  obtain ⟨o', ho, h2⟩ := C10_create_sends h
  obtain ⟨bytes, v, e, k⟩ := C10_own_proposal env.contractAddr o'
  exact ⟨o', bytes, v, ho, e ▸ h2, k⟩

/-- A connection id with a quote and a non-ASCII character survives. -/
example : ∃ v, readProposal (proposalOpenInit "wasm1c" ⟨"conn\"é", "connection-7", none, some .unordered⟩).toBytes =
    some ⟨"wasm." ++ "wasm1c", 1, 1, "icahost", "", ["conn\"é"], v, "wasm1c"⟩ ∧
    jsonOfString v = some (proposedMetadata "conn\"é" "connection-7") :=
  ⟨_, readProposal_toBytes _ _, proposalVersion_json _⟩

/-- **C11** (validation). For every storage with an owner and no tracked open channel, every option value to the
default port: `CreateChannel` by the owner succeeds, and the contract's own OpenInit handler accepts the channel
its message proposes (under whatever id the chain picks) and returns the proposed version unchanged. -/
theorem C11_accepts_own_proposal {api : Api} {env : Env} {s : Store} {owner : String}
    {o : ChannelOpenInitOptions} {ow : Ownership} (ho : s.ownership = some ow) (ho' : ow.owner = some owner)
    (hp : o.counterpartyPortId = none ∨ o.counterpartyPortId = some "icahost")
    (hc : ∀ c, s.channel = some c → c.channelStatus ≠ .opened) :
    ∃ s' bytes p, execute api env s owner (.createChannel (some o)) =
        .ok (s', ⟨[.new (.stargate "/ibc.core.channel.v1.MsgChannelOpenInit" bytes)], []⟩) ∧
      readProposal bytes = some p ∧ p.connections = [o.connectionId] ∧ p.ordering = orderNumber (askedOrder o) ∧
      ∀ id, ∃ s'', ibcChannelOpen api s' (.openInit ⟨⟨p.port, id⟩, ⟨p.counterpartyPort, p.counterpartyChannel⟩,
        askedOrder o, p.version, o.connectionId⟩) = .ok (s'', p.version) := by
  refine ⟨{ s with options := some o, allowOpenInit := some true }, _, _,
    (createChannel_eq_ok (o := some o)).2 ⟨⟨ow, ho, ho'⟩, o, rfl, rfl, rfl⟩,
    readProposal_toBytes env.contractAddr o, rfl, rfl, ?_⟩
  intro id
  refine ⟨_, channelOpenInit_eq_ok.2 ⟨rfl, ?_, hc, rfl, IcaMetadata.ofOptions o, ?_, metaOk_ofOptions api o, rfl⟩⟩
  · show askedPort o = "icahost"
    unfold askedPort
    rcases hp with hp | hp <;> rw [hp]
  · show (if proposalVersion o = "" then _ else _)
    have hne : proposalVersion o ≠ "" := display_ne_empty (IcaMetadata.ofOptions o)
    rw [if_neg hne]
    exact parse_display (IcaMetadata.ofOptions o)

/-- **C11** (chain). In every world in which the contract exists and reports no open channel, a `CreateChannel` of
the owner to the default port commits when the chain's own checks pass and the chain's id is fresh, and the chain
then holds the channel in INIT with the proposed version. -/
theorem C11_create_commits {api : Api} {w : World} {owner fresh : String} {o : ChannelOpenInitOptions}
    (hl : w.live = true) (ho : ownerOf w = some owner) (hr : ¬ ReportsOpen w) (hf : w.chans fresh = none)
    (hp : o.counterpartyPortId = none ∨ o.counterpartyPortId = some "icahost") :
    ∃ w' ch, Commits api w (.execute owner (.createChannel (some o)) fresh true) w' [.channelCreated fresh] ∧
      w'.chans fresh = some ⟨ch, .init⟩ ∧
      jsonOfString ch.version = some (proposedMetadata o.connectionId o.counterpartyConnectionId) ∧
      ch.connectionId = o.connectionId ∧ ch.order = askedOrder o ∧ ch.counterpartyEndpoint = ⟨"icahost", ""⟩ ∧
      ch.endpoint = ⟨"wasm." ++ w.env.contractAddr, fresh⟩ := by
  have hpd : o.counterpartyPortId.getD "icahost" = "icahost" := by rcases hp with hp | hp <;> rw [hp] <;> rfl
  refine ⟨_, _, apply_create.2 ⟨hl, ownerOf_eq.1 ho, rfl, hf, ?_, o, rfl, hpd, rfl, rfl⟩, setChan_same _ _ _,
    proposalVersion_json o, rfl, ?_, ?_, rfl⟩
  · intro c hc he
    obtain ⟨ch, st⟩ := c
    cases he
    exact hr ⟨ch, hc⟩
  · unfold proposalChannel askedOrder
    cases o.channelOrdering <;> rfl
  · show (⟨o.counterpartyPortId.getD "icahost", ""⟩ : IbcEndpoint) = _
    rw [hpd]

example : Ex.w5.live = true ∧ ownerOf Ex.w5 = some "alice" ∧ ¬ ReportsOpen Ex.w5 :=
  ⟨rfl, rfl, by rintro ⟨ch, h⟩; cases h⟩

theorem alnum_iff {api : Api} {c : Char} : isAlphanumeric api c = true ↔
    ('0' ≤ c ∧ c ≤ '9') ∨ ('A' ≤ c ∧ c ≤ 'Z') ∨ ('a' ≤ c ∧ c ≤ 'z') ∨
      (128 ≤ c.toNat ∧ api.alnumNonAscii c = true) := by
  have h : ∀ a b : Char, a ≤ b ↔ a.toNat ≤ b.toNat := fun a b => Iff.rfl
  simp only [h]
  have e1 : '0'.toNat = 48 := rfl
  have e2 : '9'.toNat = 57 := rfl
  have e3 : 'A'.toNat = 65 := rfl
  have e4 : 'Z'.toNat = 90 := rfl
  have e5 : 'a'.toNat = 97 := rfl
  have e6 : 'z'.toNat = 122 := rfl
  rw [e1, e2, e3, e4, e5, e6]
  unfold isAlphanumeric
  split
  · simp only [Bool.or_eq_true, Bool.and_eq_true, decide_eq_true_eq]
    constructor
    · rintro ((h | h) | h)
      · exact Or.inl h
      · exact Or.inr (Or.inl h)
      · exact Or.inr (Or.inr (Or.inl h))
    · rintro (h | h | h | h)
      · exact Or.inl (Or.inl h)
      · exact Or.inl (Or.inr h)
      · exact Or.inr h
      · omega
  · constructor
    · intro h; exact Or.inr (Or.inr (Or.inr ⟨by omega, h⟩))
    · rintro (h | h | h | h)
      · omega
      · omega
      · omega
      · exact h.2

theorem metaOk_iff {api : Api} {m : IcaMetadata} {conn : String} :
    MetaOk api m conn ↔ ValidMetadata api m conn := by
  constructor
  · rintro ⟨a, b, c, d, e⟩
    exact ⟨a, b, c, e, d.imp_right fun x => ⟨x.1, fun y hy => alnum_iff.1 (x.2 y hy)⟩⟩
  · rintro ⟨a, b, c, e, d⟩
    exact ⟨a, b, c, d.imp_right (fun x => ⟨x.1, fun y hy => alnum_iff.2 (x.2 y hy)⟩), e⟩

/-- **C12**. Every OpenInit the contract accepts, in any storage: the permission was given, the counterparty port is
icahost, no channel is tracked open, the returned version is the JSON of valid metadata for the channel's
connection, and storage changes only by the permission being used up. -/
theorem C12_accepted_open_init {api : Api} {s s' : Store} {ch : IbcChannel} {v : String}
    (h : ibcChannelOpen api s (.openInit ch) = .ok (s', v)) :
    s.allowOpenInit = some true ∧ ch.counterpartyEndpoint.portId = "icahost" ∧
    (∀ c, s.channel = some c → c.channelStatus ≠ .opened) ∧
    (∃ m, IcaMetadata.parse v = some m ∧ ValidMetadata api m ch.connectionId ∧
      (ch.version ≠ "" → IcaMetadata.parse ch.version = some m)) ∧
    s' = { s with allowOpenInit := some false } := by
  obtain ⟨a, b, c, d, m, e, f, rfl⟩ := channelOpenInit_eq_ok.1 h
  refine ⟨a, b, c, ⟨m, parse_display m, metaOk_iff.1 f, ?_⟩, d⟩
  intro hne
  rwa [if_neg hne] at e

/-- **C12** (conversely). With the permission, the right port, no tracked open channel and a version that parses to
valid metadata, OpenInit is accepted. -/
theorem C12_open_init_accepts {api : Api} {s : Store} {ch : IbcChannel} {m : IcaMetadata}
    (ha : s.allowOpenInit = some true) (hp : ch.counterpartyEndpoint.portId = "icahost")
    (hc : ∀ c, s.channel = some c → c.channelStatus ≠ .opened)
    (hv : IcaMetadata.parse ch.version = some m) (hm : ValidMetadata api m ch.connectionId) :
    ∃ v, ibcChannelOpen api s (.openInit ch) = .ok ({ s with allowOpenInit := some false }, v) ∧
      IcaMetadata.parse v = some m := by
  refine ⟨m.display, channelOpenInit_eq_ok.2 ⟨ha, hp, hc, rfl, m, ?_, metaOk_iff.2 hm, rfl⟩, parse_display m⟩
  rw [if_neg]
  · exact hv
  · intro he
    rw [he, parse_empty] at hv
    cases hv

/-- **C12** (empty version). A proposal with the empty version (as relayers may send for an ICS-27 upgrade) is given
the metadata of the tracked channel when that parses, else that of the stored options; the options must be for the
channel's own connection. -/
theorem C12_empty_version {api : Api} {s s' : Store} {ch : IbcChannel} {v : String} (he : ch.version = "")
    (h : ibcChannelOpen api s (.openInit ch) = .ok (s', v)) :
    (∃ cs m, s.channel = some cs ∧ IcaMetadata.parse cs.channel.version = some m ∧ v = m.display) ∨
    (∃ o, s.options = some o ∧ o.connectionId = ch.connectionId ∧
      jsonOfString v = some (proposedMetadata o.connectionId o.counterpartyConnectionId)) := by
  obtain ⟨_, _, _, _, m, e, _, rfl⟩ := channelOpenInit_eq_ok.1 h
  rw [if_pos he] at e
  unfold IcaMetadata.fromChannel at e
  dsimp only at e
  split at e
  · rename_i m' hm'
    cases e
    rw [Option.bind_eq_some_iff] at hm'
    obtain ⟨cs, h1, h2⟩ := hm'
    exact Or.inl ⟨cs, m, h1, h2, rfl⟩
  · simp only [Res.bind_eq_ok', load_eq_ok] at e
    obtain ⟨o, h1, h2⟩ := e
    split at h2
    · cases h2
    · rename_i hc
      cases h2
      exact Or.inr ⟨o, h1, by simpa using hc, proposalVersion_json o⟩

example : ∃ v, ibcChannelOpen Ex.api { Ex.w1.store with allowOpenInit := some true }
    (.openInit (Ex.prop "channel-3" Ex.opts)) = .ok ({ Ex.w1.store with allowOpenInit := some false }, v) := by
  obtain ⟨v, hv, _⟩ := C12_open_init_accepts (api := Ex.api)
    (s := { Ex.w1.store with allowOpenInit := some true }) (ch := Ex.prop "channel-3" Ex.opts)
    (m := IcaMetadata.ofOptions Ex.opts) rfl rfl (fun c h => by cases h) (parse_display _)
    (metaOk_iff.1 (metaOk_ofOptions _ _))
  exact ⟨v, hv⟩

/-- **C13**. OpenAck is accepted exactly when the contract is initialised, the local port is not icahost, and the
counterparty version parses as valid metadata for the channel's connection with a non-empty address; then ICA info
and tracked channel are exactly as acknowledged and nothing else in storage changes. -/
theorem C13_open_ack_iff {api : Api} {s s' : Store} {ch : IbcChannel} {cv : String} :
    (∃ r, ibcChannelConnect api s (.openAck ch cv) = .ok (s', r)) ↔
      ∃ st m, s.state = some st ∧ ch.endpoint.portId ≠ "icahost" ∧ IcaMetadata.parse cv = some m ∧
        ValidMetadata api m ch.connectionId ∧ m.address ≠ "" ∧
        s' = { s with
          state := some ⟨some ⟨m.address, ch.endpoint.channelId, m.encoding⟩, st.callbackAddress⟩
          channel := some ⟨⟨ch.endpoint, ch.counterpartyEndpoint, ch.order, cv, ch.connectionId⟩, .opened⟩ } := by
  constructor
  · rintro ⟨r, h⟩
    obtain ⟨st, m, a, b, c, d, e, f, _⟩ := channelOpenAck_eq_ok.1 h
    exact ⟨st, m, a, b, c, metaOk_iff.1 d, e, f⟩
  · rintro ⟨st, m, a, b, c, d, e, f⟩
    exact ⟨_, channelOpenAck_eq_ok.2 ⟨st, m, a, b, c, metaOk_iff.2 d, e, f, rfl⟩⟩

example : ∃ r, ibcChannelConnect Ex.api Ex.w1.store (.openAck (Ex.prop "channel-0" Ex.opts) Ex.ver) = .ok r := by
  obtain ⟨r, h⟩ := (C13_open_ack_iff (s := Ex.w1.store) (ch := Ex.prop "channel-0" Ex.opts) (cv := Ex.ver)).2
    ⟨⟨none, some "cb"⟩, Ex.meta0, rfl, portOf_ne_icahost _, Ex.verParse, metaOk_iff.1 Ex.metaOk, Ex.metaNe, rfl⟩
  exact ⟨_, h⟩

/-- **C14**. OpenTry, OpenConfirm and packet receive abort in every storage. -/
theorem C14_controller_only (api : Api) (s : Store) (ch : IbcChannel) (v : String) (p : IbcPacket) :
    (∃ m, ibcChannelOpen api s (.openTry ch v) = .panic m) ∧
    (∃ m, ibcChannelConnect api s (.openConfirm ch) = .panic m) ∧
    (∃ m, ibcPacketReceive s p = .panic m) := ⟨⟨_, rfl⟩, ⟨_, rfl⟩, ⟨_, rfl⟩⟩

/-- **C14** (chain). No such transaction ever commits. -/
theorem C14_never_commits (api : Api) (w : World) (ch : IbcChannel) (v : String) (p : IbcPacket) :
    Refused api w (.relayOpenTry ch v) ∧ Refused api w (.relayOpenConfirm ch) ∧ Refused api w (.relayRecv p) :=
  ⟨rfl, rfl, rfl⟩

theorem lastOptions_snoc (h : List (Op × List Obs)) (x : Op × List Obs) :
    lastOptions (h ++ [x]) =
      (match x.1 with
        | .instantiate _ msg _ _ => some msg.channelOpenInitOptions
        | .execute _ (.createChannel (some o)) _ _ => some o
        | _ => lastOptions h) := by
  unfold lastOptions
  rw [List.foldl_append]
  rfl

/-- The stored options are the last ones given. -/
theorem options_history {api : Api} {env : Env} {h : List (Op × List Obs)} {w : World}
    (he : Exec api (World.genesis env) h w) : w.store.options = lastOptions h := by
  refine exec_induction (C := fun h w => w.store.options = lastOptions h) rfl ?_ he
  intro h w op w' obs _ hi ih hs
  rw [lastOptions_snoc]
  cases hs with
  | create sender o fresh o' hl ho hf hc h1 hp =>
    cases o with
    | none =>
      simp only [Option.none_or] at h1
      show some o' = lastOptions h
      rw [← h1, ih]
    | some x =>
      simp only [Option.some_or, Option.some.injEq] at h1
      show some o' = some x
      rw [h1]
  | send => exact ((storeAfterSend_fields _ _ _ _ _).2.2.2.2.1).trans ih
  | instantiate => rfl
  | _ => exact ih

/-- **C22**. In every history, a committed `CreateChannel` without options creates the channel of the last options
given (by instantiation or `CreateChannel` with options, failed attempts not counting). -/
theorem C22_repeats_last_options {api : Api} {env : Env} {h : List (Op × List Obs)} {w w' : World}
    {sender fresh : String} {core : Bool} {obs : List Obs} (he : Exec api (World.genesis env) h w)
    (hc : Commits api w (.execute sender (.createChannel none) fresh core) w' obs) :
    ∃ o ch, lastOptions h = some o ∧ w'.chans fresh = some ⟨ch, .init⟩ ∧ ch.connectionId = o.connectionId ∧
      ch.order = askedOrder o ∧ ch.counterpartyEndpoint = ⟨askedPort o, ""⟩ ∧
      jsonOfString ch.version = some (proposedMetadata o.connectionId o.counterpartyConnectionId) := by
  obtain ⟨_, _, _, _, _, o', h1, _, rfl, _⟩ := apply_create.1 hc
  simp only [Option.none_or] at h1
  refine ⟨o', _, ?_, setChan_same _ _ _, rfl, ?_, ?_, proposalVersion_json o'⟩
  · rw [← options_history he, h1]
  · unfold proposalChannel askedOrder; cases o'.channelOrdering <;> rfl
  · show (⟨_, _⟩ : IbcEndpoint) = _
    rw [getD_port]

/-- **C22** (a later one with options replaces them). -/
theorem C22_with_options {api : Api} {env : Env} {h : List (Op × List Obs)} {w w' : World}
    {sender fresh : String} {core : Bool} {obs : List Obs} {o : ChannelOpenInitOptions}
    (he : Exec api (World.genesis env) h w)
    (hc : Commits api w (.execute sender (.createChannel (some o)) fresh core) w' obs) :
    lastOptions (h ++ [(.execute sender (.createChannel (some o)) fresh core, obs)]) = some o ∧
    w'.store.options = some o :=
  ⟨lastOptions_snoc _ _, (options_history (he.step hc)).trans (lastOptions_snoc _ _)⟩

example : ∃ w' obs, Commits Ex.api Ex.x1 (.execute "alice" (.createChannel none) "channel-1" true) w' obs :=
  ⟨_, _, (apply_iff_step (inv_of_reachable Ex.rx1)).2 Ex.t2⟩

/-- Where a channel of the chain comes from. -/
def CameFrom (h : List (Op × List Obs)) (id : String) (ch : IbcChannel) : Prop :=
  ∃ h1 op h2 o, h = h1 ++ (op, [.channelCreated id]) :: h2 ∧ askedOptions h1 op = some o ∧
    ch.connectionId = o.connectionId ∧ ch.order = askedOrder o ∧ ch.counterpartyEndpoint.portId = askedPort o

theorem CameFrom.snoc {h : List (Op × List Obs)} {id : String} {ch ch' : IbcChannel} (x : Op × List Obs)
    (hc : CameFrom h id ch) (h1 : ch'.connectionId = ch.connectionId) (h2 : ch'.order = ch.order)
    (h3 : ch'.counterpartyEndpoint.portId = ch.counterpartyEndpoint.portId) : CameFrom (h ++ [x]) id ch' := by
  obtain ⟨a, op, b, o, e1, e2, e3, e4, e5⟩ := hc
  exact ⟨a, op, b ++ [x], o, by rw [e1]; simp, e2, h1.trans e3, h2.trans e4, h3.trans e5⟩

theorem cameFrom_history {api : Api} {env : Env} {h : List (Op × List Obs)} {w : World}
    (he : Exec api (World.genesis env) h w) : ∀ id c, w.chans id = some c → CameFrom h id c.chan := by
  refine exec_induction (C := fun h w => ∀ id c, w.chans id = some c → CameFrom h id c.chan) ?_ ?_ he
  · intro id c hc; cases hc
  · intro h w op w' obs hex hi ih hs id c hc
    have keep : ∀ {id c}, w.chans id = some c → CameFrom (h ++ [(op, obs)]) id c.chan :=
      fun {id c} hc => (ih id c hc).snoc _ rfl rfl rfl
    have upd : ∀ {x c0 c1}, w.chans x = some c0 → c1.chan = c0.chan →
        setChan w.chans x c1 id = some c → CameFrom (h ++ [(op, obs)]) id c.chan := by
      intro x c0 c1 h0 h1 h2
      rcases setChan_eq_some.1 h2 with ⟨rfl, rfl⟩ | ⟨_, h3⟩
      · exact (ih _ _ h0).snoc _ (by rw [h1]) (by rw [h1]) (by rw [h1])
      · exact keep h3
    cases hs with
    | instantiate sender msg fresh hl =>
      rcases setChan_eq_some.1 hc with ⟨rfl, rfl⟩ | ⟨_, h3⟩
      · refine ⟨h, _, [], _, rfl, rfl, rfl, ?_, ?_⟩
        · show _ = askedOrder msg.channelOpenInitOptions
          unfold proposalChannel askedOrder; cases msg.channelOpenInitOptions.channelOrdering <;> rfl
        · exact getD_port _
      · exact keep h3
    | create sender o fresh o' hl ho hf hcc h1 hp =>
      rcases setChan_eq_some.1 hc with ⟨rfl, rfl⟩ | ⟨_, h3⟩
      · refine ⟨h, _, [], o', rfl, ?_, rfl, ?_, getD_port _⟩
        · cases o with
          | none =>
            show lastOptions h = some o'
            rw [← options_history hex]; simpa using h1
          | some x => simpa [askedOptions] using h1
        · show _ = askedOrder o'
          unfold proposalChannel askedOrder; cases o'.channelOrdering <;> rfl
      · exact keep h3
    | close _ _ c0 _ _ _ h0 _ => exact upd (c1 := ⟨c0.chan, .closed⟩) h0 rfl hc
    | closeConfirm x c0 h0 => exact upd (c1 := ⟨c0.chan, .closed⟩) h0 rfl hc
    | openAck x cp v c0 _ _ h0 =>
      rcases setChan_eq_some.1 hc with ⟨rfl, rfl⟩ | ⟨_, h3⟩
      · exact (ih _ _ h0).snoc _ rfl rfl rfl
      · exact keep h3
    | timeout x seq _ p c0 _ _ _ h0 =>
      dsimp only at hc
      split at hc
      · exact upd (c1 := ⟨c0.chan, .closed⟩) h0 rfl hc
      · exact keep hc
    | _ => exact keep hc

/-- **C57** (partial). In every history the ordering, counterparty port and connection of the tracked channel are
those asked for by the operation that created it, and the metadata accepted for it names that connection as
the controller connection. Missing from the full statement: the host connection id of the metadata, see
`C57_host_connection_unchecked`. -/
theorem C57_handshake_keeps_proposal_partial {api : Api} {env : Env} {h : List (Op × List Obs)} {w : World}
    {cs : ChannelState} (he : Exec api (World.genesis env) h w) (hc : w.store.channel = some cs) :
    ∃ h1 op h2 o, h = h1 ++ (op, [.channelCreated cs.channel.endpoint.channelId]) :: h2 ∧
      askedOptions h1 op = some o ∧ cs.channel.connectionId = o.connectionId ∧
      cs.channel.order = askedOrder o ∧ cs.channel.counterpartyEndpoint.portId = askedPort o := by
  have hi := inv_exec (inv_genesis api env) he
  obtain ⟨_, c, h1, h2, _⟩ := hi.tracked _ hc
  have := cameFrom_history he _ _ h1
  rw [h2] at this
  exact this

/-- The tracked channel's version is always valid metadata for its own connection. -/
theorem tracked_version {api : Api} {w : World} (hr : Reachable api w) {cs : ChannelState}
    (hc : w.store.channel = some cs) :
    ∃ m, IcaMetadata.parse cs.channel.version = some m ∧ ValidMetadata api m cs.channel.connectionId ∧
      icaOf w = some ⟨m.address, cs.channel.endpoint.channelId, m.encoding⟩ := by
  obtain ⟨env, h, he⟩ := hr
  revert cs
  refine exec_induction (C := fun h w => ∀ {cs}, w.store.channel = some cs →
    ∃ m, IcaMetadata.parse cs.channel.version = some m ∧ ValidMetadata api m cs.channel.connectionId ∧
      icaOf w = some ⟨m.address, cs.channel.endpoint.channelId, m.encoding⟩) ?_ ?_ he
  · intro cs hc; cases hc
  · intro h w op w' obs _ hi ih hs cs hc
    cases hs with
    | openAck id cpId v c st m h1 h2 h3 h4 h5 h6 =>
      cases hc
      exact ⟨m, h4, metaOk_iff.1 h5, rfl⟩
    | send =>
      rw [(storeAfterSend_fields _ _ _ _ _).2.2.2.1] at hc
      obtain ⟨m, a, b, c⟩ := ih hc
      refine ⟨m, a, b, ?_⟩
      unfold icaOf at c ⊢
      rw [(storeAfterSend_fields _ _ _ _ _).2.2.1]
      exact c
    | instantiate _ _ _ hl =>
      simp only at hc
      rw [(hi.dead hl).1] at hc
      cases hc
    | close _ _ c _ _ h1 =>
      cases hc
      obtain ⟨m, a, b, c⟩ := ih h1
      exact ⟨m, a, b, c⟩
    | closeConfirm _ c _ _ h1 =>
      cases hc
      obtain ⟨m, a, b, c⟩ := ih h1
      exact ⟨m, a, b, c⟩
    | callback _ _ _ _ st _ _ _ h1 =>
      obtain ⟨m, a, b, c⟩ := ih hc
      refine ⟨m, a, b, ?_⟩
      unfold icaOf at c ⊢
      rw [h1] at c
      exact c
    | timeout _ _ _ _ _ st cs0 _ _ h1 h2 =>
      cases hc
      obtain ⟨m, a, b, c⟩ := ih h2
      refine ⟨m, ?_, ?_, ?_⟩
      · split <;> exact a
      · split <;> exact b
      · have he : (if cs0.channel.order = IbcOrder.ordered then (⟨cs0.channel, .closed⟩ : ChannelState)
            else cs0).channel = cs0.channel := by split <;> rfl
        rw [he]
        exact c
    | _ => exact ih hc

/-- **C57** (partial, metadata). The version of the tracked channel is valid metadata whose controller connection is
the channel's, and the ICA account is the one it names. -/
theorem C57_metadata_partial {api : Api} {w : World} (hr : Reachable api w) {cs : ChannelState}
    (hc : w.store.channel = some cs) :
    ∃ m, IcaMetadata.parse cs.channel.version = some m ∧ m.controllerConnectionId = cs.channel.connectionId ∧
      m.version = "ics27-1" ∧ m.txType = "sdk_multi_msg" ∧ m.encoding = .protobuf ∧
      icaOf w = some ⟨m.address, cs.channel.endpoint.channelId, .protobuf⟩ := by
  obtain ⟨m, a, b, c⟩ := tracked_version hr hc
  exact ⟨m, a, b.connection, b.version, b.txType, b.encoding, by rw [c, b.encoding]⟩

/-- Metadata naming another host connection. -/
def Ex.meta1 : IcaMetadata := { Ex.meta0 with hostConnectionId := "connection-666" }
/-- The world after an OpenAck with it. -/
def Ex.z2 : World := Ex.eAck Ex.w1 ⟨none, some "cb"⟩ "channel-0" "channel-5" Ex.meta1.display
  ⟨Ex.prop "channel-0" Ex.opts, .init⟩ Ex.meta1
theorem Ex.rz2 : Reachable Ex.api Ex.z2 := by
  refine Ex.toStep Ex.r1 (.openAck "channel-0" "channel-5" Ex.meta1.display ⟨Ex.prop "channel-0" Ex.opts, .init⟩
    ⟨none, some "cb"⟩ Ex.meta1 (by simp [Ex.w1, Ex.eInst, setChan]; rfl) rfl rfl (parse_display _)
    ⟨rfl, rfl, rfl, Or.inr ⟨by decide +kernel, Ex.goodAddr⟩, rfl⟩ Ex.metaNe)

/-- **C57** is false of the code as far as the host connection id goes: alice asked for `connection-7`, the host
answered with `connection-666`, and the contract tracks the channel as open. -/
theorem C57_host_connection_unchecked :
    ∃ w cs m o, Reachable Ex.api w ∧ w.store.channel = some cs ∧ cs.channelStatus = .opened ∧
      IcaMetadata.parse cs.channel.version = some m ∧ w.store.options = some o ∧
      m.hostConnectionId ≠ o.counterpartyConnectionId :=
  ⟨Ex.z2, ⟨ackedChan (Ex.prop "channel-0" Ex.opts) "channel-5" Ex.meta1.display, .opened⟩, Ex.meta1, Ex.opts, Ex.rz2,
    rfl, rfl, parse_display _, rfl, by decide +kernel⟩

/-- **C56** (partial). The ICA address is non-empty, at most 128 bytes, and every ASCII character in it is a letter or
a digit; other characters are those Rust calls alphanumeric. Missing: that there are no such other characters,
which is false, see `C56_non_ascii_accepted`. -/
theorem C56_address_partial {api : Api} {w : World} (h : Reachable api w) {i : IcaInfo} (hi : icaOf w = some i) :
    i.icaAddress ≠ "" ∧ (utf8 i.icaAddress).length ≤ 128 ∧
    ∀ c ∈ i.icaAddress.toList, ('0' ≤ c ∧ c ≤ '9') ∨ ('A' ≤ c ∧ c ≤ 'Z') ∨ ('a' ≤ c ∧ c ≤ 'z') ∨
      (128 ≤ c.toNat ∧ api.alnumNonAscii c = true) := by
  unfold icaOf at hi
  split at hi
  · rename_i st hst
    obtain ⟨⟨a, b, c⟩, _⟩ := (inv_of_reachable h).icaInfo _ _ hst hi
    exact ⟨a, b, fun x hx => alnum_iff.1 (c x hx)⟩
  · cases hi

/-- **C56** holds on a chain whose hosts use no non-ASCII alphanumerics. -/
theorem C56_ascii_if_table_ascii_partial {api : Api} {w : World} (h : Reachable api w)
    (ha : ∀ c, api.alnumNonAscii c = false) {i : IcaInfo} (hi : icaOf w = some i) :
    ∀ c ∈ i.icaAddress.toList, ('0' ≤ c ∧ c ≤ '9') ∨ ('A' ≤ c ∧ c ≤ 'Z') ∨ ('a' ≤ c ∧ c ≤ 'z') := by
  intro c hc
  rcases (C56_address_partial h hi).2.2 c hc with h | h | h | h
  · exact Or.inl h
  · exact Or.inr (Or.inl h)
  · exact Or.inr (Or.inr h)
  · rw [ha] at h; cases h.2

/-- Rust's `char::is_alphanumeric` is true of `é` (Unicode category Ll). -/
def Ex.apiE : Api := ⟨fun s => s != "", fun c => c == 'é'⟩
/-- Metadata with a non-ASCII address. -/
def Ex.metaE : IcaMetadata := { Ex.meta0 with address := "é" }

/-- **C56** is false of the code: with `é` alphanumeric (as it is in Rust), an OpenAck naming the ICA address `é` is
accepted. -/
theorem C56_non_ascii_accepted :
    ∃ w i, Reachable Ex.apiE w ∧ icaOf w = some i ∧ i.icaAddress = "é" := by
  have hr0 : Reachable Ex.apiE Ex.w0 := ⟨Ex.env, [], .nil⟩
  have s1 : Step Ex.apiE Ex.w0 (.instantiate "deployer" Ex.inst "channel-0" true) Ex.w1
      [.channelCreated "channel-0"] :=
    .instantiate _ _ _ rfl rfl (by decide +kernel) (by simp [Ex.inst, Ex.apiE]) rfl
  have hr1 := hr0.step ((apply_iff_step (inv_of_reachable hr0)).2 s1)
  have hg : ∀ c ∈ "é".toList, isAlphanumeric Ex.apiE c = true := by
    have h : ("é".toList.all (isAlphanumeric Ex.apiE)) = true := by decide +kernel
    simpa [List.all_eq_true] using h
  have s2 : Step Ex.apiE Ex.w1 (.relayOpenAck "channel-0" "channel-5" Ex.metaE.display)
      (Ex.eAck Ex.w1 ⟨none, some "cb"⟩ "channel-0" "channel-5" Ex.metaE.display
        ⟨Ex.prop "channel-0" Ex.opts, .init⟩ Ex.metaE) _ :=
    .openAck _ _ _ ⟨Ex.prop "channel-0" Ex.opts, .init⟩ ⟨none, some "cb"⟩ Ex.metaE
      (by simp [Ex.w1, Ex.eInst, setChan]; rfl) rfl rfl (parse_display _)
      ⟨rfl, rfl, rfl, Or.inr ⟨by decide +kernel, hg⟩, rfl⟩ (by decide +kernel)
  exact ⟨_, _, hr1.step ((apply_iff_step (inv_of_reachable hr1)).2 s2), rfl, rfl⟩

end Ica
