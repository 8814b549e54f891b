import Verif.Facts.Inv

/-!
# Committed operations, case by case

`Step` lists what every committed operation does to a world that satisfies the invariant, with the new world
written out. `step_of_apply` is what the history proofs use.
-/
namespace Ica

/-- The committed operations. -/
inductive Step (api : Api) (w : World) : Op → World → List Obs → Prop where
  | block (h t : UInt64) : w.env.height ≤ h → w.env.time ≤ t →
      Step api w (.block h t) { w with env := { w.env with height := h, time := t } } []
  | instantiate (sender : String) (msg : InstantiateMsg) (fresh : String) :
      w.live = false → w.chans fresh = none → api.validAddr (msg.owner.getD sender) = true →
      (∀ a, msg.sendCallbacksTo = some a → api.validAddr a = true) →
      msg.channelOpenInitOptions.counterpartyPortId.getD "icahost" = "icahost" →
      Step api w (.instantiate sender msg fresh true)
        { w with
          live := true
          store := { w.store with
            version := some ⟨CONTRACT_NAME, CONTRACT_VERSION⟩
            ownership := some ⟨some (msg.owner.getD sender), none, none⟩
            state := some ⟨none, msg.sendCallbacksTo⟩
            options := some msg.channelOpenInitOptions
            allowOpenInit := some false }
          chans := setChan w.chans fresh
            ⟨proposalChannel w.env.contractAddr fresh msg.channelOpenInitOptions, .init⟩ }
        [.channelCreated fresh]
  | create (sender : String) (o : Option ChannelOpenInitOptions) (fresh : String) (o' : ChannelOpenInitOptions) :
      w.live = true → IsOwner w.store sender → w.chans fresh = none →
      (∀ c, w.store.channel = some c → c.channelStatus ≠ .opened) →
      o.or w.store.options = some o' → o'.counterpartyPortId.getD "icahost" = "icahost" →
      Step api w (.execute sender (.createChannel o) fresh true)
        { w with
          store := { w.store with options := some o', allowOpenInit := some false }
          chans := setChan w.chans fresh ⟨proposalChannel w.env.contractAddr fresh o', .init⟩ }
        [.channelCreated fresh]
  | close (sender : String) (fresh : String) (c : ChainChan) :
      w.live = true → IsOwner w.store sender →
      w.store.channel = some ⟨c.chan, .opened⟩ → w.chans c.chan.endpoint.channelId = some c →
      c.status = .opened →
      Step api w (.execute sender .closeChannel fresh true)
        { w with
          store := { w.store with allowCloseInit := some false, channel := some ⟨c.chan, .closed⟩ }
          chans := setChan w.chans c.chan.endpoint.channelId ⟨c.chan, .closed⟩ }
        [.channelClosed c.chan.endpoint.channelId]
  | send (sender : String) (ms : List CosmosMsg) (qs : List QueryRequest) (memo : Option String)
      (t : Option UInt64) (fresh : String) (st : ContractState) (info : IcaInfo) (anys : List P.Any)
      (cqs : List (String × Bytes × Bool)) (c : ChainChan) (ts : UInt64) (p : IbcPacket) :
      w.live = true → IsOwner w.store sender →
      w.store.state = some st → st.icaInfo = some info → info.encoding = .protobuf →
      mapRes (fun m => convertToProtoAny m info.icaAddress) ms = .ok anys →
      mapRes queryToProtobuf qs = .ok cqs →
      ts.toNat = w.env.time.toNat + ((t.map (·.toNat)).getD 600) * 1000000000 →
      w.chans info.channelId = some c → c.status = .opened → w.nextSeq info.channelId < 18446744073709551616 →
      p = ⟨IcaPacketData.jc.toBytes (.fromProtoAnys (packetAnys info.icaAddress anys cqs) memo),
        c.chan.endpoint, c.chan.counterpartyEndpoint, UInt64.ofNat (w.nextSeq info.channelId),
        ⟨none, some ts⟩⟩ →
      Step api w (.execute sender (.sendCosmosMsgs ms qs memo t) fresh true)
        { w with
          store := storeAfterSend w.store info.channelId (UInt64.ofNat (w.nextSeq info.channelId)) qs cqs
          nextSeq := setSeq w.nextSeq info.channelId (w.nextSeq info.channelId + 1)
          commits := setCommit w.commits info.channelId (UInt64.ofNat (w.nextSeq info.channelId)) (some p) }
        [.packetSent p]
  | callback (sender : String) (a : Option String) (fresh : String) (core : Bool) (st : ContractState) :
      w.live = true → IsOwner w.store sender → (∀ x, a = some x → api.validAddr x = true) →
      w.store.state = some st →
      Step api w (.execute sender (.updateCallbackAddress a) fresh core)
        { w with store := { w.store with state := some { st with callbackAddress := a } } } []
  | transfer (sender n : String) (e : Option Expiration) (fresh : String) (core : Bool) (ow : Ownership) :
      w.live = true → w.store.ownership = some ow → ow.owner = some sender → api.validAddr n = true →
      Step api w (.execute sender (.updateOwnership (.transferOwnership n e)) fresh core)
        { w with store := { w.store with
            ownership := some { ow with pendingOwner := some n, pendingExpiry := e } } } []
  | accept (sender : String) (fresh : String) (core : Bool) (ow : Ownership) :
      w.live = true → w.store.ownership = some ow → canAccept w.env ow sender →
      Step api w (.execute sender (.updateOwnership .acceptOwnership) fresh core)
        { w with store := { w.store with ownership := some ⟨some sender, none, none⟩ } } []
  | openAck (id cpId v : String) (c : ChainChan) (st : ContractState) (m : IcaMetadata) :
      w.chans id = some c → c.status = .init → w.store.state = some st → IcaMetadata.parse v = some m →
      MetaOk api m c.chan.connectionId → m.address ≠ "" →
      Step api w (.relayOpenAck id cpId v)
        { w with
          store := { w.store with
            state := some { st with icaInfo := some ⟨m.address, c.chan.endpoint.channelId, m.encoding⟩ }
            channel := some ⟨ackedChan c.chan cpId v, .opened⟩ }
          chans := setChan w.chans id ⟨ackedChan c.chan cpId v, .opened⟩ }
        (callObs st.callbackAddress (.onChannelOpenAckCallback (ackedChan c.chan cpId v) m.address m.encoding))
  | closeConfirm (id : String) (c : ChainChan) :
      w.chans id = some c → c.status = .opened → w.store.channel = some ⟨c.chan, .opened⟩ →
      Step api w (.relayCloseConfirm id)
        { w with
          store := { w.store with channel := some ⟨c.chan, .closed⟩ }
          chans := setChan w.chans id ⟨c.chan, .closed⟩ }
        [.channelClosed id]
  | ackOk (id : String) (seq : UInt64) (ack : Bytes) (relayer : String) (p : IbcPacket) (c : ChainChan)
      (st : ContractState) (res : Bytes) (q : Option IcaQueryResult) :
      w.commits id seq = some p → w.chans id = some c → c.status = .opened → w.store.state = some st →
      AckData.jc.ofBytes ack = some (.result res) → ackQueryResult (w.store.pending id seq) res = .ok q →
      Step api w (.relayAck id seq ack relayer)
        { w with
          store := { w.store with pending := setPending w.store.pending id seq none }
          commits := setCommit w.commits id seq none }
        (.event (ackSuccessEvent p res) ::
          callObs st.callbackAddress (.onAcknowledgementPacketCallback (.result res) p relayer q))
  | ackErr (id : String) (seq : UInt64) (ack : Bytes) (relayer : String) (p : IbcPacket) (c : ChainChan)
      (st : ContractState) (e : String) :
      w.commits id seq = some p → w.chans id = some c → c.status = .opened → w.store.state = some st →
      AckData.jc.ofBytes ack = some (.error e) →
      Step api w (.relayAck id seq ack relayer)
        { w with commits := setCommit w.commits id seq none }
        (.event (ackErrorEvent p e) ::
          callObs st.callbackAddress (.onAcknowledgementPacketCallback (.error e) p relayer (some (.error e))))
  | timeout (id : String) (seq : UInt64) (relayer : String) (p : IbcPacket) (c : ChainChan) (st : ContractState)
      (cs : ChannelState) :
      w.commits id seq = some p → w.chans id = some c → w.store.state = some st → w.store.channel = some cs →
      Step api w (.relayTimeout id seq relayer)
        { w with
          store := { w.store with
            channel := some (if cs.channel.order = .ordered then ⟨cs.channel, .closed⟩ else cs)
            pending := setPending w.store.pending id seq none }
          commits := setCommit w.commits id seq none
          chans := if c.chan.order = .ordered then setChan w.chans id ⟨c.chan, .closed⟩ else w.chans }
        (callObs st.callbackAddress (.onTimeoutPacketCallback p relayer))

/-- Under the invariant, the committed operations are exactly those of `Step`. -/
theorem apply_iff_step {api : Api} {w w' : World} {op : Op} {obs : List Obs} (h : Inv api w) :
    apply api w op = some (w', obs) ↔ Step api w op w' obs := by
  constructor
  · intro ha
    cases op with
    | block ht t => obtain ⟨a, b, rfl, rfl⟩ := apply_block.1 ha; exact .block _ _ a b
    | instantiate sender msg fresh core =>
      obtain ⟨hl, rfl, hf, h1, h2, hp, _, rfl, rfl⟩ := apply_instantiate.1 ha
      exact .instantiate _ _ _ hl hf h1 h2 hp
    | execute sender msg fresh core =>
      cases msg with
      | createChannel o =>
        obtain ⟨hl, ho, rfl, hf, hc, o', h1, hp, rfl, rfl⟩ := apply_create.1 ha
        exact .create _ _ _ _ hl ho hf hc h1 hp
      | closeChannel =>
        obtain ⟨hl, ho, rfl, ch, c, h1, h2, h3, _, rfl, rfl⟩ := apply_close.1 ha
        subst h3
        obtain ⟨_, c', h4, _, _, h5⟩ := h.tracked _ h1
        rw [h2] at h4
        cases h4
        exact .close _ _ _ hl ho h1 h2 (h5 rfl)
      | sendCosmosMsgs ms qs memo t =>
        obtain ⟨hl, ho, rfl, st, info, anys, cqs, c, ts, p, a1, a2, a3, a4, a5, a6, a7, a8, a9, hp, rfl, rfl⟩ :=
          apply_send.1 ha
        exact .send _ _ _ _ _ _ _ _ _ _ _ _ _ hl ho a1 a2 a3 a4 a5 a6 a7 a8 a9 hp
      | updateCallbackAddress a =>
        obtain ⟨hl, ho, hv, st, hst, rfl, rfl⟩ := apply_callback.1 ha
        exact .callback _ _ _ _ _ hl ho hv hst
      | updateOwnership a =>
        cases a with
        | transferOwnership n e =>
          obtain ⟨hl, ow, a, b, c, rfl, rfl⟩ := apply_transfer.1 ha
          exact .transfer _ _ _ _ _ _ hl a b c
        | acceptOwnership =>
          obtain ⟨hl, ow, a, b, rfl, rfl⟩ := apply_accept.1 ha
          exact .accept _ _ _ _ hl a b
        | renounceOwnership => rw [apply_renounce] at ha; cases ha
    | migrate =>
      obtain ⟨hl, ⟨r, hr⟩, _⟩ := apply_migrate.1 ha
      exact absurd hr (migrate_current (h.version hl))
    | relayOpenInit m fresh => exact absurd (apply_relayOpenInit_needs ha) h.noOpenFlag
    | relayOpenTry ch v => rw [apply_openTry] at ha; cases ha
    | relayOpenAck id cpId v =>
      obtain ⟨c, st, m, hc, hi, hs, _, hp, hm, hne, rfl, rfl⟩ := apply_openAck.1 ha
      exact .openAck _ _ _ _ _ _ hc hi hs hp hm hne
    | relayOpenConfirm ch => rw [apply_openConfirm] at ha; cases ha
    | relayCloseInit id =>
      obtain ⟨c, _, _, hf, _⟩ := apply_relayCloseInit.1 ha
      exact absurd hf h.noCloseFlag
    | relayCloseConfirm id =>
      obtain ⟨c, hc, hn, ht, rfl, rfl⟩ := apply_closeConfirm.1 ha
      obtain ⟨_, c', h4, _, _, h5⟩ := h.tracked _ ht
      rw [h.chan_id hc, hc] at h4
      cases h4
      exact .closeConfirm _ _ hc (h5 rfl) ht
    | relayRecv p => rw [apply_recv] at ha; cases ha
    | relayAck id seq ack relayer =>
      obtain ⟨p, c, st, hp, hc, ho, hs, h2⟩ := apply_ack.1 ha
      obtain ⟨a1, a2, _⟩ := h.commits _ _ _ hp
      rw [a1, a2] at h2
      rcases h2 with ⟨res, q, b1, b2, rfl, rfl⟩ | ⟨e, b1, rfl, rfl⟩
      · exact .ackOk _ _ _ _ _ _ _ _ _ hp hc ho hs b1 b2
      · exact .ackErr _ _ _ _ _ _ _ _ hp hc ho hs b1
    | relayTimeout id seq relayer =>
      obtain ⟨p, c, st, cs, hp, hc, hs, hcs, rfl, rfl⟩ := apply_timeout.1 ha
      obtain ⟨a1, a2, _⟩ := h.commits _ _ _ hp
      rw [a1, a2]
      exact .timeout _ _ _ _ _ _ _ hp hc hs hcs
  · intro hs
    cases hs with
    | block h t a b => exact apply_block.2 ⟨a, b, rfl, rfl⟩
    | instantiate sender msg fresh hl hf h1 h2 hp =>
      exact apply_instantiate.2 ⟨hl, rfl, hf, h1, h2, hp,
        (fun c hc => by rw [(h.dead hl).1] at hc; cases hc), rfl, rfl⟩
    | create sender o fresh o' hl ho hf hc h1 hp =>
      exact apply_create.2 ⟨hl, ho, rfl, hf, hc, o', h1, hp, rfl, rfl⟩
    | close sender fresh c hl ho h1 h2 h3 =>
      exact apply_close.2 ⟨hl, ho, rfl, _, c, h1, h2, rfl, by rw [h3]; simp, rfl, rfl⟩
    | send sender ms qs memo t fresh st info anys cqs c ts p hl ho a1 a2 a3 a4 a5 a6 a7 a8 a9 hp =>
      exact apply_send.2 ⟨hl, ho, rfl, st, info, anys, cqs, c, ts, p, a1, a2, a3, a4, a5, a6, a7, a8, a9, hp,
        rfl, rfl⟩
    | callback sender a fresh core st hl ho hv hst => exact apply_callback.2 ⟨hl, ho, hv, st, hst, rfl, rfl⟩
    | transfer sender n e fresh core ow hl a b c => exact apply_transfer.2 ⟨hl, ow, a, b, c, rfl, rfl⟩
    | accept sender fresh core ow hl a b => exact apply_accept.2 ⟨hl, ow, a, b, rfl, rfl⟩
    | openAck id cpId v c st m hc hi hs hp hm hne =>
      refine apply_openAck.2 ⟨c, st, m, hc, hi, hs, ?_, hp, hm, hne, rfl, rfl⟩
      rw [(h.chans id c hc).1]
      exact portOf_ne_icahost _
    | closeConfirm id c hc ho ht => exact apply_closeConfirm.2 ⟨c, hc, by rw [ho]; simp, ht, rfl, rfl⟩
    | ackOk id seq ack relayer p c st res q hp hc ho hs b1 b2 =>
      obtain ⟨a1, a2, _⟩ := h.commits _ _ _ hp
      refine apply_ack.2 ⟨p, c, st, hp, hc, ho, hs, Or.inl ⟨res, q, b1, ?_, ?_, rfl⟩⟩
      · rw [a1, a2]; exact b2
      · rw [a1, a2]
    | ackErr id seq ack relayer p c st e hp hc ho hs b1 =>
      exact apply_ack.2 ⟨p, c, st, hp, hc, ho, hs, Or.inr ⟨e, b1, rfl, rfl⟩⟩
    | timeout id seq relayer p c st cs hp hc hs hcs =>
      obtain ⟨a1, a2, _⟩ := h.commits _ _ _ hp
      refine apply_timeout.2 ⟨p, c, st, cs, hp, hc, hs, hcs, ?_, rfl⟩
      rw [a1, a2]

theorem step_of_apply {api : Api} {w w' : World} {op : Op} {obs : List Obs} (h : Inv api w)
    (ha : apply api w op = some (w', obs)) : Step api w op w' obs := (apply_iff_step h).1 ha

/-- Induction over histories with the invariant and the explicit step at hand. -/
theorem exec_induction {api : Api} {env : Env} {C : List (Op × List Obs) → World → Prop}
    (h0 : C [] (World.genesis env))
    (hs : ∀ h w op w' obs, Exec api (World.genesis env) h w → Inv api w → C h w → Step api w op w' obs →
      C (h ++ [(op, obs)]) w')
    {h : List (Op × List Obs)} {w : World} (he : Exec api (World.genesis env) h w) : C h w := by
  induction he with
  | nil => exact h0
  | step a b ih =>
    have hi := inv_exec (inv_genesis api env) a
    exact hs _ _ _ _ _ a hi ih (step_of_apply hi b)

/-- The same from any world that satisfies the invariant. -/
theorem exec_induction' {api : Api} {w0 : World} {C : List (Op × List Obs) → World → Prop} (hi0 : Inv api w0)
    (h0 : C [] w0)
    (hs : ∀ h w op w' obs, Exec api w0 h w → Inv api w → C h w → Step api w op w' obs →
      C (h ++ [(op, obs)]) w')
    {h : List (Op × List Obs)} {w : World} (he : Exec api w0 h w) : C h w := by
  induction he with
  | nil => exact h0
  | step a b ih =>
    have hi := inv_exec hi0 a
    exact hs _ _ _ _ _ a hi ih (step_of_apply hi b)

end Ica
