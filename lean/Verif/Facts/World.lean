import Verif.Model.World
import Verif.Facts.Handlers

/-!
# When each operation succeeds, and with what result

Helper lemmas: explicit success conditions of `apply`.
-/
namespace Ica

/-- A contract call that succeeds without messages. -/
theorem finish_empty {one : World → SubMsg → Option (World × List Obs)} {w : World}
    {r : Res (Store × Response)} {w' : World} {obs : List Obs}
    (hr : ∀ s' x, r = .ok (s', x) → x = .empty) :
    finish one w r = some (w', obs) ↔
      ∃ s', r = .ok (s', .empty) ∧ w' = { w with store := s' } ∧ obs = [] := by
  cases r with
  | ok p =>
    obtain ⟨s, x⟩ := p
    have := hr s x rfl
    subst this
    simp only [finish, Response.empty, dispatchList, List.map_nil, List.append_nil, Option.some.injEq,
      Prod.mk.injEq, Res.ok.injEq]
    constructor
    · rintro ⟨rfl, rfl⟩; exact ⟨s, ⟨rfl, trivial⟩, rfl, rfl⟩
    · rintro ⟨_, ⟨rfl, -⟩, rfl, rfl⟩; exact ⟨rfl, rfl⟩
  | err e => simp [finish]
  | panic e => simp [finish]

/-- A contract call that succeeds with one message and no event. -/
theorem finish_one {one : World → SubMsg → Option (World × List Obs)} {w : World} {s : Store} {m : SubMsg} :
    finish one w (.ok (s, ⟨[m], []⟩)) = one { w with store := s } m := by
  simp only [finish, dispatchList, List.map_nil, List.nil_append]
  cases h : one { w with store := s } m with
  | none => rfl
  | some p => obtain ⟨a, b⟩ := p; simp

theorem finish_none {one : World → SubMsg → Option (World × List Obs)} {w : World} {r : Res (Store × Response)}
    (h : ∀ x, r ≠ .ok x) : finish one w r = none := by
  cases r with
  | ok p => exact absurd rfl (h p)
  | err e => rfl
  | panic e => rfl

theorem finish_eq_some {one : World → SubMsg → Option (World × List Obs)} {w w' : World} {obs : List Obs}
    {r : Res (Store × Response)} :
    finish one w r = some (w', obs) ↔
      ∃ s x obs', r = .ok (s, x) ∧ dispatchList one { w with store := s } x.messages = some (w', obs') ∧
        obs = x.events.map .event ++ obs' := by
  cases r with
  | ok p =>
    obtain ⟨s, x⟩ := p
    simp only [finish]
    cases h : dispatchList one { w with store := s } x.messages with
    | none =>
      simp only [reduceCtorEq, false_iff]
      rintro ⟨_, _, _, h1, h2, _⟩
      cases h1
      rw [h] at h2
      cases h2
    | some q =>
      obtain ⟨a, b⟩ := q
      simp only [Option.some.injEq, Prod.mk.injEq, Res.ok.injEq]
      constructor
      · rintro ⟨rfl, rfl⟩; exact ⟨s, x, b, ⟨rfl, rfl⟩, h, rfl⟩
      · rintro ⟨_, _, _, ⟨rfl, rfl⟩, h2, rfl⟩
        rw [h] at h2
        cases h2
        exact ⟨rfl, rfl⟩
  | err e => simp [finish]
  | panic e => simp [finish]

theorem dispatch_call (api : Api) (fresh : String) (core : Bool) (n : Nat) (w : World) (a : String) (m : Bytes)
    (f : List Coin) :
    dispatch quiet api fresh core (n + 1) w (.new (.wasm (.execute a m f))) = some (w, [.call a m f]) := by
  simp [dispatch, execMsg, SubMsg.new, quiet]

/-! ## The contract's own proposal -/

/-- The version string the contract proposes. -/
def proposalVersion (o : ChannelOpenInitOptions) : String := (IcaMetadata.ofOptions o).display

/-- The channel the contract proposes, with the id the chain gives it. -/
def proposalChannel (addr fresh : String) (o : ChannelOpenInitOptions) : IbcChannel :=
  ⟨⟨portOf addr, fresh⟩, ⟨o.counterpartyPortId.getD "icahost", ""⟩, o.channelOrdering.getD .ordered,
    proposalVersion o, o.connectionId⟩

theorem parse_display (m : IcaMetadata) : IcaMetadata.parse m.display = some m :=
  JC.ofStr_toStr IcaMetadata.jc_law m

theorem parse_empty : IcaMetadata.parse "" = none := by
  have : jsonOfString "" = none := by decide +kernel
  simp [IcaMetadata.parse, JC.ofStr, this]

theorem display_ne_empty (m : IcaMetadata) : m.display ≠ "" := by
  intro h
  have := parse_display m
  rw [h, parse_empty] at this
  cases this

theorem metaOk_ofOptions (api : Api) (o : ChannelOpenInitOptions) :
    MetaOk api (IcaMetadata.ofOptions o) o.connectionId :=
  ⟨rfl, rfl, rfl, Or.inl rfl, rfl⟩

theorem orderOfNum_orderNum (o : Option IbcOrder) : orderOfNum (orderNum o) = some (o.getD .ordered) := by
  cases o with
  | none => rfl
  | some o => cases o <;> rfl

/-- The decoded message of a proposal. -/
def proposalOpenInit (addr : String) (o : ChannelOpenInitOptions) : P.MsgChannelOpenInit :=
  newMsgChannelOpenInit addr (portOf addr) o.connectionId o.counterpartyPortId (proposalVersion o)
    o.channelOrdering

theorem proposalMsg_eq (addr : String) (o : ChannelOpenInitOptions) :
    proposalMsg addr o = .stargate "/ibc.core.channel.v1.MsgChannelOpenInit" (proposalOpenInit addr o).toBytes :=
  rfl

/-- Core and contract on the contract's own proposal. -/
theorem coreOpenInit_proposal {api : Api} {w w' : World} {o : ChannelOpenInitOptions} {fresh : String}
    {core : Bool} {obs : List Obs} :
    coreOpenInit api w (proposalOpenInit w.env.contractAddr o) fresh core = some (w', obs) ↔
      core = true ∧ w.live = true ∧ w.chans fresh = none ∧ w.store.allowOpenInit = some true ∧
      o.counterpartyPortId.getD "icahost" = "icahost" ∧
      (∀ c, w.store.channel = some c → c.channelStatus ≠ .opened) ∧
      w' = { w with
        store := { w.store with allowOpenInit := some false }
        chans := setChan w.chans fresh ⟨proposalChannel w.env.contractAddr fresh o, .init⟩ } ∧
      obs = [.channelCreated fresh] := by
  simp only [coreOpenInit, proposalOpenInit, newMsgChannelOpenInit, orderOfNum_orderNum, true_and, HOST_PORT_ID]
  split
  · rename_i hc
    obtain ⟨h1, h2, h3⟩ := hc
    have hoi : ∀ {s v}, ibcChannelOpen api w.store (.openInit (proposalChannel w.env.contractAddr fresh o)) =
        .ok (s, v) ↔ w.store.allowOpenInit = some true ∧ o.counterpartyPortId.getD "icahost" = "icahost" ∧
          (∀ c, w.store.channel = some c → c.channelStatus ≠ .opened) ∧
          s = { w.store with allowOpenInit := some false } ∧ v = proposalVersion o := by
      intro s v
      simp only [ibcChannelOpen, channelOpenInit_eq_ok, proposalChannel]
      have hne : proposalVersion o ≠ "" := display_ne_empty _
      constructor
      · rintro ⟨a, b, c, d, m, e, _, g⟩
        rw [if_neg hne, proposalVersion, parse_display] at e
        cases e
        exact ⟨a, b, c, d, g⟩
      · rintro ⟨a, b, c, d, g⟩
        refine ⟨a, b, c, d, IcaMetadata.ofOptions o, ?_, metaOk_ofOptions api o, g⟩
        rw [if_neg hne, proposalVersion, parse_display]
    have hne : proposalVersion o ≠ "" := display_ne_empty _
    simp only [proposalChannel] at hoi
    cases hx : ibcChannelOpen api w.store (.openInit ⟨⟨portOf w.env.contractAddr, fresh⟩,
      ⟨o.counterpartyPortId.getD "icahost", ""⟩, o.channelOrdering.getD .ordered, proposalVersion o,
      o.connectionId⟩) with
    | ok p =>
      obtain ⟨s, v⟩ := p
      obtain ⟨a, b, c, d, g⟩ := hoi.1 hx
      subst d g
      simp only [Option.some.injEq, Prod.mk.injEq, if_neg hne, proposalChannel]
      constructor
      · rintro ⟨rfl, rfl⟩; exact ⟨h1, h2, h3, a, b, c, rfl, rfl⟩
      · rintro ⟨_, _, _, _, _, _, rfl, rfl⟩; exact ⟨rfl, rfl⟩
    | err e =>
      simp only [reduceCtorEq, false_iff]
      rintro ⟨_, _, _, a, b, c, _⟩
      rw [hoi.2 ⟨a, b, c, rfl, rfl⟩] at hx
      cases hx
    | panic e =>
      simp only [reduceCtorEq, false_iff]
      rintro ⟨_, _, _, a, b, c, _⟩
      rw [hoi.2 ⟨a, b, c, rfl, rfl⟩] at hx
      cases hx
  · rename_i hc
    simp only [reduceCtorEq, false_iff]
    rintro ⟨a, b, c, _⟩
    exact hc ⟨a, b, c⟩

theorem dispatch_proposal {api : Api} {w w' : World} {o : ChannelOpenInitOptions} {fresh : String} {core : Bool}
    {obs : List Obs} {n : Nat} :
    dispatch quiet api fresh core (n + 1) w (.new (proposalMsg w.env.contractAddr o)) = some (w', obs) ↔
      core = true ∧ w.live = true ∧ w.chans fresh = none ∧ w.store.allowOpenInit = some true ∧
      o.counterpartyPortId.getD "icahost" = "icahost" ∧
      (∀ c, w.store.channel = some c → c.channelStatus ≠ .opened) ∧
      w' = { w with
        store := { w.store with allowOpenInit := some false }
        chans := setChan w.chans fresh ⟨proposalChannel w.env.contractAddr fresh o, .init⟩ } ∧
      obs = [.channelCreated fresh] := by
  rw [← coreOpenInit_proposal]
  simp only [dispatch, proposalMsg_eq, SubMsg.new, execMsg, P.MsgChannelOpenInit.ofBytes_toBytes, if_true,
    reduceCtorEq, or_self, if_false]
  have : (proposalOpenInit w.env.contractAddr o).signer = w.env.contractAddr := rfl
  rw [if_pos this]
  cases coreOpenInit api w (proposalOpenInit w.env.contractAddr o) fresh core with
  | none => simp
  | some p => simp

/-! ## Operations -/

/-- The sender is the current owner. -/
def IsOwner (s : Store) (sender : String) : Prop := ∃ ow, s.ownership = some ow ∧ ow.owner = some sender

theorem apply_instantiate {api : Api} {w w' : World} {sender : String} {msg : InstantiateMsg} {fresh : String}
    {core : Bool} {obs : List Obs} :
    apply api w (.instantiate sender msg fresh core) = some (w', obs) ↔
      w.live = false ∧ core = true ∧ w.chans fresh = none ∧
      api.validAddr (msg.owner.getD sender) = true ∧
      (∀ a, msg.sendCallbacksTo = some a → api.validAddr a = true) ∧
      msg.channelOpenInitOptions.counterpartyPortId.getD "icahost" = "icahost" ∧
      (∀ c, w.store.channel = some c → c.channelStatus ≠ .opened) ∧
      w' = { w with
        live := true
        store := { w.store with
          version := some ⟨CONTRACT_NAME, CONTRACT_VERSION⟩
          ownership := some ⟨some (msg.owner.getD sender), none, none⟩
          state := some ⟨none, msg.sendCallbacksTo⟩
          options := some msg.channelOpenInitOptions
          allowOpenInit := some false }
        chans := setChan w.chans fresh
          ⟨proposalChannel w.env.contractAddr fresh msg.channelOpenInitOptions, .init⟩ } ∧
      obs = [.channelCreated fresh] := by
  simp only [apply, applyWith]
  cases hl : w.live with
  | true => simp
  | false =>
    simp only [Bool.false_eq_true, if_false, true_and]
    constructor
    · intro h
      cases hi : instantiate api w.env w.store sender msg with
      | err e => rw [hi] at h; cases h
      | panic e => rw [hi] at h; cases h
      | ok p =>
        obtain ⟨s, r⟩ := p
        rw [hi] at h
        obtain ⟨h1, h2, rfl, rfl⟩ := instantiate_eq_ok.1 hi
        rw [finish_one] at h
        obtain ⟨a, b, c, d, e, f, rfl, rfl⟩ := dispatch_proposal.1 h
        exact ⟨a, c, h1, h2, e, f, rfl, rfl⟩
    · rintro ⟨a, c, h1, h2, e, f, rfl, rfl⟩
      rw [instantiate_eq_ok.2 ⟨h1, h2, rfl, rfl⟩, finish_one]
      exact dispatch_proposal.2 ⟨a, rfl, c, rfl, e, f, rfl, rfl⟩

theorem apply_create {api : Api} {w w' : World} {sender : String} {o : Option ChannelOpenInitOptions}
    {fresh : String} {core : Bool} {obs : List Obs} :
    apply api w (.execute sender (.createChannel o) fresh core) = some (w', obs) ↔
      w.live = true ∧ IsOwner w.store sender ∧ core = true ∧ w.chans fresh = none ∧
      (∀ c, w.store.channel = some c → c.channelStatus ≠ .opened) ∧
      ∃ o', o.or w.store.options = some o' ∧ o'.counterpartyPortId.getD "icahost" = "icahost" ∧
        w' = { w with
          store := { w.store with options := some o', allowOpenInit := some false }
          chans := setChan w.chans fresh ⟨proposalChannel w.env.contractAddr fresh o', .init⟩ } ∧
        obs = [.channelCreated fresh] := by
  simp only [apply, applyWith, execute]
  rw [Option.ite_none_right_eq_some]
  refine and_congr_right fun hl => ?_
  · constructor
    · intro h
      cases hi : createChannel w.env w.store sender o with
      | err e => rw [hi] at h; cases h
      | panic e => rw [hi] at h; cases h
      | ok p =>
        obtain ⟨s, r⟩ := p
        rw [hi] at h
        obtain ⟨h1, o', h2, rfl, rfl⟩ := createChannel_eq_ok.1 hi
        rw [finish_one] at h
        obtain ⟨a, b, c, d, e, f, rfl, rfl⟩ := dispatch_proposal.1 h
        exact ⟨h1, a, c, f, o', h2, e, rfl, rfl⟩
    · rintro ⟨h1, a, c, f, o', h2, e, rfl, rfl⟩
      rw [createChannel_eq_ok.2 ⟨h1, o', h2, rfl, rfl⟩, finish_one]
      exact dispatch_proposal.2 ⟨a, hl, c, rfl, e, f, rfl, rfl⟩

theorem ibcChannelClose_empty {s : Store} {m : CloseMsg} {s' : Store} {r : Response}
    (h : ibcChannelClose s m = .ok (s', r)) : r = .empty := by
  cases m with
  | closeInit ch => exact (channelCloseInit_eq_ok.1 h).2.2.2
  | closeConfirm ch => exact (channelCloseConfirm_eq_ok.1 h).2.2

theorem coreCloseInit_eq_some {one : World → SubMsg → Option (World × List Obs)} {w w' : World} {id : String}
    {core : Bool} {obs : List Obs} :
    coreCloseInit one w id core = some (w', obs) ↔
      ∃ c, w.chans id = some c ∧ core = true ∧ c.status ≠ .closed ∧ w.store.allowCloseInit = some true ∧
        w.store.channel = some ⟨c.chan, .opened⟩ ∧
        w' = { w with
          store := { w.store with allowCloseInit := some false, channel := some ⟨c.chan, .closed⟩ }
          chans := setChan w.chans id ⟨c.chan, .closed⟩ } ∧
        obs = [.channelClosed id] := by
  unfold coreCloseInit
  cases hc : w.chans id with
  | none => simp
  | some c =>
    simp only [Option.some.injEq, exists_eq_left']
    split
    · rename_i h
      constructor
      · intro h'
        cases hf : finish one w (ibcChannelClose w.store (.closeInit c.chan)) with
        | none => rw [hf] at h'; cases h'
        | some p =>
          obtain ⟨w1, o1⟩ := p
          rw [hf] at h'
          rw [finish_empty (fun s x hx => ibcChannelClose_empty hx)] at hf
          obtain ⟨s', hs, rfl, rfl⟩ := hf
          obtain ⟨a, b, rfl, -⟩ := channelCloseInit_eq_ok.1 hs
          cases h'
          exact ⟨h.1, h.2, a, b, rfl, rfl⟩
      · rintro ⟨_, _, a, b, rfl, rfl⟩
        have : finish one w (ibcChannelClose w.store (.closeInit c.chan)) =
            some ({ w with
              store := { w.store with allowCloseInit := some false, channel := some ⟨c.chan, .closed⟩ } }, []) := by
          rw [finish_empty (fun s x hx => ibcChannelClose_empty hx)]
          exact ⟨_, channelCloseInit_eq_ok.2 ⟨a, b, rfl, rfl⟩, rfl, rfl⟩
        rw [this]
        rfl
    · rename_i h
      simp only [reduceCtorEq, false_iff]
      rintro ⟨a, b, _⟩
      exact h ⟨a, b⟩

theorem apply_close {api : Api} {w w' : World} {sender fresh : String} {core : Bool} {obs : List Obs} :
    apply api w (.execute sender .closeChannel fresh core) = some (w', obs) ↔
      w.live = true ∧ IsOwner w.store sender ∧ core = true ∧
      ∃ ch c, w.store.channel = some ⟨ch, .opened⟩ ∧ w.chans ch.endpoint.channelId = some c ∧ c.chan = ch ∧
        c.status ≠ .closed ∧
        w' = { w with
          store := { w.store with allowCloseInit := some false, channel := some ⟨ch, .closed⟩ }
          chans := setChan w.chans ch.endpoint.channelId ⟨ch, .closed⟩ } ∧
        obs = [.channelClosed ch.endpoint.channelId] := by
  simp only [apply, applyWith, execute]
  rw [Option.ite_none_right_eq_some]
  refine and_congr_right fun hl => ?_
  · have hd : ∀ (s : Store) (id : String),
        dispatch quiet api fresh core maxDepth { w with store := s } (.new (.ibc (.closeChannel id))) =
          coreCloseInit (dispatch quiet api fresh core 7) { w with store := s } id core := by
      intro s id
      have : maxDepth = 7 + 1 := rfl
      rw [this, dispatch.eq_2]
      simp only [execMsg, SubMsg.new]
      generalize 7 = n
      cases coreCloseInit (dispatch quiet api fresh core n) { w with store := s } id core with
      | none => simp
      | some p => simp
    constructor
    · intro h
      cases hi : closeChannel w.store sender with
      | err e => rw [hi] at h; cases h
      | panic e => rw [hi] at h; cases h
      | ok p =>
        obtain ⟨s, r⟩ := p
        rw [hi] at h
        obtain ⟨h1, c, h2, h3, rfl, rfl⟩ := closeChannel_eq_ok.1 hi
        rw [finish_one, hd, coreCloseInit_eq_some] at h
        obtain ⟨k, hk, hcore, hst, _, hch, rfl, rfl⟩ := h
        have hch' : w.store.channel = some ⟨k.chan, .opened⟩ := hch
        rw [h2] at hch'
        cases hch'
        exact ⟨h1, hcore, k.chan, k, h2, hk, rfl, hst, rfl, rfl⟩
    · rintro ⟨h1, hcore, ch, k, h2, hk, rfl, hst, rfl, rfl⟩
      rw [closeChannel_eq_ok.2 ⟨h1, _, h2, rfl, rfl, rfl⟩, finish_one, hd, coreCloseInit_eq_some]
      exact ⟨k, hk, hcore, hst, rfl, h2, rfl, rfl⟩

/-- The storage after a committed send. -/
def storeAfterSend (s : Store) (id : String) (n : UInt64) (qs : List QueryRequest)
    (cqs : List (String × Bytes × Bool)) : Store :=
  if qs = [] then s else { s with query := none, pending := setPending s.pending id n (some (queryPaths cqs)) }

theorem apply_send {api : Api} {w w' : World} {sender : String} {ms : List CosmosMsg} {qs : List QueryRequest}
    {memo : Option String} {t : Option UInt64} {fresh : String} {core : Bool} {obs : List Obs} :
    apply api w (.execute sender (.sendCosmosMsgs ms qs memo t) fresh core) = some (w', obs) ↔
      w.live = true ∧ IsOwner w.store sender ∧ core = true ∧
      ∃ st info anys cqs c, ∃ ts : UInt64, ∃ p : IbcPacket,
        w.store.state = some st ∧ st.icaInfo = some info ∧ info.encoding = .protobuf ∧
        mapRes (fun m => convertToProtoAny m info.icaAddress) ms = .ok anys ∧
        mapRes queryToProtobuf qs = .ok cqs ∧
        ts.toNat = w.env.time.toNat + ((t.map (·.toNat)).getD 600) * 1000000000 ∧
        w.chans info.channelId = some c ∧ c.status = .opened ∧ w.nextSeq info.channelId < 18446744073709551616 ∧
        p = ⟨IcaPacketData.jc.toBytes (.fromProtoAnys (packetAnys info.icaAddress anys cqs) memo),
          c.chan.endpoint, c.chan.counterpartyEndpoint, UInt64.ofNat (w.nextSeq info.channelId),
          ⟨none, some ts⟩⟩ ∧
        w' = { w with
          store := storeAfterSend w.store info.channelId (UInt64.ofNat (w.nextSeq info.channelId)) qs cqs
          nextSeq := setSeq w.nextSeq info.channelId (w.nextSeq info.channelId + 1)
          commits := setCommit w.commits info.channelId (UInt64.ofNat (w.nextSeq info.channelId)) (some p) } ∧
        obs = [.packetSent p] := by
  simp only [apply, applyWith, execute]
  rw [Option.ite_none_right_eq_some]
  refine and_congr_right fun hl => ?_
  · have hcs : ∀ {s : Store} {id : String} {data : Bytes} {tmo : IbcTimeout} {r : World × Bytes × List Obs},
        coreSendPacket { w with store := s } id data tmo core = some r ↔
          ∃ c, w.chans id = some c ∧ core = true ∧ c.status = .opened ∧ w.nextSeq id < 18446744073709551616 ∧
            r = ({ w with
              store := s
              nextSeq := setSeq w.nextSeq id (w.nextSeq id + 1)
              commits := setCommit w.commits id (UInt64.ofNat (w.nextSeq id))
                (some ⟨data, c.chan.endpoint, c.chan.counterpartyEndpoint, UInt64.ofNat (w.nextSeq id), tmo⟩) },
              P.SendPacketResponse.toBytes ⟨UInt64.ofNat (w.nextSeq id)⟩,
              [.packetSent ⟨data, c.chan.endpoint, c.chan.counterpartyEndpoint, UInt64.ofNat (w.nextSeq id), tmo⟩]) := by
      intro s id data tmo r
      unfold coreSendPacket
      cases hc : w.chans id with
      | none => simp [hc]
      | some c =>
        simp only [hc, Option.some.injEq, exists_eq_left']
        split
        · rename_i h
          simp only [Option.some.injEq, h, true_and]
          exact eq_comm
        · rename_i h
          simp only [reduceCtorEq, false_iff]
          rintro ⟨a, b, c, _⟩
          exact h ⟨a, b, c⟩
    have hmd : maxDepth = 7 + 1 := rfl
    have hd : ∀ {s : Store} {id : String} {data : Bytes} {tmo : IbcTimeout} {cqs} {w' : World} {obs : List Obs}
        {st info} (hst : w.store.state = some st) (hi : st.icaInfo = some info) (hid : id = info.channelId)
        (hs : s = (if qs = [] then w.store else { w.store with query := some (queryPaths cqs) })),
        dispatch quiet api fresh core maxDepth { w with store := s } (sendSubMsg qs (.sendPacket id data tmo)) =
          some (w', obs) ↔
        ∃ c, w.chans id = some c ∧ core = true ∧ c.status = .opened ∧ w.nextSeq id < 18446744073709551616 ∧
          w' = { w with
              store := storeAfterSend w.store id (UInt64.ofNat (w.nextSeq id)) qs cqs
              nextSeq := setSeq w.nextSeq id (w.nextSeq id + 1)
              commits := setCommit w.commits id (UInt64.ofNat (w.nextSeq id))
                (some ⟨data, c.chan.endpoint, c.chan.counterpartyEndpoint, UInt64.ofNat (w.nextSeq id), tmo⟩) } ∧
          obs = [.packetSent ⟨data, c.chan.endpoint, c.chan.counterpartyEndpoint, UInt64.ofNat (w.nextSeq id), tmo⟩] := by
      intro s id data tmo cqs w' obs st info hst hi hid hs
      rw [hmd, dispatch.eq_2]
      generalize 7 = n
      by_cases hq : qs = []
      · simp only [sendSubMsg, if_pos hq, SubMsg.new, execMsg]
        simp only [if_pos hq] at hs
        subst hs
        cases hx : coreSendPacket { w with store := w.store } id data tmo core with
        | none =>
          simp only [reduceCtorEq, or_self, if_false, false_iff]
          rintro ⟨c, h1, h2, h3, h4, _⟩
          rw [hcs.2 ⟨c, h1, h2, h3, h4, rfl⟩] at hx
          cases hx
        | some r =>
          obtain ⟨c, h1, h2, h3, h4, rfl⟩ := hcs.1 hx
          simp only [reduceCtorEq, or_self, if_false, Option.some.injEq, Prod.mk.injEq, storeAfterSend, if_pos hq]
          constructor
          · rintro ⟨rfl, rfl⟩; exact ⟨c, h1, h2, h3, h4, rfl, rfl⟩
          · rintro ⟨c', h1', _, _, _, rfl, rfl⟩
            rw [h1] at h1'
            cases h1'
            exact ⟨rfl, rfl⟩
      · simp only [sendSubMsg, if_neg hq, execMsg]
        simp only [if_neg hq] at hs
        subst hs
        cases hx : coreSendPacket { w with store := { w.store with query := some (queryPaths cqs) } }
            id data tmo core with
        | none =>
          simp only [reduceCtorEq, or_self, if_false, false_iff]
          rintro ⟨c, h1, h2, h3, h4, _⟩
          rw [hcs.2 ⟨c, h1, h2, h3, h4, rfl⟩] at hx
          cases hx
        | some r =>
          obtain ⟨c, h1, h2, h3, h4, rfl⟩ := hcs.1 hx
          simp only [true_or, if_true]
          have hrep : reply { w.store with query := some (queryPaths cqs) } SEND_QUERY_PACKET
              (.ok (some (P.SendPacketResponse.toBytes ⟨UInt64.ofNat (w.nextSeq id)⟩))) =
              .ok (storeAfterSend w.store id (UInt64.ofNat (w.nextSeq id)) qs cqs, .empty) := by
            simp only [reply, if_true]
            rw [replySendQueryPacket_eq_ok]
            refine ⟨_, st, info, _, bufany_sendPacketResponse _, hst, hi, rfl, ?_, rfl⟩
            rw [storeAfterSend, if_neg hq, hid]
          rw [hrep]
          simp only [finish, Response.empty, dispatchList, List.map_nil, List.append_nil, Option.some.injEq,
            Prod.mk.injEq]
          constructor
          · rintro ⟨rfl, rfl⟩; exact ⟨c, h1, h2, h3, h4, rfl, rfl⟩
          · rintro ⟨c', h1', _, _, _, rfl, rfl⟩
            rw [h1] at h1'
            cases h1'
            exact ⟨rfl, rfl⟩
    constructor
    · intro h
      cases hi : sendCosmosMsgs w.env w.store sender ms qs memo t with
      | err e => rw [hi] at h; cases h
      | panic e => rw [hi] at h; cases h
      | ok p =>
        obtain ⟨s, r⟩ := p
        rw [hi] at h
        obtain ⟨h1, st, info, anys, cqs, ts, a, b, c, d, e, f, hs, rfl⟩ := sendCosmosMsgs_eq_ok.1 hi
        rw [finish_one, hd a b rfl hs] at h
        obtain ⟨k, k1, k2, k3, k4, rfl, rfl⟩ := h
        exact ⟨h1, k2, st, info, anys, cqs, k, ts, _, a, b, c, d, e, f, k1, k3, k4, rfl, rfl, rfl⟩
    · rintro ⟨h1, k2, st, info, anys, cqs, k, ts, _, a, b, c, d, e, f, k1, k3, k4, rfl, rfl, rfl⟩
      rw [sendCosmosMsgs_eq_ok.2 ⟨h1, st, info, anys, cqs, ts, a, b, c, d, e, f, rfl, rfl⟩, finish_one,
        hd a b rfl rfl]
      exact ⟨k, k1, k2, k3, k4, rfl, rfl⟩

theorem apply_callback {api : Api} {w w' : World} {sender : String} {a : Option String} {fresh : String}
    {core : Bool} {obs : List Obs} :
    apply api w (.execute sender (.updateCallbackAddress a) fresh core) = some (w', obs) ↔
      w.live = true ∧ IsOwner w.store sender ∧ (∀ x, a = some x → api.validAddr x = true) ∧
      ∃ st, w.store.state = some st ∧
        w' = { w with store := { w.store with state := some { st with callbackAddress := a } } } ∧ obs = [] := by
  simp only [apply, applyWith, execute]
  rw [Option.ite_none_right_eq_some]
  refine and_congr_right fun hl => ?_
  · rw [finish_empty (fun s x hx => (updateCallbackAddress_eq_ok.1 hx).2.2.choose_spec.2.2)]
    constructor
    · rintro ⟨s, hs, rfl, rfl⟩
      obtain ⟨h1, h2, st, h3, rfl, -⟩ := updateCallbackAddress_eq_ok.1 hs
      exact ⟨h1, h2, st, h3, rfl, rfl⟩
    · rintro ⟨h1, h2, st, h3, rfl, rfl⟩
      exact ⟨_, updateCallbackAddress_eq_ok.2 ⟨h1, h2, st, h3, rfl, rfl⟩, rfl, rfl⟩

theorem apply_transfer {api : Api} {w w' : World} {sender n : String} {e : Option Expiration} {fresh : String}
    {core : Bool} {obs : List Obs} :
    apply api w (.execute sender (.updateOwnership (.transferOwnership n e)) fresh core) = some (w', obs) ↔
      w.live = true ∧ ∃ ow, w.store.ownership = some ow ∧ ow.owner = some sender ∧ api.validAddr n = true ∧
        w' = { w with
          store := { w.store with ownership := some { ow with pendingOwner := some n, pendingExpiry := e } } } ∧
        obs = [] := by
  simp only [apply, applyWith, execute]
  rw [Option.ite_none_right_eq_some]
  refine and_congr_right fun hl => ?_
  · rw [finish_empty (fun s x hx => (transfer_eq_ok.1 hx).choose_spec.2.2.2.2)]
    constructor
    · rintro ⟨s, hs, rfl, rfl⟩
      obtain ⟨ow, h1, h2, h3, rfl, -⟩ := transfer_eq_ok.1 hs
      exact ⟨ow, h1, h2, h3, rfl, rfl⟩
    · rintro ⟨ow, h1, h2, h3, rfl, rfl⟩
      exact ⟨_, transfer_eq_ok.2 ⟨ow, h1, h2, h3, rfl, rfl⟩, rfl, rfl⟩

theorem apply_accept {api : Api} {w w' : World} {sender : String} {fresh : String} {core : Bool}
    {obs : List Obs} :
    apply api w (.execute sender (.updateOwnership .acceptOwnership) fresh core) = some (w', obs) ↔
      w.live = true ∧ ∃ ow, w.store.ownership = some ow ∧ canAccept w.env ow sender ∧
        w' = { w with store := { w.store with ownership := some ⟨some sender, none, none⟩ } } ∧ obs = [] := by
  simp only [apply, applyWith, execute]
  rw [Option.ite_none_right_eq_some]
  refine and_congr_right fun hl => ?_
  · rw [finish_empty (fun s x hx => (accept_eq_ok.1 hx).choose_spec.2.2.2)]
    constructor
    · rintro ⟨s, hs, rfl, rfl⟩
      obtain ⟨ow, h1, h2, rfl, -⟩ := accept_eq_ok.1 hs
      exact ⟨ow, h1, h2, rfl, rfl⟩
    · rintro ⟨ow, h1, h2, rfl, rfl⟩
      exact ⟨_, accept_eq_ok.2 ⟨ow, h1, h2, rfl, rfl⟩, rfl, rfl⟩

theorem apply_renounce {api : Api} {w : World} {sender : String} {fresh : String} {core : Bool} :
    apply api w (.execute sender (.updateOwnership .renounceOwnership) fresh core) = none := by
  simp only [apply, applyWith, execute, renounce_err, finish]
  split <;> rfl

theorem apply_migrate {api : Api} {w w' : World} {obs : List Obs} :
    apply api w .migrate = some (w', obs) ↔
      w.live = true ∧ (∃ r, migrate w.store = .ok r) ∧
        w' = { w with store := { w.store with version := some ⟨CONTRACT_NAME, CONTRACT_VERSION⟩ } } ∧
        obs = [] := by
  simp only [apply, applyWith]
  rw [Option.ite_none_right_eq_some]
  refine and_congr_right fun hl => ?_
  · rw [finish_empty (fun s x hx => (migrate_eq_ok.1 hx).2.2.2)]
    constructor
    · rintro ⟨s, hs, rfl, rfl⟩
      obtain ⟨_, _, rfl, -⟩ := migrate_eq_ok.1 hs
      exact ⟨⟨_, hs⟩, rfl, rfl⟩
    · rintro ⟨⟨⟨s, r⟩, hs⟩, rfl, rfl⟩
      obtain ⟨h1, h2, h3, h4⟩ := migrate_eq_ok.1 hs
      subst h3 h4
      exact ⟨_, hs, rfl, rfl⟩

theorem apply_openTry {api : Api} {w : World} {ch : IbcChannel} {v : String} :
    apply api w (.relayOpenTry ch v) = none := rfl

theorem apply_openConfirm {api : Api} {w : World} {ch : IbcChannel} :
    apply api w (.relayOpenConfirm ch) = none := rfl

theorem apply_recv {api : Api} {w : World} {p : IbcPacket} : apply api w (.relayRecv p) = none := rfl

/-- The channel as core shows it in OpenAck. -/
def ackedChan (ch : IbcChannel) (cpId cpVersion : String) : IbcChannel :=
  { ch with version := cpVersion, counterpartyEndpoint := { ch.counterpartyEndpoint with channelId := cpId } }

/-- The callback made by an event, as observed. -/
def callObs (cb : Option String) (m : CallbackMsg) : List Obs :=
  match cb with
  | some a => [.call a m.intoJsonBinary []]
  | none => []

theorem apply_openAck {api : Api} {w w' : World} {id cpId cpVersion : String} {obs : List Obs} :
    apply api w (.relayOpenAck id cpId cpVersion) = some (w', obs) ↔
      ∃ c st m, w.chans id = some c ∧ c.status = .init ∧ w.store.state = some st ∧
        c.chan.endpoint.portId ≠ "icahost" ∧ IcaMetadata.parse cpVersion = some m ∧
        MetaOk api m c.chan.connectionId ∧ m.address ≠ "" ∧
        w' = { w with
          store := { w.store with
            state := some { st with icaInfo := some ⟨m.address, c.chan.endpoint.channelId, m.encoding⟩ }
            channel := some ⟨ackedChan c.chan cpId cpVersion, .opened⟩ }
          chans := setChan w.chans id ⟨ackedChan c.chan cpId cpVersion, .opened⟩ } ∧
        obs = callObs st.callbackAddress
          (.onChannelOpenAckCallback (ackedChan c.chan cpId cpVersion) m.address m.encoding) := by
  simp only [apply, applyWith]
  cases hc : w.chans id with
  | none => simp
  | some c =>
    simp only [Option.some.injEq]
    split
    · rename_i hi
      have hmd : maxDepth = 7 + 1 := rfl
      rw [finish_eq_some]
      constructor
      · rintro ⟨s, x, obs', h1, h2, rfl⟩
        obtain ⟨st, m, a, b, d, e, f, rfl, rfl⟩ := channelOpenAck_eq_ok.1 h1
        refine ⟨c, st, m, rfl, hi, a, b, d, e, f, ?_⟩
        cases hcb : st.callbackAddress with
        | none =>
          simp only [openAckResponse, hcb, Response.empty, dispatchList, Option.some.injEq, Prod.mk.injEq] at h2 ⊢
          exact ⟨h2.1.symm, by simp [callObs, h2.2.symm]⟩
        | some cb =>
          simp only [openAckResponse, hcb, dispatchList, CallbackMsg.intoCosmosMsg, hmd, dispatch_call,
            Option.some.injEq, Prod.mk.injEq, List.append_nil] at h2 ⊢
          exact ⟨h2.1.symm, by simp [callObs, h2.2.symm, ackedChan]⟩
      · rintro ⟨c', st, m, rfl, _, a, b, d, e, f, rfl, rfl⟩
        refine ⟨_, _, callObs st.callbackAddress
            (.onChannelOpenAckCallback (ackedChan c.chan cpId cpVersion) m.address m.encoding),
          channelOpenAck_eq_ok.2 ⟨st, m, a, b, d, e, f, rfl, rfl⟩, ?_, ?_⟩
        · cases hcb : st.callbackAddress with
          | none => simp [openAckResponse, Response.empty, dispatchList, callObs, ackedChan]
          | some cb =>
            simp [openAckResponse, dispatchList, CallbackMsg.intoCosmosMsg, hmd, dispatch_call, callObs, ackedChan]
        · cases hcb : st.callbackAddress <;> simp [openAckResponse, Response.empty]
    · rename_i hi
      simp only [reduceCtorEq, false_iff]
      rintro ⟨c', st, m, rfl, h, _⟩
      exact hi h

theorem apply_closeConfirm {api : Api} {w w' : World} {id : String} {obs : List Obs} :
    apply api w (.relayCloseConfirm id) = some (w', obs) ↔
      ∃ c, w.chans id = some c ∧ c.status ≠ .closed ∧ w.store.channel = some ⟨c.chan, .opened⟩ ∧
        w' = { w with
          store := { w.store with channel := some ⟨c.chan, .closed⟩ }
          chans := setChan w.chans id ⟨c.chan, .closed⟩ } ∧
        obs = [.channelClosed id] := by
  simp only [apply, applyWith]
  cases hc : w.chans id with
  | none => simp
  | some c =>
    simp only [Option.some.injEq, exists_eq_left']
    split
    · rename_i h
      constructor
      · intro h'
        cases hf : finish (dispatch quiet api "" false maxDepth) w (ibcChannelClose w.store (.closeConfirm c.chan)) with
        | none => rw [hf] at h'; cases h'
        | some p =>
          obtain ⟨w1, o1⟩ := p
          rw [hf] at h'
          rw [finish_empty (fun s x hx => ibcChannelClose_empty hx)] at hf
          obtain ⟨s', hs, rfl, rfl⟩ := hf
          obtain ⟨b, rfl, -⟩ := channelCloseConfirm_eq_ok.1 hs
          cases h'
          exact ⟨h, b, rfl, rfl⟩
      · rintro ⟨_, b, rfl, rfl⟩
        have : finish (dispatch quiet api "" false maxDepth) w (ibcChannelClose w.store (.closeConfirm c.chan)) =
            some ({ w with store := { w.store with channel := some ⟨c.chan, .closed⟩ } }, []) := by
          rw [finish_empty (fun s x hx => ibcChannelClose_empty hx)]
          exact ⟨_, channelCloseConfirm_eq_ok.2 ⟨b, rfl, rfl⟩, rfl, rfl⟩
        rw [this]
        rfl
    · rename_i h
      simp only [reduceCtorEq, false_iff]
      exact fun x => h x.1

theorem dispatch_ackResponse {api : Api} {w : World} {cb : Option String} {m : CallbackMsg} {e : Event} :
    dispatchList (dispatch quiet api "" false maxDepth) w (ackResponse cb m e).messages = some (w, callObs cb m) := by
  have hmd : maxDepth = 7 + 1 := rfl
  cases cb with
  | none => simp [ackResponse, dispatchList, callObs]
  | some a => simp [ackResponse, dispatchList, CallbackMsg.intoCosmosMsg, hmd, dispatch_call, callObs]

theorem ackResponse_events {cb : Option String} {m : CallbackMsg} {e : Event} :
    (ackResponse cb m e).events = [e] := by cases cb <;> rfl

theorem apply_ack {api : Api} {w w' : World} {id : String} {seq : UInt64} {ack : Bytes} {relayer : String}
    {obs : List Obs} :
    apply api w (.relayAck id seq ack relayer) = some (w', obs) ↔
      ∃ p c st, w.commits id seq = some p ∧ w.chans id = some c ∧ c.status = .opened ∧ w.store.state = some st ∧
        ((∃ res q, AckData.jc.ofBytes ack = some (.result res) ∧
          ackQueryResult (w.store.pending p.src.channelId p.sequence) res = .ok q ∧
          w' = { w with
            store := { w.store with pending := setPending w.store.pending p.src.channelId p.sequence none }
            commits := setCommit w.commits id seq none } ∧
          obs = .event (ackSuccessEvent p res) ::
            callObs st.callbackAddress (.onAcknowledgementPacketCallback (.result res) p relayer q)) ∨
         (∃ e, AckData.jc.ofBytes ack = some (.error e) ∧
          w' = { w with commits := setCommit w.commits id seq none } ∧
          obs = .event (ackErrorEvent p e) ::
            callObs st.callbackAddress
              (.onAcknowledgementPacketCallback (.error e) p relayer (some (.error e))))) := by
  simp only [apply, applyWith]
  cases hp : w.commits id seq with
  | none => simp
  | some p =>
    cases hc : w.chans id with
    | none => simp
    | some c =>
      simp only [Option.some.injEq]
      split
      · rename_i ho
        rw [finish_eq_some]
        constructor
        · rintro ⟨s, x, obs', h1, h2, rfl⟩
          rcases ibcPacketAck_eq_ok.1 h1 with ⟨res, q, st, a, b, d, rfl, rfl⟩ | ⟨e, st, a, d, rfl, rfl⟩
          · rw [dispatch_ackResponse] at h2
            cases h2
            exact ⟨p, c, st, rfl, rfl, ho, d, Or.inl ⟨res, q, a, b, rfl, by simp [ackResponse_events]⟩⟩
          · rw [dispatch_ackResponse] at h2
            cases h2
            exact ⟨p, c, st, rfl, rfl, ho, d, Or.inr ⟨e, a, rfl, by simp [ackResponse_events]⟩⟩
        · rintro ⟨p', c', st, rfl, rfl, _, d, ⟨res, q, a, b, rfl, rfl⟩ | ⟨e, a, rfl, rfl⟩⟩
          · refine ⟨_, _, _, ibcPacketAck_eq_ok.2 (Or.inl ⟨res, q, st, a, b, d, rfl, rfl⟩),
              dispatch_ackResponse, ?_⟩
            simp [ackResponse_events]
          · refine ⟨_, _, _, ibcPacketAck_eq_ok.2 (Or.inr ⟨e, st, a, d, rfl, rfl⟩),
              dispatch_ackResponse, ?_⟩
            simp [ackResponse_events]
      · rename_i ho
        simp only [reduceCtorEq, false_iff]
        rintro ⟨p', c', st, rfl, rfl, h, _⟩
        exact ho h

theorem apply_timeout {api : Api} {w w' : World} {id : String} {seq : UInt64} {relayer : String}
    {obs : List Obs} :
    apply api w (.relayTimeout id seq relayer) = some (w', obs) ↔
      ∃ p c st cs, w.commits id seq = some p ∧ w.chans id = some c ∧ w.store.state = some st ∧
        w.store.channel = some cs ∧
        w' = { w with
          store := { w.store with
            channel := some (if cs.channel.order = .ordered then ⟨cs.channel, .closed⟩ else cs)
            pending := setPending w.store.pending p.src.channelId p.sequence none }
          commits := setCommit w.commits id seq none
          chans := if c.chan.order = .ordered then setChan w.chans id ⟨c.chan, .closed⟩ else w.chans } ∧
        obs = callObs st.callbackAddress (.onTimeoutPacketCallback p relayer) := by
  simp only [apply, applyWith]
  cases hp : w.commits id seq with
  | none => simp
  | some p =>
    cases hc : w.chans id with
    | none => simp
    | some c =>
      simp only [Option.some.injEq]
      have hmd : maxDepth = 7 + 1 := rfl
      have hd : ∀ (w : World) (cb : Option String),
          dispatchList (dispatch quiet api "" false maxDepth) w (timeoutResponse cb p relayer).messages =
            some (w, callObs cb (.onTimeoutPacketCallback p relayer)) := by
        intro w cb
        cases cb with
        | none => simp [timeoutResponse, Response.empty, dispatchList, callObs]
        | some a => simp [timeoutResponse, dispatchList, CallbackMsg.intoCosmosMsg, hmd, dispatch_call, callObs]
      have he : ∀ cb : Option String, (timeoutResponse cb p relayer).events = [] := by
        intro cb; cases cb <;> rfl
      rw [finish_eq_some]
      constructor
      · rintro ⟨s, x, obs', h1, h2, rfl⟩
        obtain ⟨cs, st, a, b, rfl, rfl⟩ := ibcPacketTimeout_eq_ok.1 h1
        rw [hd] at h2
        cases h2
        exact ⟨p, c, st, cs, rfl, rfl, b, a, rfl, by simp [he]⟩
      · rintro ⟨p', c', st, cs, rfl, rfl, b, a, rfl, rfl⟩
        refine ⟨_, _, _, ibcPacketTimeout_eq_ok.2 ⟨cs, st, a, b, rfl, rfl⟩, hd _ _, ?_⟩
        simp [he]

theorem apply_block {api : Api} {w w' : World} {h t : UInt64} {obs : List Obs} :
    apply api w (.block h t) = some (w', obs) ↔
      w.env.height ≤ h ∧ w.env.time ≤ t ∧ w' = { w with env := { w.env with height := h, time := t } } ∧
        obs = [] := by
  simp only [apply, applyWith]
  split
  · rename_i h
    simp only [Option.some.injEq, Prod.mk.injEq, h, true_and]
    constructor
    · rintro ⟨rfl, rfl⟩; exact ⟨rfl, rfl⟩
    · rintro ⟨rfl, rfl⟩; exact ⟨rfl, rfl⟩
  · rename_i h
    simp only [reduceCtorEq, false_iff]
    exact fun x => h ⟨x.1, x.2.1⟩

/-- A relayer's `MsgChannelOpenInit` needs the open permission. -/
theorem coreOpenInit_needs_permission {api : Api} {w : World} {m : P.MsgChannelOpenInit} {fresh : String}
    {core : Bool} {r : World × List Obs} (h : coreOpenInit api w m fresh core = some r) :
    w.store.allowOpenInit = some true := by
  unfold coreOpenInit at h
  split at h
  · cases h
  · split at h
    · split at h
      · simp only at h
        split at h
        · rename_i hx
          exact (channelOpenInit_eq_ok.1 hx).1
        · cases h
        · cases h
      · cases h
    · cases h

theorem apply_relayOpenInit_needs {api : Api} {w : World} {m : P.MsgChannelOpenInit} {fresh : String}
    {r : World × List Obs} (h : apply api w (.relayOpenInit m fresh) = some r) :
    w.store.allowOpenInit = some true := by
  simp only [apply, applyWith] at h
  split at h
  · cases h
  · exact coreOpenInit_needs_permission h

theorem apply_relayCloseInit {api : Api} {w w' : World} {id : String} {obs : List Obs} :
    apply api w (.relayCloseInit id) = some (w', obs) ↔
      ∃ c, w.chans id = some c ∧ c.status ≠ .closed ∧ w.store.allowCloseInit = some true ∧
        w.store.channel = some ⟨c.chan, .opened⟩ ∧
        w' = { w with
          store := { w.store with allowCloseInit := some false, channel := some ⟨c.chan, .closed⟩ }
          chans := setChan w.chans id ⟨c.chan, .closed⟩ } ∧
        obs = [.channelClosed id] := by
  simp only [apply, applyWith, coreCloseInit_eq_some, true_and]

end Ica
