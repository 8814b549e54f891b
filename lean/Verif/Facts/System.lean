import Verif.Spec.System
import Verif.Props.Owner

/-!
# The owner contract and its controllers: helper lemmas

`SInv` holds in every reachable world of the composed system (`sinv_of_reachable`).
-/
namespace Ica.System
open Owner Spec

theorem callObs_calls (cb : Option String) (m : CallbackMsg) (e : Event) :
    callsOf (.event e :: callObs cb m) = callsOf (callObs cb m) := rfl

theorem setChan_none {f : String → Option ChainChan} {id : String} {c : ChainChan} (h : f id = some c) (c' : ChainChan)
    (x : String) : setChan f id c' x = none ↔ f x = none := by
  unfold setChan
  split
  · next e => subst e; simp [h]
  · rfl

/-- What a controller shows about its account: address, encoding, channel. -/
def seen (cw : World) : Option (String × TxEncoding × IbcChannel) :=
  match icaOf cw, cw.store.channel with
  | some i, some cs => some (i.icaAddress, i.encoding, cs.channel)
  | _, _ => none

theorem seen_congr {w w' : World} (h1 : icaOf w' = icaOf w)
    (h2 : w'.store.channel.map (·.channel) = w.store.channel.map (·.channel)) : seen w' = seen w := by
  unfold seen
  rw [h1]
  cases h3 : w'.store.channel <;> cases h4 : w.store.channel <;> rw [h3, h4] at h2 <;> cases icaOf w <;> simp_all

/-- What holds of every controller, with the owner contract at `me`. -/
structure CGood (api : Api) (me : String) (cw : World) : Prop where
  reach : Reachable api cw
  live : cw.live = true
  own : cw.store.ownership = some ⟨some me, none, none⟩
  cb : callbackOf cw = some me
  one : ∃ id, ∀ x c, cw.chans x = some c → x = id
  status : ∀ cs c, cw.store.channel = some cs → cw.chans cs.channel.endpoint.channelId = some c →
    (cs.channelStatus = .opened ↔ c.status = .opened)
  noQueries : cw.store.pending = fun _ _ => none

/-- What a callback does to the entry of the controller with id `n`. -/
def heard (s : Owner.Store) (n : UInt64) (ica : IcaContractState) : CallbackMsg → Owner.Store
  | .onChannelOpenAckCallback ch a e =>
    { s with icaStates := fun i => if i = n then some { ica with icaState := some ⟨n, a, e, ⟨ch, .opened⟩⟩ } else s.icaStates i }
  | _ => s

theorem applyO_callback {api : Api} {w : OWorld} {a : String} {n : UInt64} {ica : IcaContractState}
    (h1 : w.store.addrToId a = some n) (h2 : w.store.icaStates n = some ica) (m : CallbackMsg) (ok : Bool) :
    applyO api w (.execute a m.intoJsonBinary ok) = some ({ w with store := heard w.store n ica m }, []) := by
  simp only [applyO, Owner.execute, decode_callback, icaCallbackHandler, h1, h2]
  cases m <;> rfl

theorem hear_one {api : Api} {w : OWorld} {a : String} {n : UInt64} {ica : IcaContractState}
    (h1 : w.store.addrToId a = some n) (h2 : w.store.icaStates n = some ica) (m : CallbackMsg) :
    hear api a w (callsOf (callObs (some w.self) m)) = some { w with store := heard w.store n ica m } := by
  rw [callsOf_callObs]
  simp only [hear, if_true, applyO_callback h1 h2]

theorem seen_none {api : Api} {cw : World} (hi : Inv api cw) (hl : cw.live = true) : seen cw = none ↔ icaOf cw = none := by
  obtain ⟨st, hst⟩ := hi.state hl
  have := hi.icaChannel st hst
  unfold seen
  simp only [icaOf, hst] at this ⊢
  cases h1 : st.icaInfo with
  | none => simp
  | some i =>
    cases h2 : cw.store.channel with
    | none => rw [this.mpr h2] at h1; cases h1
    | some cs => simp

/-- What an operation from outside does to a controller. -/
theorem outside_step {api : Api} {self : String} {cw cw' : World} {op : Op} {obs : List Obs} (hg : CGood api self cw)
    (ho : outside self op = true) (ha : apply api cw op = some (cw', obs)) :
    CGood api self cw' ∧ cw'.env = cw.env ∧ (∀ p, .packetSent p ∉ obs) ∧ (∀ x, cw'.chans x = none ↔ cw.chans x = none) ∧
      ((callsOf obs = [] ∧ seen cw' = seen cw) ∨ ∃ m, callsOf obs = callsOf (callObs (some self) m) ∧
        match m with
        | .onChannelOpenAckCallback ch a e => seen cw' = some (a, e, ch)
        | _ => seen cw' = seen cw) := by
  have hi := inv_of_reachable hg.reach
  have hr : Reachable api cw' := by
    obtain ⟨env, h, he⟩ := hg.reach
    exact ⟨env, _, he.step ha⟩
  have hs := step_of_apply hi ha
  have hcb := hg.cb
  obtain ⟨st0, hst0⟩ := hi.state hg.live
  have hcb0 : st0.callbackAddress = some self := by simpa [callbackOf, hst0] using hcb
  have nown : ∀ {sender : String}, sender ≠ self → ¬ IsOwner cw.store sender := by
    rintro sender hne ⟨ow, h1, h2⟩
    rw [hg.own] at h1
    obtain rfl := Option.some.inj h1
    exact hne (Option.some.inj h2).symm
  obtain ⟨id0, hone⟩ := hg.one
  cases hs with
  | block h t => cases ho
  | instantiate sender msg fresh => cases ho
  | create sender o fresh o' hl how => exact absurd how (nown (by simpa [outside] using ho))
  | close sender fresh c hl how => exact absurd how (nown (by simpa [outside] using ho))
  | send sender ms qs memo t fresh st info anys cqs c ts p hl how => exact absurd how (nown (by simpa [outside] using ho))
  | callback sender a fresh core st hl how => exact absurd how (nown (by simpa [outside] using ho))
  | transfer sender n e fresh core ow hl h1 h2 => exact absurd ⟨ow, h1, h2⟩ (nown (by simpa [outside] using ho))
  | accept sender fresh core ow hl h1 h2 =>
    rw [hg.own] at h1
    obtain rfl := Option.some.inj h1
    cases h2.1
  | openAck id cpId v c st m h1 h2 h3 h4 h5 h6 =>
    rw [hst0] at h3
    obtain rfl := Option.some.inj h3
    have hid : c.chan.endpoint.channelId = id := hi.chan_id h1
    refine ⟨⟨hr, hg.live, hg.own, hcb0, ⟨id0, ?_⟩, ?_, hg.noQueries⟩, rfl, ?_, ?_, .inr ⟨_, by rw [hcb0], ?_⟩⟩
    · intro x c' hx
      rcases setChan_eq_some.mp hx with ⟨rfl, _⟩ | ⟨_, hx⟩
      · exact hone _ _ h1
      · exact hone _ _ hx
    · intro cs c' hcs hc'
      obtain rfl := Option.some.inj hcs
      have : (ackedChan c.chan cpId v).endpoint.channelId = id := hid
      dsimp only at hc'
      rw [this] at hc'
      rcases setChan_eq_some.mp hc' with ⟨_, rfl⟩ | ⟨h, _⟩
      · simp
      · exact absurd rfl h
    · intro p hp
      rw [hcb0] at hp
      simp [callObs] at hp
    · exact setChan_none h1 _
    · simp [seen, icaOf]
  | closeConfirm id c h1 h2 h3 =>
    have hid : c.chan.endpoint.channelId = id := hi.chan_id h1
    refine ⟨⟨hr, hg.live, hg.own, hg.cb, ⟨id0, ?_⟩, ?_, hg.noQueries⟩, rfl, ?_, ?_, .inl ⟨rfl, ?_⟩⟩
    · intro x c' hx
      rcases setChan_eq_some.mp hx with ⟨rfl, _⟩ | ⟨_, hx⟩
      · exact hone _ _ h1
      · exact hone _ _ hx
    · intro cs c' hcs hc'
      obtain rfl := Option.some.inj hcs
      dsimp only at hc'
      rw [hid] at hc'
      rcases setChan_eq_some.mp hc' with ⟨_, rfl⟩ | ⟨h, _⟩
      · simp
      · exact absurd rfl h
    · intro p hp
      simp at hp
    · exact setChan_none h1 _
    · exact seen_congr rfl (by rw [h3]; rfl)
  | ackOk id seq ack relayer p c st res q h1 h2 h3 h4 h5 h6 =>
    rw [hst0] at h4
    obtain rfl := Option.some.inj h4
    refine ⟨⟨hr, hg.live, hg.own, hg.cb, ⟨id0, hone⟩, hg.status, ?_⟩, rfl, ?_, fun _ => Iff.rfl, .inr ⟨_, by
      rw [callObs_calls, hcb0], rfl⟩⟩
    · funext x y
      simp [setPending, hg.noQueries]
    · intro p hp
      rw [hcb0] at hp
      simp [callObs] at hp
  | ackErr id seq ack relayer p c st e h1 h2 h3 h4 h5 =>
    rw [hst0] at h4
    obtain rfl := Option.some.inj h4
    refine ⟨⟨hr, hg.live, hg.own, hg.cb, ⟨id0, hone⟩, hg.status, hg.noQueries⟩, rfl, ?_, fun _ => Iff.rfl, .inr ⟨_, by
      rw [callObs_calls, hcb0], rfl⟩⟩
    intro p hp
    rw [hcb0] at hp
    simp [callObs] at hp
  | timeout id seq relayer p c st cs h1 h2 h3 h4 =>
    rw [hst0] at h3
    obtain rfl := Option.some.inj h3
    obtain ⟨_, c2, h5, h6, _⟩ := hi.tracked _ h4
    have hid : cs.channel.endpoint.channelId = id := (hone _ _ h5).trans (hone _ _ h2).symm
    rw [hid, h2] at h5
    obtain rfl := Option.some.inj h5
    have hstat := hg.status cs c h4 (by rw [hid]; exact h2)
    refine ⟨⟨hr, hg.live, hg.own, hg.cb, ⟨id0, ?_⟩, ?_, ?_⟩, rfl, ?_, ?_, .inr ⟨_, by rw [hcb0], ?_⟩⟩
    · intro x c' hx
      dsimp only at hx
      split at hx
      · rcases setChan_eq_some.mp hx with ⟨rfl, _⟩ | ⟨_, hx⟩
        · exact hone _ _ h2
        · exact hone _ _ hx
      · exact hone _ _ hx
    · intro cs' c' hcs hc'
      dsimp only at hcs hc'
      obtain rfl := Option.some.inj hcs
      rw [h6] at hc'
      split at hc'
      · next hord =>
        rw [if_pos hord]
        dsimp only at hc' ⊢
        rw [hid] at hc'
        rcases setChan_eq_some.mp hc' with ⟨_, rfl⟩ | ⟨h, _⟩
        · simp
        · exact absurd rfl h
      · next hord =>
        rw [if_neg hord]
        rw [hid, h2] at hc'
        obtain rfl := Option.some.inj hc'
        exact hstat
    · funext x y
      simp [setPending, hg.noQueries]
    · intro p hp
      rw [hcb0] at hp
      simp [callObs] at hp
    · intro x
      dsimp only
      split
      · exact setChan_none h2 _ x
      · rfl
    · show seen _ = seen _
      refine seen_congr rfl ?_
      rw [h4]
      dsimp only
      split <;> rfl

/-- What the predefined action does to a controller. -/
theorem send_step {api : Api} {self : String} {cw cw' : World} {fresh : String} {core : Bool} {obs : List Obs}
    {ms : List CosmosMsg} {memo : Option String} {t : Option UInt64} (hg : CGood api self cw)
    (ha : apply api cw (.execute self (.sendCosmosMsgs ms [] memo t) fresh core) = some (cw', obs)) :
    CGood api self cw' ∧ cw'.env = cw.env ∧ cw'.chans = cw.chans ∧ cw'.store = cw.store ∧ seen cw' = seen cw := by
  have hi := inv_of_reachable hg.reach
  have hr : Reachable api cw' := by
    obtain ⟨env, h, he⟩ := hg.reach
    exact ⟨env, _, he.step ha⟩
  have hs := step_of_apply hi ha
  cases hs with
  | send _ _ _ _ _ _ st info anys cqs c ts p hl how h1 h2 h3 h4 h5 h6 h7 h8 h9 h10 =>
    refine ⟨⟨hr, hg.live, ?_, ?_, hg.one, ?_, ?_⟩, rfl, rfl, rfl, ?_⟩
    · exact hg.own
    · exact hg.cb
    · exact hg.status
    · exact hg.noQueries
    · rfl

/-- How a controller starts. -/
theorem start_step {api : Api} {self : String} {env : Env} {cw : World} {fresh : String} {core : Bool} {obs : List Obs}
    {o : ChannelOpenInitOptions} {sender : String}
    (ha : apply api (World.genesis env) (.instantiate sender (controllerMsg self o) fresh core) = some (cw, obs)) :
    CGood api self cw ∧ cw.env = env ∧ seen cw = none ∧ obs = [.channelCreated fresh] ∧
      (∃ c, cw.chans fresh = some c ∧ c.status = .init) := by
  have hr : Reachable api cw := ⟨env, _, Exec.nil.step ha⟩
  have hs := step_of_apply (inv_genesis api env) ha
  cases hs with
  | instantiate _ _ _ h1 h2 h3 h4 h5 =>
    refine ⟨⟨hr, rfl, rfl, rfl, ⟨fresh, ?_⟩, ?_, rfl⟩, rfl, rfl, rfl, _, setChan_eq_some.mpr (.inl ⟨rfl, rfl⟩), rfl⟩
    · intro x c hx
      rcases setChan_eq_some.mp hx with ⟨rfl, _⟩ | ⟨_, hx⟩
      · rfl
      · cases hx
    · intro cs c hcs
      cases hcs

/-- A block for a controller. -/
theorem block_good {api : Api} {self : String} {cw : World} (hg : CGood api self cw) {h t : UInt64}
    (h1 : cw.env.height ≤ h) (h2 : cw.env.time ≤ t) :
    CGood api self { cw with env := { cw.env with height := h, time := t } } := by
  refine ⟨?_, hg.live, hg.own, hg.cb, hg.one, hg.status, hg.noQueries⟩
  obtain ⟨env, l, he⟩ := hg.reach
  exact ⟨env, _, he.step (apply_block.2 ⟨h1, h2, rfl, rfl⟩)⟩

/-- What holds in every reachable world of the composed system. -/
structure SInv (api : Api) (w : SWorld) : Prop where
  owner : OInv w.owner
  dom : ∀ a, (w.ctrl a).isSome ↔ ∃ c ∈ w.owner.created, c.addr = a
  each : ∀ a cw, w.ctrl a = some cw → CGood api w.owner.self cw ∧ cw.env = ⟨a, w.height, w.owner.time⟩ ∧
    ∃ n s, w.owner.store.addrToId a = some n ∧ w.owner.store.icaStates n = some ⟨a, s⟩ ∧
      s.map (fun i => (i.icaAddr, i.txEncoding, i.channelState.channel)) = seen cw

theorem sinv_genesis (api : Api) (self : String) (height time : UInt64) (addr : Helpers.AddrApi) (codes : Wasmd.Codes)
    (taken : String → Bool) (code : UInt64) : SInv api (SWorld.genesis self height time addr codes taken code) :=
  ⟨oinv_genesis .., fun a => by simp [SWorld.genesis, OWorld.genesis], fun a cw h => (by cases h)⟩

/-- The operations on the owner contract that leave the registry alone. -/
theorem quiet_owner {api : Api} {w w' : OWorld} {op : OOp} {ms : List CosmosMsg} (h : applyO api w op = some (w', ms))
    (hq : ∀ s b ok, op ≠ .execute s b ok) :
    w'.self = w.self ∧ w'.created = w.created ∧ w'.store.icaStates = w.store.icaStates ∧
      w'.store.addrToId = w.store.addrToId ∧ ((∀ t, op ≠ .block t) → w'.time = w.time) ∧ ms = [] := by
  cases op with
  | block t =>
    obtain ⟨rfl, rfl⟩ := Prod.mk.inj (Option.some.inj h)
    exact ⟨rfl, rfl, rfl, rfl, fun h => absurd rfl (h t), rfl⟩
  | elsewhere a =>
    obtain ⟨rfl, rfl⟩ := Prod.mk.inj (Option.some.inj h)
    exact ⟨rfl, rfl, rfl, rfl, fun _ => rfl, rfl⟩
  | upload c k =>
    simp only [applyO] at h
    split at h
    · cases h
    · obtain ⟨rfl, rfl⟩ := Prod.mk.inj (Option.some.inj h)
      exact ⟨rfl, rfl, rfl, rfl, fun _ => rfl, rfl⟩
  | instantiate sender msg =>
    simp only [applyO] at h
    split at h
    · cases h
    split at h
    · next st r hi =>
      obtain ⟨rfl, rfl⟩ := Prod.mk.inj (Option.some.inj h)
      unfold Owner.instantiate at hi
      split at hi
      · next a _ =>
        cases hx : addrValidate api a with
        | ok b => rw [hx] at hi; obtain ⟨rfl, _⟩ := Prod.mk.inj (Res.ok.inj hi); exact ⟨rfl, rfl, rfl, rfl, fun _ => rfl, rfl⟩
        | err e => rw [hx] at hi; cases hi
        | panic e => rw [hx] at hi; cases hi
      · obtain ⟨rfl, _⟩ := Prod.mk.inj (Res.ok.inj hi); exact ⟨rfl, rfl, rfl, rfl, fun _ => rfl, rfl⟩
    · cases h
  | execute sender bytes ok => exact absurd rfl (hq sender bytes ok)

/-- The bytes of the predefined action are read by the controller as they are meant. -/
theorem decode_plain (ms : List CosmosMsg) (memo : Option String) (t : Option UInt64) :
    ExecuteMsg.jc.ofBytes (jsonToBytes (sendCosmosMsgsPlain ms memo t)) = some (.sendCosmosMsgs ms [] memo t) := by
  have : sendCosmosMsgsPlain ms memo t = ExecuteMsg.jc.enc (.sendCosmosMsgs ms [] memo t) := by
    simp [sendCosmosMsgsPlain, ExecuteMsg.jc, skipEmpty]
  rw [this, show jsonToBytes (ExecuteMsg.jc.enc (.sendCosmosMsgs ms [] memo t)) =
    ExecuteMsg.jc.toBytes (.sendCosmosMsgs ms [] memo t) from rfl, JC.ofBytes_toBytes ExecuteMsg.jc_law]

/-- The map of controllers has the created addresses. -/
theorem SInv.addrOf {api : Api} {w : SWorld} (hv : SInv api w) {n : UInt64} {ica : IcaContractState}
    (h : w.owner.store.icaStates n = some ica) :
    w.owner.store.addrToId ica.contractAddr = some n ∧ ∃ cw, w.ctrl ica.contractAddr = some cw := by
  have := hv.owner.states n
  rw [h] at this
  obtain ⟨c, hc, e⟩ := Option.map_eq_some_iff.mp this.symm
  exact ⟨(hv.owner.ids _ _).mpr ⟨c, hc, e⟩, Option.isSome_iff_exists.mp ((hv.dom _).mpr ⟨c, List.mem_of_getElem? hc, e⟩)⟩

theorem wasmd_address {adr : Helpers.AddrApi} {codes : Wasmd.Codes} {taken : String → Bool} {self label : String}
    {admin : Option String} {code : UInt64} {msg salt : Bytes} {funds : List Coin} {c : Wasmd.Created} :
    Wasmd.instantiate2 adr codes taken self (.wasm (.instantiate2 admin code label msg funds salt)) = some c ↔
      ∃ checksum creator b addr, codes code = some checksum ∧ adr.canonicalize self = some creator ∧
        Wasmd.predictable adr.sha256 checksum creator salt = some b ∧ adr.humanize b = some addr ∧ taken addr = false ∧
        c = ⟨addr, code, self, admin, label, msg, funds⟩ := by
  unfold Wasmd.instantiate2
  dsimp only
  cases h1 : codes code with
  | none => simp
  | some checksum =>
    cases h2 : adr.canonicalize self with
    | none => simp
    | some creator =>
      cases h3 : Wasmd.predictable adr.sha256 checksum creator salt with
      | none => simp [h3]
      | some b =>
        cases h4 : adr.humanize b with
        | none => simp [h3, h4]
        | some addr =>
          cases h5 : taken addr with
          | true => simp [h3, h4, h5]
          | false =>
            constructor
            · intro h
              simp only [h3, h4, h5] at h
              exact ⟨checksum, creator, b, addr, rfl, rfl, h3, h4, h5, (Option.some.inj h).symm⟩
            · rintro ⟨_, _, _, _, e1, e2, e3, e4, _, rfl⟩
              obtain rfl := Option.some.inj e1
              obtain rfl := Option.some.inj e2
              rw [h3] at e3
              obtain rfl := Option.some.inj e3
              rw [h4] at e4
              obtain rfl := Option.some.inj e4
              simp only [h3, h4, h5]
              rfl

/-- A call of the owner contract in the composed system: the creation of a controller, or the predefined action. -/
theorem owner_step {api : Api} {w w' : SWorld} {sender : String} {bytes : Bytes} {fresh : String} {core : Bool}
    {obs : List (String × Obs)} (hv : SInv api w) (h : applyS api w (.owner sender bytes fresh core) = some (w', obs)) :
    (∃ st a o salt o' ms cw, (jsonOfBytes bytes).bind (decodeEnum execVariants) = some (.inl (.createIcaContract salt o)) ∧
      w.owner.store.state = some st ∧ st.admin = sender ∧
      applyO api w.owner (.execute sender bytes true) = some (o', ms) ∧ o'.self = w.owner.self ∧ o'.time = w.owner.time ∧
      NextAddress w salt a ∧ w.owner.taken a = false ∧ w.ctrl a = none ∧
      w.owner.created.length + 1 < 18446744073709551616 ∧
      (∀ x, (∃ c ∈ o'.created, c.addr = x) ↔ x = a ∨ ∃ c ∈ w.owner.created, c.addr = x) ∧
      (∀ x n, w.owner.store.addrToId x = some n → o'.store.addrToId x = some n) ∧
      (∀ n s, w.owner.store.icaStates n = some s → o'.store.icaStates n = some s) ∧
      (∃ n, n.toNat = w.owner.created.length ∧ o'.store.addrToId a = some n ∧ o'.store.icaStates n = some ⟨a, none⟩) ∧
      apply api (World.genesis ⟨a, w.height, w.owner.time⟩)
        (.instantiate w.owner.self (controllerMsg w.owner.self o) fresh core) = some (cw, [.channelCreated fresh]) ∧
      w' = { w with owner := o', ctrl := setCtrl w.ctrl a cw } ∧ obs = [(a, .channelCreated fresh)]) ∨
    (∃ st a n s dst cw cw' obs', (jsonOfBytes bytes).bind (decodeEnum execVariants) = some (.inl (.sendPredefinedAction n dst)) ∧
      w.owner.store.state = some st ∧ st.admin = sender ∧ w.owner.store.icaStates n = some ⟨a, s⟩ ∧ w.ctrl a = some cw ∧
      apply api cw (.execute w.owner.self (.sendCosmosMsgs [predefined dst] [] none none) fresh core) = some (cw', obs') ∧
      w' = { w with ctrl := setCtrl w.ctrl a cw' } ∧ obs = obs'.map (a, ·)) := by
  unfold applyS at h
  dsimp only at h
  split at h
  · cases h
  next hns =>
  split at h
  · cases h
  next o' ms ho =>
  rcases exec_ok ho with ⟨st, m, a, o, label, _, ⟨salt', hdec, rfl, c0, hc0⟩, h1, h2, h3, ht, h4, rfl, rfl⟩ |
      ⟨st, ica, i, dst, hdec, h1, h2, h3, rfl, rfl⟩ | ⟨m, id, ica, h1, h2, h3, rfl, h4⟩
  · left
    obtain ⟨b, rfl, _⟩ := C54_instantiate2 h3
    dsimp only at h
    rw [List.drop_left] at h
    rw [deliver] at h
    rw [JC.ofBytes_toBytes InstantiateMsg.jc_law] at h
    dsimp only at h
    split at h
    · cases h
    next cw obs1 hc =>
    rw [deliver] at h
    simp only [Option.some.injEq, Prod.mk.injEq] at h
    obtain ⟨rfl, rfl⟩ := h
    obtain ⟨_, _, _, rfl, _⟩ := start_step hc
    have hfresh : ∀ d ∈ w.owner.created, d.addr ≠ a := by
      intro d hd e
      have := (hv.owner.each d hd).1
      rw [e, ht] at this
      cases this
    have hca : w.ctrl a = none := by
      rcases hx : w.ctrl a with _ | cw0
      · rfl
      · obtain ⟨c, hc, e⟩ := (hv.dom a).mp (by rw [hx]; rfl)
        exact absurd e (hfresh c hc)
    refine ⟨st, a, o, salt', _, _, cw, hdec, h1, h2, ho, rfl, rfl,
      ?_, ht, hca, by rw [hv.owner.len]; exact h4, ?_, ?_, ?_,
      ⟨w.owner.store.icaCount.getD 0, hv.owner.len.symm, if_pos rfl, if_pos rfl⟩, hc, rfl, rfl⟩
    · obtain ⟨checksum, creator, x, y, q1, q2, q3, q4, _, rfl⟩ := wasmd_address.mp hc0
      have hcc := congrArg Wasmd.Created.addr (C55_address_is_right h3 rfl hc0)
      dsimp only at hcc
      exact ⟨st, checksum, creator, x, h1, q1, q2, q3, hcc ▸ q4⟩
    · intro x
      simp only [List.mem_append, List.mem_singleton]
      constructor
      · rintro ⟨c, hc | rfl, rfl⟩
        · exact .inr ⟨c, hc, rfl⟩
        · exact .inl rfl
      · rintro (rfl | ⟨c, hc, rfl⟩)
        · exact ⟨_, .inr rfl, rfl⟩
        · exact ⟨c, .inl hc, rfl⟩
    · intro x n hx
      dsimp only
      rw [if_neg]
      · exact hx
      · rintro rfl
        obtain ⟨c, hc, e⟩ := (hv.owner.ids _ _).mp hx
        exact hfresh c (List.mem_of_getElem? hc) e
    · intro n s hs
      dsimp only
      rw [if_neg]
      · exact hs
      · rintro rfl
        have := hv.owner.states (w.owner.store.icaCount.getD 0)
        rw [hs, ← hv.owner.len] at this
        simp at this
  · right
    obtain ⟨_, cw, hcw⟩ := hv.addrOf h3
    rw [deliver, hcw, decode_plain] at h
    dsimp only at h
    split at h
    · cases h
    next cw' obs' hc =>
    rw [deliver] at h
    simp only [Option.some.injEq, Prod.mk.injEq, List.append_nil] at h
    obtain ⟨rfl, rfl⟩ := h
    exact ⟨st, ica.contractAddr, i, ica.icaState, dst, cw, cw', obs', hdec, h1, h2, h3, hcw, hc, rfl, rfl⟩
  · obtain ⟨c, hc, e⟩ := (hv.owner.ids _ _).mp h2
    exact absurd ((hv.dom _).mpr ⟨c, List.mem_of_getElem? hc, e⟩) (by simpa using hns)

/-- Somebody else's transaction at a controller: exactly what the controller alone would do, and the registry follows. -/
theorem ctrl_step {api : Api} {w : SWorld} (hv : SInv api w) {a : String} {op : Op} {cw cw' : World} {obs : List Obs}
    (hw : w.ctrl a = some cw) (ho : outside w.owner.self op = true) (hc : apply api cw op = some (cw', obs)) :
    ∃ o', applyS api w (.ctrl a op) = some ({ w with owner := o', ctrl := setCtrl w.ctrl a cw' }, obs.map (a, ·)) ∧
      OInv o' ∧ o'.self = w.owner.self ∧ o'.time = w.owner.time ∧ o'.created = w.owner.created ∧
      o'.store.addrToId = w.owner.store.addrToId ∧ o'.store.state = w.owner.store.state ∧
      ∃ n s', w.owner.store.addrToId a = some n ∧ o'.store.icaStates n = some ⟨a, s'⟩ ∧
        s'.map (fun i => (i.icaAddr, i.txEncoding, i.channelState.channel)) = seen cw' ∧
        ∀ i, i ≠ n → o'.store.icaStates i = w.owner.store.icaStates i := by
  obtain ⟨hg, he, n, s, h1, h2, h3⟩ := hv.each a cw hw
  obtain ⟨hg', he', _, _, hcase⟩ := outside_step hg ho hc
  unfold applyS
  dsimp only
  rw [hw]
  dsimp only
  rw [if_pos ho, hc]
  dsimp only
  rcases hcase with ⟨hn, hs⟩ | ⟨m, hm, hs⟩
  · rw [hn, hear]
    exact ⟨w.owner, rfl, hv.owner, rfl, rfl, rfl, rfl, rfl, n, s, h1, h2, h3.trans hs.symm, fun _ _ => rfl⟩
  · rw [hm, hear_one h1 h2]
    refine ⟨_, rfl, oinv_step hv.owner (applyO_callback (api := api) h1 h2 m true), rfl, rfl, rfl, ?_⟩
    cases m with
    | onChannelOpenAckCallback ch x e =>
      refine ⟨rfl, rfl, n, _, h1, if_pos rfl, ?_, fun i hi => if_neg hi⟩
      rw [show seen cw' = some (x, e, ch) from hs]
      rfl
    | onAcknowledgementPacketCallback _ _ _ _ => exact ⟨rfl, rfl, n, s, h1, h2, h3.trans hs.symm, fun _ _ => rfl⟩
    | onTimeoutPacketCallback _ _ => exact ⟨rfl, rfl, n, s, h1, h2, h3.trans hs.symm, fun _ _ => rfl⟩

theorem applyS_ctrl {api : Api} {w w' : SWorld} {a : String} {op : Op} {l : List (String × Obs)}
    (h : applyS api w (.ctrl a op) = some (w', l)) :
    ∃ cw cw' obs, w.ctrl a = some cw ∧ outside w.owner.self op = true ∧ apply api cw op = some (cw', obs) ∧
      l = obs.map (a, ·) ∧ w'.ctrl = setCtrl w.ctrl a cw' := by
  unfold applyS at h
  dsimp only at h
  split at h
  · cases h
  next cw hcw =>
  split at h
  next ho =>
    split at h
    · cases h
    next cw' obs hc =>
    split at h
    · cases h
    simp only [Option.some.injEq, Prod.mk.injEq] at h
    obtain ⟨rfl, rfl⟩ := h
    exact ⟨cw, cw', obs, hcw, ho, hc, rfl, rfl⟩
  · cases h

theorem setCtrl_some {f : String → Option World} {a x : String} {cw cw' : World} :
    setCtrl f a cw x = some cw' ↔ (x = a ∧ cw' = cw) ∨ (x ≠ a ∧ f x = some cw') := by
  unfold setCtrl
  split
  · next e => subst e; simp [eq_comm]
  · next e => simp [e]

/-- A step of the surroundings. -/
theorem quiet_sinv {api : Api} {w : SWorld} {o' : OWorld} {op : OOp} {ms : List CosmosMsg} (hv : SInv api w)
    (h : applyO api w.owner op = some (o', ms)) (hq : ∀ s b ok, op ≠ .execute s b ok) (ht : ∀ t, op ≠ .block t) :
    SInv api { w with owner := o' } := by
  obtain ⟨e1, e2, e3, e4, e5, _⟩ := quiet_owner h hq
  refine ⟨oinv_step hv.owner h, ?_, ?_⟩
  · intro a
    dsimp only
    rw [e2]
    exact hv.dom a
  · intro a cw hcw
    dsimp only
    rw [e1, e3, e4, e5 ht]
    exact hv.each a cw hcw

theorem sinv_step {api : Api} {w w' : SWorld} {op : SOp} {obs : List (String × Obs)} (hv : SInv api w)
    (h : applyS api w op = some (w', obs)) : SInv api w' := by
  cases op with
  | block hh t =>
    simp only [applyS] at h
    split at h
    next hle =>
      simp only [Option.some.injEq, Prod.mk.injEq] at h
      obtain ⟨rfl, _⟩ := h
      refine ⟨oinv_step (api := api) hv.owner (op := .block t) rfl, ?_, ?_⟩
      · intro a
        simpa using hv.dom a
      · intro a cw hcw
        obtain ⟨cw0, h0, rfl⟩ := Option.map_eq_some_iff.mp hcw
        obtain ⟨hg, he, hr⟩ := hv.each a cw0 h0
        refine ⟨block_good hg (by rw [he]; exact hle.1) (by rw [he]; exact hle.2), by rw [he], ?_⟩
        exact hr
    · cases h
  | upload c k =>
    simp only [applyS] at h
    obtain ⟨⟨o', ms⟩, h1, h2⟩ := Option.map_eq_some_iff.mp h
    simp only [Prod.mk.injEq] at h2
    obtain ⟨rfl, _⟩ := h2
    exact quiet_sinv hv h1 (fun _ _ _ e => by cases e) (fun _ e => by cases e)
  | elsewhere a =>
    simp only [applyS] at h
    obtain ⟨⟨o', ms⟩, h1, h2⟩ := Option.map_eq_some_iff.mp h
    simp only [Prod.mk.injEq] at h2
    obtain ⟨rfl, _⟩ := h2
    exact quiet_sinv hv h1 (fun _ _ _ e => by cases e) (fun _ e => by cases e)
  | deploy sender admin =>
    simp only [applyS] at h
    obtain ⟨⟨o', ms⟩, h1, h2⟩ := Option.map_eq_some_iff.mp h
    simp only [Prod.mk.injEq] at h2
    obtain ⟨rfl, _⟩ := h2
    exact quiet_sinv hv h1 (fun _ _ _ e => by cases e) (fun _ e => by cases e)
  | owner sender bytes fresh core =>
    rcases owner_step hv h with ⟨st, a, o, salt, o', ms, cw, hdec, h1, h2, h3, e1, e2, hna, ht, hca, hlt, hcr, hid, hic, hn, hc, rfl, _⟩ |
      ⟨st, a, n, s, dst, cw, cw', obs', hdec, h1, h2, h3, hcw, hc, rfl, _⟩
    · refine ⟨oinv_step hv.owner h3, ?_, ?_⟩
      · intro x
        dsimp only
        rw [hcr, ← hv.dom, setCtrl]
        split
        · next e => simp [e]
        · next e => simp [e]
      · intro x cx hx
        dsimp only at hx ⊢
        rw [e1, e2]
        rcases setCtrl_some.mp hx with ⟨rfl, rfl⟩ | ⟨hne, hx⟩
        · obtain ⟨g1, g2, g3, _⟩ := start_step hc
          obtain ⟨n, _, h5, h6⟩ := hn
          exact ⟨g1, g2, n, none, h5, h6, g3.symm⟩
        · obtain ⟨g1, g2, n, s, g3, g4, g5⟩ := hv.each x cx hx
          exact ⟨g1, g2, n, s, hid _ _ g3, hic _ _ g4, g5⟩
    · refine ⟨hv.owner, ?_, ?_⟩
      · intro x
        dsimp only
        rw [← hv.dom, setCtrl]
        split
        · next e => simp [e, hcw]
        · rfl
      · intro x cx hx
        rcases setCtrl_some.mp hx with ⟨rfl, rfl⟩ | ⟨hne, hx⟩
        · obtain ⟨g1, g2, n, s, g3, g4, g5⟩ := hv.each x cw hcw
          obtain ⟨k1, k2, _, _, k5⟩ := send_step g1 hc
          exact ⟨k1, k2.trans g2, n, s, g3, g4, g5.trans k5.symm⟩
        · exact hv.each x cx hx
  | ctrl a op =>
    obtain ⟨cw, cw', obs', hcw, ho, hc, _, _⟩ := applyS_ctrl h
    obtain ⟨o', h1, h2, e1, e2, e3, e4, _, n, s', h5, h6, h7, h8⟩ := ctrl_step hv hcw ho hc
    rw [h1] at h
    simp only [Option.some.injEq, Prod.mk.injEq] at h
    obtain ⟨rfl, _⟩ := h
    refine ⟨h2, ?_, ?_⟩
    · intro x
      dsimp only
      rw [e3, ← hv.dom, setCtrl]
      split
      · next e => simp [e, hcw]
      · rfl
    · intro x cx hx
      dsimp only at hx ⊢
      rw [e1, e2, e4]
      rcases setCtrl_some.mp hx with ⟨rfl, rfl⟩ | ⟨hne, hx⟩
      · obtain ⟨g1, g2, _⟩ := hv.each x cw hcw
        obtain ⟨k1, k2, _⟩ := outside_step g1 ho hc
        exact ⟨k1, k2.trans g2, n, s', h5, h6, h7⟩
      · obtain ⟨g1, g2, m, s, g3, g4, g5⟩ := hv.each x cx hx
        refine ⟨g1, g2, m, s, g3, ?_, g5⟩
        rw [h8]
        · exact g4
        · rintro rfl
          obtain ⟨c, hc1, hc2⟩ := (hv.owner.ids _ _).mp g3
          obtain ⟨d, hd1, hd2⟩ := (hv.owner.ids _ _).mp h5
          rw [hc1] at hd1
          obtain rfl := Option.some.inj hd1
          exact hne (hc2.symm.trans hd2)

theorem sinv_exec {api : Api} {w0 w : SWorld} {h : List (SOp × List (String × Obs))} (he : SExec api w0 h w)
    (hv : SInv api w0) : SInv api w := by
  induction he with
  | nil => exact hv
  | step _ ha ih => exact sinv_step ih ha

theorem sinv_of_reachable {api : Api} {w : SWorld} (h : SReachable api w) : SInv api w := by
  obtain ⟨self, height, time, addr, codes, taken, code, l, he⟩ := h
  exact sinv_exec he (sinv_genesis ..)

theorem sreach_exec {api : Api} {w w' : SWorld} {h : List (SOp × List (String × Obs))} (hr : SReachable api w)
    (he : SExec api w h w') : SReachable api w' := by
  induction he with
  | nil => exact hr
  | step _ ha ih =>
    obtain ⟨self, height, time, addr, codes, taken, code, l, he⟩ := ih
    exact ⟨self, height, time, addr, codes, taken, code, _, he.step ha⟩

/-- What happens in the system is, for each controller, a history of that controller. -/
theorem controller_step {api : Api} {w w' : SWorld} {op : SOp} {l : List (String × Obs)} {a : String} {cw : World}
    (hv : SInv api w) (h : applyS api w op = some (w', l)) (hc : w.ctrl a = some cw) :
    ∃ cw', w'.ctrl a = some cw' ∧ ∃ hist, Exec api cw hist cw' ∧ ∀ o, (a, o) ∈ l → o ∈ hist.flatMap (·.2) := by
  cases op with
  | block hh t =>
    simp only [applyS] at h
    split at h
    next hle =>
      simp only [Option.some.injEq, Prod.mk.injEq] at h
      obtain ⟨rfl, rfl⟩ := h
      obtain ⟨_, he, _⟩ := hv.each a cw hc
      refine ⟨{ cw with env := { cw.env with height := hh, time := t } }, by simp [hc], _, Exec.nil.step
        (apply_block.2 ⟨?_, ?_, rfl, rfl⟩), fun _ h => (by cases h)⟩
      · rw [he]; exact hle.1
      · rw [he]; exact hle.2
    · cases h
  | upload c k =>
    simp only [applyS] at h
    obtain ⟨⟨o', ms⟩, h1, h2⟩ := Option.map_eq_some_iff.mp h
    obtain ⟨rfl, rfl⟩ := Prod.mk.inj h2
    exact ⟨cw, hc, [], .nil, fun _ h => (by cases h)⟩
  | elsewhere c =>
    simp only [applyS] at h
    obtain ⟨⟨o', ms⟩, h1, h2⟩ := Option.map_eq_some_iff.mp h
    obtain ⟨rfl, rfl⟩ := Prod.mk.inj h2
    exact ⟨cw, hc, [], .nil, fun _ h => (by cases h)⟩
  | deploy c k =>
    simp only [applyS] at h
    obtain ⟨⟨o', ms⟩, h1, h2⟩ := Option.map_eq_some_iff.mp h
    obtain ⟨rfl, rfl⟩ := Prod.mk.inj h2
    exact ⟨cw, hc, [], .nil, fun _ h => (by cases h)⟩
  | owner sender bytes fresh core =>
    rcases owner_step hv h with ⟨st, b, o, salt, o', ms, cwb, hdec, h1, h2, h3, e1, e2, hna, ht, hca, hlt, hcr, hid, hic, hn, hcb, rfl, rfl⟩ |
      ⟨st, b, n, s, dst, cwb, cw', obs', hdec, h1, h2, h3, hcw, hcb, rfl, rfl⟩
    · have hne : a ≠ b := by
        rintro rfl
        rw [hc] at hca
        cases hca
      refine ⟨cw, by simp [setCtrl, hne, hc], [], .nil, fun o ho => ?_⟩
      exact absurd (Prod.mk.inj (List.mem_singleton.mp ho)).1 hne
    · by_cases hne : a = b
      · subst hne
        obtain rfl : cw = cwb := Option.some.inj (hc.symm.trans hcw)
        refine ⟨cw', by simp [setCtrl], _, Exec.nil.step hcb, fun o ho => ?_⟩
        obtain ⟨o', h1, e⟩ := List.mem_map.mp ho
        obtain ⟨_, rfl⟩ := Prod.mk.inj e
        simpa using h1
      · refine ⟨cw, by simp [setCtrl, hne, hc], [], .nil, fun o ho => ?_⟩
        obtain ⟨o', h1, e⟩ := List.mem_map.mp ho
        exact absurd (Prod.mk.inj e).1.symm hne
  | ctrl b op =>
    obtain ⟨cwb, cw', obs', hcw, ho, hcb, rfl, e⟩ := applyS_ctrl h
    by_cases hne : a = b
    · subst hne
      obtain rfl : cw = cwb := Option.some.inj (hc.symm.trans hcw)
      refine ⟨cw', by simp [e, setCtrl], _, Exec.nil.step hcb, fun o ho => ?_⟩
      obtain ⟨o', h1, e⟩ := List.mem_map.mp ho
      obtain ⟨_, rfl⟩ := Prod.mk.inj e
      simpa using h1
    · refine ⟨cw, by simp [e, setCtrl, hne, hc], [], .nil, fun o ho => ?_⟩
      obtain ⟨o', h1, e⟩ := List.mem_map.mp ho
      exact absurd (Prod.mk.inj e).1.symm hne

/-- What never changes, or only grows, for the owner contract. -/
structure OFrame (w w' : OWorld) : Prop where
  self : w'.self = w.self
  addr : w'.addr = w.addr
  codes : ∀ c k, w.codes c = some k → w'.codes c = some k
  state : ∀ st, w.store.state = some st → w'.store.state = some st
  taken : ∀ x, w.taken x = true → w'.taken x = true

theorem OFrame.refl (w : OWorld) : OFrame w w := ⟨rfl, rfl, fun _ _ h => h, fun _ h => h, fun _ h => h⟩

theorem OFrame.trans {u v w : OWorld} (h : OFrame u v) (k : OFrame v w) : OFrame u w :=
  ⟨k.self.trans h.self, k.addr.trans h.addr, fun c x e => k.codes c x (h.codes c x e), fun c e => k.state c (h.state c e),
    fun x e => k.taken x (h.taken x e)⟩

theorem frame_applyO {api : Api} {w w' : OWorld} {op : OOp} {ms : List CosmosMsg} (h : applyO api w op = some (w', ms)) :
    OFrame w w' := by
  have hst := (C64_only_admin h).2
  cases op with
  | block t =>
    obtain ⟨rfl, _⟩ := Prod.mk.inj (Option.some.inj h)
    exact ⟨rfl, rfl, fun _ _ h => h, hst, fun _ h => h⟩
  | elsewhere a =>
    obtain ⟨rfl, _⟩ := Prod.mk.inj (Option.some.inj h)
    refine ⟨rfl, rfl, fun _ _ h => h, hst, fun x h => ?_⟩
    dsimp only
    split
    · rfl
    · exact h
  | upload c k =>
    simp only [applyO] at h
    split at h
    · cases h
    next hn =>
      obtain ⟨rfl, _⟩ := Prod.mk.inj (Option.some.inj h)
      refine ⟨rfl, rfl, fun x y e => ?_, hst, fun _ h => h⟩
      dsimp only
      rw [if_neg]
      · exact e
      · rintro rfl
        rw [hn] at e
        cases e
  | instantiate sender msg =>
    simp only [applyO] at h
    split at h
    · cases h
    split at h
    · obtain ⟨rfl, _⟩ := Prod.mk.inj (Option.some.inj h)
      exact ⟨rfl, rfl, fun _ _ h => h, hst, fun _ h => h⟩
    · cases h
  | execute sender bytes ok =>
    rcases exec_ok h with ⟨st, m, addr, o, label, salt, hdec, h1, h2, h3, ht, h4, rfl, rfl⟩ |
      ⟨st, ica, i, dst, hdec, h1, h2, h3, rfl, rfl⟩ | ⟨m, id, ica, h1, h2, h3, rfl, h4⟩
    · refine ⟨rfl, rfl, fun _ _ h => h, hst, fun x h => ?_⟩
      dsimp only
      split
      · rfl
      · exact h
    · exact OFrame.refl _
    · rcases h4 with ⟨ch, a, e, rfl, rfl⟩ | ⟨_, rfl⟩
      · exact ⟨rfl, rfl, fun _ _ h => h, hst, fun _ h => h⟩
      · exact OFrame.refl _

theorem frame_hear {api : Api} {a : String} {cs : List (String × Bytes × List Coin)} {w w' : OWorld}
    (h : hear api a w cs = some w') : OFrame w w' := by
  induction cs generalizing w with
  | nil =>
    obtain rfl := Option.some.inj h
    exact OFrame.refl _
  | cons c cs ih =>
    rw [hear] at h
    split at h
    · split at h
      · next w1 hx => exact (frame_applyO hx).trans (ih h)
      · cases h
    · exact ih h

theorem frame_step {api : Api} {w w' : SWorld} {op : SOp} {l : List (String × Obs)} (hv : SInv api w)
    (h : applyS api w op = some (w', l)) : OFrame w.owner w'.owner := by
  cases op with
  | block hh t =>
    simp only [applyS] at h
    split at h
    · simp only [Option.some.injEq, Prod.mk.injEq] at h
      obtain ⟨rfl, rfl⟩ := h
      exact ⟨rfl, rfl, fun _ _ h => h, fun _ h => h, fun _ h => h⟩
    · cases h
  | upload c k =>
    simp only [applyS] at h
    obtain ⟨⟨o', ms⟩, h1, h2⟩ := Option.map_eq_some_iff.mp h
    obtain ⟨rfl, rfl⟩ := Prod.mk.inj h2
    exact frame_applyO h1
  | elsewhere c =>
    simp only [applyS] at h
    obtain ⟨⟨o', ms⟩, h1, h2⟩ := Option.map_eq_some_iff.mp h
    obtain ⟨rfl, rfl⟩ := Prod.mk.inj h2
    exact frame_applyO h1
  | deploy c k =>
    simp only [applyS] at h
    obtain ⟨⟨o', ms⟩, h1, h2⟩ := Option.map_eq_some_iff.mp h
    obtain ⟨rfl, rfl⟩ := Prod.mk.inj h2
    exact frame_applyO h1
  | owner sender bytes fresh core =>
    rcases owner_step hv h with ⟨st, b, o, salt, o', ms, cwb, hdec, h1, h2, h3, e1, e2, hna, ht, hca, hlt, hcr, hid, hic, hn, hcb, rfl, rfl⟩ |
      ⟨st, b, n, s, dst, cwb, cw', obs', hdec, h1, h2, h3, hcw, hcb, rfl, rfl⟩
    · exact frame_applyO h3
    · exact OFrame.refl _
  | ctrl b op =>
    unfold applyS at h
    dsimp only at h
    split at h
    · cases h
    split at h
    · split at h
      · cases h
      split at h
      · cases h
      next o' ho =>
      simp only [Option.some.injEq, Prod.mk.injEq] at h
      obtain ⟨rfl, rfl⟩ := h
      exact frame_hear ho
    · cases h

theorem frame_exec {api : Api} {w w' : SWorld} {h : List (SOp × List (String × Obs))} (hr : SReachable api w)
    (he : SExec api w h w') : OFrame w.owner w'.owner := by
  induction he with
  | nil => exact OFrame.refl _
  | step he ha ih => exact ih.trans (frame_step (sinv_of_reachable (sreach_exec hr he)) ha)

end Ica.System
