import Verif.Facts.System
import Verif.Facts.OwnerApi

/-!
# The owner contract and its controllers together (C71–C77)

`SReachable` worlds: any chain, any number of controllers, any interleaving of their transactions.
-/
namespace Ica
open Spec Owner System

variable {api : Api} {w w' : SWorld} {a : String} {cw cw' : World}

/-! ## C71 -/

/-- **C71.** Every controller belongs to the owner contract for ever, reports to it, and nobody is nominated. -/
theorem C71_stays_owned (h : SReachable api w) (hc : Controller w a cw) :
    ownerOf cw = some w.owner.self ∧ nominee cw = none ∧ callbackOf cw = some w.owner.self := by
  obtain ⟨hg, _⟩ := (sinv_of_reachable h).each a cw hc
  simp [ownerOf, nominee, hg.own, hg.cb]

/-- **C71.** Nobody but the owner contract can make a controller execute anything. -/
theorem C71_nobody_else (h : SReachable api w) (hc : Controller w a cw) {sender : String} (hs : sender ≠ w.owner.self)
    (m : ExecuteMsg) (fresh : String) (core : Bool) : applyS api w (.ctrl a (.execute sender m fresh core)) = none := by
  obtain ⟨hg, _⟩ := (sinv_of_reachable h).each a cw hc
  cases hx : applyS api w (.ctrl a (.execute sender m fresh core)) with
  | none => rfl
  | some r =>
    obtain ⟨w', l⟩ := r
    obtain ⟨cw0, cw1, obs, h0, _, h2, _⟩ := applyS_ctrl hx
    obtain rfl : cw = cw0 := Option.some.inj (hc.symm.trans h0)
    have nown : ¬ IsOwner cw.store sender := by
      rintro ⟨ow, h1, h2⟩
      rw [hg.own] at h1
      obtain rfl := Option.some.inj h1
      exact hs (Option.some.inj h2).symm
    cases step_of_apply (inv_of_reachable hg.reach) h2 with
    | create _ _ _ _ _ how => exact absurd how nown
    | close _ _ _ _ how => exact absurd how nown
    | send _ _ _ _ _ _ _ _ _ _ _ _ _ _ how => exact absurd how nown
    | callback _ _ _ _ _ _ how => exact absurd how nown
    | transfer _ _ _ _ _ ow _ h1 h3 => exact absurd ⟨ow, h1, h3⟩ nown
    | accept _ _ _ ow _ h1 h3 =>
      rw [hg.own] at h1
      obtain rfl := Option.some.inj h1
      cases h3.1

/-- **C71.** The owner contract never stands in the way: whatever a relayer submits for a controller succeeds in the whole
system exactly if it would for the controller alone, and then does the same to it. -/
theorem C71_never_blocked (h : SReachable api w) (hc : Controller w a cw) {op : Op} (ho : outside w.owner.self op = true)
    {obs : List Obs} :
    Commits api cw op cw' obs ↔ ∃ w', applyS api w (.ctrl a op) = some (w', obs.map (a, ·)) ∧ Controller w' a cw' := by
  constructor
  · intro hx
    obtain ⟨o', h1, _⟩ := ctrl_step (sinv_of_reachable h) hc ho hx
    exact ⟨_, h1, if_pos rfl⟩
  · rintro ⟨w', h1, h2⟩
    obtain ⟨cw0, cw1, obs', h3, _, h4, h5, h6⟩ := applyS_ctrl h1
    obtain rfl : cw = cw0 := Option.some.inj (hc.symm.trans h3)
    have e1 : obs = obs' := List.map_injective_iff.mpr (fun x y e => (Prod.mk.inj e).2) h5
    have e2 : cw' = cw1 := by
      unfold Controller at h2
      rw [h6, setCtrl, if_pos rfl] at h2
      exact (Option.some.inj h2).symm
    rw [e1, e2]
    exact h4

/-! ## C72 -/

/-- **C72.** An entry of the registry shows what its controller reports: no account as long as no handshake has completed,
and then the address and encoding of the account and the channel. -/
theorem C72_registry_follows (h : SReachable api w) {n : UInt64} {s : Option IcaState} (hl : Listed w n a s) :
    ∃ cw, Controller w a cw ∧
      match s with
      | none => icaOf cw = none
      | some i => i.icaId = n ∧ ∃ ica ch st, icaOf cw = some ica ∧ Reports cw ch st ∧ i.icaAddr = ica.icaAddress ∧
          i.txEncoding = ica.encoding ∧ i.channelState.channel = ch := by
  have hv := sinv_of_reachable h
  obtain ⟨h1, cw, h2⟩ := hv.addrOf hl
  obtain ⟨hg, _, n', s', h3, h4, h5⟩ := hv.each a cw h2
  obtain rfl : n = n' := Option.some.inj (h1.symm.trans h3)
  obtain rfl : s = s' := by
    have := hl.symm.trans h4
    simpa using this
  refine ⟨cw, h2, ?_⟩
  cases s with
  | none => exact (seen_none (inv_of_reachable hg.reach) hg.live).mp h5.symm
  | some i =>
    refine ⟨(hv.owner.own n _ i hl rfl).1, ?_⟩
    unfold seen at h5
    cases hi : icaOf cw with
    | none => rw [hi] at h5; simp at h5
    | some ica =>
      cases hch : cw.store.channel with
      | none => rw [hi, hch] at h5; simp at h5
      | some cs =>
        rw [hi, hch] at h5
        simp only [Option.map_some, Option.some.injEq, Prod.mk.injEq] at h5
        exact ⟨ica, cs.channel, cs.channelStatus, rfl, hch, h5.1, h5.2.1, h5.2.2⟩

/-- **C72.** Every controller is in the registry, under exactly one id. -/
theorem C72_everyone_listed (h : SReachable api w) (hc : Controller w a cw) : ∃ n, (∃ s, Listed w n a s) ∧
    ∀ n' s, Listed w n' a s → n' = n := by
  have hv := sinv_of_reachable h
  obtain ⟨_, _, n, s, h3, h4, _⟩ := hv.each a cw hc
  refine ⟨n, ⟨s, h4⟩, fun n' s' hl => ?_⟩
  obtain ⟨h1, _⟩ := hv.addrOf hl
  exact Option.some.inj (h1.symm.trans h3)

/-! ## C73 -/

/-- **C73** (partial). While a controller reports its channel open, the registry shows exactly that channel state. Missing:
after the channel has closed; there the statement is false, see `C73_stale_after_close`. -/
theorem C73_status_partial (h : SReachable api w) {n : UInt64} {i : IcaState} (hl : Listed w n a (some i))
    (hc : Controller w a cw) {ch : IbcChannel} (hr : Reports cw ch .opened) : i.channelState = ⟨ch, .opened⟩ := by
  obtain ⟨cw0, h1, _, ica, ch', st, _, h3, _, _, h4⟩ := C72_registry_follows h hl
  obtain rfl : cw = cw0 := Option.some.inj (hc.symm.trans h1)
  have h5 := ((sinv_of_reachable h).owner.own n _ i hl rfl).2
  obtain ⟨rfl, _⟩ : ch = ch' ∧ _ := by
    have := hr.symm.trans h3
    simpa using this
  rcases hi : i.channelState with ⟨c, s⟩
  rw [hi] at h4 h5
  rw [show c = ch from h4, show s = .opened from h5]

/-- **C73** (negation). The registry never learns that a channel closed: it shows the channel open for ever. Its entry is wrong
about every closed channel; `Ex.closed` is a history with one. -/
theorem C73_stale_after_close (h : SReachable api w) {n : UInt64} {i : IcaState} (hl : Listed w n a (some i))
    (hc : Controller w a cw) {ch : IbcChannel} (hr : Reports cw ch .closed) : i.channelState = ⟨ch, .opened⟩ := by
  obtain ⟨cw0, h1, _, ica, ch', st, _, h3, _, _, h4⟩ := C72_registry_follows h hl
  obtain rfl : cw = cw0 := Option.some.inj (hc.symm.trans h1)
  have h5 := ((sinv_of_reachable h).owner.own n _ i hl rfl).2
  obtain ⟨rfl, _⟩ : ch = ch' ∧ _ := by
    have := hr.symm.trans h3
    simpa using this
  rcases hi : i.channelState with ⟨c, s⟩
  rw [hi] at h4 h5
  rw [show c = ch from h4, show s = .opened from h5]

/-! ## C74 -/

/-- **C74.** Every packet any controller ever sends comes from a call of the owner contract by its admin that spells
`send_predefined_action` with the id of that controller; on the host it is one message: 100 stake, from the account the
registry shows to the address in the call. -/
theorem C74_packets_by_admin (h : SReachable api w) {op : SOp} {obs : List (String × Obs)}
    (hx : applyS api w op = some (w', obs)) {p : IbcPacket} (hp : (a, .packetSent p) ∈ obs) :
    ∃ sender bytes fresh core n i dst url value, op = .owner sender bytes fresh core ∧ adminOf w = some sender ∧
      Spells Api.OwnerCall bytes (.sendPredefinedAction n dst) ∧ Listed w n a (some i) ∧ obs = [(a, .packetSent p)] ∧
      readPacket p.data = some ⟨1, none, [(url, value)]⟩ ∧
      readHostMsg url value = some (.send i.icaAddr dst [("stake", 100)]) ∧
      p.src = i.channelState.channel.endpoint ∧ p.dest = i.channelState.channel.counterpartyEndpoint ∧
      ∃ cw, Controller w a cw ∧ ChainOpen cw p.src.channelId i.channelState.channel := by
  have hv := sinv_of_reachable h
  cases op with
  | block hh t =>
    simp only [applyS] at hx
    split at hx
    · obtain ⟨_, rfl⟩ := Prod.mk.inj (Option.some.inj hx); cases hp
    · cases hx
  | upload c k =>
    simp only [applyS] at hx
    obtain ⟨_, _, h2⟩ := Option.map_eq_some_iff.mp hx
    obtain ⟨_, rfl⟩ := Prod.mk.inj h2; cases hp
  | elsewhere c =>
    simp only [applyS] at hx
    obtain ⟨_, _, h2⟩ := Option.map_eq_some_iff.mp hx
    obtain ⟨_, rfl⟩ := Prod.mk.inj h2; cases hp
  | deploy c k =>
    simp only [applyS] at hx
    obtain ⟨_, _, h2⟩ := Option.map_eq_some_iff.mp hx
    obtain ⟨_, rfl⟩ := Prod.mk.inj h2; cases hp
  | ctrl x op =>
    obtain ⟨cw, cw', obs', h1, h2, h3, rfl, _⟩ := applyS_ctrl hx
    obtain ⟨hg, _⟩ := hv.each x cw h1
    obtain ⟨_, _, h4, _⟩ := outside_step hg h2 h3
    obtain ⟨o, ho, e⟩ := List.mem_map.mp hp
    obtain ⟨_, rfl⟩ := Prod.mk.inj e
    exact absurd ho (h4 p)
  | owner sender bytes fresh core =>
    rcases owner_step hv hx with ⟨st, b, o, salt, o', ms, cw, hdec, h1, h2, h3, e1, e2, hna, ht, hca, hlt, hcr, hid, hic, hn, hc, rfl, rfl⟩ |
      ⟨st, b, n, s, dst, cw, cw', obs', hdec, h1, h2, h3, hcw, hc, rfl, rfl⟩
    · simp at hp
    · obtain ⟨info, p', k1, rfl, l, last, k3, k4, k5⟩ := C27_host_reads hc
      obtain rfl : last = [] := by simpa using k5
      obtain ⟨rfl, rfl⟩ : a = b ∧ p = p' := by simpa using hp
      obtain ⟨cw0, q1, q2⟩ := C72_registry_follows h h3
      obtain rfl : cw = cw0 := Option.some.inj (hcw.symm.trans q1)
      cases s with
      | none => rw [show icaOf cw = none from q2] at k1; cases k1
      | some i =>
        obtain ⟨_, ica, ch, sst, q3, q4, q5, _, q6⟩ := q2
        obtain rfl : ica = info := Option.some.inj (q3.symm.trans k1)
        cases k4 with
        | cons ha hb =>
          cases hb
          obtain ⟨x, hh, hr⟩ := ha
          obtain ⟨hg, _⟩ := hv.each a cw hcw
          obtain ⟨_, c, t1, t2, _⟩ := (inv_of_reachable hg.reach).tracked _ q4
          obtain ⟨_, _, _, st', info', anys, cqs, c', ts, p', r1, r2, _, _, _, _, r6, r7, _, r9, _, r11⟩ := apply_send.mp hc
          have e3 : info' = ica := by simpa [icaOf, r1, r2] using q3
          obtain rfl : p = p' := by simpa using r11
          obtain ⟨id0, hone⟩ := hg.one
          have e4 : ch.endpoint.channelId = info'.channelId := (hone _ _ t1).trans (hone _ _ r6).symm
          dsimp only at t1
          rw [e4, r6] at t1
          have e5 : c'.chan = ch := by
            rw [Option.some.inj t1]
            exact t2
          refine ⟨sender, bytes, fresh, core, n, i, dst, _, _, rfl, ?_, own_decodes.mp hdec, h3, rfl, k3, ?_, ?_, ?_,
            cw, hcw, ?_⟩
          · simp [adminOf, h1, h2]
          · rw [q5, hr, ← hh]
            rfl
          · rw [r9, q6, ← e5]
          · rw [r9, q6, ← e5]
          · unfold ChainOpen
            rw [q6, r9]
            dsimp only
            rw [e5, e4, r6]
            obtain ⟨c1, c2⟩ := c'
            rw [show c1 = ch from e5, show c2 = .opened from r7]

/-! ## C75 -/

/-- **C75.** A controller has at most one channel in its whole life, and the status it reports is the one the chain has: the
defects of `C18` and `C24` cannot occur here. -/
theorem C75_one_channel (h : SReachable api w) (hc : Controller w a cw) :
    (∃ id, ∀ x c, cw.chans x = some c → x = id) ∧
    ∀ ch st, Reports cw ch st → ∃ c, cw.chans ch.endpoint.channelId = some c ∧ c.chan = ch ∧
      (st = .opened ∧ c.status = .opened ∨ st = .closed ∧ c.status = .closed) := by
  obtain ⟨hg, _⟩ := (sinv_of_reachable h).each a cw hc
  refine ⟨hg.one, fun ch st hr => ?_⟩
  have hi := inv_of_reachable hg.reach
  obtain ⟨k0, c, k1, k2, k3, _⟩ := hi.tracked _ hr
  have k4 := hg.status _ c hr k1
  refine ⟨c, k1, k2, ?_⟩
  dsimp only at k0 k4
  rcases k0 with rfl | rfl
  · exact .inl ⟨rfl, k4.mp rfl⟩
  · refine .inr ⟨rfl, ?_⟩
    cases hs : c.status with
    | init => exact absurd hs k3
    | opened => cases k4.mpr hs
    | closed => rfl

/-- **C75.** Once the channel of a controller is closed, it stays closed and the controller never sends a packet again: the
owner contract has no way to open another one (finding 9 in DESIGN.md). -/
theorem C75_closed_for_ever (h : SReachable api w) (hc : Controller w a cw) {id : String} {ch : IbcChannel}
    (hx : cw.chans id = some ⟨ch, .closed⟩) {l : List (SOp × List (String × Obs))} (he : SExec api w l w') :
    (∃ cw', Controller w' a cw' ∧ cw'.chans id = some ⟨ch, .closed⟩) ∧ ∀ e ∈ l, ∀ p, (a, .packetSent p) ∉ e.2 := by
  induction he with
  | nil => exact ⟨⟨cw, hc, hx⟩, fun e he => (by cases he)⟩
  | @step l w1 w2 op obs he ha ih =>
    obtain ⟨⟨cw1, h1, h2⟩, h3⟩ := ih
    have hr1 : SReachable api w1 := sreach_exec h he
    obtain ⟨cw2, h4, hh, h5, _⟩ := controller_step (sinv_of_reachable hr1) ha h1
    obtain ⟨hg, _⟩ := (sinv_of_reachable hr1).each a cw1 h1
    refine ⟨⟨cw2, h4, C23_closed_stays_closed hg.reach h5 h2⟩, fun e he p hp => ?_⟩
    rcases List.mem_append.mp he with he | he
    · exact h3 e he p hp
    · obtain rfl := List.mem_singleton.mp he
      obtain ⟨_, _, _, _, _, i, _, _, _, _, _, _, _, _, _, _, _, _, cw3, k1, k2⟩ := C74_packets_by_admin hr1 ha hp
      obtain rfl : cw1 = cw3 := Option.some.inj (h1.symm.trans k1)
      obtain ⟨id0, hone⟩ := hg.one
      have : p.src.channelId = id := (hone _ _ k2).trans (hone _ _ h2).symm
      unfold ChainOpen at k2
      rw [this, h2] at k2
      cases k2

/-! ## C76 -/

/-- **C76** (creating). A well-spelled request for a new controller is carried out exactly if it comes from the admin, the
address the chain computes for it exists and is free, there are ids left, the owner contract's address is valid for the
controller, and the options name the standard port. -/
theorem C76_create_iff (h : SReachable api w) {bytes : Bytes} {salt : Option String} {o : ChannelOpenInitOptions}
    (hb : Spells Api.OwnerCall bytes (.createIcaContract salt o)) {sender fresh : String} :
    (∃ w' obs, applyS api w (.owner sender bytes fresh true) = some (w', obs)) ↔
      adminOf w = some sender ∧ w.ctrl sender = none ∧ (∃ a, NextAddress w salt a ∧ w.owner.taken a = false) ∧
      w.owner.created.length + 1 < 2 ^ 64 ∧ api.validAddr w.owner.self = true ∧
      (o.counterpartyPortId = none ∨ o.counterpartyPortId = some "icahost") := by
  have hv := sinv_of_reachable h
  have hd := own_decodes.mpr hb
  have hport : o.counterpartyPortId.getD "icahost" = "icahost" ↔
      (o.counterpartyPortId = none ∨ o.counterpartyPortId = some "icahost") := by
    cases o.counterpartyPortId <;> simp
  constructor
  · rintro ⟨w', obs, hx⟩
    rcases owner_step hv hx with ⟨st, b, o', salt', o1, ms, cw, hdec, h1, h2, h3, e1, e2, hna, ht, hca, hlt, hcr, hid, hic, hn, hc, rfl, rfl⟩ |
      ⟨st, b, n, s, dst, cw, cw', obs', hdec, h1, h2, h3, hcw, hc, rfl, rfl⟩
    · rw [hd] at hdec
      obtain ⟨rfl, rfl⟩ : salt = salt' ∧ o = o' := by simpa using hdec
      obtain ⟨_, _, _, k1, _, k2, _⟩ := apply_instantiate.mp hc
      refine ⟨by simp [adminOf, h1, h2], ?_, ⟨b, hna, ht⟩, hlt, k1, hport.mp k2⟩
      unfold applyS at hx
      dsimp only at hx
      split at hx
      · cases hx
      · next hn => simpa using hn
    · rw [hd] at hdec
      simp at hdec
  · rintro ⟨h1, h2, ⟨a, ⟨st, checksum, creator, b, k1, k2, k3, k4, k5⟩, h4⟩, h5, h6, h7⟩
    have hadm : st.admin = sender := by simpa [adminOf, k1] using h1
    have hlen : (w.owner.store.icaCount.getD 0).toNat + 1 < 18446744073709551616 := by
      rw [← hv.owner.len]
      exact h5
    have hi : ∀ label, (Helpers.Code.mk st.codeId).instantiate2 w.owner.addr ⟨fun _ _ => none, w.owner.codes⟩ w.owner.self
        (controllerMsg w.owner.self o) label (some w.owner.self)
        (salt.getD (decString (w.owner.time.toNat / 1000000000))) =
        some (.wasm (.instantiate2 (some w.owner.self) st.codeId label
          (InstantiateMsg.jc.toBytes (controllerMsg w.owner.self o)) []
          (utf8 (salt.getD (decString (w.owner.time.toNat / 1000000000))))), a) := by
      intro label
      unfold Helpers.Code.instantiate2
      simp only [k2, k3, address_agrees k4, k5]
    have hex : ∃ o' c, applyO api w.owner (.execute sender bytes true) = some (o', [.wasm (.instantiate2 (some w.owner.self)
          st.codeId c.label c.msg [] (utf8 (salt.getD (decString (w.owner.time.toNat / 1000000000)))))]) ∧
        o'.created = w.owner.created ++ [c] ∧ c.addr = a ∧ c.creator = w.owner.self ∧
        c.msg = InstantiateMsg.jc.toBytes (controllerMsg w.owner.self o) ∧ o'.time = w.owner.time := by
      unfold applyO
      dsimp only
      unfold Owner.execute
      rw [hd]
      dsimp only
      unfold createIcaContract
      rw [k1]
      dsimp only
      rw [if_neg (not_not.mpr hadm)]
      simp only [hi, if_pos hlen, runMessages, SubMsg.new, if_true,
        wasmd_address.mpr ⟨checksum, creator, b, a, k2, k3, k4, k5, h4, rfl⟩, Option.map_some, List.map_cons, List.map_nil]
      exact ⟨_, ⟨a, st.codeId, w.owner.self, some w.owner.self, _, InstantiateMsg.jc.toBytes (controllerMsg w.owner.self o), []⟩,
        rfl, rfl, rfl, rfl, rfl, rfl⟩
    obtain ⟨o', c, e1, e2, e3, e4, e5, e6⟩ := hex
    have hst : ∃ cw obs, apply api (World.genesis ⟨a, w.height, w.owner.time⟩)
        (.instantiate w.owner.self (controllerMsg w.owner.self o) fresh true) = some (cw, obs) :=
      ⟨_, _, apply_instantiate.mpr ⟨rfl, rfl, rfl, h6, fun x hx => Option.some.inj hx ▸ h6, hport.mpr h7,
        fun c hc => (by cases hc), rfl, rfl⟩⟩
    obtain ⟨cw, obs, hst⟩ := hst
    unfold applyS
    dsimp only
    rw [if_neg (by simp [h2]), e1]
    dsimp only
    rw [e2, List.drop_left, deliver, e5, JC.ofBytes_toBytes InstantiateMsg.jc_law]
    dsimp only
    rw [e3, e4, e6, hst]
    exact ⟨_, _, rfl⟩

/-- **C76** (creating). What it does: a new controller at the computed address, listed under the next id without an account,
with one proposed channel; nothing else changes. -/
theorem C76_create_effect (h : SReachable api w) {bytes : Bytes} {salt : Option String} {o : ChannelOpenInitOptions}
    (hb : Spells Api.OwnerCall bytes (.createIcaContract salt o)) {sender fresh : String} {core : Bool}
    {obs : List (String × Obs)} (hx : applyS api w (.owner sender bytes fresh core) = some (w', obs)) :
    ∃ a n cw, NextAddress w salt a ∧ w.owner.taken a = false ∧ n.toNat = w.owner.created.length ∧ Listed w' n a none ∧
      Controller w' a cw ∧ cw.chans fresh = some ⟨proposalChannel a fresh o, .init⟩ ∧ icaOf cw = none ∧
      (∀ id, cw.nextSeq id = 1) ∧ obs = [(a, .channelCreated fresh)] ∧ (∀ x, x ≠ a → w'.ctrl x = w.ctrl x) ∧
      adminOf w' = adminOf w ∧ w'.owner.time = w.owner.time ∧ ∀ m x s, Listed w m x s → Listed w' m x s := by
  have hv := sinv_of_reachable h
  have hd := own_decodes.mpr hb
  rcases owner_step hv hx with ⟨st, b, o', salt', o1, ms, cw, hdec, h1, h2, h3, e1, e2, hna, ht, hca, hlt, hcr, hid, hic, ⟨n, hn1, hn2, hn3⟩, hc, rfl, rfl⟩ |
    ⟨st, b, n, s, dst, cw, cw', obs', hdec, h1, h2, h3, hcw, hc, rfl, rfl⟩
  · rw [hd] at hdec
    obtain ⟨rfl, rfl⟩ : salt = salt' ∧ o = o' := by simpa using hdec
    obtain ⟨_, _, _, _, _, _, _, rfl, _⟩ := apply_instantiate.mp hc
    refine ⟨b, n, _, hna, ht, hn1, hn3, if_pos rfl, setChan_eq_some.mpr (.inl ⟨rfl, rfl⟩), rfl, fun _ => rfl, rfl,
      fun x hne => if_neg hne, ?_, e2, fun m x s hl => hic _ _ hl⟩
    have := (frame_step hv hx).state _ h1
    dsimp only at this
    unfold adminOf
    dsimp only
    rw [this, h1]
  · rw [hd] at hdec
    simp at hdec

/-- **C76** (handshake). When the host answers the proposal of a controller with valid metadata, the channel opens and the
registry shows the account; until then it shows none. -/
theorem C76_handshake (h : SReachable api w) (hc : Controller w a cw) {id cpId v : String} {ch : IbcChannel}
    (hx : cw.chans id = some ⟨ch, .init⟩) {m : IcaMetadata} {j : Json} (hj : Format.IsDocument j v.toList)
    (hm : Api.Metadata j m) (hok : ValidMetadata api m ch.connectionId) (hne : m.address ≠ "") :
    ∃ w' obs n ch' cw', applyS api w (.ctrl a (.relayOpenAck id cpId v)) = some (w', obs) ∧
      ch' = { ch with version := v, counterpartyEndpoint := { ch.counterpartyEndpoint with channelId := cpId } } ∧
      Listed w' n a (some ⟨n, m.address, m.encoding, ⟨ch', .opened⟩⟩) ∧ Controller w' a cw' ∧ Reports cw' ch' .opened ∧
      icaOf cw' = some ⟨m.address, id, m.encoding⟩ ∧ ChainOpen cw' id ch' ∧ cw'.nextSeq = cw.nextSeq ∧
      adminOf w' = adminOf w ∧ w'.owner.time = w.owner.time ∧ ∀ x, x ≠ a → w'.ctrl x = w.ctrl x := by
  have hv := sinv_of_reachable h
  obtain ⟨hg, _⟩ := hv.each a cw hc
  have hi := inv_of_reachable hg.reach
  obtain ⟨st, hst⟩ := hi.state hg.live
  have hcm : ∃ cw' obs, apply api cw (.relayOpenAck id cpId v) = some (cw', obs) ∧
      seen cw' = some (m.address, m.encoding, ackedChan ch cpId v) ∧
      (cw'.store.channel = some ⟨ackedChan ch cpId v, .opened⟩ ∧ icaOf cw' = some ⟨m.address, id, m.encoding⟩ ∧
        cw'.chans id = some ⟨ackedChan ch cpId v, .opened⟩ ∧ cw'.nextSeq = cw.nextSeq) := by
    refine ⟨_, _, apply_openAck.mpr ⟨_, st, m, hx, rfl, hst, ?_, ?_, metaOk_iff.mpr hok, hne, rfl, rfl⟩, rfl, rfl, ?_, ?_, rfl⟩
    · rw [(hi.chans _ _ hx).1]
      exact portOf_ne_icahost _
    · exact C69_metadata.mpr ⟨j, hj, hm⟩
    · have := congrArg (·.channelId) (hi.chans _ _ hx).1
      dsimp only at this
      simp only [icaOf, Option.bind_some, this]
    · exact setChan_eq_some.mpr (.inl ⟨rfl, rfl⟩)
  obtain ⟨cw', obs, k1, k2, k3, k3a, k3b, k3c⟩ := hcm
  obtain ⟨o', k4, k5, _, ktime, _, _, kst, n, s', k6, k7, k8, _⟩ := ctrl_step hv hc (op := .relayOpenAck id cpId v) rfl k1
  refine ⟨_, _, n, _, cw', k4, rfl, ?_, if_pos rfl, k3, k3a, k3b, k3c, by simp only [adminOf, kst], ktime,
    fun x hx => if_neg hx⟩
  rw [k2] at k8
  obtain ⟨i, rfl, k9⟩ := Option.map_eq_some_iff.mp k8
  obtain ⟨r1, r2⟩ := k5.own n _ i k7 rfl
  show o'.store.icaStates n = _
  rw [k7]
  rcases i with ⟨i1, i2, i3, i4, i5⟩
  simp only [Prod.mk.injEq] at k9 r1 r2
  rw [r1, r2, k9.1, k9.2.1, k9.2.2]
  rfl

/-- **C76** (acting). A well-spelled request for the predefined action is carried out exactly if it comes from the admin, the
id is in use, the channel of that controller is open with a sequence number left, and the timeout fits 64 bits. -/
theorem C76_action_iff (h : SReachable api w) {bytes : Bytes} {n : UInt64} {dst : String}
    (hb : Spells Api.OwnerCall bytes (.sendPredefinedAction n dst)) {sender fresh : String} :
    (∃ w' obs, applyS api w (.owner sender bytes fresh true) = some (w', obs)) ↔
      adminOf w = some sender ∧ w.ctrl sender = none ∧
      (∃ a i cw ch, Listed w n a (some i) ∧ Controller w a cw ∧ Reports cw ch .opened ∧
        cw.nextSeq ch.endpoint.channelId < 2 ^ 64) ∧
      w.owner.time.toNat + 600 * 1000000000 < 2 ^ 64 := by
  have hv := sinv_of_reachable h
  have hd := own_decodes.mpr hb
  constructor
  · rintro ⟨w', obs, hx⟩
    rcases owner_step hv hx with ⟨st, b, o', salt', o1, ms, cw, hdec, h1, h2, h3, e1, e2, hna, ht, hca, hlt, hcr, hid, hic, hn, hc, rfl, rfl⟩ |
      ⟨st, b, n', s, dst', cw, cw', obs', hdec, h1, h2, h3, hcw, hc, rfl, rfl⟩
    · rw [hd] at hdec
      simp at hdec
    · rw [hd] at hdec
      obtain ⟨rfl, rfl⟩ : n = n' ∧ dst = dst' := by simpa using hdec
      obtain ⟨hg, henv, _⟩ := hv.each b cw hcw
      obtain ⟨_, ⟨info, ch, q1, q2, q3⟩, _, _, q4⟩ :=
        (C31_send_iff hg.reach w.owner.self [predefined dst] [] none none fresh).mp ⟨_, _, hc⟩
      obtain ⟨cw0, r1, r2⟩ := C72_registry_follows h h3
      obtain rfl : cw = cw0 := Option.some.inj (hcw.symm.trans r1)
      refine ⟨by simp [adminOf, h1, h2], ?_, ?_, ?_⟩
      · unfold applyS at hx
        dsimp only at hx
        split at hx
        · cases hx
        · next hn => simpa using hn
      · cases s with
        | none => rw [show icaOf cw = none from r2] at q1; cases q1
        | some i =>
          obtain ⟨_, ica, ch', st', r3, r4, _⟩ := r2
          obtain rfl : ica = info := Option.some.inj (r3.symm.trans q1)
          obtain ⟨st0, hst0⟩ := (inv_of_reachable hg.reach).state hg.live
          have hid : ch'.endpoint.channelId = ica.channelId :=
            ((inv_of_reachable hg.reach).icaInfo st0 ica hst0 (by simpa [icaOf, hst0] using q1)).2.2 _ r4
          refine ⟨b, i, cw, ch', h3, hcw, ?_, by rw [hid]; exact q3⟩
          have := (hg.status _ ⟨ch, .opened⟩ r4 (by rw [hid]; exact q2)).mpr rfl
          dsimp only at this
          rw [this] at r4
          exact r4
      · rw [henv] at q4
        exact q4
  · rintro ⟨h1, h2, ⟨a, i, cw, ch, h3, h4, h5, h6⟩, h7⟩
    obtain ⟨hg, henv, _⟩ := hv.each a cw h4
    obtain ⟨st, hst⟩ : ∃ st, w.owner.store.state = some st ∧ st.admin = sender := by
      simpa [adminOf] using h1
    obtain ⟨st0, hst0⟩ := (inv_of_reachable hg.reach).state hg.live
    obtain ⟨cw0, r1, _, ica, ch', st', r3, r4, _⟩ := C72_registry_follows h h3
    obtain rfl : cw = cw0 := Option.some.inj (h4.symm.trans r1)
    have hid : ch.endpoint.channelId = ica.channelId :=
      ((inv_of_reachable hg.reach).icaInfo st0 ica hst0 (by simpa [icaOf, hst0] using r3)).2.2 _ h5
    obtain ⟨cw', obs', hc⟩ := (C31_send_iff hg.reach w.owner.self [predefined dst] [] none none fresh).mpr
      ⟨by simp [ownerOf, hg.own], ⟨ica, ch, r3, hid ▸ C17_reported_open_is_open hg.reach h5, hid ▸ h6⟩,
        fun m hm => (by obtain rfl := List.mem_singleton.mp hm; exact .inr ⟨_, rfl⟩), fun q hq => (by cases hq),
        (by rw [henv]; exact h7)⟩
    unfold applyS
    dsimp only
    rw [if_neg (by simp [h2])]
    have : applyO api w.owner (.execute sender bytes true) = some (w.owner, [.wasm (.execute a
        (jsonToBytes (sendCosmosMsgsPlain [predefined dst] none none)) [])]) := by
      simp only [applyO, Owner.execute, hd, sendPredefinedAction, hst.1, hst.2, ne_eq, not_true, if_false,
        show w.owner.store.icaStates n = some ⟨a, some i⟩ from h3, runMessages, SubMsg.new, if_true, Option.map_some,
        List.map_cons, List.map_nil]
    rw [this]
    dsimp only
    rw [deliver, show w.ctrl a = some cw from h4, decode_plain]
    dsimp only
    rw [show apply api cw _ = _ from hc]
    exact ⟨_, _, rfl⟩

/-! ## C77 -/

/-- **C77.** A salt is good for one controller: once it has been used, every later request with the same salt is refused. A
request without a salt uses the block time in seconds, so two of them in the same second cannot both succeed. -/
theorem C77_salt_once (h : SReachable api w) {bytes bytes' : Bytes} {salt salt' : Option String}
    {o o' : ChannelOpenInitOptions} (hb : Spells Api.OwnerCall bytes (.createIcaContract salt o))
    (hb' : Spells Api.OwnerCall bytes' (.createIcaContract salt' o')) {w1 w2 : SWorld} {sender sender' fresh fresh' : String}
    {core core' : Bool} {obs : List (String × Obs)} (hx : applyS api w (.owner sender bytes fresh core) = some (w1, obs))
    {l : List (SOp × List (String × Obs))} (he : SExec api w1 l w2)
    (hs : salt'.getD (decString (w2.owner.time.toNat / 1000000000)) =
      salt.getD (decString (w.owner.time.toNat / 1000000000))) :
    applyS api w2 (.owner sender' bytes' fresh' core') = none := by
  cases hy : applyS api w2 (.owner sender' bytes' fresh' core') with
  | none => rfl
  | some r =>
    obtain ⟨w3, obs'⟩ := r
    have hr1 : SReachable api w1 := sreach_exec h (SExec.nil.step hx)
    have hr2 := sreach_exec hr1 he
    obtain ⟨a, n, cw, ⟨st, checksum, creator, b, k1, k2, k3, k4, k5⟩, _, _, kl, _⟩ := C76_create_effect h hb hx
    obtain ⟨a', _, _, ⟨st', checksum', creator', b', j1, j2, j3, j4, j5⟩, j6, _⟩ := C76_create_effect hr2 hb' hy
    have hf := (frame_step (sinv_of_reachable h) hx).trans (frame_exec hr1 he)
    have e1 := (hf.state st k1).symm.trans j1
    obtain rfl := Option.some.inj e1
    have e2 := (hf.codes _ _ k2).symm.trans j2
    obtain rfl := Option.some.inj e2
    rw [hf.addr, hf.self, k3] at j3
    obtain rfl := Option.some.inj j3
    rw [hf.addr, hs, k4] at j4
    obtain rfl := Option.some.inj j4
    rw [hf.addr, k5] at j5
    obtain rfl := Option.some.inj j5
    obtain ⟨hid, _⟩ := (sinv_of_reachable hr1).addrOf kl
    obtain ⟨c, c1, c2⟩ := ((sinv_of_reachable hr1).owner.ids _ _).mp hid
    have := ((sinv_of_reachable hr1).owner.each c (List.mem_of_getElem? c1)).1
    rw [c2] at this
    have := (frame_exec hr1 he).taken _ this
    rw [j6] at this
    cases this

/-! ## A concrete deployment -/

namespace Ex

/-- A chain with the code of the controller, on which the owner contract has been deployed by its admin. -/
def sys0 : SWorld := ⟨{ Ex.o0 with taken := fun a => if a = "wasm1owner" then true else false }, 100, 7, fun _ => none⟩

theorem rsys0 : SReachable Ex.api sys0 :=
  ⟨"wasm1owner", 100, 1700000000000000000, Ex.addrApi, (fun n => if n = 7 then some (List.replicate 32 1) else none),
    (fun _ => false), 7, _, SExec.nil.step (op := .deploy "boss" none) rfl⟩

/-- The request for a controller. -/
def mkReq : Bytes := jsonToBytes (createJson (some "salt") Ex.opts)

theorem spellsMk : Spells Api.OwnerCall mkReq (.createIcaContract (some "salt") Ex.opts) :=
  own_decodes.mp (by rw [mkReq, jsonOfBytes_toBytes, Option.bind_some, decode_create])

/-- The request for the action. -/
def actReq (n : UInt64) : Bytes :=
  jsonToBytes (.obj [("send_predefined_action", .obj [("ica_id", .num n.toNat), ("to_address", .str "cosmos1dst")])])

theorem spellsAct (n : UInt64) : Spells Api.OwnerCall (actReq n) (.sendPredefinedAction n "cosmos1dst") := by
  refine own_decodes.mp ?_
  rw [actReq, jsonOfBytes_toBytes, Option.bind_some, own_reads]
  refine ⟨_, rfl, _, rfl, ?_, ⟨_, ?_, rfl⟩, ⟨_, ?_, rfl⟩⟩
  · intro p hp
    rcases List.mem_cons.mp hp with rfl | hp
    · exact List.mem_cons_self
    · obtain rfl := List.mem_singleton.mp hp
      exact List.mem_cons_of_mem _ List.mem_cons_self
  · rfl
  · rfl

theorem nextAddr : ∃ a, NextAddress sys0 (some "salt") a ∧ sys0.owner.taken a = false :=
  ⟨_, ⟨⟨"boss", 7⟩, _, _, _, rfl, rfl, rfl, rfl, rfl⟩, by decide +kernel⟩

/-- The controller is created. -/
theorem create : ∃ w obs, applyS Ex.api sys0 (.owner "boss" mkReq "channel-0" true) = some (w, obs) :=
  (C76_create_iff rsys0 spellsMk).mpr ⟨rfl, rfl, nextAddr, by decide, by decide +kernel, .inl rfl⟩

/-- The deployment with one controller that has proposed its channel. -/
theorem created : ∃ w a n cw, SReachable Ex.api w ∧ Controller w a cw ∧ Listed w n a none ∧
    cw.chans "channel-0" = some ⟨proposalChannel a "channel-0" Ex.opts, .init⟩ ∧ (∀ id, cw.nextSeq id = 1) ∧
    adminOf w = some "boss" ∧ w.owner.time = 1700000000000000000 ∧ (∀ x, x ≠ a → w.ctrl x = none) ∧ a ≠ "boss" := by
  obtain ⟨w, obs, hx⟩ := create
  obtain ⟨a, n, cw, ⟨st, k, cr, b, h1, h2, h3, h4, h5⟩, _, _, k1, k2, k3, _, k4, _, k5, k6, k7, _⟩ :=
    C76_create_effect rsys0 spellsMk hx
  refine ⟨w, a, n, cw, sreach_exec rsys0 (SExec.nil.step hx), k2, k1, k3, k4, k6, k7, k5, ?_⟩
  obtain rfl := Option.some.inj h1
  obtain rfl := Option.some.inj h2
  obtain rfl := Option.some.inj h3
  obtain rfl := Option.some.inj h4
  obtain rfl := Option.some.inj h5
  decide +kernel

/-- The deployment after the handshake: the account is open. -/
theorem opened : ∃ w a n cw ch, SReachable Ex.api w ∧ Controller w a cw ∧
    Listed w n a (some ⟨n, "cosmos1ica", .protobuf, ⟨ch, .opened⟩⟩) ∧ Reports cw ch .opened ∧ ChainOpen cw "channel-0" ch ∧
    (∀ id, cw.nextSeq id = 1) ∧ adminOf w = some "boss" ∧ w.owner.time = 1700000000000000000 ∧ w.ctrl "boss" = none := by
  obtain ⟨w, a, n, cw, h1, h2, h3, h4, h5, h6, h7, h8, h9⟩ := created
  obtain ⟨j, hj, hm⟩ := C69_metadata.mp Ex.verParse
  obtain ⟨w', obs, n', ch', cw', k1, _, k2, k3, k4, _, k5, k6, k7, k8, k9⟩ :=
    C76_handshake h1 h2 (cpId := "channel-5") h4 hj hm (metaOk_iff.mp Ex.metaOk) Ex.metaNe
  exact ⟨w', a, n', cw', ch', sreach_exec h1 (SExec.nil.step k1), k3, k2, k4, k5, fun id => by rw [k6]; exact h5 id,
    k7.trans h6, k8.trans h7, (k9 _ (Ne.symm h9)).trans (h8 _ (Ne.symm h9))⟩

/-- The admin sends the predefined action. -/
theorem acted : ∃ w a n i cw ch obs w', SReachable Ex.api w ∧ Controller w a cw ∧ Listed w n a (some i) ∧
    Reports cw ch .opened ∧ applyS Ex.api w (.owner "boss" (actReq n) "" true) = some (w', obs) := by
  obtain ⟨w, a, n, cw, ch, h1, h2, h3, h4, h5, h6, h7, h8, h9⟩ := opened
  obtain ⟨w', obs, hx⟩ := (C76_action_iff h1 (spellsAct n) (sender := "boss") (fresh := "")).mpr
    ⟨h7, h9, ⟨a, _, cw, ch, h3, h2, h4, by rw [h6]; decide⟩, by rw [h8]; decide⟩
  exact ⟨w, a, n, _, cw, ch, obs, w', h1, h2, h3, h4, hx⟩

/-- The host closes the channel. -/
theorem closed : ∃ w a n cw ch, SReachable Ex.api w ∧ Controller w a cw ∧
    (∃ i, Listed w n a (some i)) ∧ Reports cw ch .closed ∧ cw.chans "channel-0" = some ⟨ch, .closed⟩ := by
  obtain ⟨w, a, n, cw, ch, h1, h2, h3, h4, h5, h6, h7, h8, h9⟩ := opened
  have hx := apply_closeConfirm (api := Ex.api).mpr ⟨_, h5, (by decide : ChainStatus.opened ≠ .closed), h4, rfl, rfl⟩
  obtain ⟨o', k4, _, _, _, _, _, _, n', s', k6, k7, k8, k9⟩ :=
    ctrl_step (sinv_of_reachable h1) h2 (op := .relayCloseConfirm "channel-0") rfl hx
  refine ⟨_, a, n', _, ch, sreach_exec h1 (SExec.nil.step k4), if_pos rfl, ?_, rfl, by simp [setChan]⟩
  have h10 := ((sinv_of_reachable h1).addrOf h3).1
  obtain rfl : n = n' := Option.some.inj (h10.symm.trans k6)
  cases s' with
  | some i => exact ⟨i, k7⟩
  | none =>
    have := (sinv_of_reachable (sreach_exec h1 (SExec.nil.step k4))).each a _ (if_pos rfl)
    obtain ⟨hg, _⟩ := this
    have := (seen_none (inv_of_reachable hg.reach) hg.live).mp k8.symm
    obtain ⟨cw0, r1, _, ica, _, _, r2, _⟩ := C72_registry_follows h1 h3
    obtain rfl : cw = cw0 := Option.some.inj (h2.symm.trans r1)
    rw [show icaOf cw = none from this] at r2
    cases r2

end Ex

/-- C71, C72, C75: a controller in a reachable system, with an open channel. -/
example : ∃ w a cw ch, SReachable Ex.api w ∧ Controller w a cw ∧ Reports cw ch .opened := by
  obtain ⟨w, a, n, cw, ch, h1, h2, _, h4, _⟩ := Ex.opened
  exact ⟨w, a, cw, ch, h1, h2, h4⟩

/-- C71_never_blocked: a relayer's transaction that succeeds. -/
example : ∃ w a cw cw' obs op, SReachable Ex.api w ∧ Controller w a cw ∧ outside w.owner.self op = true ∧
    Commits Ex.api cw op cw' obs := by
  obtain ⟨w, a, n, cw, ch, h1, h2, h3, h4, h5, _⟩ := Ex.opened
  exact ⟨w, a, cw, _, _, .relayCloseConfirm "channel-0", h1, h2, rfl,
    apply_closeConfirm.mpr ⟨_, h5, (by decide : ChainStatus.opened ≠ .closed), h4, rfl, rfl⟩⟩

/-- C73: both an open and a closed channel occur, each with its entry. -/
example : (∃ w a n i cw ch, SReachable Ex.api w ∧ Listed w n a (some i) ∧ Controller w a cw ∧ Reports cw ch .opened) ∧
    ∃ w a n i cw ch, SReachable Ex.api w ∧ Listed w n a (some i) ∧ Controller w a cw ∧ Reports cw ch .closed ∧
      i.channelState.channelStatus = .opened := by
  obtain ⟨w, a, n, cw, ch, h1, h2, h3, h4, _⟩ := Ex.opened
  obtain ⟨w', a', n', cw', ch', k1, k2, ⟨i, k3⟩, k4, _⟩ := Ex.closed
  exact ⟨⟨w, a, n, _, cw, ch, h1, h3, h2, h4⟩, ⟨w', a', n', i, cw', ch', k1, k3, k2, k4, by
    rw [C73_stale_after_close k1 k3 k2 k4]⟩⟩

/-- C74: a packet is sent. -/
example : ∃ w w' op obs a p, SReachable Ex.api w ∧ applyS Ex.api w op = some (w', obs) ∧ (a, .packetSent p) ∈ obs := by
  obtain ⟨w, a, n, i, cw, ch, obs, w', h1, h2, h3, h4, hx⟩ := Ex.acted
  rcases owner_step (sinv_of_reachable h1) hx with ⟨_, _, _, _, _, _, _, hdec, _⟩ | ⟨_, b, _, _, _, _, _, obs', _, _, _, _, _, hc, rfl, rfl⟩
  · have := hdec.symm.trans (own_decodes.mpr (Ex.spellsAct n))
    simp at this
  · obtain ⟨_, p, _, rfl, _⟩ := C27_host_reads hc
    exact ⟨w, _, _, _, b, p, h1, hx, by simp⟩

/-- C75_closed_for_ever, C77: a closed channel; a salt used before. -/
example : (∃ w a cw id ch, SReachable Ex.api w ∧ Controller w a cw ∧ cw.chans id = some ⟨ch, .closed⟩) ∧
    ∃ w1 obs, applyS Ex.api Ex.sys0 (.owner "boss" Ex.mkReq "channel-0" true) = some (w1, obs) ∧
      applyS Ex.api w1 (.owner "boss" Ex.mkReq "channel-1" true) = none := by
  obtain ⟨w, a, n, cw, ch, h1, h2, _, _, h3⟩ := Ex.closed
  obtain ⟨w1, obs, hx⟩ := Ex.create
  exact ⟨⟨w, a, cw, _, ch, h1, h2, h3⟩, w1, obs, hx, C77_salt_once Ex.rsys0 Ex.spellsMk Ex.spellsMk hx .nil (by simp only [Option.getD_some])⟩

end Ica
