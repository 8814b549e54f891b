import Verif.Facts.World

/-!
# The main invariant of contract and chain

`Inv` holds in every reachable world (`inv_of_reachable`); the property theorems read their facts off it.
-/
namespace Ica

/-- A non-empty address accepted by the contract. -/
def GoodAddr (api : Api) (a : String) : Prop :=
  a ≠ "" ∧ (utf8 a).length ≤ 128 ∧ ∀ c ∈ a.toList, isAlphanumeric api c = true

/-- The invariant. -/
structure Inv (api : Api) (w : World) : Prop where
  noOpenFlag : w.store.allowOpenInit ≠ some true
  noCloseFlag : w.store.allowCloseInit ≠ some true
  noScratch : w.store.query = none
  dead : w.live = false → w.store = Store.empty ∧ w.chans = (fun _ => none) ∧ w.commits = (fun _ _ => none)
  owner : w.live = true → ∃ ow o, w.store.ownership = some ow ∧ ow.owner = some o
  state : w.live = true → ∃ st, w.store.state = some st
  options : w.live = true → ∃ o, w.store.options = some o
  version : w.live = true → w.store.version = some ⟨CONTRACT_NAME, CONTRACT_VERSION⟩
  icaChannel : ∀ st, w.store.state = some st → (st.icaInfo = none ↔ w.store.channel = none)
  icaInfo : ∀ st i, w.store.state = some st → st.icaInfo = some i →
    GoodAddr api i.icaAddress ∧ i.encoding = .protobuf ∧
    ∀ cs, w.store.channel = some cs → cs.channel.endpoint.channelId = i.channelId
  tracked : ∀ cs, w.store.channel = some cs →
    (cs.channelStatus = .opened ∨ cs.channelStatus = .closed) ∧
    ∃ c, w.chans cs.channel.endpoint.channelId = some c ∧ c.chan = cs.channel ∧ c.status ≠ .init ∧
      (cs.channelStatus = .opened → c.status = .opened)
  chans : ∀ id c, w.chans id = some c →
    c.chan.endpoint = ⟨portOf w.env.contractAddr, id⟩ ∧ c.chan.counterpartyEndpoint.portId = "icahost"
  commits : ∀ id n p, w.commits id n = some p →
    p.src = ⟨portOf w.env.contractAddr, id⟩ ∧ p.sequence = n ∧ n.toNat < w.nextSeq id ∧ ∃ c, w.chans id = some c
  pending : ∀ id n q, w.store.pending id n = some q → n.toNat < w.nextSeq id
  seqs : ∀ id, 1 ≤ w.nextSeq id

theorem portOf_ne_icahost (a : String) : portOf a ≠ "icahost" := by
  intro h
  have h1 : (portOf a).toList = "icahost".toList := by rw [h]
  have h2 : (portOf a).toList = "wasm.".toList ++ a.toList := by simp [portOf]
  rw [h2] at h1
  have h3 : "wasm.".toList = ['w', 'a', 's', 'm', '.'] := by decide +kernel
  have h4 : "icahost".toList = ['i', 'c', 'a', 'h', 'o', 's', 't'] := by decide +kernel
  rw [h3, h4] at h1
  simp at h1

theorem metaOk_goodAddr {api : Api} {m : IcaMetadata} {conn : String} (h : MetaOk api m conn)
    (ha : m.address ≠ "") : GoodAddr api m.address :=
  ⟨ha, (h.address.resolve_left ha)⟩

theorem inv_genesis (api : Api) (env : Env) : Inv api (World.genesis env) where
  noOpenFlag := by simp [World.genesis, Store.empty]
  noCloseFlag := by simp [World.genesis, Store.empty]
  noScratch := rfl
  dead _ := ⟨rfl, rfl, rfl⟩
  owner h := by cases h
  state h := by cases h
  options h := by cases h
  version h := by cases h
  icaChannel st h := by cases h
  icaInfo st i h := by cases h
  tracked cs h := by cases h
  chans id c h := by cases h
  commits id n p h := by cases h
  pending id n q h := by cases h
  seqs id := Nat.le_refl 1

theorem setChan_eq_some {f : String → Option ChainChan} {id id' : String} {c c' : ChainChan} :
    setChan f id c id' = some c' ↔ (id' = id ∧ c' = c) ∨ (id' ≠ id ∧ f id' = some c') := by
  unfold setChan
  split
  · rename_i h; simp [h, eq_comm]
  · rename_i h; simp [h]

theorem setChan_same (f : String → Option ChainChan) (id : String) (c : ChainChan) :
    setChan f id c id = some c := by simp [setChan]

theorem setChan_ne {f : String → Option ChainChan} {id id' : String} (c : ChainChan) (h : id' ≠ id) :
    setChan f id c id' = f id' := by simp [setChan, h]

theorem setChan_isSome {f : String → Option ChainChan} {id id' : String} {c : ChainChan}
    (h : ∃ x, f id' = some x) : ∃ x, setChan f id c id' = some x := by
  by_cases e : id' = id
  · subst e; exact ⟨c, setChan_same _ _ _⟩
  · rw [setChan_ne c e]; exact h

theorem setPending_eq_some {p : String → UInt64 → Option QueryPaths} {id id' : String} {n n' : UInt64}
    {v : Option QueryPaths} {q : QueryPaths} (h : setPending p id n v id' n' = some q) :
    (id' = id ∧ n' = n ∧ v = some q) ∨ p id' n' = some q := by
  unfold setPending at h
  split at h
  · rename_i e; exact Or.inl ⟨e.1, e.2, h⟩
  · exact Or.inr h

theorem setPending_none {p : String → UInt64 → Option QueryPaths} {id id' : String} {n n' : UInt64}
    {q : QueryPaths} (h : setPending p id n none id' n' = some q) : p id' n' = some q := by
  rcases setPending_eq_some h with ⟨_, _, h⟩ | h
  · cases h
  · exact h

theorem setCommit_eq_some {f : String → UInt64 → Option IbcPacket} {id id' : String} {n n' : UInt64}
    {v : Option IbcPacket} {p : IbcPacket} (h : setCommit f id n v id' n' = some p) :
    (id' = id ∧ n' = n ∧ v = some p) ∨ f id' n' = some p := by
  unfold setCommit at h
  split at h
  · rename_i e; exact Or.inl ⟨e.1, e.2, h⟩
  · exact Or.inr h

theorem setCommit_none {f : String → UInt64 → Option IbcPacket} {id id' : String} {n n' : UInt64}
    {p : IbcPacket} (h : setCommit f id n none id' n' = some p) : f id' n' = some p := by
  rcases setCommit_eq_some h with ⟨_, _, h⟩ | h
  · cases h
  · exact h

theorem cmpNat_self (n : Nat) : Semver.cmpNat n n = .eq := by simp [Semver.cmpNat]
theorem cmpChars_self (l : List Char) : Semver.cmpChars l l = .eq := by
  induction l with
  | nil => rfl
  | cons a l ih => simp [Semver.cmpChars, ih]
theorem cmpSegs_self {c : List Char → List Char → Ordering} (h : ∀ x, c x x = .eq) (l : List (List Char)) :
    Semver.cmpSegs c l l = .eq := by
  induction l with
  | nil => rfl
  | cons a l ih => simp [Semver.cmpSegs, ih, h]
theorem cmp_self (v : Semver.Version) : Semver.cmp v v = .eq := by
  have h1 : ∀ x, Semver.cmpPreSeg x x = .eq := by
    intro x
    unfold Semver.cmpPreSeg
    cases x.all isDigit <;> simp [cmpNat_self, cmpChars_self]
  have h2 : ∀ x, Semver.cmpBuildSeg x x = .eq := by
    intro x
    unfold Semver.cmpBuildSeg
    cases x.all isDigit <;> simp [cmpNat_self, cmpChars_self]
  have h3 : Semver.cmpPre v.pre v.pre = .eq := by
    unfold Semver.cmpPre
    split <;> simp_all [cmpSegs_self]
  simp [Semver.cmp, cmpNat_self, h3, Semver.cmpBuild, cmpSegs_self h2]

/-- Migration of a contract of the current version fails. -/
theorem migrate_current {s : Store} (h : s.version = some ⟨CONTRACT_NAME, CONTRACT_VERSION⟩)
    {r : Store × Response} : migrate s ≠ .ok r := by
  intro hr
  obtain ⟨s', x⟩ := r
  obtain ⟨⟨prev, p, v, h1, _, h3, h4, h5⟩, _⟩ := migrate_eq_ok.1 hr
  rw [h] at h1
  cases h1
  rw [h3] at h4
  cases h4
  rw [cmp_self] at h5
  cases h5

theorem storeAfterSend_fields (s : Store) (id : String) (n : UInt64) (qs : List QueryRequest)
    (cqs : List (String × Bytes × Bool)) :
    (storeAfterSend s id n qs cqs).version = s.version ∧
    (storeAfterSend s id n qs cqs).ownership = s.ownership ∧
    (storeAfterSend s id n qs cqs).state = s.state ∧
    (storeAfterSend s id n qs cqs).channel = s.channel ∧
    (storeAfterSend s id n qs cqs).options = s.options ∧
    (storeAfterSend s id n qs cqs).allowOpenInit = s.allowOpenInit ∧
    (storeAfterSend s id n qs cqs).allowCloseInit = s.allowCloseInit := by
  unfold storeAfterSend
  split <;> simp

theorem storeAfterSend_query {s : Store} (h : s.query = none) (id : String) (n : UInt64) (qs : List QueryRequest)
    (cqs : List (String × Bytes × Bool)) : (storeAfterSend s id n qs cqs).query = none := by
  unfold storeAfterSend
  split <;> simp [h]

theorem storeAfterSend_pending {s : Store} {id id' : String} {n n' : UInt64} {qs : List QueryRequest}
    {cqs : List (String × Bytes × Bool)} {q : QueryPaths}
    (h : (storeAfterSend s id n qs cqs).pending id' n' = some q) :
    (id' = id ∧ n' = n ∧ qs ≠ [] ∧ q = queryPaths cqs) ∨ s.pending id' n' = some q := by
  unfold storeAfterSend at h
  split at h
  · exact Or.inr h
  · rename_i hq
    rcases setPending_eq_some h with ⟨a, b, c⟩ | h
    · exact Or.inl ⟨a, b, hq, by cases c; rfl⟩
    · exact Or.inr h

theorem setSeq_le {f : String → Nat} {id id' : String} {m : Nat} (h : m < f id') :
    m < setSeq f id (f id + 1) id' := by
  unfold setSeq
  split
  · rename_i e; subst e; omega
  · exact h

theorem Inv.chan_id {api : Api} {w : World} (h : Inv api w) {id : String} {c : ChainChan}
    (hc : w.chans id = some c) : c.chan.endpoint.channelId = id := by
  rw [(h.chans id c hc).1]

theorem Inv.live_of_state {api : Api} {w : World} (h : Inv api w) {st : ContractState}
    (hs : w.store.state = some st) : w.live = true := by
  cases hl : w.live with
  | true => rfl
  | false => rw [(h.dead hl).1] at hs; cases hs

theorem Inv.live_of_chan {api : Api} {w : World} (h : Inv api w) {id : String} {c : ChainChan}
    (hs : w.chans id = some c) : w.live = true := by
  cases hl : w.live with
  | true => rfl
  | false => rw [(h.dead hl).2.1] at hs; cases hs

theorem Inv.live_of_channel {api : Api} {w : World} (h : Inv api w) {cs : ChannelState}
    (hs : w.store.channel = some cs) : w.live = true := by
  cases hl : w.live with
  | true => rfl
  | false => rw [(h.dead hl).1] at hs; cases hs

theorem inv_create {api : Api} {w : World} (h : Inv api w) (hl : w.live = true) {fresh : String}
    {o : ChannelOpenInitOptions} (hf : w.chans fresh = none) (hp : o.counterpartyPortId.getD "icahost" = "icahost") :
    Inv api { w with
      store := { w.store with options := some o, allowOpenInit := some false }
      chans := setChan w.chans fresh ⟨proposalChannel w.env.contractAddr fresh o, .init⟩ } where
  noOpenFlag := by simp
  noCloseFlag := h.noCloseFlag
  noScratch := h.noScratch
  dead h' := by rw [hl] at h'; cases h'
  owner := h.owner
  state := h.state
  options _ := ⟨o, rfl⟩
  version := h.version
  icaChannel := h.icaChannel
  icaInfo := h.icaInfo
  tracked cs hcs := by
    obtain ⟨a, c, b, d⟩ := h.tracked cs hcs
    refine ⟨a, c, ?_, d⟩
    show setChan _ _ _ _ = _
    rw [setChan_ne _ (fun e => by rw [e, hf] at b; cases b)]
    exact b
  chans id c hc := by
    rcases setChan_eq_some.1 hc with ⟨rfl, rfl⟩ | ⟨_, hc⟩
    · exact ⟨rfl, hp⟩
    · exact h.chans id c hc
  commits id n p hc := by
    obtain ⟨a, b, c, d⟩ := h.commits id n p hc
    exact ⟨a, b, c, setChan_isSome d⟩
  pending := h.pending
  seqs := h.seqs

theorem inv_close {api : Api} {w : World} (h : Inv api w) {id : String} {c : ChainChan}
    (hc : w.chans id = some c) (_ht : w.store.channel = some ⟨c.chan, .opened⟩) (f : Option Bool)
    (hf : f ≠ some true) :
    Inv api { w with
      store := { w.store with allowCloseInit := f, channel := some ⟨c.chan, .closed⟩ }
      chans := setChan w.chans id ⟨c.chan, .closed⟩ } where
  noOpenFlag := h.noOpenFlag
  noCloseFlag := hf
  noScratch := h.noScratch
  dead h' := by rw [h.live_of_chan hc] at h'; cases h'
  owner := h.owner
  state := h.state
  options := h.options
  version := h.version
  icaChannel st hs := by
    have := h.icaChannel st hs
    rw [_ht] at this
    simpa using this
  icaInfo st i hs hi := by
    obtain ⟨a, b, d⟩ := h.icaInfo st i hs hi
    refine ⟨a, b, fun cs hcs => ?_⟩
    cases hcs
    have := d _ _ht
    exact this
  tracked cs hcs := by
    cases hcs
    have hid := h.chan_id hc
    refine ⟨Or.inr rfl, ⟨c.chan, .closed⟩, ?_, rfl, by simp, by simp⟩
    show setChan _ _ _ _ = _
    rw [hid]
    exact setChan_same _ _ _
  chans id' c' hc' := by
    rcases setChan_eq_some.1 hc' with ⟨rfl, rfl⟩ | ⟨_, hc'⟩
    · exact h.chans id' c hc
    · exact h.chans id' c' hc'
  commits id n p hc := by
    obtain ⟨a, b, c, d⟩ := h.commits id n p hc
    exact ⟨a, b, c, setChan_isSome d⟩
  pending := h.pending
  seqs := h.seqs

theorem inv_ownership {api : Api} {w : World} (h : Inv api w) {ow : Ownership} {o : String}
    (hl : w.live = true) (ho : ow.owner = some o) :
    Inv api { w with store := { w.store with ownership := some ow } } where
  noOpenFlag := h.noOpenFlag
  noCloseFlag := h.noCloseFlag
  noScratch := h.noScratch
  dead h' := by rw [hl] at h'; cases h'
  owner _ := ⟨ow, o, rfl, ho⟩
  state := h.state
  options := h.options
  version := h.version
  icaChannel := h.icaChannel
  icaInfo := h.icaInfo
  tracked := h.tracked
  chans := h.chans
  commits := h.commits
  pending := h.pending
  seqs := h.seqs

theorem inv_openAck {api : Api} {w : World} (h : Inv api w) {id cpId v : String} {c : ChainChan}
    {st : ContractState} {m : IcaMetadata} (hc : w.chans id = some c) (hm : MetaOk api m c.chan.connectionId) (ha : m.address ≠ "") :
    Inv api { w with
      store := { w.store with
        state := some { st with icaInfo := some ⟨m.address, c.chan.endpoint.channelId, m.encoding⟩ }
        channel := some ⟨ackedChan c.chan cpId v, .opened⟩ }
      chans := setChan w.chans id ⟨ackedChan c.chan cpId v, .opened⟩ } where
  noOpenFlag := h.noOpenFlag
  noCloseFlag := h.noCloseFlag
  noScratch := h.noScratch
  dead h' := by rw [h.live_of_chan hc] at h'; cases h'
  owner := h.owner
  state _ := ⟨_, rfl⟩
  options := h.options
  version := h.version
  icaChannel st hs := by cases hs; simp
  icaInfo st' i hs hi := by
    cases hs
    cases hi
    refine ⟨metaOk_goodAddr hm ha, hm.encoding, fun cs hcs => ?_⟩
    cases hcs
    rfl
  tracked cs hcs := by
    cases hcs
    refine ⟨Or.inl rfl, ⟨ackedChan c.chan cpId v, .opened⟩, ?_, rfl, by simp, fun _ => rfl⟩
    show setChan _ _ _ (c.chan.endpoint.channelId) = _
    rw [h.chan_id hc]
    exact setChan_same _ _ _
  chans id' c' hc' := by
    rcases setChan_eq_some.1 hc' with ⟨rfl, rfl⟩ | ⟨_, hc'⟩
    · exact h.chans id' c hc
    · exact h.chans id' c' hc'
  commits id n p hc := by
    obtain ⟨a, b, c, d⟩ := h.commits id n p hc
    exact ⟨a, b, c, setChan_isSome d⟩
  pending := h.pending
  seqs := h.seqs

theorem inv_ack {api : Api} {w : World} (h : Inv api w) {id : String} {n : UInt64} {c : ChainChan}
    (hc : w.chans id = some c) (id' : String) (n' : UInt64) :
    Inv api { w with
      store := { w.store with pending := setPending w.store.pending id' n' none }
      commits := setCommit w.commits id n none } where
  noOpenFlag := h.noOpenFlag
  noCloseFlag := h.noCloseFlag
  noScratch := h.noScratch
  dead h' := by rw [h.live_of_chan hc] at h'; cases h'
  owner := h.owner
  state := h.state
  options := h.options
  version := h.version
  icaChannel := h.icaChannel
  icaInfo := h.icaInfo
  tracked := h.tracked
  chans := h.chans
  commits i k p hp := h.commits i k p (setCommit_none hp)
  pending i k q hq := h.pending i k q (setPending_none hq)
  seqs := h.seqs

theorem inv_ackErr {api : Api} {w : World} (h : Inv api w) {id : String} {n : UInt64} {c : ChainChan}
    (hc : w.chans id = some c) :
    Inv api { w with commits := setCommit w.commits id n none } where
  noOpenFlag := h.noOpenFlag
  noCloseFlag := h.noCloseFlag
  noScratch := h.noScratch
  dead h' := by rw [h.live_of_chan hc] at h'; cases h'
  owner := h.owner
  state := h.state
  options := h.options
  version := h.version
  icaChannel := h.icaChannel
  icaInfo := h.icaInfo
  tracked := h.tracked
  chans := h.chans
  commits i k p hp := h.commits i k p (setCommit_none hp)
  pending := h.pending
  seqs := h.seqs

theorem inv_timeout {api : Api} {w : World} (h : Inv api w) {id : String} {n : UInt64} {c : ChainChan}
    (hc : w.chans id = some c) {cs : ChannelState} (hcs : w.store.channel = some cs)
    (id' : String) (n' : UInt64) :
    Inv api { w with
      store := { w.store with
        channel := some (if cs.channel.order = .ordered then ⟨cs.channel, .closed⟩ else cs)
        pending := setPending w.store.pending id' n' none }
      commits := setCommit w.commits id n none
      chans := if c.chan.order = .ordered then setChan w.chans id ⟨c.chan, .closed⟩ else w.chans } where
  noOpenFlag := h.noOpenFlag
  noCloseFlag := h.noCloseFlag
  noScratch := h.noScratch
  dead h' := by rw [h.live_of_chan hc] at h'; cases h'
  owner := h.owner
  state := h.state
  options := h.options
  version := h.version
  icaChannel st hs := by
    have := h.icaChannel st hs
    rw [hcs] at this
    simpa using this
  icaInfo st i hs hi := by
    obtain ⟨a, b, d⟩ := h.icaInfo st i hs hi
    refine ⟨a, b, fun cs' hcs' => ?_⟩
    cases hcs'
    have := d _ hcs
    split <;> exact this
  tracked cs' hcs' := by
    cases hcs'
    obtain ⟨a, k, hk, hk2, hk3, hk4⟩ := h.tracked cs hcs
    by_cases ho : cs.channel.order = .ordered
    · rw [if_pos ho]
      refine ⟨Or.inr rfl, ?_⟩
      by_cases e : cs.channel.endpoint.channelId = id
      · rw [e] at hk ⊢
        rw [hc] at hk
        cases hk
        rw [if_pos (by rw [hk2]; exact ho)]
        exact ⟨_, setChan_same _ _ _, hk2, by simp, by simp⟩
      · refine ⟨k, ?_, hk2, hk3, by simp⟩
        split
        · exact (setChan_ne _ e).trans hk
        · exact hk
    · rw [if_neg ho]
      refine ⟨a, k, ?_, hk2, hk3, hk4⟩
      by_cases e : cs.channel.endpoint.channelId = id
      · rw [e] at hk ⊢
        rw [hc] at hk
        cases hk
        rw [if_neg (by rw [hk2]; exact ho)]
        exact hc
      · split
        · exact (setChan_ne _ e).trans hk
        · exact hk
  chans id' c' hc' := by
    simp only at hc'
    split at hc'
    · rcases setChan_eq_some.1 hc' with ⟨rfl, rfl⟩ | ⟨_, hc'⟩
      · exact h.chans id' c hc
      · exact h.chans id' c' hc'
    · exact h.chans id' c' hc'
  commits i k p hp := by
    obtain ⟨a, b, c, d⟩ := h.commits i k p (setCommit_none hp)
    refine ⟨a, b, c, ?_⟩
    dsimp only
    split
    · exact setChan_isSome d
    · exact d
  pending i k q hq := h.pending i k q (setPending_none hq)
  seqs := h.seqs

theorem inv_send {api : Api} {w : World} (h : Inv api w) (hl : w.live = true) {id : String} {c : ChainChan}
    (hc : w.chans id = some c) (hn : w.nextSeq id < 18446744073709551616) (qs : List QueryRequest)
    (cqs : List (String × Bytes × Bool)) (p : IbcPacket) (hp : p.src = c.chan.endpoint)
    (hpn : p.sequence = UInt64.ofNat (w.nextSeq id)) :
    Inv api { w with
      store := storeAfterSend w.store id (UInt64.ofNat (w.nextSeq id)) qs cqs
      nextSeq := setSeq w.nextSeq id (w.nextSeq id + 1)
      commits := setCommit w.commits id (UInt64.ofNat (w.nextSeq id)) (some p) } := by
  obtain ⟨f1, f2, f3, f4, f5, f6, f7⟩ := storeAfterSend_fields w.store id (UInt64.ofNat (w.nextSeq id)) qs cqs
  have hlt : (UInt64.ofNat (w.nextSeq id)).toNat = w.nextSeq id := by
    rw [UInt64.toNat_ofNat']; exact Nat.mod_eq_of_lt hn
  have hself : w.nextSeq id < setSeq w.nextSeq id (w.nextSeq id + 1) id := by simp [setSeq]
  exact {
    noOpenFlag := by dsimp only; rw [f6]; exact h.noOpenFlag
    noCloseFlag := by dsimp only; rw [f7]; exact h.noCloseFlag
    noScratch := storeAfterSend_query h.noScratch _ _ _ _
    dead := fun h' => by rw [hl] at h'; cases h'
    owner := by dsimp only; rw [f2]; exact h.owner
    state := by dsimp only; rw [f3]; exact h.state
    options := by dsimp only; rw [f5]; exact h.options
    version := by dsimp only; rw [f1]; exact h.version
    icaChannel := by dsimp only; rw [f3, f4]; exact h.icaChannel
    icaInfo := by dsimp only; rw [f3, f4]; exact h.icaInfo
    tracked := by dsimp only; rw [f4]; exact h.tracked
    chans := h.chans
    commits := by
      intro i k q hq
      rcases setCommit_eq_some hq with ⟨rfl, rfl, e⟩ | hq
      · cases e
        refine ⟨?_, hpn, ?_, c, hc⟩
        · rw [hp]; exact (h.chans _ c hc).1
        · dsimp only; rw [hlt]; exact hself
      · obtain ⟨a, b, d, e⟩ := h.commits i k q hq
        exact ⟨a, b, setSeq_le d, e⟩
    pending := by
      intro i k q hq
      rcases storeAfterSend_pending hq with ⟨rfl, rfl, _⟩ | hq
      · dsimp only; rw [hlt]; exact hself
      · exact setSeq_le (h.pending i k q hq)
    seqs := by
      intro i
      dsimp only
      unfold setSeq
      split
      · omega
      · exact h.seqs i }

theorem inv_callback {api : Api} {w : World} (h : Inv api w) (hl : w.live = true) {st : ContractState}
    (hst : w.store.state = some st) (a : Option String) :
    Inv api { w with store := { w.store with state := some { st with callbackAddress := a } } } where
  noOpenFlag := h.noOpenFlag
  noCloseFlag := h.noCloseFlag
  noScratch := h.noScratch
  dead h' := by rw [hl] at h'; cases h'
  owner := h.owner
  state _ := ⟨_, rfl⟩
  options := h.options
  version := h.version
  icaChannel st' hs := by cases hs; exact h.icaChannel st hst
  icaInfo st' i hs hi := by cases hs; exact h.icaInfo st i hst hi
  tracked := h.tracked
  chans := h.chans
  commits := h.commits
  pending := h.pending
  seqs := h.seqs

theorem inv_instantiate {api : Api} {w : World} (h : Inv api w) (hl : w.live = false) {fresh owner : String}
    {cb : Option String} {o : ChannelOpenInitOptions} (hp : o.counterpartyPortId.getD "icahost" = "icahost") :
    Inv api { w with
      live := true
      store := { w.store with
        version := some ⟨CONTRACT_NAME, CONTRACT_VERSION⟩
        ownership := some ⟨some owner, none, none⟩
        state := some ⟨none, cb⟩
        options := some o
        allowOpenInit := some false }
      chans := setChan w.chans fresh ⟨proposalChannel w.env.contractAddr fresh o, .init⟩ } := by
  obtain ⟨d1, d2, d3⟩ := h.dead hl
  exact {
    noOpenFlag := by simp
    noCloseFlag := h.noCloseFlag
    noScratch := h.noScratch
    dead := fun h' => by cases h'
    owner := fun _ => ⟨_, _, rfl, rfl⟩
    state := fun _ => ⟨_, rfl⟩
    options := fun _ => ⟨_, rfl⟩
    version := fun _ => rfl
    icaChannel := fun st hs => by cases hs; rw [d1]; simp [Store.empty]
    icaInfo := fun st i hs hi => by cases hs; cases hi
    tracked := fun cs hcs => by
      have : w.store.channel = some cs := hcs
      rw [d1] at this
      cases this
    chans := fun id c hc => by
      rcases setChan_eq_some.1 hc with ⟨rfl, rfl⟩ | ⟨_, hc⟩
      · exact ⟨rfl, hp⟩
      · rw [d2] at hc; cases hc
    commits := fun id n p hc => by
      have : w.commits id n = some p := hc
      rw [d3] at this
      cases this
    pending := h.pending
    seqs := h.seqs }

theorem inv_block {api : Api} {w : World} (h : Inv api w) (ht t : UInt64) :
    Inv api { w with env := { w.env with height := ht, time := t } } where
  noOpenFlag := h.noOpenFlag
  noCloseFlag := h.noCloseFlag
  noScratch := h.noScratch
  dead := h.dead
  owner := h.owner
  state := h.state
  options := h.options
  version := h.version
  icaChannel := h.icaChannel
  icaInfo := h.icaInfo
  tracked := h.tracked
  chans := h.chans
  commits := h.commits
  pending := h.pending
  seqs := h.seqs

/-- Every committed operation keeps the invariant. -/
theorem inv_step {api : Api} {w w' : World} {op : Op} {obs : List Obs} (h : Inv api w)
    (ha : apply api w op = some (w', obs)) : Inv api w' := by
  cases op with
  | block ht t => obtain ⟨_, _, rfl, _⟩ := apply_block.1 ha; exact inv_block h _ _
  | instantiate sender msg fresh core =>
    obtain ⟨hl, _, _, _, _, hp, _, rfl, _⟩ := apply_instantiate.1 ha
    exact inv_instantiate h hl hp
  | execute sender msg fresh core =>
    cases msg with
    | createChannel o =>
      obtain ⟨hl, _, _, hf, _, o', _, hp, rfl, _⟩ := apply_create.1 ha
      exact inv_create h hl hf hp
    | closeChannel =>
      obtain ⟨hl, _, _, ch, c, h1, h2, h3, _, rfl, _⟩ := apply_close.1 ha
      subst h3
      exact inv_close h h2 h1 _ (by simp)
    | sendCosmosMsgs ms qs memo t =>
      obtain ⟨hl, _, _, st, info, anys, cqs, c, ts, p, _, _, _, _, _, _, hc, _, hn, hp, rfl, _⟩ :=
        apply_send.1 ha
      exact inv_send h hl hc hn qs cqs p (by rw [hp]) (by rw [hp])
    | updateCallbackAddress a =>
      obtain ⟨hl, _, _, st, hst, rfl, _⟩ := apply_callback.1 ha
      exact inv_callback h hl hst a
    | updateOwnership a =>
      cases a with
      | transferOwnership n e =>
        obtain ⟨hl, ow, _, ho, _, rfl, _⟩ := apply_transfer.1 ha
        exact inv_ownership h hl ho
      | acceptOwnership =>
        obtain ⟨hl, ow, _, ho, rfl, _⟩ := apply_accept.1 ha
        exact inv_ownership h hl rfl
      | renounceOwnership => rw [apply_renounce] at ha; cases ha
  | migrate =>
    obtain ⟨hl, ⟨r, hr⟩, _⟩ := apply_migrate.1 ha
    exact absurd hr (migrate_current (h.version hl))
  | relayOpenInit m fresh => exact absurd (apply_relayOpenInit_needs ha) h.noOpenFlag
  | relayOpenTry ch v => rw [apply_openTry] at ha; cases ha
  | relayOpenAck id cpId v =>
    obtain ⟨c, st, m, hc, _, _, _, _, hm, hne, rfl, _⟩ := apply_openAck.1 ha
    exact inv_openAck h hc hm hne
  | relayOpenConfirm ch => rw [apply_openConfirm] at ha; cases ha
  | relayCloseInit id =>
    obtain ⟨c, _, _, hf, _⟩ := apply_relayCloseInit.1 ha
    exact absurd hf h.noCloseFlag
  | relayCloseConfirm id =>
    obtain ⟨c, hc, _, ht, rfl, _⟩ := apply_closeConfirm.1 ha
    exact inv_close h hc ht _ h.noCloseFlag
  | relayRecv p => rw [apply_recv] at ha; cases ha
  | relayAck id seq ack relayer =>
    obtain ⟨p, c, st, _, hc, _, _, ⟨_, _, _, _, rfl, _⟩ | ⟨_, _, rfl, _⟩⟩ := apply_ack.1 ha
    · exact inv_ack h hc _ _
    · exact inv_ackErr h hc
  | relayTimeout id seq relayer =>
    obtain ⟨p, c, st, cs, _, hc, _, hcs, rfl, _⟩ := apply_timeout.1 ha
    exact inv_timeout h hc hcs _ _

/-- Histories keep the invariant. -/
theorem inv_exec {api : Api} {w0 w : World} {hist : List (Op × List Obs)} (h0 : Inv api w0)
    (he : Exec api w0 hist w) : Inv api w := by
  induction he with
  | nil => exact h0
  | step _ ha ih => exact inv_step ih ha

theorem inv_of_reachable {api : Api} {w : World} (h : Reachable api w) : Inv api w := by
  obtain ⟨env, hist, he⟩ := h
  exact inv_exec (inv_genesis api env) he

theorem Reachable.step {api : Api} {w w' : World} {op : Op} {obs : List Obs} (h : Reachable api w)
    (ha : apply api w op = some (w', obs)) : Reachable api w' := by
  obtain ⟨env, hist, he⟩ := h
  exact ⟨env, _, .step he ha⟩

theorem Exec.append {api : Api} {w0 w1 w2 : World} {h1 h2 : List (Op × List Obs)} (a : Exec api w0 h1 w1)
    (b : Exec api w1 h2 w2) : Exec api w0 (h1 ++ h2) w2 := by
  induction b with
  | nil => simpa using a
  | step _ hs ih => rw [← List.append_assoc]; exact .step ih hs

/-- A history that ends with an operation. -/
theorem Exec.concat_inv {api : Api} {w0 w : World} {h : List (Op × List Obs)} {op : Op} {obs : List Obs}
    (he : Exec api w0 (h ++ [(op, obs)]) w) :
    ∃ w1, Exec api w0 h w1 ∧ apply api w1 op = some (w, obs) := by
  generalize hh : h ++ [(op, obs)] = l at he
  cases he with
  | nil => simp at hh
  | step a b =>
    obtain ⟨h1, h2⟩ := List.append_inj' hh rfl
    simp only [List.cons.injEq, Prod.mk.injEq, and_true] at h2
    obtain ⟨rfl, rfl⟩ := h2
    subst h1
    exact ⟨_, a, b⟩

/-- A history splits at every point. -/
theorem Exec.split {api : Api} {w0 w : World} {h : List (Op × List Obs)} (he : Exec api w0 h w) :
    ∀ h1 h2, h = h1 ++ h2 → ∃ w1, Exec api w0 h1 w1 ∧ Exec api w1 h2 w := by
  induction he with
  | nil =>
    intro h1 h2 e
    obtain ⟨rfl, rfl⟩ := List.nil_eq_append_iff.1 e
    exact ⟨_, .nil, .nil⟩
  | @step l w1 w2 op obs a b ih =>
    intro h1 h2 e
    rcases List.eq_nil_or_concat h2 with rfl | ⟨h2', x, rfl⟩
    · rw [List.append_nil] at e
      subst e
      exact ⟨_, .step a b, .nil⟩
    · rw [List.concat_eq_append, ← List.append_assoc] at e
      obtain ⟨e1, e2⟩ := List.append_inj' e rfl
      cases e2
      obtain ⟨w3, c, d⟩ := ih h1 h2' e1
      rw [List.concat_eq_append]
      exact ⟨w3, c, .step d b⟩

end Ica
