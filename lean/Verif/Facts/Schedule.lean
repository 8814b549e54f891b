import Verif.Spec.Schedule
import Verif.Facts.History

/-!
# Moving outcomes about

`settle` is all that an outcome changes (if no ordered channel is concerned), `Guard` what it depends on.
-/
namespace Ica.Schedule
open Spec

variable {api : Api} {w w1 w2 : World} {op : Op} {obs : List Obs} {id : String} {n : UInt64} {clr : Bool}

/-- What an outcome changes. -/
def settle (id : String) (n : UInt64) (clr : Bool) (w : World) : World :=
  { w with
    store := { w.store with pending := if clr then setPending w.store.pending id n none else w.store.pending }
    commits := setCommit w.commits id n none }

/-- What an outcome depends on. -/
inductive Guard (w : World) : Op → String → UInt64 → Bool → List Obs → Prop where
  | ackOk (id : String) (seq : UInt64) (ack : Bytes) (relayer : String) (p : IbcPacket) (c : ChainChan)
      (st : ContractState) (res : Bytes) (q : Option IcaQueryResult) :
      w.commits id seq = some p → w.chans id = some c → c.status = .opened → w.store.state = some st →
      AckData.jc.ofBytes ack = some (.result res) → ackQueryResult (w.store.pending id seq) res = .ok q →
      Guard w (.relayAck id seq ack relayer) id seq true
        (.event (ackSuccessEvent p res) ::
          callObs st.callbackAddress (.onAcknowledgementPacketCallback (.result res) p relayer q))
  | ackErr (id : String) (seq : UInt64) (ack : Bytes) (relayer : String) (p : IbcPacket) (c : ChainChan)
      (st : ContractState) (e : String) :
      w.commits id seq = some p → w.chans id = some c → c.status = .opened → w.store.state = some st →
      AckData.jc.ofBytes ack = some (.error e) →
      Guard w (.relayAck id seq ack relayer) id seq false
        (.event (ackErrorEvent p e) ::
          callObs st.callbackAddress (.onAcknowledgementPacketCallback (.error e) p relayer (some (.error e))))
  | timeout (id : String) (seq : UInt64) (relayer : String) (p : IbcPacket) (c : ChainChan) (st : ContractState)
      (cs : ChannelState) :
      w.commits id seq = some p → w.chans id = some c → w.store.state = some st → w.store.channel = some cs →
      Guard w (.relayTimeout id seq relayer) id seq true
        (callObs st.callbackAddress (.onTimeoutPacketCallback p relayer))

theorem Guard.inFlight (h : Guard w op id n clr obs) : w.commits id n ≠ none := by
  cases h with
  | ackOk _ _ _ _ _ _ _ _ _ h => rw [h]; simp
  | ackErr _ _ _ _ _ _ _ _ h => rw [h]; simp
  | timeout _ _ _ _ _ _ _ h => rw [h]; simp

/-- The operation is a timeout. -/
def IsTimeout : Op → Prop
  | .relayTimeout .. => True
  | _ => False

theorem guard_of_step (hi : Inv api w) (hs : Step api w op w1 obs) (hb : brings op = some (id, n))
    (ht : IsTimeout op → AllUnordered w) : ∃ clr, Guard w op id n clr obs ∧ w1 = settle id n clr w := by
  cases hs with
  | ackOk id seq ack relayer p c st res q h1 h2 h3 h4 h5 h6 =>
    cases hb
    exact ⟨true, .ackOk _ _ _ _ _ _ _ _ _ h1 h2 h3 h4 h5 h6, rfl⟩
  | ackErr id seq ack relayer p c st e h1 h2 h3 h4 h5 =>
    cases hb
    exact ⟨false, .ackErr _ _ _ _ _ _ _ _ h1 h2 h3 h4 h5, rfl⟩
  | timeout id seq relayer p c st cs h1 h2 h3 h4 =>
    cases hb
    refine ⟨true, .timeout _ _ _ _ _ _ _ h1 h2 h3 h4, ?_⟩
    have hu := ht trivial
    obtain ⟨_, c', hc', e, _⟩ := hi.tracked _ h4
    have e1 : cs.channel.order ≠ .ordered := by rw [← e, hu _ _ hc']; simp
    have e2 : c.chan.order ≠ .ordered := by rw [hu _ _ h2]; simp
    rw [if_neg e1, if_neg e2, ← h4]
    rfl
  | _ => cases hb

theorem step_of_guard (hi : Inv api w) (hg : Guard w op id n clr obs) (ht : IsTimeout op → AllUnordered w) :
    Step api w op (settle id n clr w) obs := by
  cases hg with
  | ackOk _ _ ack relayer p c st res q h1 h2 h3 h4 h5 h6 => exact .ackOk _ _ _ _ _ _ _ _ _ h1 h2 h3 h4 h5 h6
  | ackErr _ _ ack relayer p c st e h1 h2 h3 h4 h5 => exact .ackErr _ _ _ _ _ _ _ _ h1 h2 h3 h4 h5
  | timeout _ _ relayer p c st cs h1 h2 h3 h4 =>
    have hu := ht trivial
    obtain ⟨_, c', hc', e, _⟩ := hi.tracked _ h4
    have e1 : cs.channel.order ≠ .ordered := by rw [← e, hu _ _ hc']; simp
    have e2 : c.chan.order ≠ .ordered := by rw [hu _ _ h2]; simp
    have := Step.timeout (api := api) (w := w) id n relayer p c st cs h1 h2 h3 h4
    rw [if_neg e1, if_neg e2, ← h4] at this
    exact this

/-- The outcome finds the same in `v` as in `u`. -/
structure Same (id : String) (n : UInt64) (u v : World) : Prop where
  commits : u.commits id n = v.commits id n
  chans : ∀ c, u.chans id = some c → ∃ c', v.chans id = some c' ∧ (c.status = .opened → c'.status = .opened)
  state : ∀ st, u.store.state = some st → ∃ st', v.store.state = some st' ∧ st'.callbackAddress = st.callbackAddress
  pending : u.store.pending id n = v.store.pending id n
  channel : ∀ cs, u.store.channel = some cs → ∃ cs', v.store.channel = some cs'

theorem Same.guard {u v : World} (h : Same id n u v) (hg : Guard u op id n clr obs) : Guard v op id n clr obs := by
  cases hg with
  | ackOk _ _ ack relayer p c st res q h1 h2 h3 h4 h5 h6 =>
    obtain ⟨c', a1, a2⟩ := h.chans _ h2
    obtain ⟨st', b1, b2⟩ := h.state _ h4
    rw [← b2]
    exact .ackOk _ _ _ _ _ _ _ _ _ (h.commits ▸ h1) a1 (a2 h3) b1 h5 (h.pending ▸ h6)
  | ackErr _ _ ack relayer p c st e h1 h2 h3 h4 h5 =>
    obtain ⟨c', a1, a2⟩ := h.chans _ h2
    obtain ⟨st', b1, b2⟩ := h.state _ h4
    rw [← b2]
    exact .ackErr _ _ _ _ _ _ _ _ (h.commits ▸ h1) a1 (a2 h3) b1 h5
  | timeout _ _ relayer p c st cs h1 h2 h3 h4 =>
    obtain ⟨c', a1, _⟩ := h.chans _ h2
    obtain ⟨st', b1, b2⟩ := h.state _ h3
    obtain ⟨cs', d1⟩ := h.channel _ h4
    rw [← b2]
    exact .timeout _ _ _ _ _ _ _ (h.commits ▸ h1) a1 b1 d1

theorem Same.refl {u v : World} (h1 : u.commits = v.commits) (h2 : u.chans = v.chans) (h3 : u.store.state = v.store.state)
    (h4 : u.store.pending = v.store.pending) (h5 : u.store.channel = v.store.channel) : Same id n u v :=
  ⟨by rw [h1], fun c hc => ⟨c, h2 ▸ hc, fun x => x⟩, fun st hst => ⟨st, h3 ▸ hst, rfl⟩, by rw [h4], fun cs hcs => ⟨cs, h5 ▸ hcs⟩⟩

theorem setCommit_comm {f : String → UInt64 → Option IbcPacket} {i j : String} {m k : UInt64} {p q : Option IbcPacket}
    (h : ¬ (i = j ∧ m = k)) : setCommit (setCommit f i m p) j k q = setCommit (setCommit f j k q) i m p := by
  funext x y
  unfold setCommit
  by_cases h1 : x = i ∧ y = m
  · by_cases h2 : x = j ∧ y = k
    · exact absurd ⟨h1.1.symm.trans h2.1, h1.2.symm.trans h2.2⟩ h
    · rw [if_neg h2, if_pos h1, if_pos h1]
  · by_cases h2 : x = j ∧ y = k
    · rw [if_pos h2, if_neg h1, if_pos h2]
    · rw [if_neg h2, if_neg h1, if_neg h1, if_neg h2]

theorem setPending_comm {f : String → UInt64 → Option QueryPaths} {i j : String} {m k : UInt64} {p q : Option QueryPaths}
    (h : ¬ (i = j ∧ m = k)) : setPending (setPending f i m p) j k q = setPending (setPending f j k q) i m p := by
  funext x y
  unfold setPending
  by_cases h1 : x = i ∧ y = m
  · by_cases h2 : x = j ∧ y = k
    · exact absurd ⟨h1.1.symm.trans h2.1, h1.2.symm.trans h2.2⟩ h
    · rw [if_neg h2, if_pos h1, if_pos h1]
  · by_cases h2 : x = j ∧ y = k
    · rw [if_pos h2, if_neg h1, if_pos h2]
    · rw [if_neg h2, if_neg h1, if_neg h1, if_neg h2]

theorem fresh_number {w : World} {i : String} (hn : n.toNat < w.nextSeq id) (hq : w.nextSeq i < 18446744073709551616) :
    ¬ (id = i ∧ n = UInt64.ofNat (w.nextSeq i)) := by
  rintro ⟨rfl, rfl⟩
  rw [UInt64.toNat_ofNat_of_lt' hq] at hn
  exact Nat.lt_irrefl _ hn

/-- What sending does to a world. -/
def sent (w : World) (i : String) (qs : List QueryRequest) (cqs : List (String × Bytes × Bool)) (p : IbcPacket) : World :=
  { w with
    store := storeAfterSend w.store i (UInt64.ofNat (w.nextSeq i)) qs cqs
    nextSeq := setSeq w.nextSeq i (w.nextSeq i + 1)
    commits := setCommit w.commits i (UInt64.ofNat (w.nextSeq i)) (some p) }

theorem settle_sent {i : String} {qs : List QueryRequest} {cqs : List (String × Bytes × Bool)} {p : IbcPacket}
    (hn : n.toNat < w.nextSeq id) (hq : w.nextSeq i < 18446744073709551616) :
    sent (settle id n clr w) i qs cqs p = settle id n clr (sent w i qs cqs p) := by
  have hne := fresh_number (w := w) hn hq
  have e1 := setCommit_comm (f := w.commits) (p := none) (q := some p) hne
  have e2 := setPending_comm (f := w.store.pending) (p := none) (q := some (queryPaths cqs)) hne
  unfold sent storeAfterSend
  by_cases hqs : qs = []
  · rw [if_pos hqs, if_pos hqs]
    unfold settle
    dsimp only
    rw [e1]
  · rw [if_neg hqs, if_neg hqs]
    unfold settle
    dsimp only
    cases clr with
    | false => rw [e1]; rfl
    | true =>
      simp only [if_true]
      rw [e1, e2]

theorem settle_still {b : Op} {ob : List Obs} (hs : Step api w b w1 ob) (hu : Unconcerned b) (hn : n.toNat < w.nextSeq id) :
    Step api (settle id n clr w) b (settle id n clr w1) ob := by
  cases hs with
  | block h t h1 h2 => exact .block h t h1 h2
  | create sender o fresh o' h1 h2 h3 h4 h5 h6 => exact .create (w := settle id n clr w) sender o fresh o' h1 h2 h3 h4 h5 h6
  | send sender ms qs memo t fresh st info anys cqs c ts p h1 h2 h3 h4 h5 h6 h7 h8 h9 h10 h11 h12 =>
    have := Step.send (api := api) (w := settle id n clr w) sender ms qs memo t fresh st info anys cqs c ts p h1 h2 h3 h4 h5
      h6 h7 h8 h9 h10 h11 h12
    have e := settle_sent (clr := clr) (qs := qs) (cqs := cqs) (p := p) hn h11
    have h : Step api (settle id n clr w) _ (sent (settle id n clr w) info.channelId qs cqs p) _ := this
    rw [e] at h
    exact h
  | transfer sender x e fresh core ow h1 h2 h3 h4 => exact .transfer (w := settle id n clr w) sender x e fresh core ow h1 h2 h3 h4
  | accept sender fresh core ow h1 h2 h3 => exact .accept (w := settle id n clr w) sender fresh core ow h1 h2 h3
  | openAck i cpId v c st m h1 h2 h3 h4 h5 h6 => exact .openAck (w := settle id n clr w) i cpId v c st m h1 h2 h3 h4 h5 h6
  | _ => exact hu.elim

theorem unsettle_still {b : Op} {ob : List Obs} (hs : Step api (settle id n clr w) b w2 ob) (hu : Unconcerned b)
    (hn : n.toNat < w.nextSeq id) : ∃ w1, Step api w b w1 ob ∧ w2 = settle id n clr w1 := by
  cases hs with
  | block h t h1 h2 => exact ⟨_, .block h t h1 h2, rfl⟩
  | create sender o fresh o' h1 h2 h3 h4 h5 h6 => exact ⟨_, .create (w := w) sender o fresh o' h1 h2 h3 h4 h5 h6, rfl⟩
  | send sender ms qs memo t fresh st info anys cqs c ts p h1 h2 h3 h4 h5 h6 h7 h8 h9 h10 h11 h12 =>
    exact ⟨_, Step.send (api := api) (w := w) sender ms qs memo t fresh st info anys cqs c ts p h1 h2 h3 h4 h5
      h6 h7 h8 h9 h10 h11 h12, settle_sent (clr := clr) (qs := qs) (cqs := cqs) (p := p) hn h11⟩
  | transfer sender x e fresh core ow h1 h2 h3 h4 => exact ⟨_, .transfer (w := w) sender x e fresh core ow h1 h2 h3 h4, rfl⟩
  | accept sender fresh core ow h1 h2 h3 => exact ⟨_, .accept (w := w) sender fresh core ow h1 h2 h3, rfl⟩
  | openAck i cpId v c st m h1 h2 h3 h4 h5 h6 => exact ⟨_, .openAck (w := w) i cpId v c st m h1 h2 h3 h4 h5 h6, rfl⟩
  | _ => exact hu.elim

theorem sent_pending {i : String} {qs : List QueryRequest} {cqs : List (String × Bytes × Bool)} {p : IbcPacket}
    (hn : n.toNat < w.nextSeq id) (hq : w.nextSeq i < 18446744073709551616) :
    (sent w i qs cqs p).store.pending id n = w.store.pending id n ∧ (sent w i qs cqs p).commits id n = w.commits id n ∧
      (sent w i qs cqs p).store.state = w.store.state ∧ (sent w i qs cqs p).store.channel = w.store.channel := by
  have hne := fresh_number (w := w) hn hq
  unfold sent storeAfterSend
  by_cases hqs : qs = []
  · simp [hqs, setCommit, hne]
  · simp [hqs, setCommit, setPending, hne]

/-- Packets in flight are on channels that were opened. -/
def Flying (w : World) : Prop :=
  ∀ id n p, w.commits id n = some p → (∃ c, w.chans id = some c ∧ c.status ≠ .init) ∧ w.store.channel ≠ none

theorem setCommit_some {f : String → UInt64 → Option IbcPacket} {i j : String} {m k : UInt64} {p : IbcPacket}
    (h : setCommit f i m none j k = some p) : f j k = some p := by
  unfold setCommit at h
  split at h
  · cases h
  · exact h

theorem flying_step (hi : Inv api w) (hf : Flying w) (hs : Step api w op w1 obs) : Flying w1 := by
  intro i k p hp
  cases hs with
  | block h t h1 h2 => exact hf i k p hp
  | instantiate sender msg fresh h1 =>
    have := (hi.dead h1).2.2
    dsimp only at hp
    rw [this] at hp
    cases hp
  | create sender o fresh o' h1 h2 h3 h4 h5 h6 =>
    obtain ⟨⟨c, hc, hn⟩, hch⟩ := hf i k p hp
    refine ⟨⟨c, ?_, hn⟩, hch⟩
    have hne : i ≠ fresh := by rintro rfl; rw [h3] at hc; cases hc
    simp only [setChan, if_neg hne]
    exact hc
  | close sender fresh c h1 h2 h3 h4 h5 =>
    obtain ⟨⟨c', hc, hn⟩, hch⟩ := hf i k p hp
    refine ⟨?_, by simp⟩
    by_cases hne : i = c.chan.endpoint.channelId
    · exact ⟨⟨c.chan, .closed⟩, by simp only [setChan, if_pos hne], by simp⟩
    · exact ⟨c', by simp only [setChan, if_neg hne]; exact hc, hn⟩
  | send sender ms qs memo t fresh st info anys cqs c ts p' h1 h2 h3 h4 h5 h6 h7 h8 h9 h10 h11 h12 =>
    have hch : w.store.channel ≠ none := by
      intro e
      have := (hi.icaChannel _ h3).2 e
      rw [this] at h4
      cases h4
    have hch' : (storeAfterSend w.store info.channelId (UInt64.ofNat (w.nextSeq info.channelId)) qs cqs).channel ≠ none := by
      unfold storeAfterSend
      split <;> exact hch
    refine ⟨?_, hch'⟩
    dsimp only at hp
    unfold setCommit at hp
    split at hp
    · rename_i e
      exact ⟨c, by rw [e.1]; exact h9, by rw [h10]; simp⟩
    · exact (hf i k p hp).1
  | callback sender a fresh core st h1 h2 h3 h4 => exact hf i k p hp
  | transfer sender x e fresh core ow h1 h2 h3 h4 => exact hf i k p hp
  | accept sender fresh core ow h1 h2 h3 => exact hf i k p hp
  | openAck j cpId v c st m h1 h2 h3 h4 h5 h6 =>
    obtain ⟨⟨c', hc, hn⟩, hch⟩ := hf i k p hp
    refine ⟨?_, by simp⟩
    by_cases hne : i = j
    · exact ⟨⟨ackedChan c.chan cpId v, .opened⟩, by simp only [setChan, if_pos hne], by simp⟩
    · exact ⟨c', by simp only [setChan, if_neg hne]; exact hc, hn⟩
  | closeConfirm j c h1 h2 h3 =>
    obtain ⟨⟨c', hc, hn⟩, hch⟩ := hf i k p hp
    refine ⟨?_, by simp⟩
    by_cases hne : i = j
    · exact ⟨⟨c.chan, .closed⟩, by simp only [setChan, if_pos hne], by simp⟩
    · exact ⟨c', by simp only [setChan, if_neg hne]; exact hc, hn⟩
  | ackOk j seq ack relayer p' c st res q h1 h2 h3 h4 h5 h6 => exact hf i k p (setCommit_some hp)
  | ackErr j seq ack relayer p' c st e h1 h2 h3 h4 h5 => exact hf i k p (setCommit_some hp)
  | timeout j seq relayer p' c st cs h1 h2 h3 h4 =>
    obtain ⟨⟨c', hc, hn⟩, hch⟩ := hf i k p (setCommit_some hp)
    refine ⟨?_, by simp⟩
    dsimp only
    split
    · by_cases hne : i = j
      · exact ⟨⟨c.chan, .closed⟩, by simp only [setChan, if_pos hne], by simp⟩
      · exact ⟨c', by simp only [setChan, if_neg hne]; exact hc, hn⟩
    · exact ⟨c', hc, hn⟩

theorem flying_reachable (hr : Reachable api w) : Flying w := by
  obtain ⟨env, h, he⟩ := hr
  exact exec_induction (C := fun _ w => Flying w) (fun _ _ _ h => by cases h)
    (fun h w op w' obs _ hi hf hs => flying_step hi hf hs) he

/-- Channels stay, with their order. -/
theorem chan_kept (hs : Step api w op w1 obs) {i : String} {c : ChainChan} (hc : w.chans i = some c) :
    ∃ c', w1.chans i = some c' ∧ c'.chan.order = c.chan.order := by
  have fresh_ : ∀ fresh x, w.chans fresh = none → setChan w.chans fresh x i = some c := by
    intro fresh x hf
    have hne : i ≠ fresh := by rintro rfl; rw [hf] at hc; cases hc
    simp only [setChan, if_neg hne]
    exact hc
  have over : ∀ j (x y : ChainChan), w.chans j = some y → x.chan.order = y.chan.order →
      ∃ c', setChan w.chans j x i = some c' ∧ c'.chan.order = c.chan.order := by
    intro j x y hj e
    by_cases hne : i = j
    · subst hne
      cases hj.symm.trans hc
      exact ⟨x, by simp only [setChan, if_pos], e⟩
    · exact ⟨c, by simp only [setChan, if_neg hne]; exact hc, rfl⟩
  cases hs with
  | instantiate sender msg fresh h1 h2 => exact ⟨c, fresh_ _ _ h2, rfl⟩
  | create sender o fresh o' h1 h2 h3 => exact ⟨c, fresh_ _ _ h3, rfl⟩
  | close sender fresh c' h1 h2 h3 h4 h5 => exact over _ _ _ h4 rfl
  | openAck j cpId v c st m h1 => exact over _ _ _ h1 rfl
  | closeConfirm j c h1 => exact over _ _ _ h1 rfl
  | timeout j seq relayer p c' st cs h1 h2 =>
    dsimp only
    split
    · exact over _ _ _ h2 rfl
    · exact ⟨c, hc, rfl⟩
  | _ => exact ⟨c, hc, rfl⟩

theorem unordered_before (hs : Step api w op w1 obs) (h : AllUnordered w1) : AllUnordered w := by
  intro i c hc
  obtain ⟨c', h1, h2⟩ := chan_kept hs hc
  rw [← h2]
  exact h _ _ h1

/-- An unconcerned transaction leaves the outcome what it depends on, -/
theorem still_same {b : Op} {ob : List Obs} (hs : Step api w b w1 ob) (hu : Unconcerned b) (hn : n.toNat < w.nextSeq id)  :
    Same id n w w1 := by
  cases hs with
  | block h t h1 h2 => exact .refl rfl rfl rfl rfl rfl
  | create sender o fresh o' h1 h2 h3 h4 h5 h6 =>
    refine ⟨rfl, fun c hc => ?_, fun st hst => ⟨st, hst, rfl⟩, rfl, fun cs hcs => ⟨cs, hcs⟩⟩
    have hne : id ≠ fresh := by rintro rfl; rw [h3] at hc; cases hc
    exact ⟨c, by simp only [setChan, if_neg hne]; exact hc, fun x => x⟩
  | send sender ms qs memo t fresh st info anys cqs c ts p h1 h2 h3 h4 h5 h6 h7 h8 h9 h10 h11 h12 =>
    obtain ⟨e1, e2, e3, e4⟩ := sent_pending (qs := qs) (cqs := cqs) (p := p) hn h11
    exact ⟨e2.symm, fun c hc => ⟨c, hc, fun x => x⟩, fun st hst => ⟨st, e3.trans hst, rfl⟩, e1.symm, fun cs hcs => ⟨cs, e4.trans hcs⟩⟩
  | transfer sender x e fresh core ow h1 h2 h3 h4 => exact .refl rfl rfl rfl rfl rfl
  | accept sender fresh core ow h1 h2 h3 => exact .refl rfl rfl rfl rfl rfl
  | openAck i cpId v c0 st m h1 h2 h3 h4 h5 h6 =>
    refine ⟨rfl, fun c hc => ?_, fun st' hst => ?_, rfl, fun cs hcs => ⟨_, rfl⟩⟩
    · by_cases hne : id = i
      · exact ⟨⟨ackedChan c0.chan cpId v, .opened⟩, by simp only [setChan, if_pos hne], fun _ => rfl⟩
      · exact ⟨c, by simp only [setChan, if_neg hne]; exact hc, fun x => x⟩
    · cases h3.symm.trans hst
      exact ⟨_, rfl, rfl⟩
  | _ => exact hu.elim

/-- and does not bring it about. -/
theorem still_same_back {b : Op} {ob : List Obs} (hs : Step api w b w1 ob) (hu : Unconcerned b) (hn : n.toNat < w.nextSeq id)
    (hini : Flying w)
    (hc1 : w1.commits id n ≠ none) : Same id n w1 w := by
  have hsame := still_same hs hu hn
  have hcm : w.commits id n ≠ none := by rw [hsame.commits]; exact hc1
  obtain ⟨p, hp⟩ := Option.ne_none_iff_exists'.1 hcm
  obtain ⟨⟨c0, hc0, hne0⟩, hch⟩ := hini id n p hp
  cases hs with
  | block h t h1 h2 => exact .refl rfl rfl rfl rfl rfl
  | create sender o fresh o' h1 h2 h3 h4 h5 h6 =>
    refine ⟨rfl, fun c hc => ?_, fun st hst => ⟨st, hst, rfl⟩, rfl, fun cs hcs => ⟨cs, hcs⟩⟩
    have hne : id ≠ fresh := by rintro rfl; rw [h3] at hc0; cases hc0
    simp only [setChan, if_neg hne] at hc
    exact ⟨c, hc, fun x => x⟩
  | send sender ms qs memo t fresh st info anys cqs c ts p h1 h2 h3 h4 h5 h6 h7 h8 h9 h10 h11 h12 =>
    obtain ⟨e1, e2, e3, e4⟩ := sent_pending (qs := qs) (cqs := cqs) (p := p) hn h11
    exact ⟨e2, fun c hc => ⟨c, hc, fun x => x⟩, fun st hst => ⟨st, e3.symm.trans hst, rfl⟩, e1, fun cs hcs => ⟨cs, e4.symm.trans hcs⟩⟩
  | transfer sender x e fresh core ow h1 h2 h3 h4 => exact .refl rfl rfl rfl rfl rfl
  | accept sender fresh core ow h1 h2 h3 => exact .refl rfl rfl rfl rfl rfl
  | openAck i cpId v c st m h1 h2 h3 h4 h5 h6 =>
    have hne : id ≠ i := by
      rintro rfl
      cases hc0.symm.trans h1
      exact hne0 h2
    refine ⟨rfl, fun c hc => ?_, fun st' hst => ?_, rfl, fun cs hcs => ?_⟩
    · simp only [setChan, if_neg hne] at hc
      exact ⟨c, hc, fun x => x⟩
    · cases hst
      exact ⟨_, h3, rfl⟩
    · exact Option.ne_none_iff_exists'.1 hch
  | _ => exact hu.elim

theorem inv_of_step (hi : Inv api w) (hs : Step api w op w1 obs) : Inv api w1 := inv_step hi ((apply_iff_step hi).2 hs)

theorem number_given (hi : Inv api w) (h : w.commits id n ≠ none) : n.toNat < w.nextSeq id := by
  obtain ⟨p, hp⟩ := Option.ne_none_iff_exists'.1 h
  exact (hi.commits _ _ _ hp).2.2.1

/-- An outcome can wait for an unconcerned transaction. -/
theorem swap_still {a b : Op} {oa ob : List Obs} (hi : Inv api w) (ha : Step api w a w1 oa) (hb : Step api w1 b w2 ob)
    (h1 : brings a = some (id, n)) (h2 : Unconcerned b) (hto : IsTimeout a → AllUnordered w2) :
    ∃ u, Step api w b u ob ∧ Step api u a w2 oa := by
  have hu2 : IsTimeout a → AllUnordered w := fun h => unordered_before ha (unordered_before hb (hto h))
  obtain ⟨clr, hg, rfl⟩ := guard_of_step hi ha h1 hu2
  have hn := number_given hi hg.inFlight
  obtain ⟨u, hbu, rfl⟩ := unsettle_still hb h2 hn
  exact ⟨u, hbu, step_of_guard (inv_of_step hi hbu) ((still_same hbu h2 hn).guard hg) hto⟩

/-- An unconcerned transaction can wait for an outcome. -/
theorem still_swap {a b : Op} {oa ob : List Obs} (hi : Inv api w) (hf : Flying w) (ha : Step api w a w1 oa)
    (hb : Step api w1 b w2 ob) (h1 : Unconcerned a) (h2 : brings b = some (id, n)) (hn : n.toNat < w.nextSeq id)
    (hto : IsTimeout b → AllUnordered w2) : ∃ u, Step api w b u ob ∧ Step api u a w2 oa := by
  have hu1 : IsTimeout b → AllUnordered w1 := fun h => unordered_before hb (hto h)
  obtain ⟨clr, hg, rfl⟩ := guard_of_step (inv_of_step hi ha) hb h2 hu1
  have hsame := still_same_back ha h1 hn hf hg.inFlight
  exact ⟨_, step_of_guard hi (hsame.guard hg) fun h => unordered_before ha (hu1 h), settle_still ha h1 hn⟩

theorem settle_comm {i j : String} {m k : UInt64} {x y : Bool} (h : ¬ (i = j ∧ m = k)) :
    settle i m x (settle j k y w) = settle j k y (settle i m x w) := by
  have e1 := setCommit_comm (f := w.commits) (p := none) (q := none) h
  have e2 := setPending_comm (f := w.store.pending) (p := none) (q := none) h
  unfold settle
  dsimp only
  rw [e1]
  cases x <;> cases y <;> simp_all

/-- Another outcome leaves the outcome what it depends on. -/
theorem settle_same {i : String} {m : UInt64} (h : ¬ (id = i ∧ n = m)) :
    Same id n w (settle i m clr w) ∧ Same id n (settle i m clr w) w := by
  have e1 : (settle i m clr w).commits id n = w.commits id n := by simp only [settle, setCommit, if_neg h]
  have e2 : (settle i m clr w).store.pending id n = w.store.pending id n := by
    cases clr
    · rfl
    · simp only [settle, setPending, if_true, if_neg h]
  exact ⟨⟨e1.symm, fun c hc => ⟨c, hc, fun x => x⟩, fun st hst => ⟨st, hst, rfl⟩, e2.symm, fun cs hcs => ⟨cs, hcs⟩⟩,
    ⟨e1, fun c hc => ⟨c, hc, fun x => x⟩, fun st hst => ⟨st, hst, rfl⟩, e2, fun cs hcs => ⟨cs, hcs⟩⟩⟩

/-- Two outcomes in the other order. -/
theorem swap_outcomes {a b : Op} {oa ob : List Obs} {i : String} {m : UInt64} (hi : Inv api w) (ha : Step api w a w1 oa)
    (hb : Step api w1 b w2 ob) (h1 : brings a = some (id, n)) (h2 : brings b = some (i, m))
    (hto : IsTimeout a ∨ IsTimeout b → AllUnordered w2) : ∃ u, Step api w b u ob ∧ Step api u a w2 oa := by
  have hu1 : IsTimeout a ∨ IsTimeout b → AllUnordered w1 := fun h => unordered_before hb (hto h)
  have hu0 : IsTimeout a ∨ IsTimeout b → AllUnordered w := fun h => unordered_before ha (hu1 h)
  obtain ⟨x, hg, rfl⟩ := guard_of_step hi ha h1 fun h => hu0 (.inl h)
  obtain ⟨y, hg', rfl⟩ := guard_of_step (inv_of_step hi ha) hb h2 fun h => hu1 (.inr h)
  have hne : ¬ (i = id ∧ m = n) := by
    rintro ⟨rfl, rfl⟩
    exact hg'.inFlight (by simp [settle, setCommit])
  have hne' : ¬ (id = i ∧ n = m) := fun ⟨x, y⟩ => hne ⟨x.symm, y.symm⟩
  have hs := step_of_guard hi ((settle_same hne).2.guard hg') fun h => hu0 (.inr h)
  refine ⟨_, hs, ?_⟩
  rw [settle_comm hne]
  exact step_of_guard (inv_of_step hi hs) ((settle_same hne').1.guard hg) fun h => hu0 (.inl h)

end Ica.Schedule
