import Verif.Props.Admission
import Verif.Props.Reading
import Verif.Props.Bytes
import Verif.Facts.ApiStored
import Verif.Spec.Machine

/-!
# The contract is the machine of `Spec/Machine` (C111)
-/
namespace Ica
open Spec Format Function

variable {api : Api} {env : Env} {h : List (Op × List Obs)} {w w' : World} {v v' : View} {obs : List Obs}

theorem setChan_update (f : String → Option ChainChan) (id : String) (c : ChainChan) :
    setChan f id c = update f id (some c) := by
  funext x
  by_cases hx : x = id
  · subst hx; simp [setChan]
  · simp [setChan, hx]

theorem setSeq_update (f : String → Nat) (id : String) (n : Nat) : setSeq f id n = update f id n := by
  funext x
  by_cases hx : x = id
  · subst hx; simp [setSeq]
  · simp [setSeq, hx]

theorem map_update (f : String → UInt64 → Option (IbcPacket × List QueryRequest)) (g : String → UInt64 → Option IbcPacket)
    (hfg : ∀ id n, g id n = (f id n).map (·.1)) (id : String) (n : UInt64) (x : Option (IbcPacket × List QueryRequest))
    (id' : String) (n' : UInt64) :
    setCommit g id n (x.map (·.1)) id' n' = (update f id (update (f id) n x) id' n').map (·.1) := by
  unfold setCommit
  by_cases h1 : id' = id
  · subst h1
    by_cases h2 : n' = n
    · subst h2; simp
    · simp [h2, hfg]
  · simp [h1, hfg]

/-- The world and the view after the same history. -/
structure Sim (h : List (Op × List Obs)) (w : World) (v : View) : Prop where
  live : w.live = v.live
  env : w.env = v.env
  ownership : w.store.ownership = if v.live then some ⟨v.owner, v.offer.map (·.1), v.offer.bind (·.2)⟩ else none
  state : w.store.state = if v.live then some ⟨v.account.map fun x => ⟨x.1, x.2, .protobuf⟩, v.callback⟩ else none
  channel : w.store.channel = v.channel
  options : w.store.options = v.options
  chans : w.chans = v.chans
  nextSeq : w.nextSeq = v.nextSeq
  inFlight : ∀ id n, w.commits id n = (v.inFlight id n).map (·.1)
  asked : ∀ id n p qs, v.inFlight id n = some (p, qs) → Sent h p qs
  dead : v.live = false → v.owner = none ∧ v.offer = none ∧ v.account = none ∧ v.callback = none

theorem Sim.shows (s : Sim h w v) : Shows w v where
  live := s.live
  env := s.env
  owner := by
    unfold ownerOf
    rw [s.ownership]
    cases hl : v.live with
    | true => rfl
    | false => exact (s.dead hl).1.symm
  offer := by
    unfold nominee
    rw [s.ownership]
    cases hl : v.live with
    | true => cases v.offer with
      | none => rfl
      | some x => rfl
    | false => exact (s.dead hl).2.1.symm
  callback := by
    unfold callbackOf
    rw [s.state]
    cases hl : v.live with
    | true => rfl
    | false => exact (s.dead hl).2.2.2.symm
  account := by
    unfold icaOf
    rw [s.state]
    cases hl : v.live with
    | true => rfl
    | false => rw [(s.dead hl).2.2.1]; rfl
  channel ch x := by unfold Reports; rw [s.channel]
  chans := s.chans
  nextSeq := s.nextSeq
  inFlight := s.inFlight

theorem sim_start (env : Env) : Sim [] (World.genesis env) (View.start env) where
  live := rfl
  env := rfl
  ownership := rfl
  state := rfl
  channel := rfl
  options := rfl
  chans := rfl
  nextSeq := rfl
  inFlight _ _ := rfl
  asked _ _ _ _ hx := by cases hx
  dead _ := ⟨rfl, rfl, rfl, rfl⟩

theorem tells_callObs (cb : Option String) (m : CallbackMsg) : Tells cb m (callObs cb m) := by
  cases cb with
  | none => rfl
  | some a => exact ⟨_, rfl, written _ _ (writes_callback m),
      (ofBytes_iff ReceiverExecuteMsg_reads).1 (JC.ofBytes_toBytes ReceiverExecuteMsg.jc_law _)⟩

theorem sent_keeps {x : Op × List Obs} {p : IbcPacket} {qs : List QueryRequest} (hs : Sent h p qs) : Sent (h ++ [x]) p qs := by
  obtain ⟨a, b, c, d, e, f, hm⟩ := hs
  exact ⟨a, b, c, d, e, f, List.mem_append_left _ hm⟩

theorem Sim.asked_keeps (s : Sim h w v) (x : Op × List Obs) (id : String) (n : UInt64) (p : IbcPacket)
    (qs : List QueryRequest) (hx : v.inFlight id n = some (p, qs)) : Sent (h ++ [x]) p qs := sent_keeps (s.asked id n p qs hx)

theorem Sim.asked_settled (s : Sim h w v) (x : Op × List Obs) (id : String) (n : UInt64) (id' : String) (n' : UInt64)
    (p : IbcPacket) (qs : List QueryRequest) (hx : v.settled id n id' n' = some (p, qs)) : Sent (h ++ [x]) p qs := by
  unfold View.settled at hx
  by_cases h1 : id' = id
  · subst h1
    by_cases h2 : n' = n
    · subst h2; simp at hx
    · simp only [update_self, update_of_ne h2] at hx
      exact s.asked_keeps x _ _ _ _ hx
  · simp only [update_of_ne h1] at hx
    exact s.asked_keeps x _ _ _ _ hx

theorem Sim.owner_live (s : Sim h w v) {a : String} (ho : v.owner = some a) : v.live = true := by
  cases hl : v.live with
  | true => rfl
  | false => rw [(s.dead hl).1] at ho; cases ho

/-- What is reported after a success, whether or not anybody is told. -/
theorem reported_success (he : Exec api (World.genesis env) h w) {id : String} {n : UInt64} {ack : Bytes} {relayer : String}
    (hc : Commits api w (.relayAck id n ack relayer) w' obs) {res : Bytes} (hr : readAck ack = some (.result res))
    {p : IbcPacket} {qs : List QueryRequest} (hp : w.commits id n = some p) (hs : Sent h p qs) :
    ∃ q calls, obs = .event (Spec.ackEvent p (.result res)) :: calls ∧ Reported qs res q ∧
      Tells (callbackOf w) (.onAcknowledgementPacketCallback (.result res) p relayer q) calls := by
  obtain ⟨hid, hn, -, -⟩ := (commits_iff he _ _ _).1 hp
  obtain ⟨p', c, st, a1, a2, a3, a4, a5⟩ := apply_ack.1 hc
  rw [hp] at a1
  cases a1
  rw [readAck_eq] at hr
  have hcb : callbackOf w = st.callbackAddress := by simp [callbackOf, a4]
  rcases a5 with ⟨res', q, b1, b2, -, rfl⟩ | ⟨e, b1, -⟩
  · rw [hr] at b1
    cases b1
    cases hx : st.callbackAddress with
    | some cb =>
      rw [hx] at hcb
      obtain ⟨q', k1, k2⟩ := success_ack he hc (by rw [readAck_eq]; exact hr) hs hid hn hcb
      have hq : q' = q := by
        obtain ⟨bytes, c1, c2⟩ := k1
        rw [hx] at c1
        simp only [callsOf, callObs, List.filterMap_cons, List.filterMap_nil, List.cons.injEq, Prod.mk.injEq, and_true,
          true_and] at c1
        rw [← c1] at c2
        have := JC.ofBytes_toBytes ReceiverExecuteMsg.jc_law
          (.receiveIcaCallback (.onAcknowledgementPacketCallback (.result res) p relayer q))
        rw [show ReceiverExecuteMsg.jc.toBytes _ = _ from rfl] at this
        rw [show CallbackMsg.intoJsonBinary _ = ReceiverExecuteMsg.jc.toBytes (.receiveIcaCallback _) from rfl, this] at c2
        cases c2
        rfl
      subst hq
      refine ⟨q', _, rfl, ?_, hcb ▸ tells_callObs _ _⟩
      by_cases hq : qs = []
      · rcases k2 with ⟨-, k3⟩ | ⟨k3, -⟩
        · exact .inl ⟨hq, k3⟩
        · exact absurd hq k3
      · obtain ⟨height, answers, r, m1, m2, m3, m4⟩ := C109_reported he hc (by rw [readAck_eq]; exact hr) hs hid hn hq hcb
        have hr' : q' = some r := by
          obtain ⟨bytes, c1, c2⟩ := k1
          obtain ⟨bytes', d1, d2⟩ := m2
          rw [c1] at d1
          simp only [List.cons.injEq, Prod.mk.injEq, and_true, true_and] at d1
          subst d1
          rw [c2] at d2
          cases d2
          rfl
        subst hr'
        refine .inr ⟨hq, height, answers, m1, ?_⟩
        rcases m4 with ⟨rs, rfl⟩ | ⟨e, rfl⟩
        · exact .inl ⟨rs, (m3 rs).1 rfl, rfl⟩
        · exact .inr ⟨fun rs hrs => (by cases (m3 rs).2 hrs), e, rfl⟩
    | none =>
      rw [hx] at hcb
      suffices ∃ q, Reported qs res q by
        obtain ⟨q2, hq2⟩ := this
        exact ⟨q2, [], rfl, hq2, by rw [hcb]; rfl⟩
      by_cases hq : qs = []
      · exact ⟨none, .inl ⟨hq, rfl⟩⟩
      · obtain ⟨chan, status⟩ := c
        cases a3
        obtain ⟨a, f1, f2⟩ := (C42_processed_iff he hp a2 hs ack relayer).1 ⟨_, _, hc⟩
        rw [readAck_eq, hr] at f1
        cases f1
        obtain ⟨⟨height, answers⟩, f3⟩ := Option.isSome_iff_exists.1 (f2 res rfl hq)
        by_cases hall : ∃ rs, AllSay qs answers rs
        · obtain ⟨rs, hrs⟩ := hall
          exact ⟨some (.success height rs), .inr ⟨hq, height, answers, f3, .inl ⟨rs, hrs, rfl⟩⟩⟩
        · exact ⟨some (.error ""), .inr ⟨hq, height, answers, f3, .inr ⟨fun rs hrs => hall ⟨rs, hrs⟩, "", rfl⟩⟩⟩
  · rw [hr] at b1
    cases b1

theorem proposed_eq {address fresh : String} {o : ChannelOpenInitOptions} (ho : o.counterpartyPortId.getD "icahost" = "icahost") :
    proposalChannel address fresh o = proposed address fresh o := by
  unfold proposalChannel proposed
  rw [ho]
  congr 1
  unfold askedOrder
  cases o.channelOrdering <;> rfl

/-- One step of the contract is one step of the machine. -/
theorem sim_step (he : Exec api (World.genesis env) h w) (s : Sim h w v) {op : Op} (hc : Commits api w op w' obs) :
    ∃ v', Rule api v op v' obs ∧ Sim (h ++ [(op, obs)]) w' v' := by
  have hv : Inv api w := inv_exec (inv_genesis api env) he
  have hsh := s.shows
  have hst := step_of_apply hv hc
  have had := (C92_admitted_iff he op).1 ⟨_, _, hc⟩
  have hown : ∀ {sender}, IsOwner w.store sender → v.owner = some sender := fun ho => hsh.owner ▸ isOwner_iff.1 ho
  have hcb : ∀ {st}, w.store.state = some st → st.callbackAddress = v.callback := fun e => by
    rw [← hsh.callback]; simp [callbackOf, e]
  have hcm : ∀ {id n p}, w.commits id n = some p → ∃ qs, v.inFlight id n = some (p, qs) := fun {id n p} e => by
    rw [s.inFlight] at e
    cases hx : v.inFlight id n with
    | none => rw [hx] at e; cases e
    | some y => rw [hx] at e; cases e; exact ⟨y.2, rfl⟩
  cases hst with
  | block a b h1 h2 =>
    refine ⟨_, .block (s.env ▸ h1) (s.env ▸ h2), ?_⟩
    exact { s with env := by simp [s.env], asked := s.asked_keeps _ }
  | instantiate sender msg fresh h1 h2 h3 h4 h5 =>
    have hl : v.live = false := s.live ▸ h1
    refine ⟨_, .instantiate hl (askedOwner_eq sender msg ▸ h3) h4 (askedPort_eq _ ▸ h5) (s.chans ▸ h2), ?_⟩
    obtain ⟨d1, d2, d3, d4⟩ := s.dead hl
    refine { s with live := rfl, ownership := ?_, state := ?_, options := rfl, chans := ?_, asked := s.asked_keeps _, dead := ?_ }
    · simp [d2, askedOwner_eq]
    · simp [d3]
    · dsimp only
      rw [setChan_update, s.chans, s.env, proposed_eq h5]
    · intro x; cases x
  | create sender o fresh o' h1 h2 h3 h4 h5 h6 =>
    refine ⟨_, .createChannel (hown h2) (fun ch e => h4 _ (s.channel.trans e) rfl) (s.options ▸ h5) (askedPort_eq _ ▸ h6)
      (s.chans ▸ h3), ?_⟩
    refine { s with options := rfl, chans := ?_, asked := s.asked_keeps _ }
    dsimp only
    rw [setChan_update, s.chans, s.env, proposed_eq h6]
  | close sender fresh c h1 h2 h3 h4 h5 =>
    refine ⟨_, .closeChannel (hown h2) (s.channel ▸ h3), ?_⟩
    refine { s with channel := rfl, chans := ?_, asked := s.asked_keeps _ }
    dsimp only
    rw [setChan_update, s.chans]
  | send sender ms qs memo t fresh st info anys cqs c ts p h1 h2 h3 h4 h5 h6 h7 h8 h9 h10 h11 h12 =>
    obtain ⟨-, -, g1, g2, -, -⟩ := had
    have hi : icaOf w = some info := by simp [icaOf, h3, h4]
    obtain ⟨info', p', e1, e2, e3⟩ := send_packet hc
    rw [hi] at e1
    cases e1
    cases e2
    have hacc : v.account = some (info.icaAddress, info.channelId) := by
      have := hsh.account
      rw [hi] at this
      cases hx : v.account with
      | none => rw [hx] at this; cases this
      | some y =>
        rw [hx] at this
        cases this
        rfl
    obtain ⟨chan, status⟩ := c
    cases h10
    have hps : p.sequence = UInt64.ofNat (w.nextSeq info.channelId) := by rw [h12]
    have hpn : p.sequence.toNat = v.nextSeq info.channelId := by
      rw [hps, ← s.nextSeq]
      exact UInt64.toNat_ofNat_of_lt' h11
    refine ⟨_, .sendCosmosMsgs (p := p) (hown h2) hacc (s.chans ▸ h9) (s.nextSeq ▸ h11) g1 g2 (by rw [h12]) (by rw [h12]) hpn
      (by rw [h12]) ?_ e3, ?_⟩
    · rw [h8, s.env]
      cases t <;> rfl
    · refine { s with ownership := ?_, state := ?_, channel := ?_, options := ?_, nextSeq := ?_, inFlight := ?_, asked := ?_ }
      · exact (storeAfterSend_fields ..).2.1.trans s.ownership
      · exact (storeAfterSend_fields ..).2.2.1.trans s.state
      · exact (storeAfterSend_fields ..).2.2.2.1.trans s.channel
      · exact (storeAfterSend_fields ..).2.2.2.2.1.trans s.options
      · dsimp only
        rw [setSeq_update, s.nextSeq]
      · intro id' n'
        dsimp only
        rw [← hps]
        exact map_update _ _ s.inFlight _ _ (some (p, qs)) id' n'
      · intro id' n' p2 qs2 hx
        dsimp only at hx
        by_cases k1 : id' = info.channelId
        · subst k1
          by_cases k2 : n' = p.sequence
          · subst k2
            simp only [update_self, Option.some.injEq, Prod.mk.injEq] at hx
            obtain ⟨rfl, rfl⟩ := hx
            exact ⟨_, _, _, _, _, _, List.mem_append_right _ (List.mem_singleton.2 rfl)⟩
          · simp only [update_self, update_of_ne k2] at hx
            exact s.asked_keeps _ _ _ _ _ hx
        · simp only [update_of_ne k1] at hx
          exact s.asked_keeps _ _ _ _ _ hx
  | callback sender a fresh core st h1 h2 h3 h4 =>
    refine ⟨_, .updateCallbackAddress (hown h2) h3, ?_⟩
    have hl : v.live = true := s.owner_live (hown h2)
    refine { s with state := ?_, asked := s.asked_keeps _, dead := fun x => absurd hl (by simp [show v.live = false from x]) }
    have := s.state
    rw [h4, hl] at this
    cases this
    simp [hl]
  | transfer sender n e fresh core ow h1 h2 h3 h4 =>
    have ho := hown ⟨ow, h2, h3⟩
    refine ⟨_, .transferOwnership ho h4, ?_⟩
    have hl : v.live = true := s.owner_live ho
    refine { s with ownership := ?_, asked := s.asked_keeps _, dead := fun x => absurd hl (by simp [show v.live = false from x]) }
    have := s.ownership
    rw [h2, hl] at this
    cases this
    simp [hl]
  | accept sender fresh core ow h1 h2 h3 =>
    obtain ⟨e, g1, g2⟩ := had
    refine ⟨_, .acceptOwnership (e := e) (hsh.offer ▸ g1) (s.env ▸ g2), ?_⟩
    have hl : v.live = true := s.live ▸ h1
    refine { s with ownership := ?_, asked := s.asked_keeps _, dead := fun x => absurd hl (by simp [show v.live = false from x]) }
    simp [hl]
  | openAck id cpId ver c st m h1 h2 h3 h4 h5 h6 =>
    obtain ⟨ch, status⟩ := c
    cases h2
    have hend : ch.endpoint.channelId = id := by rw [(hv.chans _ _ h1).1]
    have henc : m.encoding = .protobuf := (metaOk_iff.1 h5).encoding
    refine ⟨_, .openAck (s.chans ▸ h1) (C69_metadata.1 h4) (metaOk_iff.1 h5) h6 rfl ?_, ?_⟩
    · rw [hcb h3, ← henc]
      exact tells_callObs _ _
    · have hl : v.live = true := s.live ▸ hv.live_of_chan h1
      refine { s with state := ?_, channel := rfl, chans := ?_, asked := s.asked_keeps _,
                      dead := fun x => absurd hl (by simp [show v.live = false from x]) }
      · dsimp only
        rw [hend, henc, hl, ← hcb h3]
        rfl
      · dsimp only
        rw [setChan_update, s.chans]
        rfl
  | closeConfirm id c h1 h2 h3 =>
    refine ⟨_, .closeConfirm (s.channel ▸ h3) (by rw [(hv.chans _ _ h1).1]), ?_⟩
    refine { s with channel := rfl, chans := ?_, asked := s.asked_keeps _ }
    dsimp only
    rw [setChan_update, s.chans]
  | ackOk id seq ack relayer p c st res q h1 h2 h3 h4 h5 h6 =>
    obtain ⟨qs, hf⟩ := hcm h1
    obtain ⟨q', calls, e1, e2, e3⟩ := reported_success he hc (by rw [readAck_eq]; exact h5) h1 (s.asked _ _ _ _ hf)
    obtain ⟨ch, status⟩ := c
    cases h3
    rw [e1]
    refine ⟨_, .success hf (s.chans ▸ h2) (by rw [readAck_eq]; exact h5) e2 (hsh.callback ▸ e3), ?_⟩
    exact { s with inFlight := map_update _ _ s.inFlight _ _ none, asked := s.asked_settled _ _ _ }
  | ackErr id seq ack relayer p c st e h1 h2 h3 h4 h5 =>
    obtain ⟨qs, hf⟩ := hcm h1
    obtain ⟨ch, status⟩ := c
    cases h3
    refine ⟨_, .failure (e := e) hf (s.chans ▸ h2) (by rw [readAck_eq]; exact h5) (hcb h4 ▸ tells_callObs _ _), ?_⟩
    exact { s with inFlight := map_update _ _ s.inFlight _ _ none, asked := s.asked_settled _ _ _ }
  | timeout id seq relayer p c st cs h1 h2 h3 h4 =>
    obtain ⟨qs, hf⟩ := hcm h1
    refine ⟨_, .timeout hf (s.chans ▸ h2) (hcb h3 ▸ tells_callObs _ _), ?_⟩
    refine { s with channel := ?_, chans := ?_, inFlight := map_update _ _ s.inFlight _ _ none, asked := s.asked_settled _ _ _ }
    · dsimp only
      rw [← s.channel, h4]
      rfl
    · dsimp only
      rw [setChan_update, s.chans]

/-- What the machine carries out, the contract does. -/
theorem sim_admits (he : Exec api (World.genesis env) h w) (s : Sim h w v) {op : Op} (hr : Rule api v op v' obs) :
    Admitted h api w op := by
  have hsh := s.shows
  have hcm : ∀ {id n p qs}, v.inFlight id n = some (p, qs) → w.commits id n = some p := fun {id n p qs} e => by
    rw [s.inFlight, e]; rfl
  cases hr with
  | block h1 h2 => exact ⟨s.env ▸ h1, s.env ▸ h2⟩
  | instantiate h1 h2 h3 h4 h5 => exact ⟨s.live.trans h1, h2, h3, h4, rfl, s.chans ▸ h5⟩
  | createChannel h1 h2 h3 h4 h5 =>
    refine ⟨hsh.owner.trans h1, ?_, ⟨_, ?_, h4⟩, rfl, s.chans ▸ h5⟩
    · rintro ⟨ch, hch⟩
      exact h2 ch ((hsh.channel _ _).1 hch)
    · rw [← options_history he, s.options]; exact h3
  | closeChannel h1 h2 => exact ⟨hsh.owner.trans h1, ⟨_, (hsh.channel _ _).2 h2⟩, rfl⟩
  | @sendCosmosMsgs _ _ _ _ _ _ address id ch _ ts h1 h2 h3 h4 h5 h6 h7 h8 h9 h10 h11 h12 =>
    refine ⟨hsh.owner.trans h1, ⟨⟨address, id, .protobuf⟩, ch, by rw [hsh.account, h2]; rfl, ?_, ?_⟩, h5, h6, ?_, rfl⟩
    · show w.chans _ = _
      rw [s.chans]; exact h3
    · rw [s.nextSeq]; exact h4
    · rw [s.env, ← h11]; exact ts.toNat_lt
  | updateCallbackAddress h1 h2 => exact ⟨hsh.owner.trans h1, h2⟩
  | transferOwnership h1 h2 => exact ⟨hsh.owner.trans h1, h2⟩
  | acceptOwnership h1 h2 => exact ⟨_, hsh.offer.trans h1, s.env ▸ h2⟩
  | openAck h1 h2 h3 h4 h5 h6 => exact ⟨_, _, s.chans ▸ h1, h2, h3, h4⟩
  | closeConfirm h1 h2 => exact ⟨_, (hsh.channel _ _).2 h1, h2⟩
  | success h1 h2 h3 h4 h5 =>
    refine ⟨_, _, _, _, hcm h1, (congrFun s.chans _).trans h2, s.asked _ _ _ _ h1, h3, ?_⟩
    · intro res hres hq
      cases hres
      rcases h4 with ⟨e, -⟩ | ⟨-, height, answers, e, -⟩
      · exact absurd e hq
      · rw [e]; rfl
  | failure h1 h2 h3 h4 =>
    refine ⟨_, _, _, _, hcm h1, (congrFun s.chans _).trans h2, s.asked _ _ _ _ h1, h3, ?_⟩
    · intro res hres; cases hres
  | timeout h1 h2 h3 => exact ⟨_, hcm h1⟩

theorem sim_exec (he : Exec api (World.genesis env) h w) : ∃ v, Runs api (View.start env) h v ∧ Sim h w v := by
  induction he with
  | nil => exact ⟨_, .nil, sim_start env⟩
  | @step h w w' op obs he hs ih =>
    obtain ⟨v, h1, h2⟩ := ih
    obtain ⟨v', h3, h4⟩ := sim_step he h2 hs
    exact ⟨v', .step h1 h3, h4⟩

/-- **C111.** Every history of the contract is one of the machine, and what is seen of the contract and of its chain
afterwards is what the machine shows; and the contract then accepts exactly what the machine carries out. -/
theorem C111_machine (he : Exec api (World.genesis env) h w) :
    ∃ v, Runs api (View.start env) h v ∧ Shows w v ∧
      ∀ op, (∃ w' obs, Commits api w op w' obs) ↔ ∃ v' obs, Rule api v op v' obs := by
  obtain ⟨v, h1, h2⟩ := sim_exec he
  refine ⟨v, h1, h2.shows, fun op => ⟨?_, ?_⟩⟩
  · rintro ⟨w', obs, hc⟩
    obtain ⟨v', h3, -⟩ := sim_step he h2 hc
    exact ⟨v', obs, h3⟩
  · rintro ⟨v', obs, hr⟩
    exact (C92_admitted_iff he op).2 (sim_admits he h2 hr)

theorem metadata_unique {version : String} {m1 m2 : IcaMetadata} (h1 : IsMetadata version m1) (h2 : IsMetadata version m2) :
    m1 = m2 := Option.some.inj ((C69_metadata.2 h1).symm.trans (C69_metadata.2 h2))

theorem Spec.View.Alike.refl (v : View) : v.Alike v := ⟨rfl, rfl, rfl, rfl, rfl, rfl, rfl, rfl, rfl, rfl, fun _ _ => rfl⟩

theorem Spec.View.Alike.trans {a b c : View} (h1 : a.Alike b) (h2 : b.Alike c) : a.Alike c :=
  ⟨h1.live.trans h2.live, h1.env.trans h2.env, h1.owner.trans h2.owner, h1.offer.trans h2.offer,
    h1.callback.trans h2.callback, h1.account.trans h2.account, h1.channel.trans h2.channel, h1.options.trans h2.options,
    h1.chans.trans h2.chans, h1.nextSeq.trans h2.nextSeq, fun id n => (h1.inFlight id n).trans (h2.inFlight id n)⟩

theorem inFlight_alike {f g : String → UInt64 → Option (IbcPacket × List QueryRequest)}
    (hfg : ∀ id n, (f id n).map header = (g id n).map header) (id : String) (n : UInt64)
    {x y : Option (IbcPacket × List QueryRequest)} (hxy : x.map header = y.map header) (id' : String) (n' : UInt64) :
    (update f id (update (f id) n x) id' n').map header = (update g id (update (g id) n y) id' n').map header := by
  by_cases h1 : id' = id
  · subst h1
    by_cases h2 : n' = n
    · subst h2; simpa using hxy
    · simp [h2, hfg]
  · simp [h1, hfg]

theorem seq_eq {a b : UInt64} {n : Nat} (h1 : a.toNat = n) (h2 : b.toNat = n) : a = b := UInt64.toNat_inj.1 (h1.trans h2.symm)

/-- Two views that are alike carry out the same transactions, and are alike afterwards. -/
theorem alike_rule {v1 v2 v1' v2' : View} {o1 o2 : List Obs} {op : Op} (ha : v1.Alike v2) (h1 : Rule api v1 op v1' o1)
    (h2 : Rule api v2 op v2' o2) : v1'.Alike v2' := by
  obtain ⟨e1, e2, e3, e4, e5, e6, e7, e8, e9, e10, e11⟩ := ha
  cases h1 with
  | block _ _ => cases h2 with | block _ _ => exact ⟨e1, by simp [e2], e3, e4, e5, e6, e7, e8, e9, e10, e11⟩
  | instantiate _ _ _ _ _ =>
    cases h2 with
    | instantiate _ _ _ _ _ => exact ⟨rfl, e2, rfl, e4, rfl, e6, e7, rfl, by simp [e2, e9], e10, e11⟩
  | createChannel _ _ a _ _ =>
    cases h2 with
    | createChannel _ _ b _ _ =>
      rw [e8, b] at a
      cases a
      exact ⟨e1, e2, e3, e4, e5, e6, e7, rfl, by simp [e2, e9], e10, e11⟩
  | closeChannel _ a =>
    cases h2 with
    | closeChannel _ b =>
      rw [e7, b] at a
      cases a
      exact ⟨e1, e2, e3, e4, e5, e6, rfl, e8, by simp [e9], e10, e11⟩
  | sendCosmosMsgs _ a2 a3 _ _ _ a7 a8 a9 a10 a11 _ =>
    cases h2 with
    | sendCosmosMsgs _ b2 b3 _ _ _ b7 b8 b9 b10 b11 _ =>
      rw [e6, b2] at a2
      cases a2
      rw [e9, b3] at a3
      cases a3
      rw [← e10] at b9
      rw [← e2] at b11
      have hts := seq_eq a11 b11
      have hn := seq_eq a9 b9
      subst hts
      refine ⟨e1, e2, e3, e4, e5, e6, e7, e8, e9, by simp [e10], ?_⟩
      dsimp only
      rw [← hn]
      refine inFlight_alike e11 _ _ ?_
      simp only [Option.map_some, header, a7, b7, a8, b8, hn, a10, b10]
  | updateCallbackAddress _ _ =>
    cases h2 with | updateCallbackAddress _ _ => exact ⟨e1, e2, e3, e4, rfl, e6, e7, e8, e9, e10, e11⟩
  | transferOwnership _ _ => cases h2 with | transferOwnership _ _ => exact ⟨e1, e2, e3, rfl, e5, e6, e7, e8, e9, e10, e11⟩
  | acceptOwnership _ _ => cases h2 with | acceptOwnership _ _ => exact ⟨e1, e2, rfl, rfl, e5, e6, e7, e8, e9, e10, e11⟩
  | openAck a1 a2 _ _ a5 _ =>
    cases h2 with
    | openAck b1 b2 _ _ b5 _ =>
      rw [e9, b1] at a1
      cases a1
      cases metadata_unique a2 b2
      subst a5 b5
      exact ⟨e1, e2, e3, e4, e5, rfl, rfl, e8, by simp [e9], e10, e11⟩
  | closeConfirm a _ =>
    cases h2 with
    | closeConfirm b _ =>
      rw [e7, b] at a
      cases a
      exact ⟨e1, e2, e3, e4, e5, e6, rfl, e8, by simp [e9], e10, e11⟩
  | success _ _ a _ _ =>
    cases h2 with
    | success _ _ b _ _ => exact ⟨e1, e2, e3, e4, e5, e6, e7, e8, e9, e10, inFlight_alike e11 _ _ rfl⟩
    | failure _ _ b _ => exact ⟨e1, e2, e3, e4, e5, e6, e7, e8, e9, e10, inFlight_alike e11 _ _ rfl⟩
  | failure _ _ a _ =>
    cases h2 with
    | success _ _ b _ _ => exact ⟨e1, e2, e3, e4, e5, e6, e7, e8, e9, e10, inFlight_alike e11 _ _ rfl⟩
    | failure _ _ b _ => exact ⟨e1, e2, e3, e4, e5, e6, e7, e8, e9, e10, inFlight_alike e11 _ _ rfl⟩
  | timeout _ a _ =>
    cases h2 with
    | timeout _ b _ =>
      rw [e9, b] at a
      cases a
      exact ⟨e1, e2, e3, e4, e5, e6, by simp [e7], e8, by simp [e9], e10, inFlight_alike e11 _ _ rfl⟩

theorem tells_some (cb : Option String) (m : CallbackMsg) : ∃ obs, Tells cb m obs := ⟨_, tells_callObs cb m⟩

theorem alike_can {v1 v2 v1' : View} {o1 : List Obs} {op : Op} (ha : v1.Alike v2) (h1 : Rule api v1 op v1' o1) :
    ∃ v2' o2, Rule api v2 op v2' o2 := by
  obtain ⟨e1, e2, e3, e4, e5, e6, e7, e8, e9, e10, e11⟩ := ha
  have hf : ∀ {id n p qs}, v1.inFlight id n = some (p, qs) → ∃ p', v2.inFlight id n = some (p', qs) := fun {id n p qs} e => by
    have := e11 id n
    rw [e] at this
    cases hx : v2.inFlight id n with
    | none => rw [hx] at this; cases this
    | some y =>
      rw [hx] at this
      simp only [Option.map_some, header, Option.some.injEq, Prod.mk.injEq] at this
      obtain ⟨-, -, -, -, rfl⟩ := this
      exact ⟨y.1, rfl⟩
  cases h1 with
  | block a b => exact ⟨_, _, .block (e2 ▸ a) (e2 ▸ b)⟩
  | instantiate a b c d e => exact ⟨_, _, .instantiate (e1 ▸ a) b c d (e9 ▸ e)⟩
  | createChannel a b c d e => exact ⟨_, _, .createChannel (e3 ▸ a) (e7 ▸ b) (e8 ▸ c) d (e9 ▸ e)⟩
  | closeChannel a b => exact ⟨_, _, .closeChannel (e3 ▸ a) (e7 ▸ b)⟩
  | sendCosmosMsgs a b c d e f g h i j k l =>
    exact ⟨_, _, .sendCosmosMsgs (e3 ▸ a) (e6 ▸ b) (e9 ▸ c) (e10 ▸ d) e f g h (e10 ▸ i) j (e2 ▸ k) l⟩
  | updateCallbackAddress a b => exact ⟨_, _, .updateCallbackAddress (e3 ▸ a) b⟩
  | transferOwnership a b => exact ⟨_, _, .transferOwnership (e3 ▸ a) b⟩
  | acceptOwnership a b => exact ⟨_, _, .acceptOwnership (e4 ▸ a) (e2 ▸ b)⟩
  | openAck a b c d e f =>
    obtain ⟨obs, ho⟩ := tells_some v2.callback _
    exact ⟨_, _, .openAck (e9 ▸ a) b c d e ho⟩
  | closeConfirm a b => exact ⟨_, _, .closeConfirm (e7 ▸ a) b⟩
  | success a b c d e =>
    obtain ⟨p', hp'⟩ := hf a
    obtain ⟨obs, ho⟩ := tells_some v2.callback _
    exact ⟨_, _, .success hp' (e9 ▸ b) c d ho⟩
  | failure a b c d =>
    obtain ⟨p', hp'⟩ := hf a
    obtain ⟨obs, ho⟩ := tells_some v2.callback _
    exact ⟨_, _, .failure hp' (e9 ▸ b) c ho⟩
  | timeout a b c =>
    obtain ⟨p', hp'⟩ := hf a
    obtain ⟨obs, ho⟩ := tells_some v2.callback _
    exact ⟨_, _, .timeout hp' (e9 ▸ b) ho⟩

/-- **C111.** And the other way round: whatever sequence of transactions the machine carries out, the contract accepts, and
then shows the same, but for how the data of its packets is spelled. -/
theorem C111_complete (hr : Runs api (View.start env) h v) :
    ∃ h' w v', Exec api (World.genesis env) h' w ∧ h'.map (·.1) = h.map (·.1) ∧ Runs api (View.start env) h' v' ∧ Shows w v' ∧
      v.Alike v' := by
  suffices ∃ h' w v', Exec api (World.genesis env) h' w ∧ h'.map (·.1) = h.map (·.1) ∧ Runs api (View.start env) h' v' ∧
      Sim h' w v' ∧ v.Alike v' from
    let ⟨h', w, v', a, b, c, d, e⟩ := this
    ⟨h', w, v', a, b, c, d.shows, e⟩
  induction hr with
  | nil => exact ⟨[], _, _, .nil, rfl, .nil, sim_start env, .refl _⟩
  | @step h v v1 op obs _ hs ih =>
    obtain ⟨h', w, v', a, b, c, d, e⟩ := ih
    obtain ⟨v2, o2, k⟩ := alike_can e hs
    obtain ⟨w', obs', hc⟩ := (C92_admitted_iff a op).2 (sim_admits a d k)
    obtain ⟨v3, k1, k2⟩ := sim_step a d hc
    exact ⟨_, w', v3, .step a hc, by simp [b], .step c k1, k2, alike_rule e hs k1⟩

/-- **C111.** The machine is determined: the same transaction in the same state has the same effect, but for how the data of
a packet that is sent is spelled; -/
theorem C111_effect {v1 v2 : View} {o1 o2 : List Obs} {op : Op} (h1 : Rule api v op v1 o1) (h2 : Rule api v op v2 o2) :
    v1.Alike v2 := alike_rule (.refl v) h1 h2

theorem rule_unique {v1 v2 : View} {o1 o2 : List Obs} {op : Op} (h1 : Rule api v op v1 o1) (h2 : Rule api v op v2 o2)
    (ho : o1 = o2) : v1 = v2 := by
  obtain ⟨e1, e2, e3, e4, e5, e6, e7, e8, e9, e10, e11⟩ := C111_effect h1 h2
  have : v1.inFlight = v2.inFlight := by
    cases h1 with
    | sendCosmosMsgs _ a _ _ _ _ _ _ _ _ _ _ =>
      cases h2 with
      | sendCosmosMsgs _ b _ _ _ _ _ _ _ _ _ _ =>
        rw [a] at b
        cases b
        cases ho
        rfl
    | _ => cases h2 <;> rfl
  cases v1
  cases v2
  simp_all

/-- and what is seen determines the rest. So C111 says of every history what the contract and its chain show after it. -/
theorem C111_determined {v1 v2 : View} (h1 : Runs api (View.start env) h v1) (h2 : Runs api (View.start env) h v2) : v1 = v2 := by
  induction h1 generalizing v2 with
  | nil =>
    generalize hg : ([] : List (Op × List Obs)) = g at h2
    cases h2 with
    | nil => rfl
    | step _ _ => simp at hg
  | @step h v v1 op obs h1 hs ih =>
    generalize hg : h ++ [(op, obs)] = g at h2
    cases h2 with
    | nil => simp at hg
    | step h2 hs2 =>
      obtain ⟨rfl, hx⟩ := List.append_inj' hg rfl
      cases hx
      cases ih h2
      exact rule_unique hs hs2 rfl

/-! ## In bytes -/

theorem rel_exec {h : List (Raw.ROp × List Obs)} {w : Raw.RWorld} (he : Raw.RExec api (.genesis env) h w)
    (hs : ∀ x ∈ h, x.1.Short) : ∃ h' s, Exec api (World.genesis env) h' (w.typed s) ∧ Raw.Rel w s ∧
      List.Forall₂ (fun x y => Says x.1 y.1 ∧ x.2 = y.2) h h' := by
  induction he with
  | nil => exact ⟨[], _, .nil, Raw.rel_genesis env, .nil⟩
  | @step h w w' op obs _ ha ih =>
    obtain ⟨h', s, h1, h2, h3⟩ := ih fun x hx => hs x (by simp [hx])
    have hm := Raw.apply_matches h2 api op (hs (op, obs) (by simp))
    rw [ha] at hm
    cases hd : op.decode with
    | none => rw [hd] at hm; cases hm
    | some o =>
      rw [hd, Option.bind_some] at hm
      cases ho : Ica.apply api (w.typed s) o with
      | none => rw [ho] at hm; cases hm
      | some q =>
        obtain ⟨w2, obs2⟩ := q
        rw [ho] at hm
        obtain ⟨rw', e1, e2, e3⟩ := hm
        obtain ⟨rfl, rfl⟩ := Prod.mk.inj (Option.some.inj e1)
        refine ⟨h' ++ [(o, obs)], w2.store, ?_, e3, ?_⟩
        · rw [← e2]; exact .step h1 ho
        · exact List.rel_append h3 (.cons ⟨says_decode hd, rfl⟩ .nil)

theorem decode_says {r : Raw.ROp} {op : Op} (ht : ByText r) (hsay : Says r op) : r.decode = some op := by
  cases hsay with
  | instantiate hm => simp only [Raw.ROp.decode, (ofBytes_iff InstantiateMsg_reads).2 hm, Option.map_some]
  | execute hm => simp only [Raw.ROp.decode, (ofBytes_iff ExecuteMsg_reads).2 hm, Option.map_some]
  | migrate hm => simp only [Raw.ROp.decode, (ofBytes_iff MigrateMsg_reads).2 hm, Option.map_some]
  | chain =>
    cases op <;> first | rfl | exact ht.elim

theorem answered_query {raw : Raw.RawStore} {s : Store} (hr : Raw.Rep raw s) {text : Bytes} {q : QueryMsg}
    (ht : Spells Api.QueryMessage text q) : Raw.vmQuery text raw = Ica.query s q := by
  unfold Raw.vmQuery Raw.withMsg
  rw [(ofBytes_iff QueryMsg_reads).2 ht]
  dsimp only
  rw [Raw.query_ag hr]

theorem sim_answering {h : List (Op × List Obs)} {w : Raw.RWorld} {s : Store} (hr : Raw.Rep w.raw s) (hs : Sim h (w.typed s) v) :
    Answering w v where
  live := hs.live
  env := hs.env
  ownership := fun text ht => by
    rw [answered_query hr ht]
    have := hs.ownership
    change s.ownership = _ at this
    cases hl : v.live with
    | true =>
      rw [hl] at this
      exact ⟨_, by simp [query, this, load, Res.bind], written _ _ (writes_ownership _)⟩
    | false =>
      rw [hl] at this
      exact ⟨_, by simp [query, this, load, Res.bind]; rfl⟩
  state := fun text ht => by
    rw [answered_query hr ht]
    have := hs.state
    change s.state = _ at this
    cases hl : v.live with
    | true =>
      rw [hl] at this
      exact ⟨_, by simp [query, this, load, Res.bind], written _ _ (enc_contractState _)⟩
    | false =>
      rw [hl] at this
      exact ⟨_, by simp [query, this, load, Res.bind]; rfl⟩
  channel := fun text ht => by
    rw [answered_query hr ht]
    have := hs.channel
    change s.channel = _ at this
    cases hl : v.channel with
    | some c =>
      rw [hl] at this
      exact ⟨_, by simp [query, this, load, Res.bind], written _ _ (enc_channelState _)⟩
    | none =>
      rw [hl] at this
      exact ⟨_, by simp [query, this, load, Res.bind]; rfl⟩
  chans := hs.chans
  nextSeq := hs.nextSeq
  inFlight := hs.inFlight

/-- **C111.** The same of the contract as the VM runs it: raw bytes in storage, JSON texts as messages. Every history of it
is one of the machine when one reads its texts as documented; its three queries, however the query is spelled, answer what
the machine shows, as documented; and the contract then accepts exactly the texts that say something the machine carries
out. -/
theorem C111_bytes {h : List (Raw.ROp × List Obs)} {w : Raw.RWorld} (he : Raw.RExec api (.genesis env) h w)
    (hs : ∀ x ∈ h, x.1.Short) :
    ∃ h' v, List.Forall₂ (fun x y => Says x.1 y.1 ∧ x.2 = y.2) h h' ∧ Runs api (View.start env) h' v ∧ Answering w v ∧
      ∀ r : Raw.ROp, r.Short → ByText r →
        ((∃ w' obs, Raw.apply api w r = some (w', obs)) ↔ ∃ op v' obs, Says r op ∧ Rule api v op v' obs) := by
  obtain ⟨h', s, h1, h2, h3⟩ := rel_exec he hs
  obtain ⟨v, k1, k2⟩ := sim_exec h1
  refine ⟨h', v, h3, k1, sim_answering h2.rep k2, fun r hr ht => ?_⟩
  have hm := Raw.apply_matches h2 api r hr
  constructor
  · rintro ⟨w', obs, hx⟩
    rw [hx] at hm
    cases hd : r.decode with
    | none => rw [hd] at hm; cases hm
    | some o =>
      rw [hd, Option.bind_some] at hm
      cases ho : Ica.apply api (w.typed s) o with
      | none => rw [ho] at hm; cases hm
      | some q =>
        obtain ⟨v', k3, -⟩ := sim_step h1 k2 (w' := q.1) (obs := q.2) ho
        exact ⟨o, v', _, says_decode hd, k3⟩
  · rintro ⟨op, v', obs, g1, g2⟩
    obtain ⟨w2, obs2, hc⟩ := (C92_admitted_iff h1 op).2 (sim_admits h1 k2 g2)
    rw [decode_says ht g1, Option.bind_some, show Ica.apply api (w.typed s) op = some (w2, obs2) from hc] at hm
    obtain ⟨rw', e1, -⟩ := hm
    exact ⟨rw', _, e1⟩

/-- The scenario with a packet with queries, acknowledged: the machine runs along, with the account, the channel and the
callback address of the scenario, and nothing in flight at the end. -/
example : ∃ v, Runs Ex.api (View.start Ex.env) Ex.h4s v ∧ v.owner = some "alice" ∧ v.callback = some "cb" ∧
    v.account.isSome ∧ v.channel = some ⟨Ex.chan "channel-0" Ex.opts, .opened⟩ ∧ v.nextSeq "channel-0" = 2 ∧
    v.inFlight "channel-0" 1 = none := by
  obtain ⟨v, h1, h2, -⟩ := C111_machine Ex.e4s
  refine ⟨v, h1, h2.owner ▸ rfl, h2.callback ▸ rfl, ?_, (h2.channel _ _).1 rfl, h2.nextSeq ▸ rfl, ?_⟩
  · have := h2.account
    cases hx : v.account with
    | none => rw [hx] at this; cases this
    | some _ => rfl
  · have := h2.inFlight "channel-0" 1
    cases hx : v.inFlight "channel-0" 1 with
    | none => rfl
    | some _ => rw [hx] at this; cases this

/-- Without the contract: some owner of the machine appoints an heir, who accepts, in every state with a live contract. -/
example (ho : v.owner = some "alice") (hb : api.validAddr "bob" = true) :
    ∃ v1 v2, Rule api v (.execute "alice" (.updateOwnership (.transferOwnership "bob" none)) "" true) v1 [] ∧
      Rule api v1 (.execute "bob" (.updateOwnership .acceptOwnership) "" true) v2 [] ∧ v2.owner = some "bob" :=
  ⟨_, _, .transferOwnership ho hb, .acceptOwnership (e := none) rfl trivial, rfl⟩

end Ica
