import Verif.Facts.Callee
import Verif.Props.Queries

/-!
# Callbacks and events (C43-C47)
-/
namespace Ica
open Spec

theorem callsOf_callObs (cb : Option String) (m : CallbackMsg) :
    callsOf (callObs cb m) = match cb with | some a => [(a, m.intoJsonBinary, [])] | none => [] := by
  cases cb <;> rfl

/-- Every notifying operation makes the call described by one message. -/
theorem notify_calls {api : Api} {w w' : World} {op : Op} {obs : List Obs} (h : apply api w op = some (w', obs))
    (hn : op.notifies = true) : ∃ m, callsOf obs = callsOf (callObs (callbackOf w) m) := by
  cases op with
  | relayOpenAck id cpId v =>
    obtain ⟨c, st, m, _, _, hs, _, _, _, _, _, rfl⟩ := apply_openAck.1 h
    exact ⟨.onChannelOpenAckCallback (ackedChan c.chan cpId v) m.address m.encoding, by simp [callbackOf, hs]⟩
  | relayAck id n ack r =>
    obtain ⟨p, c, st, _, _, _, hs, h2⟩ := apply_ack.1 h
    rcases h2 with ⟨res, q, _, _, _, rfl⟩ | ⟨e, _, _, rfl⟩
    · exact ⟨.onAcknowledgementPacketCallback (.result res) p r q, by simp [callbackOf, hs, callsOf]⟩
    · exact ⟨.onAcknowledgementPacketCallback (.error e) p r (some (.error e)), by simp [callbackOf, hs, callsOf]⟩
  | relayTimeout id n r =>
    obtain ⟨p, c, st, cs, _, _, hs, _, _, rfl⟩ := apply_timeout.1 h
    exact ⟨.onTimeoutPacketCallback p r, by simp [callbackOf, hs]⟩
  | _ => cases hn

/-- **C43.** In every world: an OpenAck, an acknowledgement or a timeout that is processed calls exactly one contract,
the callback address in force, once and without funds. -/
theorem C43_exactly_one {api : Api} {w w' : World} {op : Op} {obs : List Obs} (h : Commits api w op w' obs)
    (hn : op.notifies = true) {cb : String} (hcb : callbackOf w = some cb) :
    ∃ bytes, callsOf obs = [(cb, bytes, [])] := by
  obtain ⟨m, hm⟩ := notify_calls h hn
  rw [hcb] at hm
  exact ⟨_, hm⟩

/-- **C43.** Without a callback address nobody is called. -/
theorem C43_none_without_address {api : Api} {w w' : World} {op : Op} {obs : List Obs} (h : Commits api w op w' obs)
    (hcb : callbackOf w = none) : callsOf obs = [] := by
  cases hn : op.notifies with
  | false => exact no_calls h hn
  | true =>
    obtain ⟨m, hm⟩ := notify_calls h hn
    rw [hcb] at hm
    exact hm

/-- **C43.** No other operation calls anybody. -/
theorem C43_no_other {api : Api} {w w' : World} {op : Op} {obs : List Obs} (h : Commits api w op w' obs)
    (hn : op.notifies = false) : callsOf obs = [] := no_calls h hn

/-- The scenario: OpenAck with a callback address. -/
example : Commits Ex.api Ex.w1 (.relayOpenAck "channel-0" "channel-5" Ex.ver) Ex.w2
      (callObs (some "cb") (.onChannelOpenAckCallback (Ex.chan "channel-0" Ex.opts) "cosmos1ica" .protobuf)) ∧
    callbackOf Ex.w1 = some "cb" := ⟨(apply_iff_step (inv_of_reachable Ex.r1)).2 Ex.s2, rfl⟩

/-- **C44.** The OpenAck callback carries the channel as it is now reported and as it is on the chain, and the ICA
address and encoding now known to the contract. -/
theorem C44_open_ack {api : Api} {w w' : World} {id cpId version : String} {obs : List Obs}
    (h : Commits api w (.relayOpenAck id cpId version) w' obs) {cb : String} (hcb : callbackOf w = some cb) :
    ∃ ch ica, ChainOpen w' id ch ∧ Reports w' ch .opened ∧ icaOf w' = some ica ∧
      CalledBack obs cb (.onChannelOpenAckCallback ch ica.icaAddress ica.encoding) := by
  obtain ⟨c, st, m, hc, _, hs, _, _, _, _, rfl, rfl⟩ := apply_openAck.1 h
  have : st.callbackAddress = some cb := by simpa [callbackOf, hs] using hcb
  refine ⟨_, _, ?_, rfl, rfl, calledBack_callObs (by rw [this])⟩
  simp [ChainOpen, setChan]

/-- **C44.** The acknowledgement callback carries the acknowledgement as it reads, the packet that was committed, and
the relayer. -/
theorem C44_ack {api : Api} {w w' : World} {id relayer : String} {n : UInt64} {ack : Bytes} {obs : List Obs}
    (h : Commits api w (.relayAck id n ack relayer) w' obs) {cb : String} (hcb : callbackOf w = some cb) :
    ∃ a p q, readAck ack = some a ∧ w.commits id n = some p ∧
      CalledBack obs cb (.onAcknowledgementPacketCallback a p relayer q) := by
  obtain ⟨p, c, st, hp, _, _, hs, h2⟩ := apply_ack.1 h
  have : st.callbackAddress = some cb := by simpa [callbackOf, hs] using hcb
  rcases h2 with ⟨res, q, b1, _, _, rfl⟩ | ⟨e, b1, _, rfl⟩
  · exact ⟨_, p, q, by rw [readAck_eq]; exact b1, hp, calledBack_callObs (by simp [this, callsOf])⟩
  · exact ⟨_, p, some (.error e), by rw [readAck_eq]; exact b1, hp, calledBack_callObs (by simp [this, callsOf])⟩

/-- **C44.** The timeout callback carries the packet that was committed, and the relayer. -/
theorem C44_timeout {api : Api} {w w' : World} {id relayer : String} {n : UInt64} {obs : List Obs}
    (h : Commits api w (.relayTimeout id n relayer) w' obs) {cb : String} (hcb : callbackOf w = some cb) :
    ∃ p, w.commits id n = some p ∧ CalledBack obs cb (.onTimeoutPacketCallback p relayer) := by
  obtain ⟨p, c, st, cs, hp, _, hs, _, _, rfl⟩ := apply_timeout.1 h
  have : st.callbackAddress = some cb := by simpa [callbackOf, hs] using hcb
  exact ⟨p, hp, calledBack_callObs (by rw [this])⟩

/-- **C44**, in a history: the packet told to the callback contract is one the contract sent, and no earlier operation
settled it. -/
theorem C44_packet_was_sent {api : Api} {env : Env} {h : List (Op × List Obs)} {w w' : World}
    (he : Exec api (World.genesis env) h w) {op : Op} {obs : List Obs} (hc : Commits api w op w' obs) {id : String}
    {n : UInt64} (hs : op.settles id n = true) :
    ∃ p qs, w.commits id n = some p ∧ Sent h p qs ∧ p.src.channelId = id ∧ p.sequence = n ∧
      ∀ x ∈ h, x.1.settles id n = false := by
  have : ∃ p, w.commits id n = some p := by
    cases op with
    | relayAck id' n' ack r =>
      simp only [Op.settles, decide_eq_true_eq] at hs
      obtain ⟨rfl, rfl⟩ := hs
      obtain ⟨p, _, _, hp, _⟩ := apply_ack.1 hc
      exact ⟨p, hp⟩
    | relayTimeout id' n' r =>
      simp only [Op.settles, decide_eq_true_eq] at hs
      obtain ⟨rfl, rfl⟩ := hs
      obtain ⟨p, _, _, _, hp, _⟩ := apply_timeout.1 hc
      exact ⟨p, hp⟩
    | _ => cases hs
  obtain ⟨p, hp⟩ := this
  obtain ⟨a, b, ⟨qs, c⟩, d⟩ := (commits_iff he _ _ _).1 hp
  exact ⟨p, qs, hp, c, a, b, d⟩

/-- The scenario's timeout. -/
example : ∃ obs, Commits Ex.api Ex.w3 (.relayTimeout "channel-0" 1 "relayer") Ex.w4t obs ∧
    callbackOf Ex.w3 = some "cb" ∧ Ex.w3.commits "channel-0" 1 = some Ex.pkt :=
  ⟨_, (apply_iff_step (inv_of_reachable Ex.r3)).2 Ex.s4t, by simp [callbackOf, Ex.cb3, Ex.st], Ex.commit3⟩

/-- An operation tells about a packet at most once, and only if it settles it. -/
theorem tells_of_step {api : Api} {w w' : World} {op : Op} {obs : List Obs} (hv : Inv api w)
    (h : apply api w op = some (w', obs)) (id : String) (n : UInt64) :
    (obs.filter (tellsSettled id n)).length ≤ 1 ∧
      (op.settles id n = false → obs.filter (tellsSettled id n) = []) := by
  have key : ∀ (e : List Event) (cb : Option String) (m : CallbackMsg),
      ((e.map Obs.event ++ callObs cb m).filter (tellsSettled id n)).length ≤ 1 ∧
      ((∀ a, tellsSettled id n (.call a m.intoJsonBinary []) = false) →
        (e.map Obs.event ++ callObs cb m).filter (tellsSettled id n) = []) := by
    intro e cb m
    have he : (e.map Obs.event).filter (tellsSettled id n) = [] := by
      induction e with
      | nil => rfl
      | cons x l ih => exact ih
    rw [List.filter_append, he, List.nil_append]
    cases cb with
    | none => exact ⟨Nat.zero_le _, fun _ => rfl⟩
    | some a =>
      refine ⟨(List.length_filter_le _ _).trans (by simp [callObs]), fun ht => ?_⟩
      simp [callObs, ht a]
  have hdec : ∀ m : CallbackMsg, ReceiverExecuteMsg.jc.ofBytes m.intoJsonBinary = some (.receiveIcaCallback m) :=
    fun m => JC.ofBytes_toBytes ReceiverExecuteMsg.jc_law _
  have hno : ∀ p : IbcPacket, ∀ id' n', w.commits id' n' = some p → (id' = id ∧ n' = n → False) →
      ¬ (p.src.channelId = id ∧ p.sequence = n) := by
    intro p id' n' hp hne hh
    have := hv.commits _ _ _ hp
    rw [this.1] at hh
    exact hne ⟨hh.1, this.2.1.symm.trans hh.2⟩
  cases hn : op.notifies with
  | false =>
    have hc := no_calls h hn
    have hf : obs.filter (tellsSettled id n) = [] := by
      clear h key
      induction obs with
      | nil => rfl
      | cons o l ih =>
        cases o with
        | call a m f => simp [callsOf] at hc
        | _ => exact ih (by simpa [callsOf] using hc)
    rw [hf]
    exact ⟨Nat.zero_le _, fun _ => rfl⟩
  | true =>
    cases op with
    | relayOpenAck i cpId v =>
      obtain ⟨c, st, m, _, _, hs, _, _, _, _, _, rfl⟩ := apply_openAck.1 h
      obtain ⟨k1, k2⟩ := key [] st.callbackAddress
        (.onChannelOpenAckCallback (ackedChan c.chan cpId v) m.address m.encoding)
      exact ⟨k1, fun _ => k2 fun a => by simp [tellsSettled, hdec]⟩
    | relayAck i k ack r =>
      obtain ⟨p, c, st, hp, _, _, hs, h2⟩ := apply_ack.1 h
      rcases h2 with ⟨res, q, _, _, _, rfl⟩ | ⟨e, _, _, rfl⟩
      · obtain ⟨k1, k2⟩ := key [ackSuccessEvent p res] st.callbackAddress
          (.onAcknowledgementPacketCallback (.result res) p r q)
        refine ⟨k1, fun hne => k2 fun a => ?_⟩
        simp only [Op.settles, decide_eq_false_iff_not] at hne
        simp only [tellsSettled, hdec, decide_eq_false_iff_not]
        exact hno p i k hp hne
      · obtain ⟨k1, k2⟩ := key [ackErrorEvent p e] st.callbackAddress
          (.onAcknowledgementPacketCallback (.error e) p r (some (.error e)))
        refine ⟨k1, fun hne => k2 fun a => ?_⟩
        simp only [Op.settles, decide_eq_false_iff_not] at hne
        simp only [tellsSettled, hdec, decide_eq_false_iff_not]
        exact hno p i k hp hne
    | relayTimeout i k r =>
      obtain ⟨p, c, st, cs, hp, _, hs, _, _, rfl⟩ := apply_timeout.1 h
      obtain ⟨k1, k2⟩ := key [] st.callbackAddress (.onTimeoutPacketCallback p r)
      refine ⟨k1, fun hne => k2 fun a => ?_⟩
      simp only [Op.settles, decide_eq_false_iff_not] at hne
      simp only [tellsSettled, hdec, decide_eq_false_iff_not]
      exact hno p i k hp hne
    | _ => cases hn

theorem settled_once {api : Api} {env : Env} {h : List (Op × List Obs)} {w : World}
    (he : Exec api (World.genesis env) h w) (id : String) (n : UInt64) :
    (settledCalls id n h).length ≤ 1 ∧ ((∀ x ∈ h, x.1.settles id n = false) → settledCalls id n h = []) := by
  have main : ∀ h w, Exec api (World.genesis env) h w → (settledCalls id n h).length ≤ 1 ∧
      ((∀ x ∈ h, x.1.settles id n = false) → settledCalls id n h = []) := by
    intro h w he
    induction he with
    | nil => exact ⟨Nat.zero_le _, fun _ => rfl⟩
    | @step h w w' op obs he ha ih =>
      have hv := inv_exec (inv_genesis api env) he
      obtain ⟨t1, t2⟩ := tells_of_step hv ha id n
      have hcat : settledCalls id n (h ++ [(op, obs)]) = settledCalls id n h ++ obs.filter (tellsSettled id n) := by
        simp [settledCalls, List.flatMap_append]
      rw [hcat]
      cases hs : op.settles id n with
      | false =>
        rw [t2 hs, List.append_nil]
        exact ⟨ih.1, fun hall => ih.2 fun x hx => hall x (List.mem_append_left _ hx)⟩
      | true =>
        obtain ⟨_, _, _, _, _, _, hno⟩ := C44_packet_was_sent he ha hs
        rw [ih.2 hno, List.nil_append]
        refine ⟨t1, fun hall => ?_⟩
        have := hall (op, obs) (List.mem_append_right _ (List.mem_singleton.2 rfl))
        rw [hs] at this
        cases this
  exact main h w he

/-- **C45.** In every history of transactions, with callback contracts that fail, call back or settle other packets
themselves, at most one call ever tells about the acknowledgement or the timeout of a packet. -/
theorem C45_told_at_most_once {api : Api} {env : Env} {h : List (Op × List Obs)} {w : World}
    (he : TxExec api (World.genesis env) h w) (id : String) (n : UInt64) : (settledCalls id n h).length ≤ 1 :=
  (settled_once he.exec id n).1

/-- **C45.** A settled packet can never be settled again. -/
theorem C45_settled_for_ever {api : Api} {env : Env} {h : List (Op × List Obs)} {w : World}
    (he : TxExec api (World.genesis env) h w) {id : String} {n : UInt64} {x : Op × List Obs} (hx : x ∈ h)
    (hs : x.1.settles id n = true) {op : Op} (ho : op.settles id n = true) : Refused api w op := by
  unfold Refused
  cases ha : apply api w op with
  | none => rfl
  | some r =>
    obtain ⟨w', obs⟩ := r
    obtain ⟨_, _, _, _, _, _, hno⟩ := C44_packet_was_sent he.exec ha ho
    rw [hno x hx] at hs
    cases hs

theorem tells_ack (id : String) (n : UInt64) (cb : String) (a : AckData) (p : IbcPacket) (r : String)
    (q : Option IcaQueryResult) (h : p.src.channelId = id ∧ p.sequence = n) :
    tellsSettled id n (.call cb (CallbackMsg.onAcknowledgementPacketCallback a p r q).intoJsonBinary []) = true := by
  have hd : ∀ m : CallbackMsg, ReceiverExecuteMsg.jc.ofBytes m.intoJsonBinary = some (.receiveIcaCallback m) :=
    fun m => JC.ofBytes_toBytes ReceiverExecuteMsg.jc_law _
  simp only [tellsSettled, hd]
  exact decide_eq_true h

theorem settledCalls_ne {id : String} {n : UInt64} {h : List (Op × List Obs)} {op : Op} {obs : List Obs} {o : Obs}
    (ho : o ∈ obs) (ht : tellsSettled id n o = true) : settledCalls id n (h ++ [(op, obs)]) ≠ [] := by
  intro e
  have : o ∈ settledCalls id n (h ++ [(op, obs)]) :=
    List.mem_filter.2 ⟨List.mem_flatMap.2 ⟨(op, obs), List.mem_append_right _ (List.mem_singleton.2 rfl), ho⟩, ht⟩
  rw [e] at this
  cases this

/-- The scenario: the packet is settled, and its settlement was told. -/
example : settledCalls "channel-0" 1 Ex.h4s ≠ [] ∧ TxExec Ex.api (World.genesis Ex.env) Ex.h4s Ex.w4s :=
  ⟨settledCalls_ne (List.mem_cons_of_mem _ (List.mem_singleton.2 rfl))
    (tells_ack "channel-0" 1 "cb" (.result Ex.okRes) Ex.pkt "relayer" (some Ex.okResult) ⟨rfl, rfl⟩), Ex.e4s.txExec⟩

/-- **C46.** For every called contract, however it behaves: if the contract called by an event fails, the whole
operation fails. -/
theorem C46_failing_callee_fails {callee : Callee} {api : Api} {w : World} {op : Op} (hn : op.notifies = true)
    {cb : String} (hcb : callbackOf w = some cb) (hf : ∀ w' m, callee w' cb m [] = none) :
    applyWith callee api w op = none := by
  rw [applyWith_eq]
  cases h : apply api w op with
  | none => rfl
  | some r =>
    obtain ⟨w', obs⟩ := r
    obtain ⟨bytes, hb⟩ := C43_exactly_one h hn hcb
    simp [afterCall, hb, hf]

/-- **C46.** For every called contract: it runs after everything else the event does, so it sees the event done, and
what it leaves is the outcome. -/
theorem C46_callee_runs_last (callee : Callee) {api : Api} {w w' : World} {op : Op} {obs : List Obs}
    (hn : op.notifies = true) {cb : String} (hcb : callbackOf w = some cb) (h : Commits api w op w' obs) :
    ∃ bytes, callsOf obs = [(cb, bytes, [])] ∧ ∀ w'' obs'', applyWith callee api w op = some (w'', obs'') ↔
      callee w' cb bytes [] = some w'' ∧ obs'' = obs := by
  obtain ⟨bytes, hb⟩ := C43_exactly_one h hn hcb
  refine ⟨bytes, hb, fun w'' obs'' => ?_⟩
  rw [applyWith_eq]
  rw [show apply api w op = some (w', obs) from h]
  simp only [afterCall, hb]
  cases callee w' cb bytes [] with
  | none => simp
  | some x => simp [eq_comm (a := obs)]

/-- **C46.** The transactions with callbacks of `Model/Tx.lean` are the operations with the called contract running
inside, for every behaviour of that contract. -/
theorem C46_tx_is_nested (api : Api) (w : World) (op : Op) (callee : Option (List Tx)) :
    (applyTx api w (.mk op callee)).map (·.1) =
      (applyWith (fun w' _ _ _ => callee.map fun ts => (applyTxs api w' ts).1) api w op).map (·.1) := by
  rw [applyWith_eq, applyTx]
  cases h : apply api w op with
  | none => rfl
  | some r =>
    obtain ⟨w', obs⟩ := r
    have hany : obs.any Obs.isCall = true ↔ callsOf obs ≠ [] := by
      clear h
      induction obs with
      | nil => simp [callsOf]
      | cons o l ih =>
        cases o with
        | call a m f => simp [callsOf, Obs.isCall]
        | _ => simpa [callsOf, Obs.isCall] using ih
    simp only [afterCall]
    by_cases hc : callsOf obs = []
    · have : ¬ obs.any Obs.isCall = true := fun e => hany.1 e hc
      simp only [this, hc]
      rfl
    · simp only [hany.2 hc, if_true]
      obtain ⟨x, l, hx⟩ := List.exists_cons_of_ne_nil hc
      rw [hx]
      cases callee with
      | none => rfl
      | some ts => rfl

/-- **C46.** An event whose callback fails leaves nothing behind: what follows goes as if it had never been tried; in
particular the event can be retried and is then processed as for the first time. -/
theorem C46_retry_as_first {api : Api} {w : World} {op : Op} (hn : op.notifies = true) {cb : String}
    (hcb : callbackOf w = some cb) :
    applyTx api w (.mk op none) = none ∧
      ∀ ts, applyTxs api w (.mk op none :: ts) = applyTxs api w ts := by
  have h0 : applyTx api w (.mk op none) = none := by
    have h1 := C46_tx_is_nested api w op none
    rw [C46_failing_callee_fails hn hcb (fun _ _ => rfl)] at h1
    cases h2 : applyTx api w (.mk op none) with
    | none => rfl
    | some r => rw [h2] at h1; cases h1
  refine ⟨h0, fun ts => ?_⟩
  rw [applyTxs, h0]

/-- The scenario: an acknowledgement whose callback fails, retried with a callback that succeeds. -/
example : ∃ log, applyTxs Ex.api Ex.w3 [.mk (.relayAck "channel-0" 1 Ex.okAck "relayer") none,
    .mk (.relayAck "channel-0" 1 Ex.okAck "relayer") (some [])] = (Ex.w4s, log) := by
  have hc : callbackOf Ex.w3 = some "cb" := by simp [callbackOf, Ex.cb3, Ex.st]
  rw [(C46_retry_as_first rfl hc).2]
  have := (apply_iff_step (inv_of_reachable Ex.r3)).2 Ex.s4s
  rw [applyTxs, applyTx, this]
  simp [applyTxs, callObs, Obs.isCall]

/-- **C47.** A processed acknowledgement emits exactly one event: of type `acknowledge_packet`, with the packet's
sequence, source port and source channel, and the acknowledged bytes in base64 or the error. -/
theorem C47_event {api : Api} {w w' : World} {id relayer : String} {n : UInt64} {ack : Bytes} {obs : List Obs}
    (h : Commits api w (.relayAck id n ack relayer) w' obs) :
    ∃ p a, w.commits id n = some p ∧ readAck ack = some a ∧
      eventsOf obs = [⟨"acknowledge_packet",
        [("packet_sequence", decString p.sequence.toNat), ("packet_src_port", p.src.portId),
         ("packet_src_channel", p.src.channelId),
         match a with
         | .result res => ("packet_ack_base64", String.ofList (b64Enc res))
         | .error e => ("error", e)]⟩] := by
  obtain ⟨p, c, st, hp, _, _, hs, h2⟩ := apply_ack.1 h
  have hev : ∀ e cb m, eventsOf (.event e :: callObs cb m) = [e] := by
    intro e cb m; cases cb <;> rfl
  rcases h2 with ⟨res, q, b1, _, _, rfl⟩ | ⟨e, b1, _, rfl⟩
  · exact ⟨p, _, hp, by rw [readAck_eq]; exact b1, by rw [hev]; rfl⟩
  · exact ⟨p, _, hp, by rw [readAck_eq]; exact b1, by rw [hev]; rfl⟩

/-- **C47.** Equal events mean the same sequence, source port, source channel and the same acknowledged bytes or
error. -/
theorem C47_event_identifies {api : Api} {w1 w1' w2 w2' : World} {id1 id2 r1 r2 : String} {n1 n2 : UInt64}
    {ack1 ack2 : Bytes} {o1 o2 : List Obs} (h1 : Commits api w1 (.relayAck id1 n1 ack1 r1) w1' o1)
    (h2 : Commits api w2 (.relayAck id2 n2 ack2 r2) w2' o2) (he : eventsOf o1 = eventsOf o2) {p1 p2 : IbcPacket}
    (hp1 : w1.commits id1 n1 = some p1) (hp2 : w2.commits id2 n2 = some p2) :
    p1.sequence = p2.sequence ∧ p1.src = p2.src ∧ readAck ack1 = readAck ack2 := by
  obtain ⟨q1, a1, k1, l1, m1⟩ := C47_event h1
  obtain ⟨q2, a2, k2, l2, m2⟩ := C47_event h2
  rw [hp1] at k1
  rw [hp2] at k2
  cases k1
  cases k2
  rw [m1, m2] at he
  simp only [List.cons.injEq, Event.mk.injEq, true_and, Prod.mk.injEq, and_true] at he
  obtain ⟨e1, e2, e3, e4⟩ := he
  refine ⟨?_, ?_, ?_⟩
  · have := decString_inj e1
    exact UInt64.toNat_inj.1 this
  · obtain ⟨_, ⟨_, _⟩, _, _, _⟩ := p1
    obtain ⟨_, ⟨_, _⟩, _, _, _⟩ := p2
    simp only at e2 e3
    rw [e2, e3]
  · rw [l1, l2]
    cases a1 with
    | result b1 =>
      cases a2 with
      | result b2 =>
        simp only [Prod.mk.injEq, true_and] at e4
        have : b64Enc b1 = b64Enc b2 := by
          have := congrArg String.toList e4
          rwa [String.toList_ofList, String.toList_ofList] at this
        rw [b64Enc_inj this]
      | error e => simp at e4
    | error e =>
      cases a2 with
      | result b2 => simp at e4
      | error e' =>
        simp only [Prod.mk.injEq, true_and] at e4
        rw [e4]

/-- **C47.** No other operation emits an event. -/
theorem C47_no_other_events {api : Api} {w w' : World} (hr : Reachable api w) {op : Op} {obs : List Obs}
    (h : Commits api w op w' obs) (hn : ∀ id n ack r, op ≠ .relayAck id n ack r) : eventsOf obs = [] := by
  have hst := step_of_apply (inv_of_reachable hr) h
  have hev : ∀ cb m, eventsOf (callObs cb m) = [] := by
    intro cb m; cases cb <;> rfl
  cases hst with
  | ackOk => exact absurd rfl (hn _ _ _ _)
  | ackErr => exact absurd rfl (hn _ _ _ _)
  | openAck => exact hev _ _
  | timeout => exact hev _ _
  | _ => rfl

/-- The scenario's event. -/
example : Commits Ex.api Ex.w3 (.relayAck "channel-0" 1 Ex.okAck "relayer") Ex.w4s
    (.event ⟨"acknowledge_packet", [("packet_sequence", "1"), ("packet_src_port", "wasm.wasm1controller"),
      ("packet_src_channel", "channel-0"), ("packet_ack_base64", String.ofList (b64Enc Ex.okRes))]⟩ ::
      callObs (some "cb") (.onAcknowledgementPacketCallback (.result Ex.okRes) Ex.pkt "relayer" (some Ex.okResult))) := by
  have := (apply_iff_step (inv_of_reachable Ex.r3)).2 Ex.s4s
  exact this

end Ica
