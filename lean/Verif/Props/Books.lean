import Verif.Props.Interchain
import Verif.Props.Receivers

/-!
# The books of the callback counter (C110)

A contract that is told every outcome, and the packets of the controller: who is on its lists, and what the hosts did.
-/
namespace Ica
open Spec

/-- The packet whose outcome a callback tells. -/
def Spec.packetOf : CallbackMsg → Option IbcPacket
  | .onAcknowledgementPacketCallback _ p _ _ => some p
  | .onTimeoutPacketCallback p _ => some p
  | .onChannelOpenAckCallback _ _ _ => none

/-- The packets of a list of callbacks. -/
def Spec.packetsOf (ms : List CallbackMsg) : List IbcPacket := ms.filterMap packetOf

/-- All packets on the lists of the counter. -/
def Spec.booked (c : CallbackCounter) : List IbcPacket := packetsOf (c.success ++ c.error ++ c.timeout)

/-- Whenever a packet was settled, the address was the callback address set last. -/
def Spec.Listening (addr : String) (h : List (Op × List Obs)) : Prop :=
  ∀ h1 x h2, h = h1 ++ x :: h2 → x.1.isSettling = true → latestCallback h1 none = some addr

theorem listening_snoc {addr : String} {h : List (Op × List Obs)} {x : Op × List Obs} (hl : Listening addr (h ++ [x])) :
    Listening addr h ∧ (x.1.isSettling = true → latestCallback h none = some addr) :=
  ⟨fun h1 y h2 e hy => hl h1 y (h2 ++ [x]) (by rw [e]; simp) hy, fun hx => hl h x [] rfl hx⟩

theorem listening_nil (addr : String) : Listening addr [] := fun h1 x h2 e _ => by cases h1 <;> cases e

theorem listening_concat {addr : String} {h : List (Op × List Obs)} {x : Op × List Obs} (hl : Listening addr h)
    (hx : x.1.isSettling = true → latestCallback h none = some addr) : Listening addr (h ++ [x]) := by
  intro h1 y h2 e hy
  rcases List.eq_nil_or_concat h2 with rfl | ⟨h3, z, rfl⟩
  · obtain ⟨rfl, e2⟩ := List.append_inj' e rfl
    obtain rfl := List.head_eq_of_cons_eq e2
    exact hx hy
  · rw [List.concat_eq_append, ← List.cons_append, ← List.append_assoc] at e
    exact hl h1 y h3 (List.append_inj' e rfl).1 hy

theorem live_or_sets {api : Api} {w w' : World} {op : Op} {obs : List Obs} (hs : Step api w op w' obs) (hl : w'.live = true) :
    w.live = true ∨ (setsCallback op).isSome = true := by
  cases hs <;> first | exact .inr rfl | exact .inl hl

/-- For instance if nobody ever sets another address than this one. -/
theorem listening_of_fixed {api : Api} {env : Env} {h : List (Op × List Obs)} {w : World} {addr : String}
    (he : Exec api (World.genesis env) h w) (hf : ∀ x ∈ h, ∀ a, setsCallback x.1 = some a → a = some addr) :
    Listening addr h := by
  have main : Listening addr h ∧ (w.live = true → latestCallback h none = some addr) := by
    induction he with
    | nil => exact ⟨listening_nil addr, fun hl => by cases hl⟩
    | @step h w w' op obs he ha ih =>
      obtain ⟨i1, i2⟩ := ih fun x hx => hf x (List.mem_append_left _ hx)
      have hv := inv_exec (inv_genesis api env) he
      refine ⟨listening_concat i1 fun hx => i2 ?_, fun hl => ?_⟩
      · cases hd : w.live with
        | true => rfl
        | false =>
          obtain ⟨-, -, hc⟩ := hv.dead hd
          cases op with
          | relayAck id k ack r =>
            obtain ⟨p, _, _, hp, _⟩ := apply_ack.1 ha
            rw [hc] at hp
            cases hp
          | relayTimeout id k r =>
            obtain ⟨p, _, _, _, hp, _⟩ := apply_timeout.1 ha
            rw [hc] at hp
            cases hp
          | _ => cases hx
      · rw [latestCallback_append]
        cases hs : setsCallback op with
        | some a => exact hf _ (List.mem_append_right _ (List.mem_singleton.2 rfl)) a hs
        | none =>
          rcases live_or_sets (step_of_apply hv ha) hl with h1 | h1
          · exact i2 h1
          · rw [hs] at h1
            cases h1
  exact main.1

theorem booked_perm : ∀ ms : List CallbackMsg,
    (packetsOf (ms.filter isSuccess ++ ms.filter isError ++ ms.filter isTimeout)).Perm (packetsOf ms)
  | [] => .refl _
  | m :: ms => by
    have ih := booked_perm ms
    have mid : ∀ (p : IbcPacket) (a b : List IbcPacket), (a ++ p :: b).Perm (p :: (a ++ b)) := fun p a b => List.perm_middle
    unfold packetsOf at ih ⊢
    rw [List.filterMap_append, List.filterMap_append] at ih ⊢
    rcases m with ⟨_ | _, p, _, _⟩ | ⟨p, _⟩ | ⟨_, _, _⟩ <;>
      simp only [List.filter_cons, isSuccess, isError, isTimeout, if_true, Bool.false_eq_true, if_false,
        List.filterMap_cons, packetOf]
    · exact ih.cons p
    · refine List.Perm.trans ?_ (ih.cons p)
      rw [List.append_assoc, List.append_assoc, List.cons_append]
      exact mid _ _ _
    · exact (mid _ _ _).trans (ih.cons p)
    · exact ih

/-- One step: the messages to the address, and the packet they are about. -/
theorem books_step {api : Api} {w w' : World} {op : Op} {obs : List Obs} (h : apply api w op = some (w', obs))
    {addr : String} (hl : op.isSettling = true → callbackOf w = some addr) :
    ∃ ms : List CallbackMsg, deliveries addr [(op, obs)] = ms.map CallbackMsg.intoJsonBinary ∧
      (∀ m ∈ ms, CalledBack obs addr m) ∧
      (op.isSettling = false ∧ packetsOf ms = [] ∨
        ∃ id k p, op.settles id k = true ∧ w.commits id k = some p ∧ packetsOf ms = [p]) := by
  have hd : deliveries addr [(op, obs)] = (callsOf obs).filterMap fun c => if c.1 = addr then some c.2.1 else none := by
    simp [deliveries]
  rw [hd]
  cases hn : op.notifies with
  | false =>
    rw [no_calls h hn]
    refine ⟨[], rfl, fun m hm => (by cases hm), .inl ⟨?_, rfl⟩⟩
    cases op <;> first | rfl | cases hn
  | true =>
    obtain ⟨m, e⟩ := notify_calls h hn
    rw [callsOf_callObs] at e
    cases hcb : callbackOf w with
    | none =>
      rw [hcb] at e
      rw [e]
      refine ⟨[], rfl, fun m hm => (by cases hm), .inl ⟨?_, rfl⟩⟩
      cases ho : op.isSettling with
      | false => rfl
      | true => rw [hl ho] at hcb; cases hcb
    | some a =>
      rw [hcb] at e
      have hc : CalledBack obs a m := ⟨_, e, JC.ofBytes_toBytes ReceiverExecuteMsg.jc_law (.receiveIcaCallback m)⟩
      rw [e]
      by_cases ha : a = addr
      · subst ha
        refine ⟨[m], by simp, fun m' hm => by rw [List.mem_singleton.1 hm]; exact hc, ?_⟩
        rcases told h hc with ⟨id, c, v, rfl, ch, i, rfl, -⟩ | ⟨id, k, ack, r, rfl, x, p, q, rfl, -, hp⟩ |
          ⟨id, k, r, rfl, p, rfl, hp⟩
        · exact .inl ⟨rfl, rfl⟩
        · exact .inr ⟨id, k, p, by simp [Op.settles], hp, rfl⟩
        · exact .inr ⟨id, k, p, by simp [Op.settles], hp, rfl⟩
      · refine ⟨[], by simp [ha], fun m hm => (by cases hm), .inl ⟨?_, rfl⟩⟩
        cases ho : op.isSettling with
        | false => rfl
        | true =>
          have := hl ho
          rw [hcb] at this
          exact absurd (Option.some.inj this) ha

theorem settling_of_settles {op : Op} {id : String} {k : UInt64} (h : op.settles id k = true) : op.isSettling = true := by
  cases op <;> first | rfl | cases h

theorem settles_unique {op : Op} {id id' : String} {k k' : UInt64} (h : op.settles id k = true)
    (h' : op.settles id' k' = true) : id = id' ∧ k = k' := by
  cases op <;> simp [Op.settles] at h h'
  all_goals exact ⟨h.1.symm.trans h'.1, h.2.symm.trans h'.2⟩

/-- What the address is told in a history. -/
theorem books_all {api : Api} {env : Env} {h : List (Op × List Obs)} {w : World}
    (he : Exec api (World.genesis env) h w) {addr : String} (hl : Listening addr h) :
    ∃ ms : List CallbackMsg, deliveries addr h = ms.map CallbackMsg.intoJsonBinary ∧
      (∀ m ∈ ms, ∃ x ∈ h, CalledBack x.2 addr m) ∧ (packetsOf ms).Nodup ∧
      ∀ p, p ∈ packetsOf ms ↔ (∃ qs, Sent h p qs) ∧ ∃ x ∈ h, x.1.settles p.src.channelId p.sequence = true := by
  induction he with
  | nil =>
    refine ⟨[], rfl, fun m hm => (by cases hm), List.nodup_nil, fun p => ⟨fun hp => (by cases hp), ?_⟩⟩
    rintro ⟨-, x, hx, -⟩
    cases hx
  | @step h w w' op obs he ha ih =>
    obtain ⟨l1, l2⟩ := listening_snoc hl
    obtain ⟨ms, e1, e2, e3, e4⟩ := ih l1
    have hcb : op.isSettling = true → callbackOf w = some addr := fun ho => by
      rw [C53_latest_wins he.txExec]; exact l2 ho
    obtain ⟨ms', f1, f2, f3⟩ := books_step ha hcb
    refine ⟨ms ++ ms', by rw [deliveries_append, e1, f1, List.map_append], ?_, ?_⟩
    · intro m hm
      rcases List.mem_append.1 hm with hm | hm
      · obtain ⟨x, hx, hc⟩ := e2 m hm
        exact ⟨x, List.mem_append_left _ hx, hc⟩
      · exact ⟨_, List.mem_append_right _ (List.mem_singleton.2 rfl), f2 m hm⟩
    have hcat : packetsOf (ms ++ ms') = packetsOf ms ++ packetsOf ms' := List.filterMap_append
    rw [hcat]
    rcases f3 with ⟨g1, g2⟩ | ⟨id, k, q, g1, g2, g3⟩
    · rw [g2, List.append_nil]
      refine ⟨e3, fun p => ?_⟩
      rw [e4]
      have hno : op.settles p.src.channelId p.sequence = false := by
        cases hs : op.settles p.src.channelId p.sequence with
        | false => rfl
        | true => rw [settling_of_settles hs] at g1; cases g1
      constructor
      · rintro ⟨⟨qs, a⟩, x, hx, b⟩
        exact ⟨⟨qs, sent_snoc.2 (.inl a)⟩, x, List.mem_append_left _ hx, b⟩
      · rintro ⟨⟨qs, a⟩, x, hx, b⟩
        rcases List.mem_append.1 hx with hx1 | hx
        · rcases sent_snoc.1 a with a | a
          · exact ⟨⟨qs, a⟩, x, hx1, b⟩
          · exfalso
            have hv := inv_exec (inv_genesis api env) he
            obtain ⟨s, ms0, memo, t, f, co, hm⟩ := a
            rw [List.mem_singleton] at hm
            injection hm with h1 h2
            subst h1
            obtain ⟨p', o1, -, o3⟩ := step_send_facts hv (step_of_apply hv ha)
            rw [← h2] at o1
            obtain rfl : p = p' := by simpa using o1
            have : w'.commits p.src.channelId p.sequence = some p := by
              rw [o3]; simp [setCommit]
            have := ((commits_iff (he.step ha) _ _ _).1 this).2.2.2 x (List.mem_append_left _ hx1)
            rw [b] at this
            cases this
        · rw [List.mem_singleton.1 hx] at b
          rw [hno] at b
          cases b
    · obtain ⟨q', qs, c1, c2, c3, c4, c5⟩ := C44_packet_was_sent he ha g1
      rw [g2] at c1
      obtain rfl := Option.some.inj c1
      rw [g3]
      constructor
      · rw [List.nodup_append]
        refine ⟨e3, List.pairwise_singleton _ _, ?_⟩
        intro a ha' b hb hab
        rw [List.mem_singleton.1 hb] at hab
        subst hab
        obtain ⟨-, x, hx, hs⟩ := (e4 a).1 ha'
        rw [c3, c4, c5 x hx] at hs
        cases hs
      · intro p
        rw [List.mem_append, e4, List.mem_singleton]
        constructor
        · rintro (⟨⟨qs, a⟩, x, hx, b⟩ | rfl)
          · exact ⟨⟨qs, sent_snoc.2 (.inl a)⟩, x, List.mem_append_left _ hx, b⟩
          · exact ⟨⟨qs, sent_snoc.2 (.inl c2)⟩, _, List.mem_append_right _ (List.mem_singleton.2 rfl), by rw [c3, c4]; exact g1⟩
        · rintro ⟨⟨qs', a⟩, x, hx, b⟩
          have hs : Sent h p qs' := by
            rcases sent_snoc.1 a with a | ⟨s, ms0, memo, t, f, co, hm⟩
            · exact a
            · rw [List.mem_singleton] at hm
              injection hm with h1 h2
              subst h1
              cases g1
          rcases List.mem_append.1 hx with hx | hx
          · exact .inl ⟨⟨qs', hs⟩, x, hx, b⟩
          · rw [List.mem_singleton.1 hx] at b
            obtain ⟨i1, i2⟩ := settles_unique b g1
            exact .inr (sent_unique he _ _ _ _ hs c2 (i1.trans c3.symm) (i2.trans c4.symm)).1

/-- **C110.** The callback counter, freshly instantiated, being the callback address whenever a packet is settled: in every
history, with reentrant callbacks, each packet is on its lists at most once, and the packets on them are exactly those
that were sent and acknowledged or timed out. -/
theorem C110_each_packet_once {api : Api} {env : Env} {h : List (Op × List Obs)} {w : World}
    (he : TxExec api (World.genesis env) h w) {addr : String} (hl : Listening addr h) {raw0 raw1 : Raw.RawStore}
    {r : Response} (hi : Counter.instantiate raw0 = (.ok r, raw1)) :
    ∃ raw2 c, feed raw1 (deliveries addr h) = some raw2 ∧ Counter.query raw2 = (.ok (CallbackCounter.jc.toBytes c), raw2) ∧
      (booked c).Nodup ∧
      ∀ p, p ∈ booked c ↔ (∃ qs, Sent h p qs) ∧ ∃ x ∈ h, x.1.settles p.src.channelId p.sequence = true := by
  obtain ⟨raw2, c, ms, h1, h2, h3, h4, h5, h6⟩ := C63_counter_records he addr hi
  obtain ⟨ms', e1, -, e3, e4⟩ := books_all he.exec hl
  have : ms' = ms := by
    rw [e1, List.map_map] at h2
    have : (ms'.map fun m => some (ReceiverExecuteMsg.receiveIcaCallback m)) =
        ms.map fun m => some (ReceiverExecuteMsg.receiveIcaCallback m) := by
      rw [← h2]
      exact List.map_congr_left fun m _ => (JC.ofBytes_toBytes ReceiverExecuteMsg.jc_law _).symm
    exact List.map_injective_iff.mpr (fun a b e => by simpa using e) this
  subst this
  have hp : (booked c).Perm (packetsOf ms') := by
    unfold booked
    rw [h4, h5, h6]
    exact booked_perm ms'
  exact ⟨raw2, c, h1, h3, hp.symm.nodup e3, fun p => by rw [hp.mem_iff, e4]⟩

/-- **C110.** And the lists are true. Whatever happens afterwards: a packet listed as a success has been executed by the
host, and a packet listed as an error or a timeout is never executed. -/
theorem C110_lists_are_true {api : Api} {env : Env} {n0 n n' : Net} {h l : List (NetOp × List Obs)} (h0 : n0.Initial env)
    (he : NetExec api n0 h n) (hf : NetExec api n l n') (addr : String) {raw0 raw1 : Raw.RawStore} {r : Response}
    (hi : Counter.instantiate raw0 = (.ok r, raw1)) :
    ∃ raw2 c, feed raw1 (deliveries addr (onController h)) = some raw2 ∧
      Counter.query raw2 = (.ok (CallbackCounter.jc.toBytes c), raw2) ∧
      (∀ p ∈ packetsOf c.success, ∃ e ∈ n.log, e.packet = p) ∧
      ∀ p ∈ packetsOf (c.error ++ c.timeout), ∀ e ∈ n'.log, e.packet ≠ p := by
  have hv := ninv_exec h0 he
  obtain ⟨raw2, c, ms, h1, h2, h3, h4, h5, h6⟩ := C63_counter_records hv.exec.txExec addr hi
  have hx : ∀ m ∈ ms, ∃ x ∈ onController h, CalledBack x.2 addr m := by
    intro m hm
    have : some (ReceiverExecuteMsg.receiveIcaCallback m) ∈
        (deliveries addr (onController h)).map ReceiverExecuteMsg.jc.ofBytes := by
      rw [h2]; exact List.mem_map_of_mem hm
    obtain ⟨b, hb, e⟩ := List.mem_map.1 this
    obtain ⟨⟨a, b', fs⟩, hc, e2⟩ := List.mem_filterMap.1 hb
    obtain ⟨x, hx, hc⟩ := List.mem_flatMap.1 hc
    dsimp only at e2
    split at e2
    · rename_i ha
      injection e2 with e2
      subst ha e2
      refine ⟨x, hx, ?_⟩
      obtain ⟨k1, k2, w1, w2, -, a2, a3⟩ := exec_at hv.exec hx
      cases hn : x.1.notifies with
      | false => rw [no_calls a3 hn] at hc; cases hc
      | true =>
        obtain ⟨m', e'⟩ := notify_calls a3 hn
        rw [callsOf_callObs] at e'
        rw [e'] at hc
        cases hcb : callbackOf w1 with
        | none => rw [hcb] at hc; cases hc
        | some a' =>
          rw [hcb] at hc e'
          have := List.mem_singleton.1 hc
          injection this with p1 p2
          injection p2 with p2 p3
          subst p1 p2
          exact ⟨_, e', e⟩
    · cases e2
  refine ⟨raw2, c, h1, h3, ?_, ?_⟩
  · intro p hp
    obtain ⟨m, hm, e⟩ := List.mem_filterMap.1 hp
    rw [h4] at hm
    obtain ⟨hm, hs⟩ := List.mem_filter.1 hm
    obtain ⟨x, hx, hc⟩ := hx m hm
    rcases m with ⟨_ | _, q, _, _⟩ | ⟨q, _⟩ | ⟨_, _, _⟩ <;> simp [isSuccess] at hs
    obtain rfl : q = p := by simpa [packetOf] using e
    obtain ⟨e, he1, he2, -⟩ := C83_success_told h0 he hx hc
    exact ⟨e, he1, he2⟩
  · intro p hp
    have hx' : ∀ m ∈ ms, ∃ x ∈ onController (h ++ l), CalledBack x.2 addr m := by
      intro m hm
      obtain ⟨x, a, b⟩ := hx m hm
      refine ⟨x, ?_, b⟩
      unfold onController
      rw [List.filterMap_append]
      exact List.mem_append_left _ a
    obtain ⟨m, hm, e⟩ := List.mem_filterMap.1 hp
    rw [h5, h6] at hm
    rcases List.mem_append.1 hm with hm | hm
    all_goals
      obtain ⟨hm, hs⟩ := List.mem_filter.1 hm
      obtain ⟨x, hx, hc⟩ := hx' m hm
      rcases m with ⟨_ | _, q, _, _⟩ | ⟨q, _⟩ | ⟨_, _, _⟩ <;> simp [isError, isTimeout] at hs
      obtain rfl : q = p := by simpa [packetOf] using e
    · exact C83_error_told h0 (netExec_append he hf) hx hc
    · exact C83_timeout_told h0 (netExec_append he hf) hx hc

/-- **C110.** So for an owner who only looks at the counter: a packet that was sent and is on none of its lists is exactly
one whose end is still to come. -/
theorem C110_missing_is_pending {api : Api} {env : Env} {h : List (Op × List Obs)} {w : World}
    (he : TxExec api (World.genesis env) h w) {addr : String} (hl : Listening addr h) {raw0 raw1 : Raw.RawStore}
    {r : Response} (hi : Counter.instantiate raw0 = (.ok r, raw1)) :
    ∃ raw2 c, feed raw1 (deliveries addr h) = some raw2 ∧ Counter.query raw2 = (.ok (CallbackCounter.jc.toBytes c), raw2) ∧
      ∀ p qs, Sent h p qs → (p ∉ booked c ↔ w.commits p.src.channelId p.sequence = some p) := by
  obtain ⟨raw2, c, h1, h2, -, h4⟩ := C110_each_packet_once he hl hi
  refine ⟨raw2, c, h1, h2, fun p qs hs => ?_⟩
  rw [h4, commits_iff he.exec]
  constructor
  · intro hn
    refine ⟨rfl, rfl, ⟨qs, hs⟩, fun x hx => ?_⟩
    cases hb : x.1.settles p.src.channelId p.sequence with
    | false => rfl
    | true => exact absurd ⟨⟨qs, hs⟩, x, hx, hb⟩ hn
  · rintro ⟨-, -, -, hn⟩ ⟨-, x, hx, hb⟩
    rw [hn x hx] at hb
    cases hb

/-- The scenario: the callback address is never changed, the packet is sent and acknowledged, and it is on the books. -/
example : Listening "cb" Ex.h4s ∧ TxExec Ex.api (World.genesis Ex.env) Ex.h4s Ex.w4s ∧
    ∃ (raw1 raw2 : Raw.RawStore) (c : CallbackCounter) (r : Response), Counter.instantiate (fun _ => none) = (.ok r, raw1) ∧
      feed raw1 (deliveries "cb" Ex.h4s) = some raw2 ∧
      Counter.query raw2 = (.ok (CallbackCounter.jc.toBytes c), raw2) ∧ Ex.pkt ∈ booked c := by
  have hl : Listening "cb" Ex.h4s := by
    refine listening_of_fixed Ex.e4s fun x hx a ha => ?_
    simp only [Ex.h4s, Ex.h3, Ex.h2, List.cons_append, List.nil_append, List.mem_cons, List.not_mem_nil, or_false] at hx
    rcases hx with rfl | rfl | rfl | rfl
    · exact (Option.some.inj ha).symm
    all_goals cases ha
  refine ⟨hl, Ex.e4s.txExec, ?_⟩
  have hi : ∃ r raw1, Counter.instantiate (fun _ => none) = (.ok r, raw1) := ⟨_, _, rfl⟩
  obtain ⟨r, raw1, hi⟩ := hi
  obtain ⟨raw2, c, h1, h2, -, h4⟩ := C110_each_packet_once Ex.e4s.txExec hl hi
  refine ⟨raw1, raw2, c, r, hi, h1, h2, (h4 Ex.pkt).2 ⟨⟨Ex.qs, ?_⟩, _,
    List.mem_append_right Ex.h3 (List.mem_singleton.2 rfl), ?_⟩⟩
  · exact sent_snoc.2 (.inl Ex.sent3)
  · exact decide_eq_true (p := "channel-0" = Ex.pkt.src.channelId ∧ (1 : UInt64) = Ex.pkt.sequence) ⟨rfl, rfl⟩

end Ica
