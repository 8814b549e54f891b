import Verif.Props.Settle

/-!
# Outcomes on ordered channels (C94)

On an ordered channel the outcomes of packets reach the contract in the order of sending, with none left out. So a callback
contract that refuses an outcome holds up all later ones.
-/
namespace Ica
open Spec

variable {api : Api} {env : Env} {n0 n n' : Net} {h l : List (NetOp × List Obs)}

/-- All sequence numbers below the next one have been used. -/
theorem sent_all {h : List (Op × List Obs)} {w : World} (he : Exec api (World.genesis env) h w) (id : String) :
    ∀ j, 1 ≤ j → j < w.nextSeq id → ∃ p qs, Sent h p qs ∧ p.src.channelId = id ∧ p.sequence.toNat = j := by
  refine exec_induction (C := fun h w => ∀ j, 1 ≤ j → j < w.nextSeq id →
    ∃ p qs, Sent h p qs ∧ p.src.channelId = id ∧ p.sequence.toNat = j)
    (fun j h1 h2 => by simp only [World.genesis] at h2; omega) ?_ he
  intro h w op w' obs he hv ih hs j h1 h2
  have old : j < w.nextSeq id → ∃ p qs, Sent (h ++ [(op, obs)]) p qs ∧ p.src.channelId = id ∧ p.sequence.toNat = j := by
    intro hj
    obtain ⟨p, qs, i1, i2⟩ := ih j h1 hj
    exact ⟨p, qs, sent_snoc.2 (.inl i1), i2⟩
  cases hs with
  | send sender ms qs' memo t fresh st info anys cqs c ts p' g1 g2 g3 g4 g5 g6 g7 g8 g9 g10 g11 g12 =>
    have hsrc : p'.src.channelId = info.channelId := by subst g12; dsimp only; rw [(hv.chans _ _ g9).1]
    have hseq : p'.sequence.toNat = w.nextSeq info.channelId := by subst g12; exact ofNat_toNat g11
    by_cases hj : j < w.nextSeq id
    · exact old hj
    · by_cases e : id = info.channelId
      · subst e
        simp only [setSeq, if_true] at h2
        exact ⟨p', qs', sent_snoc.2 (.inr ⟨_, _, _, _, _, _, List.mem_singleton.2 rfl⟩), hsrc, by omega⟩
      · simp only [setSeq, e, if_false] at h2
        exact absurd h2 hj
  | _ => exact old h2

/-- After a timeout on an ordered channel the channel is closed for good. -/
theorem closed_of_timeout {h : List (Op × List Obs)} {w : World} (he : Exec api (World.genesis env) h w) (id : String) :
    ∀ x ∈ h, ∀ j r, x.1 = .relayTimeout id j r →
      ∃ c, w.chans id = some c ∧ (c.chan.order = .ordered → c.status = .closed) := by
  refine exec_induction (C := fun h w => ∀ x ∈ h, ∀ j r, x.1 = .relayTimeout id j r →
      ∃ c, w.chans id = some c ∧ (c.chan.order = .ordered → c.status = .closed)) (fun x hx => by cases hx) ?_ he
  intro h w op w' obs he hv ih hs x hx j r hop
  have hap := (apply_iff_step hv).2 hs
  rcases List.mem_append.1 hx with hx | hx
  · obtain ⟨c, c1, c2⟩ := ih x hx j r hop
    obtain ⟨c', d1, d2⟩ := chan_step hv hs c1
    refine ⟨c', d1, fun ho => ?_⟩
    obtain ⟨ch, stt⟩ := c
    have hcl : stt = .closed := c2 (by rw [← d2.order]; exact ho)
    subst hcl
    have := C23_closed_stays_closed ⟨env, _, he⟩ (Exec.step (h := []) .nil hap) c1
    rw [d1] at this
    obtain rfl := Option.some.inj this
    rfl
  · obtain rfl := List.mem_singleton.1 hx
    dsimp only at hop
    subst hop
    obtain ⟨p, c, st, cs, a1, a2, a3, a4, rfl, -⟩ := apply_timeout.1 hap
    dsimp only
    by_cases ho : c.chan.order = .ordered
    · exact ⟨_, by rw [if_pos ho]; exact setChan_same _ _ _, fun _ => rfl⟩
    · exact ⟨c, by rw [if_neg ho]; exact a2, fun h => absurd h ho⟩

theorem mem_acked {h : List (Op × List Obs)} {id : String} {j : Nat} :
    j ∈ ackedNumbers id h ↔ ∃ x ∈ h, ∃ k ack r, x.1 = .relayAck id k ack r ∧ k.toNat = j := by
  simp only [ackedNumbers, List.mem_filterMap]
  constructor
  · rintro ⟨⟨op, obs⟩, hx, hj⟩
    cases op <;> simp only [reduceCtorEq] at hj
    next id' k ack r =>
      split at hj
      · next e => subst e; exact ⟨_, hx, k, ack, r, rfl, Option.some.inj hj⟩
      · cases hj
  · rintro ⟨⟨op, obs⟩, hx, k, ack, r, rfl, rfl⟩
    exact ⟨_, hx, by simp⟩

/-- Delivering an acknowledgement on an ordered channel: every earlier packet has been acknowledged before. -/
theorem acked_before (h0 : n0.Initial env) (he : NetExec api n0 h n) {id relayer : String} {k : UInt64} {ack : Bytes}
    {obs : List Obs} (hst : NetStep api n (.ctrl (.relayAck id k ack relayer)) n' obs) {c : ChainChan}
    (hc : n.w.chans id = some c) (ho : c.chan.order = .ordered) {p : IbcPacket} {qs : List QueryRequest}
    (hp : Sent (onController h) p qs) (hid : p.src.channelId = id) (hlt : p.sequence < k) :
    p.sequence.toNat ∈ ackedNumbers id (onController h) := by
  have hv := ninv_exec h0 he
  obtain ⟨w', -, ⟨c', _, _, g1, -, -, -, g5⟩, hap⟩ := netStep_ctrl hst
  obtain rfl : c = c' := Option.some.inj (hc.symm.trans g1)
  have hno := g5 ho _ hlt
  have hset : ¬ ∀ x ∈ onController h, x.1.settles id p.sequence = false := by
    intro hall
    rw [(commits_iff hv.exec _ _ p).2 ⟨hid, rfl, ⟨qs, hp⟩, hall⟩] at hno
    cases hno
  simp only [not_forall, Bool.not_eq_false] at hset
  obtain ⟨⟨op, o⟩, hx, hs⟩ := hset
  cases op <;> try cases hs
  · next id' k' ack' r' =>
    simp only [Op.settles, decide_eq_true_eq] at hs
    obtain ⟨rfl, rfl⟩ := hs
    exact mem_acked.2 ⟨_, hx, _, _, _, rfl, rfl⟩
  · next id' k' r' =>
    simp only [Op.settles, decide_eq_true_eq] at hs
    obtain ⟨rfl, rfl⟩ := hs
    obtain ⟨c2, d1, d2⟩ := closed_of_timeout hv.exec _ _ hx _ _ rfl
    rw [hc] at d1
    obtain rfl := Option.some.inj d1
    obtain ⟨_, c3, _, -, a2, a3, -⟩ := apply_ack.1 hap
    rw [hc] at a2
    obtain rfl := Option.some.inj a2
    rw [d2 ho] at a3
    cases a3

/-- **C94.** On an ordered channel the acknowledgements reach the contract in the order of sending and with none left out:
their sequence numbers are 1, 2, 3, … -/
theorem C94_in_order (h0 : n0.Initial env) (he : NetExec api n0 h n) {id : String} {c : ChainChan}
    (hc : n.w.chans id = some c) (ho : c.chan.order = .ordered) :
    ∃ m, ackedNumbers id (onController h) = List.range' 1 m := by
  have main : ∀ c, n.w.chans id = some c → c.chan.order = .ordered →
      ∃ m, ackedNumbers id (onController h) = List.range' 1 m := by
    clear hc ho c
    induction he with
    | nil => exact fun _ _ _ => ⟨0, rfl⟩
    | @step h n n' op obs he hs ih =>
      intro c' hc' ho'
      have hv := ninv_exec h0 he
      by_cases hop : ∃ o, op = .ctrl o
      · obtain ⟨op, rfl⟩ := hop
        obtain ⟨w', rfl, hpr, hap⟩ := netStep_ctrl hs
        have hback : ∀ c, n.w.chans id = some c → c.chan.order = .ordered := by
          intro c hc
          obtain ⟨c2, d1, d2⟩ := chan_step hv.inv (step_of_apply hv.inv hap) hc
          obtain rfl := Option.some.inj ((show w'.chans id = some c' from hc').symm.trans d1)
          rw [← d2.order]; exact ho'
        rw [onController_ctrl]
        by_cases hk : ∃ k ack r, op = .relayAck id k ack r
        · obtain ⟨k, ack, r, rfl⟩ := hk
          obtain ⟨p, c, _, a1, a2, -⟩ := apply_ack.1 hap
          have hor := hback c a2
          obtain ⟨m, hm⟩ := ih c a2 hor
          refine ⟨m + 1, ?_⟩
          have happ : ackedNumbers id (onController h ++ [(Op.relayAck id k ack r, obs)]) =
              ackedNumbers id (onController h) ++ [k.toNat] := by simp [ackedNumbers]
          rw [happ, hm, List.range'_concat]
          congr 1
          obtain ⟨s1, s2, s3⟩ := commits_chan hv a1
          obtain ⟨_, _, _, _, _, _, _, _, _, _, _, q8⟩ := hv.packets p s1
          rw [s3] at q8
          -- not acknowledged before
          have hnot : k.toNat ∉ ackedNumbers id (onController h) := by
            intro hin
            obtain ⟨x, hx, k', _, _, e1, e2⟩ := mem_acked.1 hin
            obtain rfl := UInt64.toNat_inj.1 e2
            have := ((commits_iff hv.exec _ _ _).1 a1).2.2.2 x hx
            rw [e1] at this
            simp [Op.settles] at this
          have hge : m < k.toNat := by
            by_contra hlt
            exact hnot (by rw [hm, List.mem_range'_1]; omega)
          have hle : k.toNat ≤ m + 1 := by
            by_contra hlt
            have hnx : k.toNat < n.w.nextSeq id := by
              obtain ⟨_, _, ⟨qs, hq⟩, _⟩ := (commits_iff hv.exec _ _ _).1 a1
              have := sent_lt hv.exec _ _ hq
              rw [s2, s3] at this
              exact this
            obtain ⟨p', qs, j1, j2, j3⟩ := sent_all hv.exec id (m + 1) (by omega) (by omega)
            have := acked_before h0 he hs a2 hor j1 j2 (UInt64.lt_iff_toNat_lt.2 (by omega))
            rw [hm, j3, List.mem_range'_1] at this
            omega
          simp only [List.cons.injEq, and_true]
          omega
        · have hnil : ackedNumbers id (onController h ++ [(op, obs)]) = ackedNumbers id (onController h) := by
            have h1 : ackedNumbers id [(op, obs)] = [] := by
              rw [List.eq_nil_iff_forall_not_mem]
              intro j hj
              obtain ⟨x, hx, k, ack, r, e1, -⟩ := mem_acked.1 hj
              obtain rfl := List.mem_singleton.1 hx
              exact hk ⟨k, ack, r, e1⟩
            have h2 : ackedNumbers id (onController h ++ [(op, obs)]) =
              ackedNumbers id (onController h) ++ ackedNumbers id [(op, obs)] := List.filterMap_append
            rw [h2, h1, List.append_nil]
          rw [hnil]
          cases hcn : n.w.chans id with
          | some c => exact ih c hcn (hback c hcn)
          | none =>
            refine ⟨0, ?_⟩
            rw [List.range'_zero, List.eq_nil_iff_forall_not_mem]
            intro j hj
            obtain ⟨x, hx, k, ack, r, e1, -⟩ := mem_acked.1 hj
            obtain ⟨c, _, _, d1, -⟩ := hv.acks x hx _ _ _ _ e1
            rw [hcn] at d1
            cases d1
      · rw [onController_host _ (fun o e => hop ⟨o, e⟩)]
        have hw : n'.w = n.w := by
          cases hs with
          | ctrl => exact absurd ⟨_, rfl⟩ hop
          | _ => rfl
        exact ih c' (by rw [← hw]; exact hc') ho'
  exact main c hc ho

/-- **C94.** As long as the outcome of a packet has not reached the contract (for instance because the callback contract
refuses it), no acknowledgement of a later packet of the ordered channel does, whatever anybody does. -/
theorem C94_held_up (h0 : n0.Initial env) (he : NetExec api n0 h n) {id : String} {c : ChainChan}
    (hc : n.w.chans id = some c) (ho : c.chan.order = .ordered) {j : UInt64} {p : IbcPacket}
    (hp : n.w.commits id j = some p) (hl : NetExec api n l n') (hno : ∀ x ∈ l, ¬ Ends id j x.1) :
    ∀ x ∈ l, ∀ k ack r, x.1 = .ctrl (.relayAck id k ack r) → k < j := by
  have main : n'.w.commits id j = some p ∧ (∃ c', n'.w.chans id = some c' ∧ c'.chan.order = .ordered) ∧
      ∀ x ∈ l, ∀ k ack r, x.1 = .ctrl (.relayAck id k ack r) → k < j := by
    induction hl with
    | nil => exact ⟨hp, ⟨c, hc, ho⟩, fun _ h => by cases h⟩
    | @step l n1 n2 op obs hl hs ih =>
      obtain ⟨i1, ⟨c1, i2, i3⟩, i4⟩ := ih fun x hx => hno x (List.mem_append_left _ hx)
      have hnot := hno (op, obs) (List.mem_append_right _ (List.mem_singleton.2 rfl))
      have hv := ninv_exec h0 (netExec_append he hl)
      refine ⟨?_, ?_, ?_⟩
      · by_cases hop : ∃ o, op = .ctrl o
        · obtain ⟨op, rfl⟩ := hop
          have hv2 := ninv_step hv hs
          obtain ⟨s1, s2, s3⟩ := commits_chan hv i1
          rw [commits_iff hv2.exec]
          obtain ⟨c1, c2, c3, c4⟩ := (commits_iff hv.exec _ _ _).1 i1
          refine ⟨c1, c2, (hv2.sentIff p).1 ((keeps_sent hs) p s1), fun x hx => ?_⟩
          rw [onController_ctrl] at hx
          rcases List.mem_append.1 hx with hx | hx
          · exact c4 x hx
          · obtain rfl := List.mem_singleton.1 hx
            exact not_settles (fun ack r e => hnot (.inl ⟨ack, r, congrArg NetOp.ctrl e⟩))
              (fun r e => hnot (.inr ⟨r, congrArg NetOp.ctrl e⟩))
        · cases hs with
          | ctrl => exact absurd ⟨_, rfl⟩ hop
          | _ => exact i1
      · by_cases hop : ∃ o, op = .ctrl o
        · obtain ⟨op, rfl⟩ := hop
          obtain ⟨w', rfl, -, hap⟩ := netStep_ctrl hs
          obtain ⟨c2, d1, d2⟩ := chan_step hv.inv (step_of_apply hv.inv hap) i2
          exact ⟨c2, d1, by rw [d2.order]; exact i3⟩
        · cases hs with
          | ctrl => exact absurd ⟨_, rfl⟩ hop
          | _ => exact ⟨c1, i2, i3⟩
      · intro x hx k ack r hop
        rcases List.mem_append.1 hx with hx | hx
        · exact i4 x hx k ack r hop
        · obtain rfl := List.mem_singleton.1 hx
          dsimp only at hop
          subst hop
          obtain ⟨w', -, ⟨c', _, _, g1, -, -, -, g5⟩, -⟩ := netStep_ctrl hs
          obtain rfl : c1 = c' := Option.some.inj (i2.symm.trans g1)
          rcases Nat.lt_trichotomy k.toNat j.toNat with h | h | h
          · exact UInt64.lt_iff_toNat_lt.2 h
          · obtain rfl := UInt64.toNat_inj.1 h
            exact absurd (.inl ⟨_, _, rfl⟩) hnot
          · rw [g5 i3 j (UInt64.lt_iff_toNat_lt.2 h)] at i1
            cases i1
  exact main.2.2

/-- C94: the first packet of the scenario is acknowledged on its ordered channel. -/
example : ∃ n h c, NetExec Ex.api Ex.net0 h n ∧ n.w.chans "channel-0" = some c ∧ c.chan.order = .ordered ∧
    ackedNumbers "channel-0" (onController h) = List.range' 1 1 := by
  obtain ⟨n7, n8, h1, h2, h3, -⟩ := Ex.round
  obtain ⟨-, e, -⟩ := ack_effect h2
  exact ⟨n8, _, ⟨Ex.chan "channel-0" Ex.opts, .opened⟩, .step h1 h2, by rw [e, h3]; exact Ex.chan3, rfl, by
    rw [onController_ctrl]; rfl⟩

/-- C94: two packets are outstanding on an ordered channel; the second has to wait for the first. -/
example : ∃ n' l, NetExec Ex.api Ex.net6 l n' ∧ l ≠ [] ∧ Ex.net6.w.commits "channel-0" 1 = some Ex.pkt ∧
    (∃ c, Ex.net6.w.chans "channel-0" = some c ∧ c.chan.order = .ordered) ∧ (∀ x ∈ l, ¬ Ends "channel-0" 1 x.1) ∧
    ∃ x ∈ l, x.2 = [.packetSent Ex.pkt2] := by
  obtain ⟨w, h1, -⟩ := Ex.s4p
  have hs : NetStep Ex.api Ex.net6 (.ctrl (.execute "alice" (.sendCosmosMsgs (Ex.msgs.take 1) [] none none) "" true)) _ _ :=
    .ctrl _ _ _ trivial ((apply_iff_step (inv_of_reachable Ex.r3)).2 h1)
  refine ⟨_, _, NetExec.nil.step hs, List.cons_ne_nil _ _,
    Ex.commit3, ⟨_, Ex.chan3, rfl⟩, fun x hx => ?_, _, List.mem_singleton.2 rfl, rfl⟩
  obtain rfl := List.mem_singleton.1 hx
  rintro (⟨_, _, e⟩ | ⟨_, e⟩) <;> cases e

end Ica
