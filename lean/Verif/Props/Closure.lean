import Verif.Props.Mistake

/-!
# Closed for good (C108)

The documentation lists "permanent channel closure" among what the contract has over the Go implementation, where any
relayer can open a closed channel again.
-/
namespace Ica
open Spec

section
variable {api : Api}

/-- A channel that is not closed was not closed before, or has just been created. -/
theorem unclosed_origin {w w' : World} {op : Op} {obs : List Obs} (hs : Step api w op w' obs) {id : String} {c : ChainChan}
    (hc : w'.chans id = some c) (hst : c.status ≠ .closed) :
    (∃ c0, w.chans id = some c0 ∧ c0.status ≠ .closed) ∨ Obs.channelCreated id ∈ obs := by
  by_cases hn : w.chans id = none
  · rcases chans_step hs with ⟨-, fresh, rfl, -, h⟩ | ⟨-, -, h⟩
    · rcases (h id).1 ⟨c, hc⟩ with rfl | ⟨c0, k⟩
      · exact .inr (by simp)
      · rw [hn] at k; cases k
    · obtain ⟨c0, k⟩ := (h id).1 ⟨c, hc⟩
      rw [hn] at k; cases k
  · obtain ⟨c0, k⟩ := Option.ne_none_iff_exists'.1 hn
    by_cases e : c0.status = .closed
    · have := closed_step hs k e
      rw [hc] at this
      cases this
      exact absurd e hst
    · exact .inl ⟨c0, k, e⟩

theorem owned_live {w : World} (hv : Inv api w) (hl : ∃ owner, ownerOf w = some owner) : w.live = true := by
  obtain ⟨owner, ho⟩ := hl
  cases hl : w.live with
  | true => rfl
  | false => simp [ownerOf, (hv.dead hl).1, Store.empty] at ho

theorem live_exec {w w' : World} {l : List (Op × List Obs)} (hv : Inv api w) (hl : w.live = true) (he : Exec api w l w') :
    w'.live = true :=
  exec_induction' (C := fun _ w => w.live = true) hv hl (fun _ _ _ _ _ _ _ ih hs => live_step hs ih) he

/-- **C108.** Whatever is open at some time was open at any earlier time, or being opened then, or the owner has had it
created since; nobody else brings about an open channel. -/
theorem C108_only_asked {w w' : World} {l : List (Op × List Obs)} (hr : Reachable api w) (hl : ∃ owner, ownerOf w = some owner)
    (he : Exec api w l w') {id : String} {ch : IbcChannel} (ho : ChainOpen w' id ch) :
    (∃ c, w.chans id = some c ∧ (c.status = .opened ∨ c.status = .init)) ∨
      ∃ l1 l2 w1 owner o, l = l1 ++ (.execute owner (.createChannel o) id true, [.channelCreated id]) :: l2 ∧
        Exec api w l1 w1 ∧ ownerOf w1 = some owner := by
  have hv0 := inv_of_reachable hr
  have key : ∀ id c, w'.chans id = some c → c.status ≠ .closed → (∃ c, w.chans id = some c ∧ c.status ≠ .closed) ∨
      ∃ l1 l2 w1 owner o, l = l1 ++ (.execute owner (.createChannel o) id true, [.channelCreated id]) :: l2 ∧
        Exec api w l1 w1 ∧ ownerOf w1 = some owner := by
    clear ho
    induction he with
    | nil => exact fun id c hc hst => .inl ⟨c, hc, hst⟩
    | @step l w1 w2 op obs he hap ih =>
      intro id c hc hst
      have hv := inv_exec hv0 he
      have hs := step_of_apply hv hap
      have hlive : w1.live = true := live_exec hv0 (owned_live hv0 hl) he
      rcases unclosed_origin hs hc hst with ⟨c0, k1, k2⟩ | hcr
      · rcases ih id c0 k1 k2 with h | ⟨l1, l2, w3, owner, o, rfl, e2, e3⟩
        · exact .inl h
        · exact .inr ⟨l1, l2 ++ [(op, obs)], w3, owner, o, by simp, e2, e3⟩
      · obtain ⟨-, rfl, addr, o, ⟨sender, msg, rfl, -⟩ | ⟨sender, co, rfl, -⟩, -⟩ := created hs hcr
        · rw [(apply_instantiate.1 hap).1] at hlive
          cases hlive
        · exact .inr ⟨l, [], w1, sender, co, rfl, he, C01_only_owner_acts (by simp) hap⟩
  rcases key id _ ho (by simp) with ⟨c, k1, k2⟩ | h
  · refine .inl ⟨c, k1, ?_⟩
    cases hs : c.status with
    | init => exact .inr rfl
    | opened => exact .inl rfl
    | closed => exact absurd hs k2
  · exact .inr h

/-- **C108** (partial: it takes that no handshake is under way). Once all channels are closed, and as long as nobody
creates one, which only the owner can: everything stays closed, whatever relayers and hosts do, so the contract reports the
same channel and account, reports nothing open, and sends nothing. -/
theorem C108_closed_for_good_partial {w w' : World} {l : List (Op × List Obs)} (hr : Reachable api w)
    (hl : ∃ owner, ownerOf w = some owner) (hc : ∀ id c, w.chans id = some c → c.status = .closed) (he : Exec api w l w')
    (hn : ∀ x ∈ l, ∀ sender o fresh core, x.1 ≠ .execute sender (.createChannel o) fresh core) :
    (∀ id ch, ¬ ChainOpen w' id ch) ∧ ¬ ReportsOpen w' ∧ icaOf w' = icaOf w ∧
      (∀ ch s, Reports w' ch s ↔ Reports w ch s) ∧ sentPackets l = [] := by
  have hv0 := inv_of_reachable hr
  have shut : ∀ {l w'}, Exec api w l w' →
      (∀ x ∈ l, ∀ sender o fresh core, x.1 ≠ .execute sender (.createChannel o) fresh core) →
      ∀ id c, w'.chans id = some c → c.status = .closed := by
    intro l w' he
    induction he with
    | nil => exact fun _ => hc
    | @step l w1 w2 op obs he hap ih =>
      intro hn id c hcx
      have hv := inv_exec hv0 he
      have hs := step_of_apply hv hap
      have hlive : w1.live = true := live_exec hv0 (owned_live hv0 hl) he
      by_cases hst : c.status = .closed
      · exact hst
      · rcases unclosed_origin hs hcx hst with ⟨c0, k1, k2⟩ | hcr
        · exact absurd (ih (fun x hx => hn x (List.mem_append_left _ hx)) id c0 k1) k2
        · obtain ⟨-, rfl, addr, o, ⟨sender, msg, rfl, -⟩ | ⟨sender, co, rfl, -⟩, -⟩ := created hs hcr
          · rw [(apply_instantiate.1 hap).1] at hlive
            cases hlive
          · exact absurd rfl (hn _ (List.mem_append_right _ (List.mem_singleton.2 rfl)) sender co id true)
  refine ⟨fun id ch ho => ?_, ?_, ?_⟩
  · cases shut he hn id _ ho
  · rintro ⟨ch, hrep⟩
    obtain ⟨-, c, t1, -, -, t2⟩ := (inv_exec hv0 he).tracked _ hrep
    have := shut he hn _ _ t1
    rw [t2 rfl] at this
    cases this
  · induction he with
    | nil => exact ⟨rfl, fun _ _ => .rfl, rfl⟩
    | @step l w1 w2 op obs he hap ih =>
      have hn' := fun x hx => hn x (List.mem_append_left _ hx)
      obtain ⟨i1, i2, i3⟩ := ih hn'
      have hv := inv_exec hv0 he
      have hs := step_of_apply hv hap
      have hsh := shut he hn'
      have hlive : w1.live = true := live_exec hv0 (owned_live hv0 hl) he
      have same : w2.store.channel = w1.store.channel ∧ icaOf w2 = icaOf w1 ∧ sentPackets [(op, obs)] = [] := by
        have quiet : ∀ (cb : Option String) (m : CallbackMsg), sentPackets [(op, callObs cb m)] = [] := by
          intro cb m
          cases cb <;> rfl
        cases hs with
        | block => exact ⟨rfl, rfl, rfl⟩
        | instantiate sender msg fresh hd => rw [hlive] at hd; cases hd
        | create sender o fresh =>
          exact absurd rfl (hn _ (List.mem_append_right _ (List.mem_singleton.2 rfl)) sender o fresh true)
        | close _ _ c _ _ _ hx hst => rw [hsh _ _ hx] at hst; cases hst
        | send _ _ _ _ _ _ _ _ _ _ c _ _ _ _ _ _ _ _ _ _ hx hst => rw [hsh _ _ hx] at hst; cases hst
        | callback sender a fresh core st _ _ _ hst => exact ⟨rfl, by simp [icaOf, hst], rfl⟩
        | transfer => exact ⟨rfl, rfl, rfl⟩
        | accept => exact ⟨rfl, rfl, rfl⟩
        | openAck _ _ _ c _ _ hx hst => rw [hsh _ _ hx] at hst; cases hst
        | closeConfirm _ c hx hst => rw [hsh _ _ hx] at hst; cases hst
        | ackOk _ _ _ _ _ c _ _ _ _ hx hst => rw [hsh _ _ hx] at hst; cases hst
        | ackErr _ _ _ _ _ c _ _ _ hx hst => rw [hsh _ _ hx] at hst; cases hst
        | timeout id seq relayer p c st cs hcm hx hst hcs =>
          refine ⟨?_, rfl, quiet _ _⟩
          dsimp only
          rw [hcs]
          obtain ⟨t1, c', t2, -, -, t3⟩ := hv.tracked _ hcs
          have hcl : cs.channelStatus = .closed := by
            rcases t1 with h | h
            · have := hsh _ _ t2
              rw [t3 h] at this
              cases this
            · exact h
          obtain ⟨ch, s⟩ := cs
          subst hcl
          split <;> rfl
      obtain ⟨k1, k2, k3⟩ := same
      refine ⟨k2.trans i1, fun ch s => ?_, ?_⟩
      · rw [← i2 ch s]
        unfold Reports
        rw [k1]
      · have : sentPackets (l ++ [(op, obs)]) = sentPackets l ++ sentPackets [(op, obs)] := by simp [sentPackets]
        rw [this, i3, k3]
        rfl

/-- **C108** (partial, as C24). In careful histories (handshakes one at a time, and packets that time out only on the
reported channel) closing is enough: after the owner closed the channel, everything stays closed until the owner creates
another one. -/
theorem C108_careful_closed_for_good_partial {env : Env} {h l : List (Op × List Obs)} {w w1 w' : World}
    (hc : Careful api (World.genesis env) h w) {sender fresh : String} {core : Bool} {obs : List Obs}
    (hs : Commits api w (.execute sender .closeChannel fresh core) w1 obs) (he : Exec api w1 l w')
    (hn : ∀ x ∈ l, ∀ sender o fresh core, x.1 ≠ .execute sender (.createChannel o) fresh core) :
    (∀ id ch, ¬ ChainOpen w' id ch) ∧ ¬ ReportsOpen w' ∧ sentPackets l = [] := by
  have hv := inv_exec (inv_genesis api env) hc.exec
  obtain ⟨i1, i2⟩ := careful_inv hc
  have hr1 : Reachable api w1 := ⟨env, _, hc.exec.step hs⟩
  have hown := C01_only_owner_acts (by simp) hs
  obtain ⟨hl, -, -, ch, c, k1, k2, k3, -, rfl, -⟩ := apply_close.1 hs
  obtain ⟨a, b, -, -, d⟩ := C108_closed_for_good_partial hr1 ⟨sender, hown⟩ (by
    intro id x hx
    rcases setChan_eq_some.1 hx with ⟨-, rfl⟩ | ⟨hne, hx⟩
    · rfl
    · cases hst : x.status with
      | closed => rfl
      | init => exact absurd ⟨ch, k1⟩ (i2 id x hx hst).1
      | opened =>
        have := i1 id x hx hst
        have e := this.symm.trans k1
        injection e with e
        injection e with e
        refine absurd ?_ hne
        rw [← hv.chan_id hx, e]) he hn
  exact ⟨a, b, d⟩

end

/-- **C108** is false without the condition: the owner has a second handshake under way, closes the open channel, and then a
relayer opens the other one, without the owner. -/
theorem C108_opened_after_close :
    ∃ w ch w1 w2 obs1 obs2, Reachable Ex.api w ∧ Reports w ch .opened ∧
      Commits Ex.api w (.execute "alice" .closeChannel "" true) w1 obs1 ∧ Reports w1 ch .closed ∧
      Commits Ex.api w1 (.relayOpenAck "channel-1" "channel-5" Ex.ver) w2 obs2 ∧ ReportsOpen w2 ∧
      ∃ ch', ChainOpen w2 "channel-1" ch' := by
  have c1 : Step Ex.api Ex.y2 (.execute "alice" .closeChannel "" true)
      (Ex.eClose Ex.y2 ⟨Ex.chan "channel-0" Ex.opts, .opened⟩) [.channelClosed "channel-0"] :=
    .close _ _ ⟨Ex.chan "channel-0" Ex.opts, .opened⟩ rfl ⟨_, rfl, rfl⟩ rfl (by
      simp [Ex.y2, Ex.eAck, setChan, Ex.chan, Ex.prop, ackedChan, proposalChannel]) rfl
  have rr := Ex.toStep Ex.ry2 c1
  have c2 : Step Ex.api (Ex.eClose Ex.y2 ⟨Ex.chan "channel-0" Ex.opts, .opened⟩) (.relayOpenAck "channel-1" "channel-5" Ex.ver) _ _ :=
    .openAck _ _ _ ⟨Ex.prop "channel-1" Ex.opts, .init⟩ (Ex.st "channel-0") Ex.meta0 (by
      simp [Ex.eClose, Ex.y2, Ex.eAck, Ex.y1, Ex.eCreate, setChan, Ex.chan, Ex.prop, ackedChan, proposalChannel]
      rfl) rfl rfl
      Ex.verParse Ex.metaOk Ex.metaNe
  exact ⟨_, _, _, _, _, _, Ex.ry2, rfl, (apply_iff_step (inv_of_reachable Ex.ry2)).2 c1, rfl,
    (apply_iff_step (inv_of_reachable rr)).2 c2, ⟨_, rfl⟩, ackedChan (Ex.prop "channel-1" Ex.opts) "channel-5" Ex.ver, by
      simp [ChainOpen, setChan]⟩

/-- In the scenario: after alice closed channel-0, the only channel, it is closed for good, until alice creates channel-1. -/
example : (∀ id c, Ex.w5.chans id = some c → c.status = .closed) ∧
    (∀ l w', Exec Ex.api Ex.w5 l w' →
      (∀ x ∈ l, ∀ sender o fresh core, x.1 ≠ .execute sender (.createChannel o) fresh core) →
      ¬ ReportsOpen w' ∧ icaOf w' = some (Ex.info "channel-0")) ∧
    ∃ l, Exec Ex.api Ex.w5 l Ex.w7 ∧ ReportsOpen Ex.w7 := by
  have hc : ∀ id c, Ex.w5.chans id = some c → c.status = .closed := by
    intro id c hx
    rcases setChan_eq_some.1 hx with ⟨-, rfl⟩ | ⟨hne, hx⟩
    · rfl
    · have hne : id ≠ "channel-0" := hne
      simp [Ex.w2, Ex.eAck, Ex.w1, Ex.eInst, setChan, hne, Ex.w0, World.genesis] at hx
  refine ⟨hc, fun l w' he hn => ?_, _, (Exec.nil.step ((apply_iff_step (inv_of_reachable Ex.r5)).2 Ex.s6)).step
    ((apply_iff_step (inv_of_reachable Ex.r6)).2 Ex.s7), _, rfl⟩
  obtain ⟨-, a, b, -⟩ := C108_closed_for_good_partial Ex.r5 ⟨"alice", rfl⟩ hc he hn
  exact ⟨a, b.trans rfl⟩

end Ica
