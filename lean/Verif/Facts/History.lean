import Verif.Facts.Answer
import Verif.Props.Send

/-!
# Packets in histories

What was sent, what was settled, and how this shows in the state.
-/
namespace Ica
open Spec

theorem sent_snoc {h : List (Op × List Obs)} {x : Op × List Obs} {p : IbcPacket} {qs : List QueryRequest} :
    Sent (h ++ [x]) p qs ↔ Sent h p qs ∨ Sent [x] p qs := by
  unfold Sent
  constructor
  · rintro ⟨a, b, c, d, e, f, hm⟩
    rw [List.mem_append] at hm
    rcases hm with hm | hm
    · exact .inl ⟨a, b, c, d, e, f, hm⟩
    · exact .inr ⟨a, b, c, d, e, f, hm⟩
  · rintro (⟨a, b, c, d, e, f, hm⟩ | ⟨a, b, c, d, e, f, hm⟩)
    · exact ⟨a, b, c, d, e, f, List.mem_append_left _ hm⟩
    · exact ⟨a, b, c, d, e, f, List.mem_append_right _ hm⟩

/-- Is this operation a send. -/
def Op.isSend : Op → Bool
  | .execute _ (.sendCosmosMsgs ..) _ _ => true
  | _ => false

theorem sent_one {op : Op} {obs : List Obs} {p : IbcPacket} {qs : List QueryRequest} (h : Sent [(op, obs)] p qs) :
    ∃ sender ms memo t fresh core, op = .execute sender (.sendCosmosMsgs ms qs memo t) fresh core ∧
      obs = [.packetSent p] := by
  obtain ⟨a, b, c, d, e, f, hm⟩ := h
  simp only [List.mem_singleton, Prod.mk.injEq] at hm
  exact ⟨a, b, c, d, e, f, hm.1.symm, hm.2.symm⟩

theorem not_sent_of_not_send {op : Op} {obs : List Obs} {p : IbcPacket} {qs : List QueryRequest}
    (h : op.isSend = false) : ¬ Sent [(op, obs)] p qs := by
  intro hs
  obtain ⟨a, b, c, d, e, f, rfl, -⟩ := sent_one hs
  cases h

theorem ofNat_toNat {n : Nat} (h : n < 18446744073709551616) : (UInt64.ofNat n).toNat = n := by
  rw [UInt64.toNat_ofNat']; exact Nat.mod_eq_of_lt h

/-- Sequence numbers already used are below the next one. -/
theorem sent_lt {api : Api} {env : Env} {h : List (Op × List Obs)} {w : World}
    (he : Exec api (World.genesis env) h w) :
    ∀ p qs, Sent h p qs → p.sequence.toNat < w.nextSeq p.src.channelId := by
  refine exec_induction (C := fun h w => ∀ p qs, Sent h p qs → p.sequence.toNat < w.nextSeq p.src.channelId)
    (fun p qs hs => by obtain ⟨_, _, _, _, _, _, hm⟩ := hs; cases hm) ?_ he
  intro h w op w' obs he hv ih hs p qs hp
  rw [sent_snoc] at hp
  cases hs with
  | send sender ms qs' memo t fresh st info anys cqs c ts p' h1 h2 h3 h4 h5 h6 h7 h8 h9 h10 h11 h12 =>
    have hsrc : p'.src.channelId = info.channelId := by subst h12; dsimp only; rw [(hv.chans _ _ h9).1]
    have hseq : p'.sequence.toNat = w.nextSeq info.channelId := by subst h12; exact ofNat_toNat h11
    rcases hp with hp | hp
    · have := ih p qs hp
      simp only [setSeq]
      split
      · rename_i e; rw [e] at this; omega
      · exact this
    · obtain ⟨_, _, _, _, _, _, _, ho⟩ := sent_one hp
      simp only [List.cons.injEq, Obs.packetSent.injEq, and_true] at ho
      subst ho
      rw [hsrc, hseq]
      simp [setSeq]
  | _ =>
    rcases hp with hp | hp
    · exact ih p qs hp
    · exact absurd hp (not_sent_of_not_send rfl)

theorem nextSeq_mono {api : Api} {w w' : World} {op : Op} {obs : List Obs} (hs : Step api w op w' obs) (id : String) :
    w.nextSeq id ≤ w'.nextSeq id := by
  cases hs with
  | send sender ms qs' memo t fresh st info anys cqs c ts p' =>
    simp only [setSeq]
    split
    · rename_i e; rw [e]; omega
    · exact Nat.le_refl _
  | _ => exact Nat.le_refl _

/-- On a channel that does not exist nothing has been sent. -/
theorem unused_seq {api : Api} {env : Env} {h : List (Op × List Obs)} {w : World} (he : Exec api (World.genesis env) h w) :
    ∀ id, w.chans id = none → w.nextSeq id = 1 := by
  refine exec_induction (C := fun _ w => ∀ id, w.chans id = none → w.nextSeq id = 1) (fun _ _ => rfl) ?_ he
  intro h w w' op obs _ hv ih hs id hc
  cases hs with
  | send sender ms qs' memo t fresh st info anys cqs c ts p' h1 h2 h3 h4 h5 h6 h7 h8 h9 =>
    simp only [setSeq]
    split
    · rename_i e
      subst e
      have : w.chans info.channelId = none := hc
      simp_all
    · exact ih id hc
  | _ =>
    refine ih id ?_
    first
    | exact hc
    | (simp only [setChan] at hc
       split at hc
       · cases hc
       · exact hc)
    | (dsimp only at hc
       split at hc
       · simp only [setChan] at hc
         split at hc
         · cases hc
         · exact hc
       · exact hc)

/-- What has been settled had been sent. -/
theorem settled_lt {api : Api} {env : Env} {h : List (Op × List Obs)} {w : World}
    (he : Exec api (World.genesis env) h w) :
    ∀ x ∈ h, ∀ id n, x.1.settles id n = true → n.toNat < w.nextSeq id := by
  refine exec_induction (C := fun h w => ∀ x ∈ h, ∀ id n, x.1.settles id n = true → n.toNat < w.nextSeq id)
    (fun x hx => by cases hx) ?_ he
  intro h w op w' obs he hv ih hs x hx id n hset
  refine Nat.lt_of_lt_of_le ?_ (nextSeq_mono hs id)
  rw [List.mem_append, List.mem_singleton] at hx
  rcases hx with hx | rfl
  · exact ih x hx id n hset
  · cases hs with
    | ackOk id' n' ack relayer p c st res q hp =>
      simp only [Op.settles, decide_eq_true_eq] at hset
      obtain ⟨rfl, rfl⟩ := hset
      exact (hv.commits _ _ _ hp).2.2.1
    | ackErr id' n' ack relayer p c st e hp =>
      simp only [Op.settles, decide_eq_true_eq] at hset
      obtain ⟨rfl, rfl⟩ := hset
      exact (hv.commits _ _ _ hp).2.2.1
    | timeout id' n' relayer p c st cs hp =>
      simp only [Op.settles, decide_eq_true_eq] at hset
      obtain ⟨rfl, rfl⟩ := hset
      exact (hv.commits _ _ _ hp).2.2.1
    | _ => cases hset

/-- The packet of a step that sends. -/
theorem step_send_facts {api : Api} {w w' : World} {sender : String} {ms : List CosmosMsg} {qs : List QueryRequest}
    {memo : Option String} {t : Option UInt64} {fresh : String} {core : Bool} {obs : List Obs} (hv : Inv api w)
    (hs : Step api w (.execute sender (.sendCosmosMsgs ms qs memo t) fresh core) w' obs) :
    ∃ p, obs = [.packetSent p] ∧ p.sequence.toNat = w.nextSeq p.src.channelId ∧
      w'.commits = setCommit w.commits p.src.channelId p.sequence (some p) := by
  cases hs with
  | send sender ms qs' memo t fresh st info anys cqs c ts p' h1 h2 h3 h4 h5 h6 h7 h8 h9 h10 h11 h12 =>
    have hsrc : p'.src.channelId = info.channelId := by subst h12; dsimp only; rw [(hv.chans _ _ h9).1]
    refine ⟨p', rfl, ?_, ?_⟩
    · rw [hsrc]; subst h12; exact ofNat_toNat h11
    · rw [hsrc]; subst h12; rfl

/-- A packet is still committed exactly if it was sent and neither acknowledged nor timed out. -/
theorem commits_iff {api : Api} {env : Env} {h : List (Op × List Obs)} {w : World}
    (he : Exec api (World.genesis env) h w) : ∀ id n p, w.commits id n = some p ↔
      (p.src.channelId = id ∧ p.sequence = n ∧ (∃ qs, Sent h p qs) ∧ ∀ x ∈ h, x.1.settles id n = false) := by
  refine exec_induction (C := fun h w => ∀ id n p, w.commits id n = some p ↔
      (p.src.channelId = id ∧ p.sequence = n ∧ (∃ qs, Sent h p qs) ∧ ∀ x ∈ h, x.1.settles id n = false)) ?_ ?_ he
  · intro id n p
    constructor
    · intro h; cases h
    · rintro ⟨-, -, ⟨qs, _, _, _, _, _, _, hm⟩, -⟩; cases hm
  intro h w op w' obs he hv ih hs id n p
  have keep : op.isSend = false → (∀ id n, op.settles id n = false) → w'.commits = w.commits →
      (w'.commits id n = some p ↔ (p.src.channelId = id ∧ p.sequence = n ∧ (∃ qs, Sent (h ++ [(op, obs)]) p qs) ∧
        ∀ x ∈ h ++ [(op, obs)], x.1.settles id n = false)) := by
    intro a b c
    rw [c, ih id n p]
    constructor
    · rintro ⟨h1, h2, ⟨qs, h3⟩, h4⟩
      refine ⟨h1, h2, ⟨qs, sent_snoc.2 (.inl h3)⟩, ?_⟩
      intro x hx
      rw [List.mem_append, List.mem_singleton] at hx
      rcases hx with hx | rfl
      · exact h4 x hx
      · exact b _ _
    · rintro ⟨h1, h2, ⟨qs, h3⟩, h4⟩
      refine ⟨h1, h2, ⟨qs, ?_⟩, fun x hx => h4 x (List.mem_append_left _ hx)⟩
      rcases sent_snoc.1 h3 with h3 | h3
      · exact h3
      · exact absurd h3 (not_sent_of_not_send a)
  have settle : ∀ (id' : String) (n' : UInt64), op.isSend = false →
      (∀ id n, op.settles id n = decide (id' = id ∧ n' = n)) →
      w'.commits = setCommit w.commits id' n' none →
      (w'.commits id n = some p ↔ (p.src.channelId = id ∧ p.sequence = n ∧ (∃ qs, Sent (h ++ [(op, obs)]) p qs) ∧
        ∀ x ∈ h ++ [(op, obs)], x.1.settles id n = false)) := by
    intro id' n' a b c
    rw [c]
    unfold setCommit
    split
    · rename_i e
      obtain ⟨rfl, rfl⟩ := e
      constructor
      · intro h; cases h
      · rintro ⟨-, -, -, h4⟩
        have := h4 (op, obs) (by simp)
        rw [b] at this
        simp at this
    · rename_i e
      rw [ih id n p]
      constructor
      · rintro ⟨h1, h2, ⟨qs, h3⟩, h4⟩
        refine ⟨h1, h2, ⟨qs, sent_snoc.2 (.inl h3)⟩, ?_⟩
        intro x hx
        rw [List.mem_append, List.mem_singleton] at hx
        rcases hx with hx | rfl
        · exact h4 x hx
        · rw [b]
          simp only [decide_eq_false_iff_not]
          rintro ⟨rfl, rfl⟩
          exact e ⟨rfl, rfl⟩
      · rintro ⟨h1, h2, ⟨qs, h3⟩, h4⟩
        refine ⟨h1, h2, ⟨qs, ?_⟩, fun x hx => h4 x (List.mem_append_left _ hx)⟩
        rcases sent_snoc.1 h3 with h3 | h3
        · exact h3
        · exact absurd h3 (not_sent_of_not_send a)
  cases hs with
  | send sender ms qs' memo t fresh st info anys cqs c ts p' h1 h2 h3 h4 h5 h6 h7 h8 h9 h10 h11 h12 =>
    have hst := Step.send (api := api) (w := w) sender ms qs' memo t fresh st info anys cqs c ts p' h1 h2 h3 h4 h5 h6
      h7 h8 h9 h10 h11 h12
    obtain ⟨p1, hp1, hq, hcm⟩ := step_send_facts hv hst
    simp only [List.cons.injEq, Obs.packetSent.injEq, and_true] at hp1
    subst hp1
    have hsent : Sent [(Op.execute sender (.sendCosmosMsgs ms qs' memo t) fresh true, [Obs.packetSent p'])] p' qs' :=
      ⟨_, _, _, _, _, _, List.mem_singleton.2 rfl⟩
    rw [hcm]
    unfold setCommit
    split
    · rename_i e
      obtain ⟨rfl, rfl⟩ := e
      constructor
      · intro hp
        injection hp with hp
        subst hp
        refine ⟨rfl, rfl, ⟨qs', sent_snoc.2 (.inr hsent)⟩, ?_⟩
        intro x hx
        rw [List.mem_append, List.mem_singleton] at hx
        rcases hx with hx | rfl
        · cases hset : x.1.settles p'.src.channelId p'.sequence with
          | false => rfl
          | true =>
            -- a settled packet was committed, hence below the next sequence number
            have := settled_lt he x hx _ _ hset
            omega
        · rfl
      · rintro ⟨h1', h2', ⟨qs, h3'⟩, h4'⟩
        rcases sent_snoc.1 h3' with h3' | h3'
        · have := sent_lt he p qs h3'
          rw [h1', h2'] at this
          omega
        · obtain ⟨_, _, _, _, _, _, _, ho⟩ := sent_one h3'
          simp only [List.cons.injEq, Obs.packetSent.injEq, and_true] at ho
          rw [ho]
    · rename_i e
      rw [ih id n p]
      constructor
      · rintro ⟨h1', h2', ⟨qs, h3'⟩, h4'⟩
        refine ⟨h1', h2', ⟨qs, sent_snoc.2 (.inl h3')⟩, ?_⟩
        intro x hx
        rw [List.mem_append, List.mem_singleton] at hx
        rcases hx with hx | rfl
        · exact h4' x hx
        · rfl
      · rintro ⟨h1', h2', ⟨qs, h3'⟩, h4'⟩
        refine ⟨h1', h2', ⟨qs, ?_⟩, fun x hx => h4' x (List.mem_append_left _ hx)⟩
        rcases sent_snoc.1 h3' with h3' | h3'
        · exact h3'
        · obtain ⟨_, _, _, _, _, _, _, ho⟩ := sent_one h3'
          simp only [List.cons.injEq, Obs.packetSent.injEq, and_true] at ho
          subst ho
          exact absurd ⟨h1'.symm, h2'.symm⟩ e
  | ackOk id' n' ack relayer => exact settle id' n' rfl (fun _ _ => rfl) rfl
  | ackErr id' n' ack relayer => exact settle id' n' rfl (fun _ _ => rfl) rfl
  | timeout id' n' relayer => exact settle id' n' rfl (fun _ _ => rfl) rfl
  | _ => exact keep rfl (fun _ _ => rfl) rfl


/-- A packet is determined by its channel and sequence number, and so are its queries. -/
theorem sent_unique {api : Api} {env : Env} {h : List (Op × List Obs)} {w : World}
    (he : Exec api (World.genesis env) h w) : ∀ p qs p' qs', Sent h p qs → Sent h p' qs' →
      p.src.channelId = p'.src.channelId → p.sequence = p'.sequence → p = p' ∧ qs = qs' := by
  refine exec_induction (C := fun h w => ∀ p qs p' qs', Sent h p qs → Sent h p' qs' →
      p.src.channelId = p'.src.channelId → p.sequence = p'.sequence → p = p' ∧ qs = qs') ?_ ?_ he
  · intro p qs p' qs' h; obtain ⟨_, _, _, _, _, _, hm⟩ := h; cases hm
  intro h w op w' obs he hv ih hs p qs p' qs' h1 h2 e1 e2
  rw [sent_snoc] at h1 h2
  rcases h1 with h1 | h1 <;> rcases h2 with h2 | h2
  · exact ih p qs p' qs' h1 h2 e1 e2
  · exfalso
    have := sent_lt he _ _ h1
    obtain ⟨_, _, _, _, _, _, rfl, ho⟩ := sent_one h2
    obtain ⟨p1, hp1, hq, _⟩ := step_send_facts hv hs
    rw [ho] at hp1
    simp only [List.cons.injEq, Obs.packetSent.injEq, and_true] at hp1
    subst hp1
    rw [e1, e2] at this
    omega
  · exfalso
    have := sent_lt he _ _ h2
    obtain ⟨_, _, _, _, _, _, rfl, ho⟩ := sent_one h1
    obtain ⟨p1, hp1, hq, _⟩ := step_send_facts hv hs
    rw [ho] at hp1
    simp only [List.cons.injEq, Obs.packetSent.injEq, and_true] at hp1
    subst hp1
    rw [← e1, ← e2] at this
    omega
  · obtain ⟨_, _, _, _, _, _, ho, hob⟩ := sent_one h1
    obtain ⟨_, _, _, _, _, _, ho', hob'⟩ := sent_one h2
    rw [hob] at hob'
    rw [ho] at ho'
    simp only [List.cons.injEq, Obs.packetSent.injEq, and_true] at hob'
    injection ho' with _ a
    injection a with _ b
    exact ⟨hob', b⟩

theorem clears_settles {op : Op} {id : String} {n : UInt64} (h : Clears id n op) : op.settles id n = true := by
  cases op with
  | relayAck id' n' ack r => obtain ⟨rfl, rfl, -⟩ := h; simp [Op.settles]
  | relayTimeout id' n' r => obtain ⟨rfl, rfl⟩ := h; simp [Op.settles]
  | _ => cases h

theorem recordedAs_unique {q : QueryRequest} {r r' : String × Bool} (h : RecordedAs q r) (h' : RecordedAs q r') :
    r = r' := by
  have gen : ∀ (o : Option HostQuery), (∃ x, o = some x ∧ r = (x.path, false)) →
      (∃ x, o = some x ∧ r' = (x.path, false)) → r = r' := by
    rintro o ⟨x, a, b⟩ ⟨y, c, d⟩
    rw [a] at c
    cases c
    rw [b, d]
  cases q with
  | stargate p d => rw [show r = _ from h, show r' = _ from h']
  | _ => exact gen _ h h'

theorem forall₂_unique {α β : Type} {R : α → β → Prop} (hR : ∀ a b b', R a b → R a b' → b = b') :
    ∀ {as : List α} {bs bs' : List β}, List.Forall₂ R as bs → List.Forall₂ R as bs' → bs = bs' := by
  intro as bs bs' h
  induction h generalizing bs' with
  | nil => intro h'; cases h'; rfl
  | cons a _ ih => intro h'; cases h' with | cons a' t' => rw [hR _ _ _ a a', ih t']

/-- The pending-query records, in terms of the history. -/
theorem pending_iff {api : Api} {env : Env} {h : List (Op × List Obs)} {w : World}
    (he : Exec api (World.genesis env) h w) : ∀ id n paths, w.store.pending id n = some paths ↔
      ∃ p qs, Sent h p qs ∧ p.src.channelId = id ∧ p.sequence = n ∧ qs ≠ [] ∧ List.Forall₂ RecordedAs qs paths ∧
        ∀ x ∈ h, ¬ Clears id n x.1 := by
  refine exec_induction (C := fun h w => ∀ id n paths, w.store.pending id n = some paths ↔
      ∃ p qs, Sent h p qs ∧ p.src.channelId = id ∧ p.sequence = n ∧ qs ≠ [] ∧ List.Forall₂ RecordedAs qs paths ∧
        ∀ x ∈ h, ¬ Clears id n x.1) ?_ ?_ he
  · intro id n paths
    constructor
    · intro h; cases h
    · rintro ⟨p, qs, ⟨_, _, _, _, _, _, hm⟩, -⟩; cases hm
  intro h w op w' obs he hv ih hs id n paths
  have keep : op.isSend = false → ¬ Clears id n op → w'.store.pending id n = w.store.pending id n →
      (w'.store.pending id n = some paths ↔ ∃ p qs, Sent (h ++ [(op, obs)]) p qs ∧ p.src.channelId = id ∧
        p.sequence = n ∧ qs ≠ [] ∧ List.Forall₂ RecordedAs qs paths ∧
        ∀ x ∈ h ++ [(op, obs)], ¬ Clears id n x.1) := by
    intro a b c
    rw [c, ih]
    constructor
    · rintro ⟨p, qs, h1, h2, h3, h4, h5, h6⟩
      refine ⟨p, qs, sent_snoc.2 (.inl h1), h2, h3, h4, h5, ?_⟩
      intro x hx
      rw [List.mem_append, List.mem_singleton] at hx
      rcases hx with hx | rfl
      · exact h6 x hx
      · exact b
    · rintro ⟨p, qs, h1, h2, h3, h4, h5, h6⟩
      refine ⟨p, qs, ?_, h2, h3, h4, h5, fun x hx => h6 x (List.mem_append_left _ hx)⟩
      rcases sent_snoc.1 h1 with h1 | h1
      · exact h1
      · exact absurd h1 (not_sent_of_not_send a)
  have clear : Clears id n op → w'.store.pending id n = none →
      (w'.store.pending id n = some paths ↔ ∃ p qs, Sent (h ++ [(op, obs)]) p qs ∧ p.src.channelId = id ∧
        p.sequence = n ∧ qs ≠ [] ∧ List.Forall₂ RecordedAs qs paths ∧
        ∀ x ∈ h ++ [(op, obs)], ¬ Clears id n x.1) := by
    intro a b
    rw [b]
    constructor
    · intro h; cases h
    · rintro ⟨p, qs, -, -, -, -, -, h6⟩
      exact absurd a (h6 (op, obs) (by simp))
  cases hs with
  | send sender ms qs' memo t fresh st info anys cqs c ts p' h1 h2 h3 h4 h5 h6 h7 h8 h9 h10 h11 h12 =>
    have hst := Step.send (api := api) (w := w) sender ms qs' memo t fresh st info anys cqs c ts p' h1 h2 h3 h4 h5 h6
      h7 h8 h9 h10 h11 h12
    obtain ⟨p1, hp1, hq, hcm⟩ := step_send_facts hv hst
    simp only [List.cons.injEq, Obs.packetSent.injEq, and_true] at hp1
    subst hp1
    have hr : Reachable api w := ⟨env, h, he⟩
    obtain ⟨p2, hp2, g1, g2, g3⟩ := C33_record_exact hr ((apply_iff_step hv).2 hst)
    simp only [List.cons.injEq, Obs.packetSent.injEq, and_true] at hp2
    subst hp2
    have hsent : Sent [(Op.execute sender (.sendCosmosMsgs ms qs' memo t) fresh true, [Obs.packetSent p'])] p' qs' :=
      ⟨_, _, _, _, _, _, List.mem_singleton.2 rfl⟩
    by_cases e : id = p'.src.channelId ∧ n = p'.sequence
    · obtain ⟨rfl, rfl⟩ := e
      by_cases hqs : qs' = []
      · rw [g2 hqs]
        constructor
        · intro h; cases h
        · rintro ⟨p, qs, k1, k2, k3, k4, k5, k6⟩
          rcases sent_snoc.1 k1 with k1 | k1
          · have := sent_lt he _ _ k1
            rw [k2, k3] at this
            omega
          · obtain ⟨_, _, _, _, _, _, ho, _⟩ := sent_one k1
            injection ho with _ a
            injection a with _ b
            exact absurd (b.symm.trans hqs) k4
      · obtain ⟨ps, g4, g5⟩ := g3 hqs
        rw [g4]
        constructor
        · intro hp
          injection hp with hp
          subst hp
          refine ⟨p', qs', sent_snoc.2 (.inr hsent), rfl, rfl, hqs, g5, ?_⟩
          intro x hx
          rw [List.mem_append, List.mem_singleton] at hx
          rcases hx with hx | rfl
          · intro hcl
            have := settled_lt he x hx _ _ (clears_settles hcl)
            omega
          · exact fun h => h
        · rintro ⟨p, qs, k1, k2, k3, k4, k5, k6⟩
          rcases sent_snoc.1 k1 with k1 | k1
          · have := sent_lt he _ _ k1
            rw [k2, k3] at this
            omega
          · obtain ⟨_, _, _, _, _, _, ho, _⟩ := sent_one k1
            injection ho with _ a
            injection a with _ b
            subst b
            rw [forall₂_unique (R := RecordedAs) (fun _ _ _ => recordedAs_unique) g5 k5]
    · have hkeep : (storeAfterSend w.store info.channelId (UInt64.ofNat (w.nextSeq info.channelId)) qs' cqs).pending
          id n = w.store.pending id n := by
        have hsrc : p'.src.channelId = info.channelId := by subst h12; dsimp only; rw [(hv.chans _ _ h9).1]
        have hse : p'.sequence = UInt64.ofNat (w.nextSeq info.channelId) := by subst h12; rfl
        unfold storeAfterSend
        split
        · rfl
        · simp only [setPending]
          rw [if_neg]
          rw [← hsrc, ← hse] at *
          exact e
      show (storeAfterSend w.store info.channelId (UInt64.ofNat (w.nextSeq info.channelId)) qs' cqs).pending
          id n = some paths ↔ _
      rw [hkeep, ih]
      constructor
      · rintro ⟨p, qs, k1, k2, k3, k4, k5, k6⟩
        refine ⟨p, qs, sent_snoc.2 (.inl k1), k2, k3, k4, k5, ?_⟩
        intro x hx
        rw [List.mem_append, List.mem_singleton] at hx
        rcases hx with hx | rfl
        · exact k6 x hx
        · exact fun h => h
      · rintro ⟨p, qs, k1, k2, k3, k4, k5, k6⟩
        refine ⟨p, qs, ?_, k2, k3, k4, k5, fun x hx => k6 x (List.mem_append_left _ hx)⟩
        rcases sent_snoc.1 k1 with k1 | k1
        · exact k1
        · obtain ⟨_, _, _, _, _, _, _, ho⟩ := sent_one k1
          simp only [List.cons.injEq, Obs.packetSent.injEq, and_true] at ho
          subst ho
          exact absurd ⟨k2.symm, k3.symm⟩ e
  | ackOk id' n' ack relayer p c st res q hp hc ho hst hres =>
    by_cases e : id = id' ∧ n = n'
    · obtain ⟨rfl, rfl⟩ := e
      exact clear ⟨rfl, rfl, res, by rw [readAck_eq]; exact hres⟩ (by simp [setPending])
    · exact keep rfl (fun hcl => e ⟨hcl.1.symm, hcl.2.1.symm⟩) (by simp [setPending, e])
  | ackErr id' n' ack relayer p c st er hp hc ho hst hres =>
    refine keep rfl ?_ rfl
    rintro ⟨rfl, rfl, res, hr⟩
    rw [readAck_eq, hres] at hr
    cases hr
  | timeout id' n' relayer =>
    by_cases e : id = id' ∧ n = n'
    · obtain ⟨rfl, rfl⟩ := e
      exact clear ⟨rfl, rfl⟩ (by simp [setPending])
    · exact keep rfl (fun hcl => e ⟨hcl.1.symm, hcl.2.symm⟩) (by simp [setPending, e])
  | _ => exact keep rfl (fun h => h) rfl

end Ica
