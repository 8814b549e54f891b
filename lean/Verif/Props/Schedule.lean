import Verif.Facts.Schedule
import Verif.Props.Answers
import Mathlib.Data.List.Induction

/-!
# Schedules: C118
-/
namespace Ica.Schedule
open Spec

variable {api : Api} {w w1 w2 w' : World} {id : String} {n : UInt64}

theorem exec_nil {w w' : World} (h : Exec api w [] w') : w' = w := by
  generalize e : ([] : List (Op × List Obs)) = l at h
  cases h with
  | nil => rfl
  | step a b => simp at e

theorem exec_cons {x : Op × List Obs} {l : List (Op × List Obs)} (h : Exec api w (x :: l) w') :
    ∃ u, apply api w x.1 = some (u, x.2) ∧ Exec api u l w' := by
  obtain ⟨u, h1, h2⟩ := h.split [x] l rfl
  obtain ⟨v, h3, h4⟩ := Exec.concat_inv (h := []) (op := x.1) (obs := x.2) h1
  cases exec_nil h3
  exact ⟨u, h4, h2⟩

theorem cons_exec {x : Op × List Obs} {l : List (Op × List Obs)} {u : World} (h1 : apply api w x.1 = some (u, x.2))
    (h2 : Exec api u l w') : Exec api w (x :: l) w' :=
  Exec.append (h1 := [x]) (.step (h := []) .nil h1) h2

theorem exec_nextSeq {l : List (Op × List Obs)} (hi : Inv api w) (he : Exec api w l w') (id : String) :
    w.nextSeq id ≤ w'.nextSeq id := by
  induction he with
  | nil => exact Nat.le_refl _
  | step a b ih => exact Nat.le_trans ih (nextSeq_mono ((apply_iff_step (inv_exec hi a)).1 b) id)

theorem exec_unordered {l : List (Op × List Obs)} (hi : Inv api w) (he : Exec api w l w') (hu : AllUnordered w') :
    AllUnordered w := by
  induction he with
  | nil => exact hu
  | step a b ih => exact ih (unordered_before ((apply_iff_step (inv_exec hi a)).1 b) hu)

theorem exec_flying {l : List (Op × List Obs)} (hi : Inv api w) (hf : Flying w) (he : Exec api w l w') : Flying w' := by
  induction he with
  | nil => exact hf
  | step a b ih => exact flying_step (inv_exec hi a) ih ((apply_iff_step (inv_exec hi a)).1 b)

theorem not_brings {op : Op} (h : Unconcerned op) : brings op = none := by
  cases op with
  | relayAck => exact h.elim
  | relayTimeout => exact h.elim
  | _ => rfl

/-- Bring a transaction to the front. -/
theorem to_front (hi : Inv api w) (hf : Flying w) {x : Op × List Obs} (l1 : List (Op × List Obs)) :
    ∀ l2, Exec api w (l1 ++ x :: l2) w' →
    (Unconcerned x.1 ∧ (∀ y ∈ l1, brings y.1 ≠ none) ∨
      ∃ id n, brings x.1 = some (id, n) ∧ n.toNat < w.nextSeq id ∧ ∀ y ∈ l1, brings y.1 ≠ none ∨ Unconcerned y.1) →
    ((∀ y ∈ l1 ++ x :: l2, ¬ IsTimeout y.1) ∨ AllUnordered w') → Exec api w (x :: (l1 ++ l2)) w' := by
  induction l1 using List.reverseRecOn with
  | nil => intro l2 he _ _; exact he
  | append_singleton l y ih =>
    intro l2 he hx hto
    rw [List.append_assoc] at he
    obtain ⟨u, h1, h2⟩ := he.split l (y :: x :: l2) rfl
    obtain ⟨u1, hy, h3⟩ := exec_cons h2
    obtain ⟨u2, hxx, h4⟩ := exec_cons h3
    have iu := inv_exec hi h1
    have fu := exec_flying hi hf h1
    have sy := (apply_iff_step iu).1 hy
    have iu1 := inv_of_step iu sy
    have sx := (apply_iff_step iu1).1 hxx
    have iu2 := inv_of_step iu1 sx
    have key : ∃ v, Step api u x.1 v x.2 ∧ Step api v y.1 u2 y.2 := by
      have un : IsTimeout y.1 ∨ IsTimeout x.1 → AllUnordered u2 := by
        intro h
        rcases hto with hto | hto
        · rcases h with h | h
          · exact absurd h (hto y (by simp))
          · exact absurd h (hto x (by simp))
        · exact exec_unordered iu2 h4 hto
      rcases hx with ⟨hx, hl⟩ | ⟨id, n, hb, hn, hl⟩
      · obtain ⟨⟨i, m⟩, hm⟩ := Option.ne_none_iff_exists'.1 (hl y (by simp))
        exact swap_still iu sy sx hm hx fun h => un (.inl h)
      · rcases hl y (by simp) with hl | hl
        · obtain ⟨⟨i, m⟩, hm⟩ := Option.ne_none_iff_exists'.1 hl
          exact swap_outcomes iu sy sx hm hb un
        · exact still_swap iu fu sy sx hl hb (Nat.lt_of_lt_of_le hn (exec_nextSeq hi h1 id)) fun h => un (.inr h)
    obtain ⟨v, k1, k2⟩ := key
    have iv := inv_of_step iu k1
    have he' : Exec api w (l ++ x :: (y :: l2)) w' :=
      h1.append (cons_exec ((apply_iff_step iu).2 k1) (cons_exec ((apply_iff_step iv).2 k2) h4))
    have := ih (y :: l2) he' (by
      rcases hx with ⟨hx, hl⟩ | ⟨id, n, hb, hn, hl⟩
      · exact .inl ⟨hx, fun z hz => hl z (by simp [hz])⟩
      · exact .inr ⟨id, n, hb, hn, fun z hz => hl z (by simp [hz])⟩) (by
      rcases hto with hto | hto
      · refine .inl fun z hz => hto z ?_
        simp only [List.mem_append, List.mem_cons] at hz ⊢
        tauto
      · exact .inr hto)
    rw [List.append_assoc]
    exact this

/-- The first transaction that is not an outcome. -/
theorem first_other {l : List (Op × List Obs)} {x : Op × List Obs} {t : List (Op × List Obs)}
    (h : l.filter (fun x => (brings x.1).isNone) = x :: t) :
    ∃ l1 l2, l = l1 ++ x :: l2 ∧ (∀ y ∈ l1, brings y.1 ≠ none) ∧ l2.filter (fun x => (brings x.1).isNone) = t := by
  induction l with
  | nil => cases h
  | cons a l ih =>
    rw [List.filter_cons] at h
    split at h
    · cases h
      exact ⟨[], l, rfl, by simp, rfl⟩
    · rename_i hb
      obtain ⟨l1, l2, rfl, h1, h2⟩ := ih h
      refine ⟨a :: l1, l2, rfl, fun y hy => ?_, h2⟩
      rcases List.mem_cons.1 hy with rfl | hy
      · intro e; rw [e] at hb; simp at hb
      · exact h1 y hy

/-- A packet sent gets the next number. -/
theorem sent_number {op : Op} {obs : List Obs} (hs : Step api w op w1 obs) (h : SendsPacket (op, obs) id n) (hi : Inv api w) :
    n.toNat < w1.nextSeq id := by
  obtain ⟨p, hp, rfl, rfl⟩ := h
  have hcall : ∀ cb m, Obs.packetSent p ∉ callObs cb m := by
    intro cb m h
    cases cb with
    | none => simp [callObs] at h
    | some a => simp [callObs] at h
  cases hs with
  | send sender ms qs memo t fresh st info anys cqs c ts p' h1 h2 h3 h4 h5 h6 h7 h8 h9 h10 h11 h12 =>
    simp only [List.mem_singleton, Obs.packetSent.injEq] at hp
    subst hp
    subst h12
    have e : c.chan.endpoint.channelId = info.channelId := hi.chan_id h9
    dsimp only
    rw [e, UInt64.toNat_ofNat_of_lt' h11]
    simp [setSeq]
  | openAck => exact absurd hp (hcall _ _)
  | timeout => exact absurd hp (hcall _ _)
  | ackOk => exact absurd (by simpa using hp) (hcall _ _)
  | ackErr => exact absurd (by simpa using hp) (hcall _ _)
  | _ => simp at hp

theorem schedule (l' : List (Op × List Obs)) : ∀ (w : World) (l : List (Op × List Obs)), Inv api w → Flying w →
    Exec api w l w' → (∀ x ∈ l, brings x.1 ≠ none ∨ Unconcerned x.1) →
    ((∀ x ∈ l, ¬ IsTimeout x.1) ∨ AllUnordered w') → l'.Perm l →
    l'.filter (fun x => (brings x.1).isNone) = l.filter (fun x => (brings x.1).isNone) →
    (∀ l1 x l2 id n, l' = l1 ++ x :: l2 → brings x.1 = some (id, n) →
      n.toNat < w.nextSeq id ∨ ∃ y ∈ l1, SendsPacket y id n) → Exec api w l' w' := by
  induction l' with
  | nil => intro w l _ _ he _ _ hp _ _; rw [hp.symm.eq_nil] at he; exact he
  | cons x t ih =>
    intro w l hi hf he hk hto hp ho hafter
    have key : ∃ l1 l2, l = l1 ++ x :: l2 ∧ (t.filter (fun x => (brings x.1).isNone) =
        (l1 ++ l2).filter (fun x => (brings x.1).isNone)) ∧
        (Unconcerned x.1 ∧ (∀ y ∈ l1, brings y.1 ≠ none) ∨
      ∃ id n, brings x.1 = some (id, n) ∧ n.toNat < w.nextSeq id ∧ ∀ y ∈ l1, brings y.1 ≠ none ∨ Unconcerned y.1) := by
      have hx : x ∈ l := hp.subset (by simp)
      cases hb : brings x.1 with
      | none =>
        have hu : Unconcerned x.1 := (hk x hx).resolve_left (by simp [hb])
        rw [List.filter_cons, if_pos (by simp [hb])] at ho
        obtain ⟨l1, l2, rfl, h1, h2⟩ := first_other ho.symm
        refine ⟨l1, l2, rfl, ?_, .inl ⟨hu, h1⟩⟩
        have e1 : l1.filter (fun x => (brings x.1).isNone) = [] := List.filter_eq_nil_iff.2 fun y hy => by
          have := h1 y hy
          simpa using this
        rw [List.filter_append, h2, e1]
        rfl
      | some q =>
        obtain ⟨id, n⟩ := q
        obtain ⟨l1, l2, rfl⟩ := List.append_of_mem hx
        refine ⟨l1, l2, rfl, ?_, .inr ⟨id, n, rfl, ?_, fun y hy => hk y (by simp [hy])⟩⟩
        · rw [List.filter_cons, if_neg (by simp [hb]), List.filter_append, List.filter_cons, if_neg (by simp [hb])] at ho
          rw [ho, List.filter_append]
        · rcases hafter [] x t id n rfl hb with h | ⟨y, hy, _⟩
          · exact h
          · cases hy
    obtain ⟨l1, l2, rfl, hfil, hx⟩ := key
    have he' := to_front hi hf l1 l2 he hx hto
    obtain ⟨u, hxs, hrest⟩ := exec_cons he'
    have hs := (apply_iff_step hi).1 hxs
    have hp' : t.Perm (l1 ++ l2) := by
      have : (x :: t).Perm (x :: (l1 ++ l2)) := hp.trans List.perm_middle
      exact this.cons_inv
    have := ih u (l1 ++ l2) (inv_of_step hi hs) (flying_step hi hf hs) hrest
      (fun y hy => hk y (by simp only [List.mem_append, List.mem_cons] at hy ⊢; tauto))
      (hto.imp_left fun h y hy => h y (by simp only [List.mem_append, List.mem_cons] at hy ⊢; tauto)) hp' hfil
      (fun m1 z m2 id n e hz => by
        rcases hafter (x :: m1) z m2 id n (by rw [e]; rfl) hz with h | ⟨y, hy, h⟩
        · exact .inl (Nat.lt_of_lt_of_le h (nextSeq_mono hs id))
        · rcases List.mem_cons.1 hy with rfl | hy
          · exact .inl (sent_number hs h hi)
          · exact .inr ⟨y, hy, h⟩)
    exact cons_exec hxs this

/-- **C118.** Outcomes may be brought at any time: if the outcomes in a history are moved about, each staying behind its
packet, among blocks, requests of the owner, handovers, proposed and completed handshakes, then every transaction is
accepted as before, shows the same as before (whom the callback tells what, in particular), and everything ends in the same
state. Timeouts are included if the contract has unordered channels only. -/
theorem C118_any_schedule {l l' : List (Op × List Obs)} (hr : Reachable api w) (he : Exec api w l w')
    (hk : ∀ x ∈ l, brings x.1 ≠ none ∨ Unconcerned x.1)
    (ho : (∀ x ∈ l, ∀ id n relayer, x.1 ≠ .relayTimeout id n relayer) ∨ AllUnordered w') (hs : Rescheduled w l l') :
    Exec api w l' w' := by
  have hi := inv_of_reachable hr
  refine schedule l' w l hi (flying_reachable hr) he hk (ho.imp_left fun h x hx => ?_) hs.same hs.others
    fun l1 x l2 id n e hb => (hs.after l1 x l2 id n e hb).imp_left fun h => number_given hi h
  have := h x hx
  cases hop : x.1 with
  | relayTimeout id n r => exact absurd hop (this id n r)
  | _ => exact id

/-- **C118** (what is left out has to be). A change of the callback address does not commute with an outcome: here the same
acknowledgement is told to the old callback contract if it comes first, and to nobody if it comes second. -/
theorem C118_callback_matters : ∃ w w1 w1' w' obs obs', Reachable Ex.api w ∧
    Commits Ex.api w (.relayAck "channel-0" 1 Ex.errAck "relayer") w1 obs ∧
    Commits Ex.api w1 (.execute "alice" (.updateCallbackAddress none) "" true) w' [] ∧
    Commits Ex.api w (.execute "alice" (.updateCallbackAddress none) "" true) w1' [] ∧
    Commits Ex.api w1' (.relayAck "channel-0" 1 Ex.errAck "relayer") w' obs' ∧
    (∃ msg funds, Obs.call "cb" msg funds ∈ obs) ∧ ∀ a msg funds, Obs.call a msg funds ∉ obs' := by
  have s1 : Step Ex.api Ex.w4e (.execute "alice" (.updateCallbackAddress none) "" true) _ [] :=
    .callback _ _ _ _ (Ex.st "channel-0") rfl ⟨_, rfl, rfl⟩ (by simp) rfl
  have s2 : Step Ex.api Ex.w3 (.execute "alice" (.updateCallbackAddress none) "" true) _ [] :=
    .callback _ _ _ _ (Ex.st "channel-0") rfl ⟨_, rfl, rfl⟩ (by simp) rfl
  have r := Ex.toStep Ex.r3 s2
  have s3 := Step.ackErr (api := Ex.api) (w := { Ex.w3 with store := { Ex.w3.store with
      state := some { Ex.st "channel-0" with callbackAddress := none } } }) "channel-0" 1 Ex.errAck "relayer" Ex.pkt _
    { Ex.st "channel-0" with callbackAddress := none } "out of gas"
    Ex.commit3 Ex.chan3 rfl rfl (JC.ofBytes_toBytes AckData.jc_law _)
  refine ⟨Ex.w3, Ex.w4e, _, _, _, _, Ex.r3, (apply_iff_step (inv_of_reachable Ex.r3)).2 Ex.s4e,
    (apply_iff_step (inv_of_reachable Ex.r4e)).2 s1, (apply_iff_step (inv_of_reachable Ex.r3)).2 s2,
    (apply_iff_step (inv_of_reachable r)).2 s3, ⟨_, _, List.mem_cons_of_mem _ (List.mem_singleton.2 rfl)⟩, by simp [callObs]⟩

/-- Four transactions, the second bringing the outcome of what the first sends; the second last. -/
theorem moved {w : World} {a b c d : Op × List Obs} {id : String} {n : UInt64} (ha : brings a.1 = none)
    (hb : brings b.1 = some (id, n)) (hc : brings c.1 = none) (hd : brings d.1 = none) (hs : SendsPacket a id n) :
    Rescheduled w [a, b, c, d] [a, c, d, b] := by
  refine ⟨.cons _ ((List.perm_append_comm (l₁ := [c, d]) (l₂ := [b]))), by simp [ha, hb, hc, hd], ?_⟩
  intro l1 x l2 id' n' e hx
  rcases l1 with _ | ⟨_, _ | ⟨_, _ | ⟨_, _ | ⟨_, l1⟩⟩⟩⟩
  · cases e; rw [ha] at hx; cases hx
  · cases e; rw [hc] at hx; cases hx
  · cases e; rw [hd] at hx; cases hx
  · cases e; rw [hb] at hx; cases hx; exact .inr ⟨_, List.mem_cons_self .., hs⟩
  · simp at e

/-- The packet of `Ex`, its acknowledgement, a new block and an offer of ownership; the acknowledgement last. -/
example : ∃ w l l' w', Reachable Ex.api w ∧ Exec Ex.api w l w' ∧ (∀ x ∈ l, brings x.1 ≠ none ∨ Unconcerned x.1) ∧
    (∀ x ∈ l, ∀ id n relayer, x.1 ≠ .relayTimeout id n relayer) ∧ Rescheduled w l l' ∧ l' ≠ l ∧ l.length = 4 := by
  have k1 := (apply_iff_step (inv_of_reachable Ex.r2)).2 Ex.s3
  have k2 := (apply_iff_step (inv_of_reachable Ex.r3)).2 Ex.s4e
  have t3 : Step Ex.api Ex.w4e (.block 101 1700000005000000000) _ [] := .block _ _ (by decide +kernel) (by decide +kernel)
  have r := Ex.toStep Ex.r4e t3
  have k3 := (apply_iff_step (inv_of_reachable Ex.r4e)).2 t3
  have t4 : Step Ex.api _ (.execute "alice" (.updateOwnership (.transferOwnership "bob" none)) "" true) _ [] :=
    .transfer (w := { Ex.w4e with env := { Ex.w4e.env with height := 101, time := 1700000005000000000 } })
      "alice" "bob" none "" true ⟨some "alice", none, none⟩ rfl rfl rfl (by decide +kernel)
  have k4 := (apply_iff_step (inv_of_reachable r)).2 t4
  refine ⟨Ex.w2, _, _, _, Ex.r2, cons_exec (x := (_, _)) k1 (cons_exec (x := (_, _)) k2
    (cons_exec (x := (_, _)) k3 (cons_exec (x := (_, _)) k4 .nil))), ?_, ?_,
    moved (id := "channel-0") (n := 1) rfl rfl rfl rfl ⟨Ex.pkt, List.mem_singleton.2 rfl, rfl, rfl⟩, ?_, rfl⟩
  · simp [brings, Unconcerned]
  · simp
  · simp

end Ica.Schedule
