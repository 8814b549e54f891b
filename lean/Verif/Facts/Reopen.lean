import Mathlib.Data.Fintype.EquivFin
import Verif.Spec.Reopen
import Verif.Facts.Interchain

/-!
# Lemmas about reaching the account again
-/
namespace Ica
open Spec

/-! ## The active channel -/

theorem activeChannel_snoc (h : List (NetOp × List Obs)) (x : NetOp × List Obs) (conn : String) :
    activeChannel (h ++ [x]) conn = match x.1 with
      | .hostOpenConfirm c hid => if c = conn then some hid else activeChannel h conn
      | _ => activeChannel h conn := by
  unfold activeChannel
  rw [List.foldl_append]
  rfl

theorem activeChannel_other {h : List (NetOp × List Obs)} {x : NetOp × List Obs} {conn : String}
    (hx : ∀ hid, x.1 ≠ .hostOpenConfirm conn hid) : activeChannel (h ++ [x]) conn = activeChannel h conn := by
  rw [activeChannel_snoc]
  obtain ⟨op, obs⟩ := x
  cases op with
  | hostOpenConfirm c hid =>
    have : c ≠ conn := by rintro rfl; exact hx hid rfl
    simp [this]
  | _ => rfl

/-! ## Closed channels, and the ends that belong together -/

theorem closed_step {api : Api} {w w' : World} {op : Op} {obs : List Obs} (hs : Step api w op w' obs)
    {id : String} {c : ChainChan} (hc : w.chans id = some c) (hst : c.status = .closed) : w'.chans id = some c := by
  obtain ⟨ch, s⟩ := c
  obtain rfl : s = .closed := hst
  have upd : ∀ {x c0 c1}, w.chans x = some c0 → c0.status ≠ .closed →
      setChan w.chans x c1 id = some ⟨ch, .closed⟩ := by
    intro x c0 c1 h0 h1
    by_cases hx : id = x
    · subst hx
      rw [hc] at h0
      cases h0
      exact absurd rfl h1
    · rw [setChan_ne _ hx]; exact hc
  have new : ∀ {x c1}, w.chans x = none → setChan w.chans x c1 id = some ⟨ch, .closed⟩ := by
    intro x c1 h0
    have : id ≠ x := by rintro rfl; rw [hc] at h0; cases h0
    rw [setChan_ne _ this]; exact hc
  cases hs with
  | instantiate _ _ _ _ hf => exact new hf
  | create _ _ _ _ _ _ hf => exact new hf
  | close _ _ x _ _ _ hx hst => exact upd hx (by rw [hst]; decide)
  | closeConfirm _ x hx hst => exact upd hx (by rw [hst]; decide)
  | openAck _ _ _ x _ _ hx hst => exact upd hx (by rw [hst]; decide)
  | timeout i _ _ p x _ _ _ hx =>
    dsimp only
    split
    · by_cases e : id = i
      · subst e
        rw [hc] at hx
        cases hx
        exact setChan_same _ _ _
      · rw [setChan_ne _ e]; exact hc
    · exact hc
  | _ => exact hc

/-- The controller's end of a host channel that has left TRYOPEN. -/
def Paired (w : World) (conn hid : String) (hc : HostChan) : Prop :=
  ∃ c, w.chans hc.controller.channelId = some c ∧ c.status ≠ .init ∧ c.chan.counterpartyEndpoint.channelId = hid ∧
    c.chan.connectionId = conn ∧ (hc.status = .closed → c.status = .closed)

theorem Paired.step {api : Api} {w w' : World} {op : Op} {obs : List Obs} (hv : Inv api w) (hs : Step api w op w' obs)
    {conn hid : String} {hc : HostChan} (h : Paired w conn hid hc) : Paired w' conn hid hc := by
  obtain ⟨c, h1, h2, h3, h4, h5⟩ := h
  obtain ⟨c', k1, k2⟩ := chan_step hv hs h1
  refine ⟨c', k1, (k2.kept h2).1, by rw [(k2.kept h2).2]; exact h3, k2.connection.trans h4, fun hcl => ?_⟩
  have := closed_step hs h1 (h5 hcl)
  rw [k1] at this
  cases this
  exact h5 hcl

/-- Once a host's end has left TRYOPEN it is paired with a controller's end, which is closed if it is. -/
theorem paired_exec {api : Api} {env : Env} {n0 n : Net} {h : List (NetOp × List Obs)} (h0 : n0.Initial env)
    (he : NetExec api n0 h n) : ∀ conn hid hc, (n.hosts conn).chans hid = some hc → hc.status ≠ .tryOpen →
      Paired n.w conn hid hc := by
  induction he with
  | nil => intro conn hid hc hh; rw [h0.chans] at hh; cases hh
  | @step h n n' op obs he hs ih =>
    have hv := ninv_exec h0 he
    intro conn hid hc hh hst
    cases hs with
    | ctrl op w' obs hp hap => exact (ih _ _ _ hh hst).step hv.inv (step_of_apply hv.inv hap)
    | hostBlock conn' ht t =>
      refine ih _ _ _ ?_ hst
      by_cases e : conn = conn'
      · subst e; dsimp only at hh; rw [setHost_same] at hh; exact hh
      · dsimp only at hh; rw [setHost_ne _ _ e] at hh; exact hh
    | hostOpenTry conn' hid' ch v a =>
      by_cases e : conn = conn'
      · subst e
        dsimp only at hh
        rw [setHost_same] at hh
        by_cases e2 : hid = hid'
        · subst e2
          simp only [HostSide.setChan, if_true, Option.some.injEq] at hh
          subst hh
          exact absurd rfl hst
        · simp only [HostSide.setChan, e2, if_false, HostSide.setAccount] at hh
          exact ih _ _ _ hh hst
      · dsimp only at hh; rw [setHost_ne _ _ e] at hh; exact ih _ _ _ hh hst
    | hostOpenConfirm conn' hid' hc' c k1 k2 k3 k4 k5 =>
      rcases chans_set hh with ⟨rfl, rfl, rfl⟩ | ⟨-, hh⟩
      · obtain ⟨a, c', m1, m2, m3, m4, m5, m6⟩ := hv.host _ _ _ k1
        rw [k3] at m3
        cases m3
        exact ⟨c, k3, k4, k5, m5, fun x => by cases x⟩
      · exact ih _ _ _ hh hst
    | hostCloseConfirm conn' hid' hc' c k1 k2 k3 k4 k5 =>
      rcases chans_set hh with ⟨rfl, rfl, rfl⟩ | ⟨-, hh⟩
      · obtain ⟨a, c', m1, m2, m3, m4, m5, m6⟩ := hv.host _ _ _ k1
        rw [k3] at m3
        cases m3
        exact ⟨c, k3, by rw [k4]; decide, k5, m5, fun _ => k4⟩
      · exact ih _ _ _ hh hst
    | execute conn' hid' hc' p ack a memo ms rs k1 k2 =>
      rcases chans_set hh with ⟨rfl, rfl, rfl⟩ | ⟨-, hh⟩
      · exact (ih _ _ _ k1 (by rw [k2]; decide) : Paired n.w _ _ hc')
      · exact ih _ _ _ hh hst
    | fail conn' hid' hc' p ack e k1 k2 =>
      rcases chans_set hh with ⟨rfl, rfl, rfl⟩ | ⟨-, hh⟩
      · exact (ih _ _ _ k1 (by rw [k2]; decide) : Paired n.w _ _ hc')
      · exact ih _ _ _ hh hst

theorem status_keeps {api : Api} {n n' : Net} {op : NetOp} {obs : List Obs} (hs : NetStep api n op n' obs)
    {conn hid : String} {hc : HostChan} (hh : (n.hosts conn).chans hid = some hc) (hst : hc.status ≠ .tryOpen) :
    ∃ hc', (n'.hosts conn).chans hid = some hc' ∧ hc'.status ≠ .tryOpen ∧ hc'.controller = hc.controller ∧
      (hc'.status = .closed → hc.status = .closed ∨ op = .hostCloseConfirm conn hid) := by
  have set : ∀ {conn' hid' : String} {d d' : HostChan}, (n.hosts conn').chans hid' = some d → d'.controller = d.controller →
      (d.status ≠ .tryOpen → d'.status ≠ .tryOpen) →
      (d'.status = .closed → d.status = .closed ∨ op = .hostCloseConfirm conn' hid') →
      ∃ hc', (setHost n.hosts conn' ((n.hosts conn').setChan hid' d') conn).chans hid = some hc' ∧ hc'.status ≠ .tryOpen ∧
        hc'.controller = hc.controller ∧ (hc'.status = .closed → hc.status = .closed ∨ op = .hostCloseConfirm conn hid) := by
    intro conn' hid' d d' hd hk h1 h2
    by_cases e : conn = conn'
    · subst e
      rw [setHost_same]
      by_cases e2 : hid = hid'
      · subst e2
        rw [hd] at hh
        cases hh
        exact ⟨d', by simp [HostSide.setChan], h1 hst, hk, h2⟩
      · exact ⟨hc, by simp [HostSide.setChan, e2, hh], hst, rfl, .inl⟩
    · rw [setHost_ne _ _ e]
      exact ⟨hc, hh, hst, rfl, .inl⟩
  cases hs with
  | ctrl op w' obs hp hap => exact ⟨hc, hh, hst, rfl, .inl⟩
  | hostBlock conn' ht t =>
    refine ⟨hc, ?_, hst, rfl, .inl⟩
    by_cases e : conn = conn'
    · subst e; dsimp only; rw [setHost_same]; exact hh
    · dsimp only; rw [setHost_ne _ _ e]; exact hh
  | hostOpenTry conn' hid' ch v a _ _ _ hf =>
    refine ⟨hc, ?_, hst, rfl, .inl⟩
    by_cases e : conn = conn'
    · subst e
      dsimp only
      rw [setHost_same]
      have : hid ≠ hid' := by rintro rfl; rw [hf] at hh; cases hh
      simp [HostSide.setChan, this, HostSide.setAccount, hh]
    · dsimp only; rw [setHost_ne _ _ e]; exact hh
  | hostOpenConfirm conn' hid' hc' c k1 k2 =>
    exact set k1 rfl (fun x => absurd k2 x) (fun x => by cases x)
  | hostCloseConfirm conn' hid' hc' c k1 k2 => exact set k1 rfl (fun _ x => by cases x) (fun _ => .inr rfl)
  | execute conn' hid' hc' p ack a memo ms rs k1 k2 => exact set k1 rfl (fun x => x) .inl
  | fail conn' hid' hc' p ack e k1 k2 => exact set k1 rfl (fun x => x) .inl

/-- The active channel exists, and its handshake is complete. -/
theorem active_exec {api : Api} {n0 n : Net} {h : List (NetOp × List Obs)} (he : NetExec api n0 h n) {conn act : String} (ha : activeChannel h conn = some act) :
    ∃ hc, (n.hosts conn).chans act = some hc ∧ hc.status ≠ .tryOpen := by
  induction he generalizing act with
  | nil => cases ha
  | @step h n n' op obs he hs ih =>
    by_cases hx : ∃ hid, op = .hostOpenConfirm conn hid
    · obtain ⟨hid, rfl⟩ := hx
      rw [activeChannel_snoc] at ha
      simp only [if_true, Option.some.injEq] at ha
      subst ha
      cases hs with
      | hostOpenConfirm _ _ hc c k1 k2 =>
        refine ⟨{ hc with status := .opened }, ?_, fun x => by cases x⟩
        dsimp only
        rw [setHost_same]
        simp [HostSide.setChan]
    · rw [activeChannel_other (fun hid e => hx ⟨hid, e⟩)] at ha
      obtain ⟨hc, k1, k2⟩ := ih ha
      obtain ⟨hc', l1, l2, -⟩ := status_keeps hs k1 k2
      exact ⟨hc', l1, l2⟩

/-- Only channels that time out close are reported closed while they are open. -/
theorem wrongly_closed {api : Api} {env : Env} {w : World} {h : List (Op × List Obs)}
    (he : Exec api (World.genesis env) h w) : ∀ cs, w.store.channel = some cs → cs.channelStatus = .closed →
      cs.channel.order = .ordered ∨ ∃ c, w.chans cs.channel.endpoint.channelId = some c ∧ c.status = .closed := by
  refine exec_induction' (C := fun _ w => ∀ cs, w.store.channel = some cs → cs.channelStatus = .closed →
      cs.channel.order = .ordered ∨ ∃ c, w.chans cs.channel.endpoint.channelId = some c ∧ c.status = .closed)
    (inv_genesis api env) (fun cs h => by cases h) ?_ he
  intro h w op w' obs _ hv ih hs cs hcs hst
  have keep : w.store.channel = some cs → cs.channel.order = .ordered ∨
      ∃ c, w'.chans cs.channel.endpoint.channelId = some c ∧ c.status = .closed := by
    intro e
    rcases ih cs e hst with h | ⟨c, h1, h2⟩
    · exact .inl h
    · exact .inr ⟨c, closed_step hs h1 h2, h2⟩
  cases hs with
  | close _ _ x _ _ _ hx =>
    injection hcs with hcs
    subst hcs
    exact .inr ⟨_, setChan_same _ _ _, rfl⟩
  | closeConfirm i x hx =>
    injection hcs with hcs
    subst hcs
    rw [hv.chan_id hx]
    exact .inr ⟨_, setChan_same _ _ _, rfl⟩
  | openAck i cpId v x =>
    injection hcs with hcs
    subst hcs
    cases hst
  | timeout i seq r p x st cs0 _ hx _ hch =>
    injection hcs with hcs
    by_cases e : cs0.channel.order = .ordered
    · rw [if_pos e] at hcs
      subst hcs
      exact .inl e
    · rw [if_neg e] at hcs
      subst hcs
      exact keep hch
  | send =>
    rw [(storeAfterSend_fields ..).2.2.2.1] at hcs
    exact keep hcs
  | _ => exact keep hcs

/-! ## There are always unused names -/

theorem exists_fresh (L : List String) : ∃ s, s ∉ L := by
  have hinj : Function.Injective (fun k : Nat => String.ofList (List.replicate k 'a')) := by
    intro a b hab
    have := congrArg String.toList hab
    simp only [String.toList_ofList] at this
    simpa using congrArg List.length this
  have : Infinite String := Infinite.of_injective _ hinj
  obtain ⟨s, hs⟩ := Infinite.exists_notMem_finset L.toFinset
  exact ⟨s, fun h => hs (List.mem_toFinset.2 h)⟩

theorem fresh_chan {api : Api} {env : Env} {w : World} {h : List (Op × List Obs)}
    (he : Exec api (World.genesis env) h w) : ∃ id, w.chans id = none := by
  have : ∃ L : List String, ∀ id, w.chans id ≠ none → id ∈ L := by
    refine exec_induction' (C := fun _ w => ∃ L : List String, ∀ id, w.chans id ≠ none → id ∈ L)
      (inv_genesis api env) ⟨[], fun id h => absurd rfl h⟩ ?_ he
    rintro h w op w' obs _ hv ⟨L, hL⟩ hs
    have set : ∀ (i : String) (x : ChainChan), ∃ L : List String, ∀ id, setChan w.chans i x id ≠ none → id ∈ L := by
      intro i x
      refine ⟨i :: L, fun id hid => ?_⟩
      by_cases e : id = i
      · exact List.mem_cons.2 (.inl e)
      · rw [setChan_ne _ e] at hid
        exact List.mem_cons_of_mem _ (hL id hid)
    cases hs with
    | instantiate => exact set _ _
    | create => exact set _ _
    | close => exact set _ _
    | closeConfirm => exact set _ _
    | openAck => exact set _ _
    | timeout => dsimp only; split; exacts [set _ _, ⟨L, hL⟩]
    | _ => exact ⟨L, hL⟩
  obtain ⟨L, hL⟩ := this
  obtain ⟨s, hs⟩ := exists_fresh L
  exact ⟨s, Decidable.byContradiction fun h => hs (hL s h)⟩

theorem fresh_host_chan {api : Api} {env : Env} {n0 n : Net} {h : List (NetOp × List Obs)} (h0 : n0.Initial env)
    (he : NetExec api n0 h n) (conn : String) : ∃ hid, (n.hosts conn).chans hid = none := by
  have : ∃ L : List String, ∀ hid, (n.hosts conn).chans hid ≠ none → hid ∈ L := by
    induction he with
    | nil => exact ⟨[], fun hid h => absurd (h0.chans _ _) h⟩
    | @step h n n' op obs he hs ih =>
      obtain ⟨L, hL⟩ := ih
      have set : ∀ (c i : String) (s : HostSide) (d : HostChan), s.chans = (n.hosts c).chans →
          ∃ L : List String, ∀ hid, (setHost n.hosts c (s.setChan i d) conn).chans hid ≠ none → hid ∈ L := by
        intro c i s d hs
        refine ⟨i :: L, fun hid hh => ?_⟩
        by_cases e : conn = c
        · subst e
          rw [setHost_same] at hh
          by_cases e2 : hid = i
          · exact List.mem_cons.2 (.inl e2)
          · simp only [HostSide.setChan, e2, if_false, hs] at hh
            exact List.mem_cons_of_mem _ (hL hid hh)
        · rw [setHost_ne _ _ e] at hh
          exact List.mem_cons_of_mem _ (hL hid hh)
      cases hs with
      | ctrl => exact ⟨L, hL⟩
      | hostBlock c ht t =>
        refine ⟨L, fun hid hh => ?_⟩
        by_cases e : conn = c
        · subst e; dsimp only at hh; rw [setHost_same] at hh; exact hL _ hh
        · dsimp only at hh; rw [setHost_ne _ _ e] at hh; exact hL _ hh
      | hostOpenTry => exact set _ _ _ _ rfl
      | _ => exact set _ _ _ _ rfl
  obtain ⟨L, hL⟩ := this
  obtain ⟨s, hs⟩ := exists_fresh L
  refine ⟨s, ?_⟩
  cases hn : (n.hosts conn).chans s with
  | none => rfl
  | some x => exact absurd (hL s (by rw [hn]; exact fun h => by cases h)) hs

end Ica
