import Verif.Spec.OwnerNet
import Verif.Facts.System
import Verif.Facts.OwnerApi
import Verif.Facts.Interchain
import Verif.Props.Interchain

/-!
# The owner contract, its controllers, and the host chains: helper lemmas
-/
namespace Ica
open Spec Owner System

theorem obsOf_same (a : String) (obs : List Obs) : obsOf a (obs.map (a, ·)) = obs := by
  induction obs with
  | nil => rfl
  | cons o l ih => simpa [obsOf] using ih

theorem obsOf_ne {a b : String} (h : a ≠ b) (obs : List Obs) : obsOf a (obs.map (b, ·)) = [] := by
  induction obs with
  | nil => rfl
  | cons o l ih => simpa [obsOf, Ne.symm h] using ih

/-- What one transaction of the composed system is for one controller. -/
theorem exact_step {api : Api} {w w' : SWorld} {op : SOp} {l : List (String × Obs)} (hv : SInv api w)
    (h : applyS api w op = some (w', l)) (a : String) :
    (w'.ctrl a = w.ctrl a ∧ obsOf a l = []) ∨
    (∃ cw cw' o, w.ctrl a = some cw ∧ w'.ctrl a = some cw' ∧ apply api cw o = some (cw', obsOf a l) ∧
      ((∃ hh t, o = .block hh t) ∨ (op = .ctrl a o ∧ outside w.owner.self o = true) ∨
        ∃ sender bytes fresh core n s dst, op = .owner sender bytes fresh core ∧ adminOf w = some sender ∧
          Spells Api.OwnerCall bytes (.sendPredefinedAction n dst) ∧ Listed w n a s ∧
          o = .execute w.owner.self (.sendCosmosMsgs [predefined dst] [] none none) fresh core ∧
          l = (obsOf a l).map (a, ·))) ∨
    ∃ cw' env sender m fresh core, w.ctrl a = none ∧ w'.ctrl a = some cw' ∧
      apply api (World.genesis env) (.instantiate sender m fresh core) = some (cw', obsOf a l) := by
  cases op with
  | block hh t =>
    simp only [applyS] at h
    split at h
    next hle =>
      simp only [Option.some.injEq, Prod.mk.injEq] at h
      obtain ⟨rfl, rfl⟩ := h
      cases hc : w.ctrl a with
      | none => exact .inl ⟨by simp [hc], rfl⟩
      | some cw =>
        obtain ⟨_, he, _⟩ := hv.each a cw hc
        refine .inr (.inl ⟨cw, { cw with env := { cw.env with height := hh, time := t } }, .block hh t, rfl,
          by simp [hc], apply_block.2 ⟨?_, ?_, rfl, rfl⟩, .inl ⟨_, _, rfl⟩⟩)
        · rw [he]; exact hle.1
        · rw [he]; exact hle.2
    · cases h
  | upload c k =>
    simp only [applyS] at h
    obtain ⟨⟨o', ms⟩, h1, h2⟩ := Option.map_eq_some_iff.mp h
    obtain ⟨rfl, rfl⟩ := Prod.mk.inj h2
    exact .inl ⟨rfl, rfl⟩
  | elsewhere c =>
    simp only [applyS] at h
    obtain ⟨⟨o', ms⟩, h1, h2⟩ := Option.map_eq_some_iff.mp h
    obtain ⟨rfl, rfl⟩ := Prod.mk.inj h2
    exact .inl ⟨rfl, rfl⟩
  | deploy c k =>
    simp only [applyS] at h
    obtain ⟨⟨o', ms⟩, h1, h2⟩ := Option.map_eq_some_iff.mp h
    obtain ⟨rfl, rfl⟩ := Prod.mk.inj h2
    exact .inl ⟨rfl, rfl⟩
  | owner sender bytes fresh core =>
    rcases owner_step hv h with ⟨st, b, o, salt, o', ms, cwb, hdec, h1, h2, h3, e1, e2, hna, ht, hca, hlt, hcr, hid, hic, hn, hcb, rfl, rfl⟩ |
      ⟨st, b, n, s, dst, cwb, cw', obs', hdec, h1, h2, h3, hcw, hcb, rfl, rfl⟩
    · by_cases hne : a = b
      · subst hne
        have e : obsOf a [(a, Obs.channelCreated fresh)] = [.channelCreated fresh] := obsOf_same a [_]
        exact .inr (.inr ⟨cwb, _, _, _, _, _, hca, by simp [setCtrl], e ▸ hcb⟩)
      · exact .inl ⟨by simp [setCtrl, hne], obsOf_ne hne [_]⟩
    · by_cases hne : a = b
      · subst hne
        rw [obsOf_same]
        exact .inr (.inl ⟨cwb, cw', _, hcw, by simp [setCtrl], hcb, .inr (.inr ⟨sender, bytes, fresh, core, n, s, dst, rfl,
          by simp [adminOf, h1, h2], own_decodes.mp hdec, h3, rfl, rfl⟩)⟩)
      · exact .inl ⟨by simp [setCtrl, hne], obsOf_ne hne _⟩
  | ctrl b op =>
    obtain ⟨cwb, cw', obs', hcw, ho, hcb, rfl, e⟩ := applyS_ctrl h
    by_cases hne : a = b
    · subst hne
      rw [obsOf_same]
      exact .inr (.inl ⟨cwb, cw', op, hcw, by simp [e, setCtrl], hcb, .inr (.inl ⟨rfl, ho⟩)⟩)
    · exact .inl ⟨by simp [e, setCtrl, hne], obsOf_ne hne _⟩

theorem moved_nil (f : Far) (cw : World) : f.moved cw [] = f := by
  simp [Far.moved, newChans]

theorem moved_net (f : Far) (cw cw' : World) (op : Op) (obs : List Obs) :
    (f.net cw).moved op cw' obs = (f.moved cw' obs).net cw' := by
  simp only [Far.moved, Net.moved, Far.net, sentPackets, List.flatMap_cons, List.flatMap_nil, List.append_nil]
  rfl

theorem net_far (n : Net) : (farOf n).net n.w = n := rfl

/-- What a host does leaves the controller as it is. -/
theorem host_world {api : Api} {n n' : Net} {op : NetOp} {obs : List Obs} (h : NetStep api n op n' obs)
    (ho : ∀ o, op ≠ .ctrl o) : n'.w = n.w := by
  cases h with
  | ctrl o => exact absurd rfl (ho o)
  | _ => rfl

/-- What holds in every state of the joint system, after the history `H`. -/
structure ONInv (api : Api) (n0 : ONet) (H : List (ONetOp × List (String × Obs))) (n : ONet) : Prop where
  sys : SReachable api n.s
  fresh : ∀ a, n.s.ctrl a = none → (n.far a).Fresh
  each : ∀ a cw, n.s.ctrl a = some cw → ∃ env m0 h, m0.Initial env ∧ NetExec api m0 h ((n.far a).net cw) ∧
    ∀ x ∈ onController h, ∀ p, Obs.packetSent p ∈ x.2 → ∃ k dst self fresh core, AskedByAdmin api n0 H k a p dst ∧
      x.1 = .execute self (.sendCosmosMsgs [predefined dst] [] none none) fresh core

theorem askedByAdmin_more {api : Api} {n0 : ONet} {H x : List (ONetOp × List (String × Obs))} {k : Nat} {a : String}
    {p : IbcPacket} {dst : String} (h : AskedByAdmin api n0 H k a p dst) : AskedByAdmin api n0 (H ++ x) k a p dst := by
  obtain ⟨h1, h2, m, sender, bytes, fresh, core, id, s, e, r⟩ := h
  exact ⟨h1, h2 ++ x, m, sender, bytes, fresh, core, id, s, by rw [e]; simp, r⟩

theorem oninv_initial {api : Api} {n0 : ONet} (h : n0.Initial) : ONInv api n0 [] n0 := by
  obtain ⟨⟨self, height, time, addr, codes, taken, code, e⟩, hf⟩ := h
  refine ⟨⟨self, height, time, addr, codes, taken, code, [], by rw [e]; exact .nil⟩, fun a _ => hf a, fun a cw hc => ?_⟩
  rw [e] at hc
  cases hc

theorem oninv_step {api : Api} {n0 n n' : ONet} {H : List (ONetOp × List (String × Obs))} {op : ONetOp}
    {l : List (String × Obs)} (he : ONetExec api n0 H n) (hi : ONInv api n0 H n) (hs : ONetStep api n op n' l) :
    ONInv api n0 (H ++ [(op, l)]) n' := by
  cases hs with
  | chain o s' _ hp ha =>
    have hv := sinv_of_reachable hi.sys
    refine ⟨sreach_exec hi.sys (SExec.nil.step ha), fun a hc => ?_, fun a cw' hc => ?_⟩
    · dsimp only at hc ⊢
      rw [hc]
      dsimp only
      refine hi.fresh a ?_
      rcases exact_step hv ha a with ⟨e, _⟩ | ⟨_, _, _, _, e, _⟩ | ⟨_, _, _, _, _, _, e, _⟩
      · rw [← e]; exact hc
      · rw [hc] at e; cases e
      · exact e
    · dsimp only at hc ⊢
      rw [hc]
      dsimp only
      rcases exact_step hv ha a with ⟨e, e2⟩ | ⟨cw, cw2, o', e, e1, e2, e3⟩ | ⟨cw2, env, sender, m, fresh, core, e, e1, e2⟩
      · rw [e2, moved_nil]
        obtain ⟨env, m0, h, k1, k2, k3⟩ := hi.each a cw' (by rw [← e]; exact hc)
        refine ⟨env, m0, h, k1, k2, fun x hx p hp => ?_⟩
        obtain ⟨k, dst, self, fresh, core, q1, q2⟩ := k3 x hx p hp
        exact ⟨k, dst, self, fresh, core, askedByAdmin_more q1, q2⟩
      · rw [hc] at e1
        obtain rfl := Option.some.inj e1
        obtain ⟨env, m0, h, k1, k2, k3⟩ := hi.each a cw e
        have hpr : Proven ((n.far a).net cw) o' := by
          rcases e3 with ⟨_, _, rfl⟩ | ⟨rfl, _⟩ | ⟨_, _, _, _, _, _, _, _, _, _, _, rfl, _⟩
          · exact trivial
          · exact hp a o' cw rfl e
          · exact trivial
        have hst := NetStep.ctrl (n := (n.far a).net cw) o' cw' _ hpr e2
        rw [moved_net] at hst
        refine ⟨env, m0, _, k1, .step k2 hst, fun x hx p hpx => ?_⟩
        rw [onController_ctrl] at hx
        rcases List.mem_append.1 hx with hx | hx
        · obtain ⟨k, dst, self, fresh, core, q1, q2⟩ := k3 x hx p hpx
          exact ⟨k, dst, self, fresh, core, askedByAdmin_more q1, q2⟩
        · obtain rfl := List.mem_singleton.1 hx
          dsimp only at hpx
          rcases e3 with ⟨_, _, rfl⟩ | ⟨rfl, ho⟩ | ⟨sender, bytes, fresh, core, id, s, dst, rfl, f2, f3, f4, rfl, f5⟩
          · obtain ⟨_, _, _, q⟩ := apply_block.1 e2
            rw [q] at hpx
            cases hpx
          · obtain ⟨hg, _⟩ := hv.each a cw e
            obtain ⟨_, _, q, _⟩ := outside_step hg ho e2
            exact absurd hpx (q p)
          · obtain ⟨_, p', _, q, _⟩ := C27_host_reads e2
            rw [q] at hpx f5
            simp only [List.mem_singleton, Obs.packetSent.injEq] at hpx
            subst hpx
            simp only [List.map_cons, List.map_nil] at f5
            exact ⟨H.length, dst, _, fresh, core, ⟨H, [], n, sender, bytes, fresh, core, id, s, by rw [f5], rfl, he, f2, f3, f4⟩, rfl⟩
      · rw [hc] at e1
        obtain rfl := Option.some.inj e1
        have hf := hi.fresh a e
        have hst := NetStep.ctrl (n := (n.far a).net (World.genesis env)) (.instantiate sender m fresh core) cw' _ trivial e2
        rw [moved_net] at hst
        refine ⟨env, (n.far a).net (World.genesis env), _,
          ⟨rfl, hf.account, hf.chans, hf.proposed, hf.sent, hf.log⟩, .step .nil hst, fun x hx p hpx => ?_⟩
        rw [onController_ctrl] at hx
        rcases List.mem_append.1 hx with hx | hx
        · cases hx
        · obtain rfl := List.mem_singleton.1 hx
          obtain ⟨_, _, _, _, _, _, _, _, q⟩ := apply_instantiate.1 e2
          dsimp only at hpx
          rw [q] at hpx
          simp at hpx
  | host a cw o n2 hc ho hst =>
    refine ⟨hi.sys, fun b hb => ?_, fun b cwb hb => ?_⟩
    · dsimp only at hb ⊢
      rw [if_neg (by rintro rfl; rw [show n.s.ctrl _ = _ from hc] at hb; cases hb)]
      exact hi.fresh b hb
    · dsimp only at hb ⊢
      obtain ⟨env, m0, h, k1, k2, k3⟩ := hi.each b cwb hb
      by_cases e : b = a
      · subst e
        rw [if_pos rfl]
        obtain rfl : cw = cwb := Option.some.inj ((show n.s.ctrl b = some cw from hc).symm.trans hb)
        have hw := host_world hst ho
        have : (farOf n2).net cw = n2 := by
          rw [← show n2.w = cw from hw]
          rfl
        rw [this]
        refine ⟨env, m0, _, k1, .step k2 hst, fun x hx p hpx => ?_⟩
        rw [onController_host _ (by intro o'; exact ho o')] at hx
        obtain ⟨k, dst, self, fresh, core, q1, q2⟩ := k3 x hx p hpx
        exact ⟨k, dst, self, fresh, core, askedByAdmin_more q1, q2⟩
      · rw [if_neg e]
        refine ⟨env, m0, h, k1, k2, fun x hx p hpx => ?_⟩
        obtain ⟨k, dst, self, fresh, core, q1, q2⟩ := k3 x hx p hpx
        exact ⟨k, dst, self, fresh, core, askedByAdmin_more q1, q2⟩

theorem oninv_exec {api : Api} {n0 n : ONet} {H : List (ONetOp × List (String × Obs))} (h0 : n0.Initial)
    (he : ONetExec api n0 H n) : ONInv api n0 H n := by
  induction he with
  | nil => exact oninv_initial h0
  | step hb hs ih => exact oninv_step hb ih hs

end Ica
