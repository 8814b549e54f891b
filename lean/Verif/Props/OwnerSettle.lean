import Verif.Spec.OwnerSettle
import Verif.Facts.OwnerNet
import Verif.Props.OwnerNet
import Verif.Props.Settle
import Verif.Props.System

/-!
# What the admin asked for comes to an end (C96)
-/
namespace Ica
open Spec Owner System

section
variable {api : Api} {n0 n : ONet} {H : List (ONetOp × List (String × Obs))} {a : String} {cw : World}

theorem onetExec_append {n1 n2 : ONet} {l1 l2 : List (ONetOp × List (String × Obs))} (h1 : ONetExec api n l1 n1)
    (h2 : ONetExec api n1 l2 n2) : ONetExec api n (l1 ++ l2) n2 := by
  induction h2 with
  | nil => simpa using h1
  | step a b ih => rw [← List.append_assoc]; exact .step ih b

/-- Every packet of a controller has a timeout. -/
theorem owner_timeouts (hi : ONInv api n0 H n) (hc : Controller n.s a cw) :
    ∀ p ∈ (n.far a).sent, ∃ ts, p.timeout.timestamp = some ts ∧ ts ≠ 0 := by
  intro p hp
  obtain ⟨env, m0, h, k1, k2, k3⟩ := hi.each a cw hc
  have hv := ninv_exec k1 k2
  obtain ⟨qs, s, ms, memo, t, f, co, hm⟩ := (hv.sentIff p).1 hp
  obtain ⟨k, dst, self', f', co', -, e⟩ := k3 _ hm p (by simp)
  obtain ⟨h1, h2, w1, w2, -, e2, e3⟩ := exec_at hv.exec hm
  simp only [Op.execute.injEq, ExecuteMsg.sendCosmosMsgs.injEq] at e
  obtain ⟨-, ⟨-, -, -, rfl⟩, -⟩ := e
  obtain ⟨-, -, -, st, info, anys, cqs, c, ts, p', -, -, -, -, -, t6, -, -, -, hp', -, ho⟩ := apply_send.1 e3
  obtain rfl : p = p' := by simpa using ho
  refine ⟨ts, by rw [hp'], ?_⟩
  rintro rfl
  have : (0 : UInt64).toNat = w1.env.time.toNat + 600 * 1000000000 := t6
  simp at this

/-- What relayers and hosts do to one controller they can do in the joint system. -/
theorem lift_relaying (h0 : n0.Initial) (he : ONetExec api n0 H n) (hc : Controller n.s a cw)
    {l : List (NetOp × List Obs)} {m : Net} (hl : NetExec api ((n.far a).net cw) l m) (hr : ∀ x ∈ l, Relaying x.1) :
    ∃ l' n', ONetExec api n l' n' ∧ (∀ x ∈ l', RelayingFor a x.1) ∧ Controller n'.s a m.w ∧ (n'.far a).net m.w = m ∧
      (∀ b, b ≠ a → n'.s.ctrl b = n.s.ctrl b) ∧ adminOf n'.s = adminOf n.s ∧ n'.s.owner.self = n.s.owner.self ∧
      ∀ x ∈ l, ∀ id k, Ends id k x.1 → ∃ y ∈ l', EndsFor a id k y.1 ∧ obsOf a y.2 = x.2 := by
  induction hl with
  | nil => exact ⟨[], n, .nil, by simp, hc, rfl, fun _ _ => rfl, rfl, rfl, by simp⟩
  | @step l m m' op obs hl hs ih =>
    obtain ⟨l', n', i1, i2, i3, i4, i5, i6, i7, i8⟩ := ih (fun x hx => hr x (List.mem_append_left _ hx))
    have hop : Relaying op := hr (op, obs) (by simp)
    have hi := oninv_exec h0 (onetExec_append he i1)
    by_cases hh : ∃ o, op = .ctrl o
    · obtain ⟨o, rfl⟩ := hh
      obtain ⟨w', rfl, hp, hap⟩ := netStep_ctrl hs
      have hout : outside n'.s.owner.self o = true := by
        cases o <;> first | rfl | exact hop.elim
      obtain ⟨o', h1, -, g1, -, -, -, g2, -⟩ := ctrl_step (sinv_of_reachable hi.sys) i3 hout hap
      have hst : ONetStep api n' (.chain (.ctrl a o)) _ _ := .chain _ _ _ (fun b o2 cw2 e hc2 => by
        simp only [SOp.ctrl.injEq] at e
        obtain ⟨rfl, rfl⟩ := e
        obtain rfl := Option.some.inj (i3.symm.trans hc2)
        rw [i4]
        exact hp) h1
      refine ⟨_, _, i1.step hst, ?_, by simp [Controller, setCtrl, Net.moved], ?_, fun b hb => ?_, ?_, g1.trans i7, ?_⟩
      · intro x hx
        rcases List.mem_append.1 hx with hx | hx
        · exact i2 x hx
        · obtain rfl := List.mem_singleton.1 hx
          cases o <;> first | rfl | exact hop.elim
      · have : m = (n'.far a).net m.w := i4.symm
        simp only [setCtrl, if_true, obsOf_same]
        conv_rhs => rw [this]
        rw [moved_net]
        rfl
      · simpa [setCtrl, hb] using i5 b hb
      · rw [← i6]; simp only [adminOf, g2]
      · intro x hx id k hk
        rcases List.mem_append.1 hx with hx | hx
        · obtain ⟨y, hy, q⟩ := i8 x hx id k hk
          exact ⟨y, List.mem_append_left _ hy, q⟩
        · obtain rfl := List.mem_singleton.1 hx
          refine ⟨_, List.mem_append_right _ (List.mem_singleton.2 rfl), ?_, obsOf_same _ _⟩
          rcases hk with ⟨ack, r, e⟩ | ⟨r, e⟩
          · exact .inl ⟨ack, r, by cases e; rfl⟩
          · exact .inr ⟨r, by cases e; rfl⟩
    · have hno : ∀ o, op ≠ .ctrl o := fun o e => hh ⟨o, e⟩
      have hw := host_world hs hno
      obtain rfl : obs = [] := by cases hs <;> first | rfl | exact absurd rfl (hno _)
      have hst : ONetStep api n' (.host a op) _ _ := .host a m.w op m' i3 hno (by rw [i4]; exact hs)
      refine ⟨_, _, i1.step hst, ?_, by rw [hw]; exact i3, by rw [hw]; simp only [if_true]; rw [← hw]; rfl, i5, i6, i7, ?_⟩
      · intro x hx
        rcases List.mem_append.1 hx with hx | hx
        · exact i2 x hx
        · obtain rfl := List.mem_singleton.1 hx
          cases op <;> first | rfl | exact hop.elim | exact absurd rfl (hno _)
      · intro x hx id k hk
        rcases List.mem_append.1 hx with hx | hx
        · obtain ⟨y, hy, q⟩ := i8 x hx id k hk
          exact ⟨y, List.mem_append_left _ hy, q⟩
        · obtain rfl := List.mem_singleton.1 hx
          rcases hk with ⟨ack, r, e⟩ | ⟨r, e⟩ <;> exact absurd e (hno _)

/-- **C96.** Whatever has happened before, while the channel of a controller is open relayers and blocks of the host alone
can bring everything the admin has asked of it to an end, with the owner contract told of each outcome by the controller;
nobody's consent is needed, and neither the other controllers nor the admin are touched. -/
theorem C96_can_settle (h0 : n0.Initial) (he : ONetExec api n0 H n) (hc : Controller n.s a cw) {id : String} {ch : IbcChannel}
    (ho : ChainOpen cw id ch) :
    ∃ l n' cw', ONetExec api n l n' ∧ (∀ x ∈ l, RelayingFor a x.1) ∧ Controller n'.s a cw' ∧
      (∀ k, cw'.commits id k = none) ∧ (∀ b, b ≠ a → n'.s.ctrl b = n.s.ctrl b) ∧ adminOf n'.s = adminOf n.s ∧
      ∀ k p, cw.commits id k = some p → ∃ x ∈ l, EndsFor a id k x.1 ∧ ToldEnd (obsOf a x.2) n.s.owner.self p := by
  have hi := oninv_exec h0 he
  obtain ⟨env, m0, h, k1, k2, -⟩ := hi.each a cw hc
  obtain ⟨l, m, s1, s2, s3, s4⟩ := settle_open k1 k2 (owner_timeouts hi hc) (id := id) ho
  obtain ⟨l', n', i1, i2, i3, i4, i5, i6, i7, i8⟩ := lift_relaying h0 he hc s1 s2
  refine ⟨l', n', m.w, i1, i2, i3, s3, i5, i6, fun k p hp => ?_⟩
  obtain ⟨x, hx, q1, q2⟩ := s4 k p hp
  obtain ⟨y, hy, r1, r2⟩ := i8 x hx id k q1
  exact ⟨y, hy, r1, by rw [r2]; exact q2 _ (C71_stays_owned hi.sys hc).2.2⟩

end

/-- C96_can_settle: its hypotheses, with something outstanding. -/
example : ∃ H n a cw ch k p, ONetExec Ex.api Ex.onet0 H n ∧ Controller n.s a cw ∧ ChainOpen cw "channel-0" ch ∧
    cw.commits "channel-0" k = some p := by
  obtain ⟨H, n, a, cw, hc, p, he, h1, -, -, -, -, -, -, -, -, ⟨ch, h2⟩, h3⟩ := Ex.onet6
  exact ⟨H, n, a, cw, ch, _, p, he, h1, h2, h3⟩

end Ica
