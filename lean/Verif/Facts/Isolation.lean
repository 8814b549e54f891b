import Verif.Spec.Isolation
import Verif.Facts.OwnerNet
import Verif.Props.System

/-!
# Controllers side by side: helper lemmas
-/
namespace Ica.System
open Owner Spec

variable {api : Api}

/-- What the owner contract notes when the controller at `a` calls it (or not). -/
def told (s : Owner.Store) (a : String) : Option CallbackMsg → Owner.Store
  | none => s
  | some m =>
    match s.addrToId a with
    | none => s
    | some n =>
      match s.icaStates n with
      | none => s
      | some ica => heard s n ica m

/-- One controller and what is at its other ends change, and the owner contract is told. -/
def upd (n : ONet) (a : String) (cw : World) (f : Far) (m : Option CallbackMsg) : ONet :=
  ⟨{ n.s with owner := { n.s.owner with store := told n.s.owner.store a m }, ctrl := setCtrl n.s.ctrl a cw },
    fun x => if x = a then f else n.far x⟩

/-- What a transaction at the controller `a` can see is the same. -/
structure Alike (a : String) (n n1 : ONet) : Prop where
  self : n1.s.owner.self = n.s.owner.self
  state : n1.s.owner.store.state = n.s.owner.store.state
  ctrl : n1.s.ctrl a = n.s.ctrl a
  far : n1.far a = n.far a
  dom : ∀ x, (n1.s.ctrl x).isSome = (n.s.ctrl x).isSome
  entry : ∀ i, (n1.s.owner.store.icaStates i).map (·.contractAddr) = (n.s.owner.store.icaStates i).map (·.contractAddr)

/-- The calls are this callback of the contract at `self`, or none. -/
def Calls (self : String) (obs : List Obs) : Option CallbackMsg → Prop
  | none => callsOf obs = []
  | some m => callsOf obs = callsOf (callObs (some self) m)

theorem ctrl_exact {w : SWorld} (hv : SInv api w) {a : String} {op : Op} {cw cw' : World} {obs : List Obs}
    {m : Option CallbackMsg} (hw : w.ctrl a = some cw) (ho : outside w.owner.self op = true)
    (hc : apply api cw op = some (cw', obs)) (hm : Calls w.owner.self obs m) :
    applyS api w (.ctrl a op) = some ({ w with
      owner := { w.owner with store := told w.owner.store a m }
      ctrl := setCtrl w.ctrl a cw' }, obs.map (a, ·)) := by
  obtain ⟨hg, he, n, s, h1, h2, h3⟩ := hv.each a cw hw
  unfold applyS
  dsimp only
  rw [hw]
  dsimp only
  rw [if_pos ho, hc]
  dsimp only
  cases m with
  | none => rw [show callsOf obs = [] from hm, hear]; rfl
  | some m =>
    rw [show callsOf obs = callsOf (callObs (some w.owner.self) m) from hm, hear_one h1 h2]
    simp only [told, h1, h2]

theorem action_exact {w : SWorld} {a : String} {sender : String} {bytes : Bytes} {fresh : String} {core : Bool}
    {i : UInt64} {dst : String} {st : State} {s : Option IcaState} {cw cw' : World} {obs : List Obs}
    (hd : (jsonOfBytes bytes).bind (decodeEnum execVariants) = some (.inl (.sendPredefinedAction i dst)))
    (h1 : w.owner.store.state = some st) (h2 : st.admin = sender) (h3 : w.owner.store.icaStates i = some ⟨a, s⟩)
    (hw : w.ctrl a = some cw) (hn : (w.ctrl sender).isSome = false)
    (hc : apply api cw (.execute w.owner.self (.sendCosmosMsgs [predefined dst] [] none none) fresh core) = some (cw', obs)) :
    applyS api w (.owner sender bytes fresh core) = some ({ w with ctrl := setCtrl w.ctrl a cw' }, obs.map (a, ·)) := by
  unfold applyS
  dsimp only
  rw [if_neg (by simp [hn])]
  have : applyO api w.owner (.execute sender bytes true) = some (w.owner, [.wasm (.execute a
      (jsonToBytes (sendCosmosMsgsPlain [predefined dst] none none)) [])]) := by
    simp only [applyO, Owner.execute, hd, sendPredefinedAction, h1, h2, ne_eq, not_true, if_false,
      h3, runMessages, SubMsg.new, if_true, Option.map_some, List.map_cons, List.map_nil]
  rw [this]
  dsimp only
  rw [deliver, hw, decode_plain]
  dsimp only
  rw [hc]
  simp [deliver]

theorem far_eq {n : ONet} {a : String} {cw' : World} {obs : List Obs} :
    (fun x => match setCtrl n.s.ctrl a cw' x with
      | none => n.far x
      | some cw => (n.far x).moved cw (obsOf x (obs.map (a, ·)))) =
    fun x => if x = a then (n.far a).moved cw' obs else n.far x := by
  funext x
  by_cases h : x = a
  · subst h
    simp [setCtrl, obsOf_same]
  · simp only [setCtrl, if_neg h, obsOf_ne h, moved_nil]
    cases n.s.ctrl x <;> rfl

/-- The transaction concerns the controller at `a` only. -/
def Local (a : String) (x : ONetOp × List (String × Obs)) : Prop :=
  match x.1 with
  | .host b _ => b = a
  | .chain (.ctrl b _) => b = a
  | .chain (.owner ..) => ∃ p, x.2 = [(a, .packetSent p)]
  | .chain _ => False

/-- A transaction that concerns one controller does the same in every state that is alike for it. -/
theorem local_step {n n' : ONet} {x : ONetOp} {l : List (String × Obs)} {a : String} (hv : SInv api n.s)
    (hs : ONetStep api n x n' l) (hl : Local a (x, l)) :
    ∃ cw' f' m, n' = upd n a cw' f' m ∧
      ∀ n1, SInv api n1.s → Alike a n n1 → ONetStep api n1 x (upd n1 a cw' f' m) l := by
  cases hs with
  | host b cw op m hc ho hm =>
    obtain rfl : b = a := hl
    have hw := host_world hm ho
    refine ⟨cw, farOf m, none, ?_, fun n1 _ ha => ?_⟩
    · unfold upd told
      congr 1
      have : setCtrl n.s.ctrl b cw = n.s.ctrl := by
        funext x
        unfold setCtrl
        split
        · next e => subst e; exact hc.symm
        · rfl
      rw [this]
    · have hc1 : n1.s.ctrl b = some cw := ha.ctrl.trans hc
      have k : ONetStep api n1 (.host b op) _ [] := .host b cw op m hc1 ho (by rw [ha.far]; exact hm)
      have e : setCtrl n1.s.ctrl b cw = n1.s.ctrl := by
        funext x
        unfold setCtrl
        split
        · next e => subst e; exact hc1.symm
        · rfl
      unfold upd told
      rw [e]
      exact k
  | chain op s' l hp hx =>
    cases op with
    | ctrl b op =>
      obtain rfl : b = a := hl
      obtain ⟨cw, cw', obs, h1, h2, h3, rfl, h5⟩ := applyS_ctrl hx
      obtain ⟨hg, _⟩ := hv.each b cw h1
      obtain ⟨m, hm⟩ : ∃ m, Calls n.s.owner.self obs m := by
        obtain ⟨_, _, _, _, ⟨k, _⟩ | ⟨m, k, _⟩⟩ := outside_step hg h2 h3
        · exact ⟨none, k⟩
        · exact ⟨some m, k⟩
      have e := ctrl_exact hv h1 h2 h3 hm
      rw [hx] at e
      obtain ⟨rfl, -⟩ := Prod.mk.inj (Option.some.inj e)
      refine ⟨cw', (n.far b).moved cw' obs, m, ?_, fun n1 hv1 ha => ?_⟩
      · unfold upd
        rw [← far_eq]
        rfl
      · have k := ctrl_exact hv1 (ha.ctrl.trans h1) (ha.self ▸ h2) h3 (ha.self ▸ hm)
        have k2 : ONetStep api n1 (.chain (.ctrl b op)) _ _ := .chain _ _ _ (fun a o c e hc => by
          cases e
          rw [ha.far]
          exact hp _ _ _ rfl (ha.ctrl.symm.trans hc)) k
        unfold upd
        rw [← ha.far, ← far_eq]
        exact k2
    | owner sender bytes fresh core =>
      obtain ⟨p, rfl⟩ := hl
      have hn : (n.s.ctrl sender).isSome = false := by
        unfold applyS at hx
        dsimp only at hx
        split at hx
        · cases hx
        · next h => simpa using h
      rcases owner_step hv hx with ⟨st, b, o, salt, o', ms, cwb, hdec, h1, h2, h3, e1, e2, hna, ht, hca, hlt, hcr, hid, hic, hn, hcb, rfl, e⟩ |
        ⟨st, b, i, s, dst, cwb, cw', obs', hdec, h1, h2, h3, hcw, hcb, rfl, e⟩
      · simp at e
      · obtain rfl : b = a := by
          cases obs' with
          | nil => cases e
          | cons o t => simp at e; exact e.1.1.symm
        rw [e]
        refine ⟨cw', (n.far b).moved cw' obs', none, ?_, fun n1 hv1 ha => ?_⟩
        · unfold upd told
          rw [← far_eq]
          rfl
        · obtain ⟨s1, h3'⟩ : ∃ s1, n1.s.owner.store.icaStates i = some ⟨b, s1⟩ := by
            have := ha.entry i
            rw [h3] at this
            cases hx : n1.s.owner.store.icaStates i with
            | none => rw [hx] at this; cases this
            | some c => rw [hx] at this; obtain ⟨x, y⟩ := c; cases this; exact ⟨_, rfl⟩
          have k := action_exact (api := api) (w := n1.s) hdec (ha.state.trans h1) h2 h3' (ha.ctrl.trans hcw)
            ((ha.dom sender).trans hn) (ha.self ▸ hcb)
          have k2 : ONetStep api n1 (.chain (.owner sender bytes fresh core)) _ _ := .chain _ _ _ (fun a o c e hc => by
            cases e) k
          unfold upd told
          rw [← ha.far, ← far_eq]
          exact k2
    | block _ _ => exact hl.elim
    | upload _ _ => exact hl.elim
    | elsewhere _ => exact hl.elim
    | deploy _ _ => exact hl.elim

theorem told_state (s : Owner.Store) (a : String) (m : Option CallbackMsg) : (told s a m).state = s.state ∧
    (told s a m).addrToId = s.addrToId ∧
    ∀ i, ((told s a m).icaStates i).map (·.contractAddr) = (s.icaStates i).map (·.contractAddr) := by
  unfold told
  split
  · exact ⟨rfl, rfl, fun _ => rfl⟩
  · next m =>
    split
    · exact ⟨rfl, rfl, fun _ => rfl⟩
    · next k _ =>
      split
      · exact ⟨rfl, rfl, fun _ => rfl⟩
      · next ica he =>
        cases m with
        | onChannelOpenAckCallback ch x e =>
          refine ⟨rfl, rfl, fun i => ?_⟩
          simp only [heard]
          split
          · next h => subst h; rw [he]; rfl
          · rfl
        | _ => exact ⟨rfl, rfl, fun _ => rfl⟩

/-- What happens at one controller leaves everything alike for another. -/
theorem alike_upd {n : ONet} {a b : String} (hv : SInv api n.s) (hab : a ≠ b) {cw0 cw : World} (hc : n.s.ctrl b = some cw0)
    (f : Far) (m : Option CallbackMsg) : Alike a n (upd n b cw f m) := by
  obtain ⟨t1, t2, t3⟩ := told_state n.s.owner.store b m
  refine ⟨rfl, t1, by simp [upd, setCtrl, hab], by simp [upd, hab], fun x => ?_, t3⟩
  simp only [upd, setCtrl]
  split
  · next e => subst e; simp [hc]
  · rfl

theorem Alike.symm {a : String} {n n1 : ONet} (h : Alike a n n1) : Alike a n1 n :=
  ⟨h.self.symm, h.state.symm, h.ctrl.symm, h.far.symm, fun x => (h.dom x).symm, fun i => (h.entry i).symm⟩

theorem step_sinv {n n' : ONet} {x : ONetOp} {l : List (String × Obs)} (hv : SInv api n.s) (hs : ONetStep api n x n' l) :
    SInv api n'.s := by
  cases hs with
  | host b cw op m hc ho hm => exact hv
  | chain op s' l hp hx => exact sinv_step hv hx

/-- A transaction that concerns one controller finds that controller. -/
theorem local_ctrl {n n' : ONet} {x : ONetOp} {l : List (String × Obs)} {a : String} (hv : SInv api n.s)
    (hs : ONetStep api n x n' l) (hl : Local a (x, l)) : ∃ cw, n.s.ctrl a = some cw := by
  cases hs with
  | host b cw op m hc ho hm => obtain rfl : b = a := hl; exact ⟨cw, hc⟩
  | chain op s' l hp hx =>
    cases op with
    | ctrl b op =>
      obtain rfl : b = a := hl
      obtain ⟨cw, _, _, h1, _⟩ := applyS_ctrl hx
      exact ⟨cw, h1⟩
    | owner sender bytes fresh core =>
      obtain ⟨p, rfl⟩ := hl
      rcases owner_step hv hx with ⟨st, b, o, salt, o', ms, cwb, hdec, h1, h2, h3, e1, e2, hna, ht, hca, hlt, hcr, hid, hic, hn, hcb, rfl, e⟩ |
        ⟨st, b, i, s, dst, cwb, cw', obs', hdec, h1, h2, h3, hcw, hcb, rfl, e⟩
      · simp at e
      · cases obs' with
        | nil => cases e
        | cons o t => simp at e; exact ⟨cwb, e.1.1 ▸ hcw⟩
    | block _ _ => exact hl.elim
    | upload _ _ => exact hl.elim
    | elsewhere _ => exact hl.elim
    | deploy _ _ => exact hl.elim

theorem upd_comm {n : ONet} {a b : String} (hv : SInv api n.s) (hab : a ≠ b) {ca cb : World} (ha : n.s.ctrl a = some ca)
    (hb : n.s.ctrl b = some cb) (cwa cwb : World) (fa fb : Far) (ma mb : Option CallbackMsg) :
    upd (upd n a cwa fa ma) b cwb fb mb = upd (upd n b cwb fb mb) a cwa fa ma := by
  obtain ⟨_, _, na, sa, a1, a2, _⟩ := hv.each a ca ha
  obtain ⟨_, _, nb, sb, b1, b2, _⟩ := hv.each b cb hb
  have hne : na ≠ nb := by
    rintro rfl
    rw [a2] at b2
    cases b2
    exact hab rfl
  have e1 : setCtrl (setCtrl n.s.ctrl a cwa) b cwb = setCtrl (setCtrl n.s.ctrl b cwb) a cwa := by
    funext x
    unfold setCtrl
    by_cases h1 : x = a
    · subst h1; simp [hab]
    · simp [h1]
  have e2 : (fun x => if x = b then fb else if x = a then fa else n.far x) =
      fun x => if x = a then fa else if x = b then fb else n.far x := by
    funext x
    by_cases h1 : x = a
    · subst h1; simp [hab]
    · simp [h1]
  have e3 : told (told n.s.owner.store a ma) b mb = told (told n.s.owner.store b mb) a ma := by
    cases ma with
    | none => rfl
    | some ma =>
      cases mb with
      | none => rfl
      | some mb =>
        cases ma <;> cases mb <;> simp only [told, heard, a1, a2, b1, b2, hne, Ne.symm hne, if_false]
        congr 1
        funext i
        by_cases h1 : i = na
        · subst h1; simp [hne]
        · simp [h1]
  unfold upd
  dsimp only
  rw [e1, e2, e3]

/-- Transactions at different controllers commute. -/
theorem local_comm {n n1 n2 : ONet} {x y : ONetOp × List (String × Obs)} {a b : String} (hv : SInv api n.s) (hab : a ≠ b)
    (hx : Local a x) (hy : Local b y) (h1 : ONetStep api n x.1 n1 x.2) (h2 : ONetStep api n1 y.1 n2 y.2) :
    ∃ n1', ONetStep api n y.1 n1' y.2 ∧ ONetStep api n1' x.1 n2 x.2 := by
  obtain ⟨cwa, fa, ma, rfl, k1⟩ := local_step hv h1 hx
  obtain ⟨ca, hca⟩ := local_ctrl hv h1 hx
  have hv1 := step_sinv hv h1
  obtain ⟨cwb, fb, mb, rfl, k2⟩ := local_step hv1 h2 hy
  have al := alike_upd (api := api) (cw := cwa) hv (Ne.symm hab) hca fa ma
  have h3 := k2 n hv al.symm
  obtain ⟨cb, hcb⟩ := local_ctrl hv h3 hy
  have h4 := k1 _ (step_sinv hv h3) (alike_upd hv hab hcb fb mb)
  rw [upd_comm hv hab hca hcb]
  exact ⟨_, h3, h4⟩

end Ica.System
