import Verif.Facts.Isolation
import Verif.Props.OwnerNet

/-!
# Controllers side by side: C119
-/
namespace Ica.System
open Owner Spec

variable {api : Api} {n0 n n1 n2 n' : ONet} {H : List (ONetOp × List (String × Obs))}

theorem oexec_nil {n n' : ONet} (h : ONetExec api n [] n') : n' = n := by
  generalize e : ([] : List (ONetOp × List (String × Obs))) = l at h
  cases h with
  | nil => rfl
  | step a b => simp at e

theorem ocons_exec {x : ONetOp × List (String × Obs)} {l : List (ONetOp × List (String × Obs))}
    (h1 : ONetStep api n x.1 n1 x.2) (h2 : ONetExec api n1 l n') : ONetExec api n (x :: l) n' := by
  induction h2 with
  | nil => exact .step (h := []) .nil h1
  | step a b ih => exact .step (h := x :: _) ih b

theorem oexec_cons {x : ONetOp × List (String × Obs)} {l : List (ONetOp × List (String × Obs))}
    (h : ONetExec api n (x :: l) n') : ∃ n1, ONetStep api n x.1 n1 x.2 ∧ ONetExec api n1 l n' := by
  generalize e : x :: l = k at h
  induction h generalizing l with
  | nil => cases e
  | step a b ih =>
    rename_i h m m' op o
    cases h with
    | nil =>
      simp only [List.nil_append, List.cons.injEq] at e
      obtain ⟨rfl, rfl⟩ := e
      cases oexec_nil a
      exact ⟨_, b, .nil⟩
    | cons y t =>
      simp only [List.cons_append, List.cons.injEq] at e
      obtain ⟨rfl, rfl⟩ := e
      obtain ⟨n1, k1, k2⟩ := ih rfl
      exact ⟨n1, k1, .step k2 b⟩

theorem touches_local {a c : String} {x : ONetOp × List (String × Obs)} (h : Local a x) :
    touches c x = decide (a = c) := by
  obtain ⟨x, l⟩ := x
  cases x with
  | host b o => cases h; rfl
  | chain op =>
    cases op with
    | ctrl b o => cases h; rfl
    | owner s b f c => obtain ⟨p, rfl⟩ := h; rfl
    | _ => exact h.elim

/-- A transaction concerns all controllers, or one. -/
theorem all_or_one (x : ONetOp × List (String × Obs)) : (∀ c, touches c x = true) ∨ ∃ a, Local a x := by
  obtain ⟨x, l⟩ := x
  cases x with
  | host b o => exact .inr ⟨b, rfl⟩
  | chain op =>
    cases op with
    | ctrl b o => exact .inr ⟨b, rfl⟩
    | owner s b f c =>
      by_cases h : ∃ a p, l = [(a, .packetSent p)]
      · obtain ⟨a, p, rfl⟩ := h
        exact .inr ⟨a, p, rfl⟩
      · refine .inl fun c => ?_
        simp only [touches]
        split
        · exact absurd ⟨_, _, rfl⟩ h
        · rfl
    | _ => exact .inl fun _ => rfl

theorem touches_some (x : ONetOp × List (String × Obs)) : ∃ a, touches a x = true := by
  rcases all_or_one x with h | ⟨a, h⟩
  · exact ⟨"", h _⟩
  · exact ⟨a, by rw [touches_local h]; simp⟩

theorem other_local {a : String} {x : ONetOp × List (String × Obs)} (h : touches a x = false) :
    ∃ b, b ≠ a ∧ Local b x := by
  rcases all_or_one x with k | ⟨b, k⟩
  · rw [k] at h; cases h
  · rw [touches_local k] at h
    exact ⟨b, by simpa using h, k⟩

/-- Bring a transaction to the front of those that do not concern its controller. -/
theorem to_front {a : String} {y : ONetOp × List (String × Obs)} (hy : Local a y)
    {l1 l2 : List (ONetOp × List (String × Obs))} (hv : SInv api n.s) (h1 : ∀ z ∈ l1, touches a z = false)
    (he : ONetExec api n (l1 ++ y :: l2) n') : ONetExec api n (y :: (l1 ++ l2)) n' := by
  induction l1 generalizing n with
  | nil => exact he
  | cons z l1 ih =>
    obtain ⟨m, k1, k2⟩ := oexec_cons he
    obtain ⟨m2, k3, k4⟩ := oexec_cons (ih (step_sinv hv k1) (fun z hz => h1 z (List.mem_cons_of_mem _ hz)) k2)
    obtain ⟨b, hb, hz⟩ := other_local (h1 z (List.mem_cons_self ..))
    obtain ⟨m', k5, k6⟩ := local_comm hv hb hz hy k1 k3
    exact ocons_exec k5 (ocons_exec k6 k4)

theorem interleave (l' : List (ONetOp × List (String × Obs))) : ∀ (n : ONet) (l : List (ONetOp × List (String × Obs))),
    SInv api n.s → ONetExec api n l n' → Interleaved l l' → ONetExec api n l' n' := by
  induction l' with
  | nil =>
    intro n l _ he hi
    cases l with
    | nil => exact he
    | cons x l =>
      obtain ⟨a, ha⟩ := touches_some x
      have := hi a
      simp [ha] at this
  | cons y t ih =>
    intro n l hv he hi
    obtain ⟨a, ha⟩ := touches_some y
    have hf := hi a
    rw [List.filter_cons, if_pos ha] at hf
    obtain ⟨l1, l2, rfl, h1, -, h3⟩ := List.filter_eq_cons_iff.1 hf.symm
    have h1 : ∀ z ∈ l1, touches a z = false := fun z hz => by simpa using h1 z hz
    have key : ONetExec api n (y :: (l1 ++ l2)) n' ∧ Interleaved (l1 ++ l2) t := by
      rcases all_or_one y with k | ⟨b, k⟩
      · have : l1 = [] := by
          cases l1 with
          | nil => rfl
          | cons z l1 =>
            obtain ⟨c, hc⟩ := touches_some z
            have e := hi c
            rw [List.filter_cons, if_pos (k c), List.cons_append, List.filter_cons, if_pos hc] at e
            have := h1 z (List.mem_cons_self ..)
            rw [← (List.cons.inj e).1, ha] at this
            cases this
        subst this
        refine ⟨he, fun c => ?_⟩
        have e := hi c
        rw [List.filter_cons, if_pos (k c), List.nil_append, List.filter_cons, if_pos (k c)] at e
        exact (List.cons.inj e).2
      · rw [touches_local k] at ha
        obtain rfl : b = a := by simpa using ha
        refine ⟨to_front k hv h1 he, fun c => ?_⟩
        have e := hi c
        rw [List.filter_append, List.filter_cons, List.filter_cons, touches_local k] at e
        rw [List.filter_append]
        by_cases hbc : b = c
        · subst hbc
          have h0 : l1.filter (touches b) = [] := List.filter_eq_nil_iff.2 fun z hz => by simp [h1 z hz]
          rw [h0] at e ⊢
          simpa using e
        · simpa [hbc] using e
    obtain ⟨m, k1, k2⟩ := oexec_cons key.1
    exact ocons_exec k1 (ih m _ (step_sinv hv k1) k2 key.2)

/-- It shows nothing at other controllers. -/
theorem local_obs {x : ONetOp} {l : List (String × Obs)} {a b : String} (hs : ONetStep api n x n' l) (hl : Local b (x, l))
    (hab : a ≠ b) : obsOf a l = [] := by
  cases hs with
  | host => rfl
  | chain op s' l hp hx =>
    cases op with
    | ctrl b' o' =>
      obtain ⟨_, _, obs, _, _, _, rfl, _⟩ := applyS_ctrl hx
      cases hl
      exact obsOf_ne hab obs
    | owner => obtain ⟨p, rfl⟩ := hl; exact obsOf_ne hab [_]
    | _ => exact hl.elim

/-- **C119.** Controllers of one owner contract do not disturb each other. Take any history of the owner contract, its
controllers and their hosts, and interleave it differently: for every controller the transactions that concern it stay in
their order (blocks and creations concern all). Then every transaction is accepted as before and shows the same, and the end
is the same: all controllers, all hosts, the registry. -/
theorem C119_any_interleaving (h0 : n0.Initial) (h : ONetExec api n0 H n)
    {l l' : List (ONetOp × List (String × Obs))} (he : ONetExec api n l n') (hi : Interleaved l l') :
    ONetExec api n l' n' :=
  interleave l' n l (sinv_of_reachable (oninv_exec h0 h).sys) he hi

/-- **C119.** A transaction that does not concern a controller leaves it as it is, and its hosts, and what the registry says of
it; and it does not show anything at it. -/
theorem C119_untouched (h0 : n0.Initial) (h : ONetExec api n0 H n) {x : ONetOp} {l : List (String × Obs)}
    (hs : ONetStep api n x n' l) {a : String} (ht : touches a (x, l) = false) :
    n'.s.ctrl a = n.s.ctrl a ∧ n'.far a = n.far a ∧ obsOf a l = [] ∧
      ∀ i s, Listed n'.s i a s ↔ Listed n.s i a s := by
  have hv := sinv_of_reachable (oninv_exec h0 h).sys
  obtain ⟨b, hb, hl⟩ := other_local ht
  obtain ⟨cw, hc⟩ := local_ctrl hv hs hl
  have ho := local_obs hs hl (Ne.symm hb)
  obtain ⟨cw', f', m, rfl, -⟩ := local_step hv hs hl
  refine ⟨by simp [upd, setCtrl, Ne.symm hb], by simp [upd, Ne.symm hb], ho, fun i s => ?_⟩
  unfold Listed upd
  dsimp only
  obtain ⟨_, _, k, sk, a1, a2, _⟩ := hv.each b cw hc
  cases m with
  | none => rfl
  | some m =>
    simp only [told, a1, a2]
    cases m with
    | onChannelOpenAckCallback ch x e =>
      simp only [heard]
      split
      · next e =>
        subst e
        rw [a2]
        constructor
        · intro h; cases h; exact absurd rfl hb
        · intro h; cases h; exact absurd rfl hb
      · rfl
    | _ => rfl

theorem interleaved_swap {x y z : ONetOp × List (String × Obs)} (h : ∀ c, touches c x = false ∨ touches c y = false) :
    Interleaved [x, y, z] [y, x, z] := by
  intro c
  rcases h c with h | h <;> simp [List.filter_cons, h]

end Ica.System

namespace Ica
open Spec Owner System

namespace Ex

/-- An address codec that keeps the end of what it is given. -/
def addrApi2 : Helpers.AddrApi := { addrApi with sha256 := fun b => b.reverse.take 24 }

/-- The chain before the owner contract is deployed. -/
def two0 : ONet :=
  ⟨SWorld.genesis "wasm1owner" 100 1700000000000000000 addrApi2
    (fun n => if n = 7 then some (List.replicate 32 1) else none) (fun _ => false) 7,
    fun _ => ⟨fun _ => host0, [], [], []⟩⟩

theorem two_initial : two0.Initial :=
  ⟨⟨_, _, _, _, _, _, _, rfl⟩, fun _ => ⟨fun _ => rfl, fun _ _ => rfl, rfl, rfl, rfl⟩⟩

/-- A second controller. -/
def mkReq2 : Bytes := jsonToBytes (createJson (some "pepper") Ex.opts)

theorem spellsMk2 : Spells Api.OwnerCall mkReq2 (.createIcaContract (some "pepper") Ex.opts) :=
  own_decodes.mp (by rw [mkReq2, jsonOfBytes_toBytes, Option.bind_some, decode_create])

theorem both : (((applyS Ex.api two0.s (.deploy "boss" none)).bind fun r =>
    applyS Ex.api r.1 (.owner "boss" mkReq "channel-0" true)).bind fun r =>
    applyS Ex.api r.1 (.owner "boss" mkReq2 "channel-1" true)).isSome = true := by decide +kernel

/-- The owner contract has created two controllers, and the host of the first has taken up its proposal. -/
theorem two : ∃ H n a b cwa cwb, ONetExec Ex.api two0 H n ∧ a ≠ b ∧ Controller n.s a cwa ∧ Controller n.s b cwb ∧
    cwa.chans "channel-0" = some ⟨proposalChannel a "channel-0" Ex.opts, .init⟩ ∧ 
    (∀ conn, (n.far a).hosts conn = host0) ∧ (∀ conn, (n.far b).hosts conn = host0) := by
  obtain ⟨⟨w3, o3⟩, h⟩ := Option.isSome_iff_exists.1 both
  obtain ⟨⟨w2, o2⟩, h, h3⟩ := Option.bind_eq_some_iff.1 h
  obtain ⟨⟨w1, o1⟩, h1, h2⟩ := Option.bind_eq_some_iff.1 h
  obtain ⟨n1, s1, rfl, -, f1⟩ := chainMoves (n := two0) (fun _ _ _ h => by cases h) h1
  have r1 := (oninv_exec two_initial (ONetExec.nil.step s1)).sys
  obtain ⟨n2, s2, rfl, f2, g2⟩ := chainMoves (n := n1) (fun _ _ _ h => by cases h) h2
  have r2 := (oninv_exec two_initial ((ONetExec.nil.step s1).step s2)).sys
  obtain ⟨n3, s3, rfl, f3, -⟩ := chainMoves (n := n2) (fun _ _ _ h => by cases h) h3
  obtain ⟨a, i, cw, _, _, _, k1, k2, k3, _, k4, _, k5, _⟩ := C76_create_effect r1 spellsMk h2
  obtain ⟨b, j, cw', _, l0, _, l1, l2, l3, _, l4, e3, l5, _⟩ := C76_create_effect r2 spellsMk2 h3
  have hab : a ≠ b := by
    rintro rfl
    obtain ⟨hid, _⟩ := (sinv_of_reachable r2).addrOf k1
    obtain ⟨c, c1, c2⟩ := ((sinv_of_reachable r2).owner.ids _ _).mp hid
    have := ((sinv_of_reachable r2).owner.each c (List.mem_of_getElem? c1)).1
    rw [c2] at this
    exact absurd (l0.symm.trans this) (by simp)
  have hn : ∀ x, n1.s.ctrl x = none := by
    simp only [applyS] at h1
    obtain ⟨⟨o', ms⟩, _, e⟩ := Option.map_eq_some_iff.mp h1
    intro x
    rw [← (Prod.mk.inj e).1]
    rfl
  have hca : Controller n3.s a cw := (l5 a hab).trans k2
  refine ⟨_, n3, a, b, cw, cw', ((ONetExec.nil.step s1).step s2).step s3, hab, hca, l2, k3, fun conn => ?_, fun conn => ?_⟩
  · rw [f3 a cw hca, Far.moved, f2 a cw k2, Far.moved, f1 a (hn a)]
    rfl
  · rw [f3 b cw' l2, Far.moved, g2 b ((k5 b (Ne.symm hab)).trans (hn b)), f1 b (hn b)]
    rfl

end Ex

/-- Two controllers: the host of the first takes up its proposal, the host of the second makes a block, the first controller
completes its handshake (and the owner contract hears of it). Interleaved differently, the block comes first. -/
example : ∃ H n l l' n', ONetExec Ex.api Ex.two0 H n ∧ ONetExec Ex.api n l n' ∧ Interleaved l l' ∧ l' ≠ l ∧ l.length = 3 ∧
    ∃ x ∈ l, ∃ a b, touches a x = false ∧ touches b x = true := by
  obtain ⟨H, n, a, b, cw, cwb, he, hab, h2, hb, h4, h9, hb9⟩ := Ex.two
  have hi := oninv_exec Ex.two_initial he
  obtain ⟨env, m0, h, k1, k2, -⟩ := hi.each a cw h2
  have hp := (ninv_exec k1 k2).waiting "channel-0" _ h4 rfl
  obtain ⟨n1, s3, e1, e2⟩ := Ex.hostMoves h2
    (op := .hostOpenTry "connection-0" "channel-5" (proposalChannel a "channel-0" Ex.opts) Ex.ver "cosmos1ica")
    (fun o h => by cases h) (.hostOpenTry "connection-0" "channel-5" _ Ex.ver "cosmos1ica" hp rfl rfl
      (by simp only [Far.net, h9]; rfl) (by simp only [Far.net, h9]; exact proposalVersion_json Ex.opts)
      (by simp only [Far.net, h9]; exact Ex.verJson) (by decide) (.inl (by simp only [Far.net, h9]; rfl)))
  have hb1 : Controller n1.s b cwb := by rw [e1]; exact hb
  have hb8 : ∀ conn, (n1.far b).hosts conn = Ex.host0 := by
    rw [(C119_untouched Ex.two_initial he s3 (a := b) (by simp [touches, hab])).2.1]
    exact hb9
  obtain ⟨n2, s4, e3, e4⟩ : ∃ n2, ONetStep Ex.api n1 (.host b (.hostBlock "connection-3" Ex.host0.height Ex.host0.time)) n2 [] ∧
      n2.s = n1.s ∧ n2.far a = n1.far a :=
    ⟨_, .host b cwb _ _ hb1 (fun o h => by cases h) (.hostBlock "connection-3" _ _
      (by simp only [Far.net, hb8]; exact UInt64.le_refl _) (by simp only [Far.net, hb8]; exact UInt64.le_refl _)),
      rfl, if_neg hab⟩
  obtain ⟨j, hj, hm⟩ := C69_metadata.mp Ex.verParse
  obtain ⟨w', obs, id, ch', cw', q1, -⟩ :=
    C76_handshake hi.sys h2 (cpId := "channel-5") h4 hj hm (metaOk_iff.mp Ex.metaOk) Ex.metaNe
  rw [← e1, ← e3] at q1
  obtain ⟨n3, s5, -⟩ := Ex.chainMoves (n := n2) (op := .ctrl a (.relayOpenAck "channel-0" "channel-5" Ex.ver))
    (fun c o cw2 h hc => by
      simp only [SOp.ctrl.injEq] at h
      obtain ⟨rfl, rfl⟩ := h
      obtain rfl : cw = cw2 := Option.some.inj (h2.symm.trans (e1 ▸ e3 ▸ hc))
      refine ⟨_, ⟨(proposalChannel a "channel-0" Ex.opts).endpoint, .ordered, Ex.ver, .tryOpen, 1, fun _ => none⟩, h4, ?_, rfl, rfl, rfl⟩
      rw [e4, e2]
      simp [farOf, Far.net, setHost, HostSide.setChan, proposalChannel, Ex.opts]) q1
  refine ⟨H, n, _, _, _, he, ocons_exec (x := (_, _)) s3 (ocons_exec (x := (_, _)) s4 (ocons_exec (x := (_, _)) s5 .nil)),
    interleaved_swap fun c => ?_, by simp, rfl, _, List.mem_cons_self .., b, a, by simp [touches, hab], by simp [touches]⟩
  by_cases hc : a = c
  · subst hc
    exact .inr (by simp [touches, Ne.symm hab])
  · exact .inl (by simp [touches, hc])

end Ica
