import Verif.Spec.OwnerUse
import Verif.Props.OwnerNet
import Verif.Props.Use

/-!
# Properties: the admin's actions can be carried out (C102)
-/
namespace Ica
open Spec Owner System

section
variable {api : Api} {n0 n : ONet} {H : List (ONetOp × List (String × Obs))}

/-- Histories, one after the other. -/
theorem onetExec_append {n1 n2 n3 : ONet} {l l' : List (ONetOp × List (String × Obs))} (h1 : ONetExec api n1 l n2)
    (h2 : ONetExec api n2 l' n3) : ONetExec api n1 (l ++ l') n3 := by
  induction h2 with
  | nil => rw [List.append_nil]; exact h1
  | step _ hs ih => rw [← List.append_assoc]; exact .step ih hs

/-- The request the controller makes of an action. -/
theorem predefined_fine {m : Net} {ch : IbcChannel} {a dst : String} (h1 : m.w.env.time.toNat + 600 * 1000000000 < 2 ^ 64)
    (h2 : (m.hosts ch.connectionId).time.toNat < m.w.env.time.toNat + 600 * 1000000000) :
    Request.Fine ⟨[predefined dst], [], none, none⟩ m ch a where
  messages := by
    intro x hx
    rw [List.mem_singleton.1 hx]
    exact .inr ⟨_, rfl⟩
  queries := fun _ h => by cases h
  signed := fun _ _ h => by simp [predefined] at h
  fits := h1
  later := h2

/-- A transaction on the chain. -/
theorem chain_moves {op : SOp} {s' : SWorld} {l : List (String × Obs)}
    (hp : ∀ a o cw, op = .ctrl a o → Controller n.s a cw → Proven ((n.far a).net cw) o)
    (hx : applyS api n.s op = some (s', l)) : ∃ n', ONetStep api n (.chain op) n' l ∧ n'.s = s' ∧
      (∀ a cw, Controller s' a cw → n'.far a = (n.far a).moved cw (obsOf a l)) ∧
      ∀ a, obsOf a l = [] → n'.far a = n.far a := by
  refine ⟨_, .chain op s' l hp hx, rfl, fun a cw h => ?_, fun a h => ?_⟩
  · dsimp only
    rw [show s'.ctrl a = some cw from h]
  · dsimp only
    rw [h]
    cases s'.ctrl a with
    | none => rfl
    | some cw => exact moved_nil _ _

/-- A host acts. -/
theorem host_moves {a : String} {cw : World} (hc : Controller n.s a cw) {op : NetOp} (ho : ∀ o, op ≠ .ctrl o)
    {m : Net} (h : NetStep api ((n.far a).net cw) op m []) : ∃ n', ONetStep api n (.host a op) n' [] ∧ n'.s = n.s ∧
      n'.far a = farOf m ∧ ∀ b, b ≠ a → n'.far b = n.far b :=
  ⟨_, .host a cw op m hc ho h, rfl, if_pos rfl, fun b hb => if_neg hb⟩

theorem System.Errand.Fine.mono {x : Errand} {j k : Nat} (h : x.Fine n k) (hj : j ≤ k) : x.Fine n j := by
  obtain ⟨cw, h1, h2, h3, h4⟩ := h.works
  exact ⟨h.text, h.listed, ⟨cw, h1, h2, h3, by omega⟩, h.later⟩

/-- Actions on the same controller are about the same channel and account. -/
theorem same_controller (hr : SReachable api n.s) {x y : Errand} {j k : Nat} (hx : x.Fine n j) (hy : y.Fine n k)
    (h : y.controller = x.controller) : y.id = x.id ∧ y.channel = x.channel ∧ y.account = x.account := by
  obtain ⟨cw, h1, h2, -⟩ := hx.works
  obtain ⟨cw', g1, g2, -⟩ := hy.works
  rw [h] at g1
  obtain rfl : cw = cw' := Option.some.inj (h1.symm.trans g1)
  obtain ⟨sx, lx⟩ := hx.listed
  obtain ⟨sy, ly⟩ := hy.listed
  rw [h] at ly
  obtain ⟨m, -, hm⟩ := C72_everyone_listed hr h1
  have e : x.channel = y.channel := by
    have := h2.1.symm.trans (show Reports cw y.channel .opened from g2.1)
    simpa using this
  have e2 := h2.2.2.1.symm.trans (show icaOf cw = _ from g2.2.2.1)
  exact ⟨(hm _ _ ly).trans (hm _ _ lx).symm, e.symm, by simpa using (congrArg (Option.map (·.icaAddress)) e2).symm⟩

/-- One action there and back, with everything the next one needs. -/
theorem act_once (h0 : n0.Initial) (he : ONetExec api n0 H n) {admin : String} (ha : adminOf n.s = some admin)
    (hns : n.s.ctrl admin = none) (ht : n.s.owner.time.toNat + 600 * 1000000000 < 2 ^ 64) {x : Errand} {k : Nat}
    (hx : x.Fine n (k + 1)) :
    ∃ p n1 url value, ONetStep api n (.chain (.owner admin x.bytes "" true)) n1 [(x.controller, .packetSent p)] ∧
      readHostMsg url value = some (.send x.account x.dst [("stake", 100)]) ∧
      ∀ outcome ack relayer,
        outcome.Fits ((n.far x.controller).hosts x.channel.connectionId).height [(url, value)] → AckSays ack outcome →
        ∃ n2 n3 obs,
          ONetStep api n1 (.host x.controller (.hostReceive x.channel.connectionId
            x.channel.counterpartyEndpoint.channelId p outcome ack)) n2 [] ∧
          ONetStep api n2 (.chain (.ctrl x.controller (.relayAck x.channel.endpoint.channelId p.sequence ack relayer))) n3
            (obs.map (x.controller, ·)) ∧
          (n3.far x.controller).log = (n.far x.controller).log ++ outcome.logged (fun rs =>
            ⟨x.channel.connectionId, x.channel.counterpartyEndpoint.channelId, p,
              ((n.far x.controller).hosts x.channel.connectionId).height, x.account, [(url, value)], rs⟩) ∧
          ToldOutcome obs n.s.owner.self p relayer outcome ∧
          x.Fine n3 k ∧ adminOf n3.s = some admin ∧ n3.s.ctrl admin = none ∧ n3.s.owner.time = n.s.owner.time ∧
          n3.s.owner.self = n.s.owner.self ∧
          (∀ y : Errand, y.controller ≠ x.controller → ∀ j, y.Fine n j → y.Fine n3 j) ∧
          (∀ b, b ≠ x.controller → (n3.far b).log = (n.far b).log) := by
  obtain ⟨cw, hc, hw, hidle, hq⟩ := hx.works
  obtain ⟨s, hl⟩ := hx.listed
  have hi := oninv_exec h0 he
  have hv := sinv_of_reachable hi.sys
  obtain ⟨env, m0, hh, k1, k2, -⟩ := hi.each _ cw hc
  obtain ⟨hg, henv, -⟩ := hv.each _ cw hc
  have htime : cw.env.time = n.s.owner.time := by rw [henv]
  have hne : admin ≠ x.controller := fun e => by
    rw [e, show n.s.ctrl x.controller = some cw from hc] at hns
    cases hns
  obtain ⟨p, m1, ms, s1, s2, s3⟩ := use_once k1 k2 (owner := n.s.owner.self) (by simp [Far.net, ownerOf, hg.own]) hw hidle
    (show cw.nextSeq _ < _ by omega) (predefined_fine (dst := x.dst) (by rw [show ((n.far x.controller).net cw).w = cw from rfl, htime]; exact ht)
      (by rw [show ((n.far x.controller).net cw).w = cw from rfl, htime]; exact hx.later))
  obtain ⟨url, value, rfl, hread⟩ : ∃ url value, ms = [(url, value)] ∧
      readHostMsg url value = some (.send x.account x.dst [("stake", 100)]) := by
    obtain ⟨l, last, e1, e2, e3⟩ := s2
    obtain rfl : last = [] := by simpa using e3
    cases e2 with
    | @cons _ y _ _ hy ht =>
      cases ht
      obtain ⟨z, z1, z2⟩ := hy
      exact ⟨y.1, y.2, by simpa using e1, by rw [z2, ← z1]; rfl⟩
  cases s1 with
  | ctrl _ w1 _ _ ha1 =>
  obtain ⟨i, hls⟩ : ∃ i, s = some i := by
    obtain ⟨cw', hc', hr⟩ := C72_registry_follows hi.sys hl
    obtain rfl : cw = cw' := Option.some.inj (hc.symm.trans hc')
    cases s with
    | none => have := hw.2.2.1; rw [show icaOf ((n.far x.controller).net cw).w = none from hr] at this; cases this
    | some i => exact ⟨i, rfl⟩
  subst hls
  obtain ⟨w', obs0, hS⟩ := (C76_action_iff hi.sys hx.text (sender := admin) (fresh := "")).mpr
    ⟨ha, hns, ⟨_, i, cw, x.channel, hl, hc, hw.1, by omega⟩, ht⟩
  obtain ⟨rfl, rfl⟩ : w' = { n.s with ctrl := setCtrl n.s.ctrl x.controller w1 } ∧
      obs0 = [(x.controller, .packetSent p)] := by
    rcases owner_step hv hS with ⟨_, _, _, _, _, _, _, hdec, _⟩ |
      ⟨st, b, m, s, dst, cw1, cw2, obs', hdec, e1, e2, e3, e4, hc2, rfl, rfl⟩
    · have := hdec.symm.trans (own_decodes.mpr hx.text)
      simp at this
    · have := hdec.symm.trans (own_decodes.mpr hx.text)
      obtain ⟨rfl, rfl⟩ : m = x.id ∧ dst = x.dst := by simpa using this
      have hcon := e3.symm.trans hl
      obtain rfl : b = x.controller := by simpa using congrArg (Option.map (·.contractAddr)) hcon
      obtain rfl : cw = cw1 := Option.some.inj (Eq.symm (e4.symm.trans hc))
      obtain ⟨rfl, rfl⟩ := Prod.mk.inj (Option.some.inj (hc2.symm.trans ha1))
      exact ⟨rfl, rfl⟩
  obtain ⟨n1, t1, e1, f1, g1⟩ := chain_moves (n := n) (fun _ _ _ h => by cases h) hS
  have c1 : Controller n1.s x.controller w1 := by rw [e1]; exact if_pos rfl
  have hob : obsOf x.controller [(x.controller, Obs.packetSent p)] = [.packetSent p] := by simp [obsOf]
  have hfar1 := f1 _ w1 (if_pos rfl)
  rw [hob] at hfar1
  refine ⟨p, n1, url, value, t1, hread, fun outcome ack relayer ho hack => ?_⟩
  obtain ⟨m2, m3, obs, u1, u2, u3, u4, u5, u6, u7, u8, u9, u10, u11, u12⟩ := s3 outcome ack relayer ho hack
  rw [moved_net, ← hfar1] at u1
  have hm2 : m2.w = w1 := host_world u1 (fun o h => by cases h)
  obtain ⟨n2, t2, e2, f2, g2⟩ := host_moves c1 (fun o h => by cases h) u1
  have c2 : Controller n2.s x.controller w1 := by rw [e2]; exact c1
  have hn2 : (n2.far x.controller).net w1 = m2 := by rw [f2, ← hm2]; rfl
  rw [← hn2] at u2
  cases u2 with
  | ctrl _ w3 _ hp3 ha3 =>
  have hi2 := oninv_exec h0 ((he.step t1).step t2)
  have hv2 := sinv_of_reachable hi2.sys
  obtain ⟨o', a1, -, a3, a4, a5, a6, a7, nn, s', a8, a9, a10, a11⟩ := ctrl_step hv2 c2 (op := .relayAck x.channel.endpoint.channelId p.sequence ack relayer)
    rfl ha3
  obtain ⟨n3, t3, e3, f3, g3⟩ := chain_moves (n := n2) (fun b o cw' h hcb => by
    simp only [SOp.ctrl.injEq] at h
    obtain ⟨rfl, rfl⟩ := h
    obtain rfl : w1 = cw' := Option.some.inj (c2.symm.trans hcb)
    exact hp3) a1
  have c3 : Controller n3.s x.controller w3 := by rw [e3]; exact if_pos rfl
  have hfar3 := f3 _ w3 (if_pos rfl)
  rw [obsOf_same] at hfar3
  have hn3 : (n3.far x.controller).net w3 = (((n2.far x.controller).net w1).moved
      (.relayAck x.channel.endpoint.channelId p.sequence ack relayer) w3 obs) := by
    rw [moved_net, ← hfar3]
  rw [← hn3] at u3 u5 u6 u7 u8 u9 u10 u11 u12
  have hid : nn = x.id := by
    have h2 : n2.s.owner.store.addrToId x.controller = some x.id := by
      rw [e2, e1]; exact (hv.addrOf hl).1
    exact Option.some.inj (a8.symm.trans h2)
  subst hid
  have own1 : n2.s.owner = n.s.owner := by rw [e2, e1]
  have frame : ∀ b, b ≠ x.controller → n3.s.ctrl b = n.s.ctrl b ∧ n3.far b = n.far b := by
    intro b hb
    refine ⟨?_, ?_⟩
    · rw [e3, e2, e1]; simp [setCtrl, hb]
    · rw [g3 b (obsOf_ne hb _), g2 b hb, g1 b]
      simp [obsOf, Ne.symm hb]
  refine ⟨n2, n3, obs, t2, t3, u3, u4 _ hg.cb, ⟨hx.text, ⟨s', by rw [e3]; exact a9⟩, ⟨w3, c3, u5, u6, ?_⟩, ?_⟩, ?_, ?_, ?_, ?_,
    fun y hy j hf => ?_, fun b hb => by rw [(frame b hb).2]⟩
  · have : w3.nextSeq x.channel.endpoint.channelId = cw.nextSeq x.channel.endpoint.channelId + 1 := u12
    omega
  · have h1 : ((n3.far x.controller).hosts x.channel.connectionId).time =
      ((n.far x.controller).hosts x.channel.connectionId).time := u10
    have h2 : n3.s.owner.time = n.s.owner.time := by rw [e3]; exact a4.trans (by rw [own1])
    rw [h1, h2]
    exact hx.later
  · rw [← ha]
    unfold adminOf
    rw [e3, a7, own1]
  · rw [(frame _ hne).1]; exact hns
  · rw [e3]; exact a4.trans (by rw [own1])
  · rw [e3]; exact a3.trans (by rw [own1])
  · have h2 : n3.s.owner.time = n.s.owner.time := by rw [e3]; exact a4.trans (by rw [own1])
    obtain ⟨sy, hy1⟩ := hf.listed
    obtain ⟨fc, ff⟩ := frame _ hy
    refine ⟨hf.text, ⟨sy, ?_⟩, ?_, by rw [ff, h2]; exact hf.later⟩
    · have hyx : y.id ≠ x.id := fun e => by
        unfold Listed at hy1 hl
        rw [e, hl] at hy1
        have := congrArg (Option.map (·.contractAddr)) hy1
        exact hy (by simpa using this.symm)
      unfold Listed
      rw [e3]
      exact (a11 _ hyx).trans (by rw [own1]; exact hy1)
    · obtain ⟨cy, y1, y2⟩ := hf.works
      exact ⟨cy, fc.trans y1, by rw [ff]; exact y2⟩

/-- **C102.** In any reachable state of the owner contract, its controllers and their hosts: if the account of a controller
works, the admin's call goes through, and whatever the host then makes of the packet (the transfer executed, or an error) is
brought back and told to the owner contract. The transfer is in the host's log exactly if the host executed it, and the next
action can follow. -/
theorem C102_action_answered (h0 : n0.Initial) (he : ONetExec api n0 H n) {admin : String} (ha : adminOf n.s = some admin)
    (hns : n.s.ctrl admin = none) (ht : n.s.owner.time.toNat + 600 * 1000000000 < 2 ^ 64) {x : Errand} {k : Nat}
    (hx : x.Fine n (k + 1)) :
    ∃ p n1 url value, ONetStep api n (.chain (.owner admin x.bytes "" true)) n1 [(x.controller, .packetSent p)] ∧
      readHostMsg url value = some (.send x.account x.dst [("stake", 100)]) ∧
      ∀ outcome ack relayer,
        outcome.Fits ((n.far x.controller).hosts x.channel.connectionId).height [(url, value)] → AckSays ack outcome →
        ∃ n2 n3 obs,
          ONetStep api n1 (.host x.controller (.hostReceive x.channel.connectionId
            x.channel.counterpartyEndpoint.channelId p outcome ack)) n2 [] ∧
          ONetStep api n2 (.chain (.ctrl x.controller (.relayAck x.channel.endpoint.channelId p.sequence ack relayer))) n3
            (obs.map (x.controller, ·)) ∧
          (n3.far x.controller).log = (n.far x.controller).log ++ outcome.logged (fun rs =>
            ⟨x.channel.connectionId, x.channel.counterpartyEndpoint.channelId, p,
              ((n.far x.controller).hosts x.channel.connectionId).height, x.account, [(url, value)], rs⟩) ∧
          ToldOutcome obs n.s.owner.self p relayer outcome ∧ x.Fine n3 k := by
  obtain ⟨p, n1, url, value, h1, h2, h3⟩ := act_once h0 he ha hns ht hx
  refine ⟨p, n1, url, value, h1, h2, fun o ack rel f s => ?_⟩
  obtain ⟨n2, n3, obs, k1, k2, k3, k4, k5, -⟩ := h3 o ack rel f s
  exact ⟨n2, n3, obs, k1, k2, k3, k4, k5⟩

/-- **C102.** Any number of actions, on any of the controllers in any order, can be carried out one after the other: with
only calls of the admin, hosts that receive and relayers that bring acknowledgements, every one of them is executed for the
right account, each once and in order, nothing else is executed for any controller, and the owner contract is told of
each. -/
theorem C102_any_number (h0 : n0.Initial) (he : ONetExec api n0 H n) {admin : String} (ha : adminOf n.s = some admin)
    (hns : n.s.ctrl admin = none) (ht : n.s.owner.time.toNat + 600 * 1000000000 < 2 ^ 64) (xs : List Errand)
    (hx : ∀ x ∈ xs, x.Fine n xs.length) :
    ∃ l n' es, ONetExec api n l n' ∧ (∀ y ∈ l, CarryingOut admin y.1) ∧
      (∀ b, (n'.far b).log = (n.far b).log ++ doneAt b es) ∧
      List.Forall₂ (fun (x : Errand) (e : String × Executed) => e.1 = x.controller ∧ x.DoneBy e.2) xs es ∧
      (∀ e ∈ es, ∃ y ∈ l, ∃ relayer, ToldOutcome (obsOf e.1 y.2) n.s.owner.self e.2.packet relayer (.ok e.2.responses)) := by
  suffices main : ∀ (k : Nat), (∀ x ∈ xs, x.Fine n k) → xs.length ≤ k →
      ∃ l n' es, ONetExec api n l n' ∧ (∀ y ∈ l, CarryingOut admin y.1) ∧
      (∀ b, (n'.far b).log = (n.far b).log ++ doneAt b es) ∧
      List.Forall₂ (fun (x : Errand) (e : String × Executed) => e.1 = x.controller ∧ x.DoneBy e.2) xs es ∧
      (∀ e ∈ es, ∃ y ∈ l, ∃ relayer, ToldOutcome (obsOf e.1 y.2) n.s.owner.self e.2.packet relayer (.ok e.2.responses)) from
    main _ hx (le_refl _)
  intro k hk hlen
  clear hx
  induction xs generalizing n H k with
  | nil => exact ⟨[], n, [], .nil, fun _ h => (by cases h), fun b => (List.append_nil _).symm, .nil, fun _ h => (by cases h)⟩
  | cons x xs ih =>
    obtain ⟨k, rfl⟩ : ∃ j, k = j + 1 := ⟨k - 1, by simp only [List.length_cons] at hlen; omega⟩
    obtain ⟨p, n1, url, value, s1, s2, s3⟩ := act_once h0 he ha hns ht (hk x (List.mem_cons_self ..))
    obtain ⟨resp, hresp⟩ := responses_exist ((n.far x.controller).hosts x.channel.connectionId).height [(url, value)]
    obtain ⟨n2, n3, obs, k1, k2, k3, k4, k5, k6, k7, k8, k9, k10, k11⟩ := s3 (.ok resp)
      (AckData.jc.toBytes (.result (P.TxMsgData.toBytes ⟨[], resp.map fun a => ⟨a.1, a.2⟩⟩))) "" hresp
      ⟨_, by rw [readAck_eq]; exact JC.ofBytes_toBytes AckData.jc_law _, readTxMsgData_toBytes resp⟩
    obtain ⟨l, n', es, m1, m2, m3, m4, m5⟩ := ih (((he.step s1).step k1).step k2) k6 k7 (by rw [k8]; exact ht) k
      (fun y hy => by
        have f := hk y (List.mem_cons_of_mem _ hy)
        by_cases hxy : y.controller = x.controller
        · obtain ⟨e1, e2, e3⟩ := same_controller (oninv_exec h0 he).sys (hk x (List.mem_cons_self ..)) f hxy
          exact ⟨f.text, by rw [e1, hxy]; exact k5.listed, by rw [hxy, e2, e3]; exact k5.works,
            by rw [hxy, e2]; exact k5.later⟩
        · exact (k10 y hxy _ f).mono (Nat.le_succ k)) (by simp only [List.length_cons] at hlen; omega)
    refine ⟨_, n', (x.controller, ⟨x.channel.connectionId, x.channel.counterpartyEndpoint.channelId, p,
        ((n.far x.controller).hosts x.channel.connectionId).height, x.account, [(url, value)], resp⟩) :: es,
      onetExec_append (((ONetExec.nil.step s1).step k1).step k2) m1, ?_, ?_, .cons ⟨rfl, rfl, rfl, url, value, rfl, s2⟩ m4, ?_⟩
    · intro y hy
      simp only [List.nil_append, List.mem_append, List.mem_singleton] at hy
      rcases hy with ((rfl | rfl) | rfl) | hy
      · rfl
      · trivial
      · trivial
      · exact m2 y hy
    · intro b
      rw [m3 b]
      by_cases hb : b = x.controller
      · subst hb
        rw [k3, List.append_assoc]
        simp [doneAt, Outcome.logged]
      · rw [k11 b hb]
        simp [doneAt, Ne.symm hb]
    · intro e he'
      rcases List.mem_cons.1 he' with rfl | he'
      · exact ⟨_, List.mem_append_left _ (List.mem_append_right _ (List.mem_singleton.2 rfl)), "", by
          dsimp only; rw [obsOf_same]; exact k4⟩
      · obtain ⟨y, y1, rel, y2⟩ := m5 e he'
        exact ⟨y, List.mem_append_right _ y1, rel, by rw [← k9]; exact y2⟩

end

/-- In the scenario of the owner contract, with the channel open at both ends, every hypothesis holds; so a thousand actions
can be carried out. -/
example : ∃ H n admin x, ONetExec Ex.api Ex.onet0 H n ∧ adminOf n.s = some admin ∧ n.s.ctrl admin = none ∧
    n.s.owner.time.toNat + 600 * 1000000000 < 2 ^ 64 ∧ Errand.Fine x n 1000 := by
  obtain ⟨H, n, a, cw, ch, id, hc, he, h2, h3, h4, h5, h6, h7, h8, h9, g1, g2, g3, g4, g5, g6, g7, g8⟩ := Ex.onet4
  have hi := oninv_exec Ex.oinitial he
  have hv := inv_of_reachable (((sinv_of_reachable hi.sys).each a cw h2).1.reach)
  have hc0 : ch.endpoint.channelId = "channel-0" := hv.chan_id h5
  obtain ⟨n1, s5, f1, f2⟩ := Ex.hostMoves h2 (op := .hostOpenConfirm "connection-0" "channel-5")
    (fun o h => by cases h) (.hostOpenConfirm "connection-0" "channel-5" hc ⟨ch, .opened⟩ g1 g3
      (by rw [g2, hc0]; exact h5) (fun h => by cases h) (by rw [g6]))
  have he1 := he.step s5
  have hi1 := oninv_exec Ex.oinitial he1
  have c1 : Controller n1.s a cw := by rw [f1]; exact h2
  obtain ⟨env, m0, hh, k1, k2, -⟩ := hi1.each a cw c1
  have hv1 := ninv_exec k1 k2
  have hch1 : ((n1.far a).hosts "connection-0").chans "channel-5" = some { hc with status := .opened } := by
    rw [f2]
    simp [farOf, Far.net, setHost, HostSide.setChan]
  have hconn : ch.connectionId = "connection-0" := by
    obtain ⟨_, c, -, -, q1, -, q2, -⟩ := hv1.host _ _ _ hch1
    dsimp only at q1
    rw [g2, hc0,
      show ((n1.far a).net cw).w.chans "channel-0" = _ from h5] at q1
    obtain rfl := Option.some.inj q1
    exact q2
  obtain ⟨cw', hc', -, ica, ch', st, r1, r2, r3, r4, -⟩ := C72_registry_follows hi.sys h3
  obtain rfl : cw = cw' := Option.some.inj (h2.symm.trans hc')
  obtain ⟨ch2, st2, y1, y2, y3⟩ := C81_reported_account k1 k2 (info := ica) r1
  obtain rfl : ch = ch2 := by
    have := h4.symm.trans (show Reports cw ch2 st2 from y1)
    simpa using (congrArg (Option.map (·.channel)) this)
  have hica : ica = ⟨"cosmos1ica", ch.endpoint.channelId, .protobuf⟩ := by
    obtain ⟨x1, x2, x3⟩ := ica
    dsimp only at r3 r4 y2
    rw [← r3, ← r4, y2]
  subst hica
  refine ⟨_, n1, "boss", ⟨_, id, "cosmos1dst", a, ch, "cosmos1ica"⟩, he1, by rw [f1]; exact h7, by rw [f1]; exact h9,
    by rw [f1, h8]; decide, Ex.spellsAct id, ⟨_, by rw [f1]; exact h3⟩, ⟨cw, c1, ⟨h4, ?_, r1, y3, ?_⟩, fun _ k => ?_, ?_⟩, ?_⟩
  · rw [hc0]; exact h5
  · dsimp only
    rw [g6, hconn]
    exact ⟨_, hch1, g2, rfl⟩
  · cases hcm : ((n1.far a).net cw).w.commits ch.endpoint.channelId k with
    | none => rfl
    | some p =>
      obtain ⟨-, q2, q3, -⟩ := hv1.inv.commits _ _ _ hcm
      obtain ⟨-, -, ⟨qs, q4⟩, -⟩ := (commits_iff hv1.exec _ _ p).1 hcm
      obtain ⟨_, _, _, _, -, -, -, -, -, -, -, q5⟩ := hv1.packets p ((hv1.sentIff p).2 ⟨qs, q4⟩)
      have : cw.nextSeq ch.endpoint.channelId = 1 := h6 _
      rw [show ((n1.far a).net cw).w.nextSeq ch.endpoint.channelId = 1 from this, ← q2] at q3
      omega
  · dsimp only
    rw [h6]; decide
  · dsimp only
    have : ((n1.far a).hosts "connection-0").time = Ex.host0.time := by
      rw [f2, ← g8]
      simp [farOf, Far.net, setHost, HostSide.setChan]
    rw [hconn, this, f1, h8]
    decide +kernel

end Ica
