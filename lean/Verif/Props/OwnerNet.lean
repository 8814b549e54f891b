import Verif.Facts.OwnerNet
import Verif.Props.System

/-!
# The owner contract, its controllers, and the host chains (C89)

From the call of the admin to the transfer on the host chain, with any number of controllers and hosts.
-/
namespace Ica
open Spec Owner System

variable {api : Api} {n0 n : ONet} {H : List (ONetOp × List (String × Obs))} {a : String}

theorem acting {h : List (NetOp × List Obs)} {m0 : Net} {env : Env} {cw : World} (h0 : m0.Initial env)
    (he : NetExec api m0 h ((n.far a).net cw)) {p : IbcPacket} (hp : p ∈ (n.far a).sent) :
    ∃ i, icaOf cw = some i := by
  have hv := ninv_exec h0 he
  obtain ⟨qs, s, ms, memo, t, f, co, hm⟩ := (hv.sentIff p).1 hp
  obtain ⟨l1, l2, e1⟩ := List.append_of_mem hm
  obtain ⟨w1, f1, f2⟩ := hv.exec.split l1 _ e1
  obtain ⟨w2, f3, f4⟩ := f2.split [_] l2 rfl
  obtain ⟨w3, f5, f6⟩ := Exec.concat_inv (h := []) f3
  obtain ⟨info, _, g1, -⟩ := C27_host_reads f6
  exact C15_ica_never_unset ⟨env, _, f1.append f5⟩ ((Exec.step (h := []) .nil f6).append f4) ⟨_, g1⟩

/-- **C89.** Whatever a host executes for a controller of the owner contract, the admin asked for: it is one transfer of
100 stake out of the account, to the address in the admin's call. -/
theorem C89_only_admin (h0 : n0.Initial) (he : ONetExec api n0 H n) {e : Executed} (hx : e ∈ (n.far a).log) :
    ∃ k dst url value, AskedByAdmin api n0 H k a e.packet dst ∧ e.messages = [(url, value)] ∧
      readHostMsg url value = some (.send e.account dst [("stake", 100)]) := by
  have hi := oninv_exec h0 he
  cases hc : n.s.ctrl a with
  | none =>
    rw [(hi.fresh a hc).log] at hx
    cases hx
  | some cw =>
    obtain ⟨env, m0, h, k1, k2, k3⟩ := hi.each a cw hc
    obtain ⟨sender, ms, qs, memo, t, fresh, core, m1, l, last, m2, m3, m4⟩ := C82_only_asked k1 k2 hx
    obtain ⟨k, dst, self, f, co, q1, q2⟩ := k3 _ m1 _ (List.mem_singleton.2 rfl)
    simp only [Op.execute.injEq, ExecuteMsg.sendCosmosMsgs.injEq] at q2
    obtain ⟨-, ⟨rfl, rfl, -, -⟩, -, -⟩ := q2
    obtain rfl : last = [] := by simpa using m4
    cases m3 with
    | @cons _ x _ _ ha hb =>
      cases hb
      obtain ⟨y, y1, y2⟩ := ha
      refine ⟨k, dst, x.1, x.2, q1, m2, ?_⟩
      rw [y2, ← y1]
      rfl

/-- **C89.** The account the transfer leaves is the one the registry shows for the controller. -/
theorem C89_listed_account (h0 : n0.Initial) (he : ONetExec api n0 H n) {e : Executed} (hx : e ∈ (n.far a).log) :
    ∃ id i, Listed n.s id a (some i) ∧ i.icaAddr = e.account ∧
      e.packet.src = i.channelState.channel.endpoint ∧ e.packet.dest = i.channelState.channel.counterpartyEndpoint := by
  have hi := oninv_exec h0 he
  cases hc : n.s.ctrl a with
  | none =>
    rw [(hi.fresh a hc).log] at hx
    cases hx
  | some cw =>
    obtain ⟨env, m0, h, k1, k2, k3⟩ := hi.each a cw hc
    have hv := ninv_exec k1 k2
    obtain ⟨id, ⟨s, hl⟩, -⟩ := C72_everyone_listed hi.sys hc
    obtain ⟨cw', hc', hr⟩ := C72_registry_follows hi.sys hl
    obtain rfl : cw = cw' := Option.some.inj (hc.symm.trans hc')
    obtain ⟨p1, p2, p3, -, hch, ack, p4, p5, -⟩ := hv.logged e hx
    obtain ⟨ica, hica⟩ := acting k1 k2 p1
    cases s with
    | none => rw [show icaOf cw = none from hr] at hica; cases hica
    | some i =>
      obtain ⟨-, ica', ch, st, r1, r2, r3, -, r4⟩ := hr
      obtain rfl : ica = ica' := Option.some.inj (hica.symm.trans r1)
      obtain ⟨ch', st', g1, -, g2⟩ := C81_reported_account k1 k2 (info := ica) hica
      obtain ⟨rfl, -⟩ : ch = ch' ∧ _ := by
        have := r2.symm.trans g1
        simpa using this
      obtain ⟨c, -, -, -, t1, t2, t3, t4, -⟩ := hv.packets _ p1
      obtain ⟨-, c2, u1, u2, -⟩ := hv.inv.tracked _ r2
      obtain ⟨hg, -⟩ := (sinv_of_reachable hi.sys).each a cw hc
      obtain ⟨id0, hone⟩ := hg.one
      have e1 : e.packet.src.channelId = ch.endpoint.channelId := (hone _ _ t1).trans (hone _ _ u1).symm
      have e2 : c.chan = ch := by
        have u1' : ((n.far a).net cw).w.chans e.packet.src.channelId = some c2 := by rw [e1]; exact u1
        rw [t1] at u1'
        rw [Option.some.inj u1']
        exact u2
      obtain ⟨a', c3, v1, -, v3, -, v5, -⟩ := hv.host _ _ _ p4
      rw [p5, t1] at v3
      obtain rfl := Option.some.inj v3
      rw [e2] at v5 t3 t4
      refine ⟨id, i, hl, ?_, by rw [r4]; exact t3, by rw [r4]; exact t4⟩
      rw [r3]
      rw [v5, show (((n.far a).net cw).hosts e.connection).account = some e.account from p3] at g2
      exact (Option.some.inj g2).symm

/-- **C89.** Every executed transfer has a call of its own: no call moves funds twice, so an account loses at most 100
stake for each call of the admin. -/
theorem C89_one_call_each (h0 : n0.Initial) (he : ONetExec api n0 H n) :
    ∃ f : Nat → Nat, (∀ i j, i < (n.far a).log.length → j < (n.far a).log.length → f i = f j → i = j) ∧
      ∀ i e, (n.far a).log[i]? = some e → ∃ dst, AskedByAdmin api n0 H (f i) a e.packet dst := by
  classical
  have hi := oninv_exec h0 he
  have hex : ∀ i : Nat, ∃ k : Nat, ∀ e, (n.far a).log[i]? = some e → ∃ dst, AskedByAdmin api n0 H k a e.packet dst := by
    intro i
    cases hl : (n.far a).log[i]? with
    | none => exact ⟨0, fun e h => (by cases h)⟩
    | some e =>
      obtain ⟨k, dst, -, -, q, -⟩ := C89_only_admin h0 he (List.mem_of_getElem? hl)
      exact ⟨k, fun e' h => (Option.some.inj h) ▸ ⟨dst, q⟩⟩
  choose f hf using hex
  refine ⟨f, fun i j hi' hj' hij => ?_, hf⟩
  have ei : (n.far a).log[i]? = some (n.far a).log[i] := List.getElem?_eq_getElem hi'
  have ej : (n.far a).log[j]? = some (n.far a).log[j] := List.getElem?_eq_getElem hj'
  obtain ⟨_, h1, h2, _, _, _, _, _, _, _, a1, a2, -⟩ := hf i _ ei
  obtain ⟨_, h3, h4, _, _, _, _, _, _, _, b1, b2, -⟩ := hf j _ ej
  have hpk : (n.far a).log[i].packet = (n.far a).log[j].packet := by
    have e1 := congrArg (·[f i]?) a1
    have e2 := congrArg (·[f j]?) b1
    simp only [← a2, ← b2, List.getElem?_append_right (le_refl _), Nat.sub_self, List.getElem?_cons_zero] at e1 e2
    rw [a2, hij, ← b2, e2] at e1
    simp only [Option.some.injEq, Prod.mk.injEq, List.cons.injEq, Obs.packetSent.injEq, and_true, true_and] at e1
    exact e1.2.symm
  cases hc : n.s.ctrl a with
  | none =>
    rw [(hi.fresh a hc).log] at hi'
    cases hi'
  | some cw =>
    obtain ⟨env, m0, h, k1, k2, -⟩ := hi.each a cw hc
    exact C82_at_most_once k1 k2 ei ej hpk

/-- **C89.** Conversely the transfer can be carried out: while the channel is open at the host and the packet is in time,
not yet received and next in order, the host finds it signed by the account and can execute it. -/
theorem C89_can_execute (h0 : n0.Initial) (he : ONetExec api n0 H n) {cw : World} (hc : Controller n.s a cw)
    {conn hid : String} {hch : HostChan} (hh : ((n.far a).hosts conn).chans hid = some hch)
    (hopen : hch.status = .opened) {p : IbcPacket} (hp : p ∈ (n.far a).sent) (hsrc : p.src = hch.controller)
    (hdst : p.dest = ⟨"icahost", hid⟩) (htime : ¬ Elapsed ((n.far a).hosts conn) p.timeout)
    (hnew : hch.acks p.sequence = none) (hord : hch.order = .ordered → p.sequence.toNat = hch.nextRecv) :
    ∃ rs ack n' e, ONetStep api n (.host a (.hostReceive conn hid p (.ok rs) ack)) n' [] ∧ n'.s = n.s ∧
      (n'.far a).log = (n.far a).log ++ [e] ∧ e.packet = p := by
  have hi := oninv_exec h0 he
  obtain ⟨env, m0, h, k1, k2, k3⟩ := hi.each a cw hc
  obtain ⟨rs, ack, n', e, s1, s2, s3, -⟩ := C85_can_execute k1 k2 (conn := conn) (hid := hid) hh hopen hp hsrc hdst htime hnew
    hord (fun ac _ sender ms qs memo t fresh core url value hm hsg => by
      obtain ⟨k, dst, self, f, co, -, q2⟩ := k3 _ hm _ (List.mem_singleton.2 rfl)
      simp only [Op.execute.injEq, ExecuteMsg.sendCosmosMsgs.injEq] at q2
      rw [q2.2.1.1] at hsg
      simp [predefined] at hsg)
  exact ⟨rs, ack, _, e, .host a cw _ n' hc (fun o h => by cases h) s1, rfl, by simp [farOf, s2, Far.net], s3⟩

/-! ## A concrete history -/

namespace Ex

/-- The chain before the owner contract is deployed, with hosts that name their connection `connection-7`. -/
def onet0 : ONet :=
  ⟨SWorld.genesis "wasm1owner" 100 1700000000000000000 Ex.addrApi
    (fun n => if n = 7 then some (List.replicate 32 1) else none) (fun _ => false) 7,
    fun _ => ⟨fun _ => host0, [], [], []⟩⟩

theorem oinitial : onet0.Initial :=
  ⟨⟨_, _, _, _, _, _, _, rfl⟩, fun _ => ⟨fun _ => rfl, fun _ _ => rfl, rfl, rfl, rfl⟩⟩

theorem chainMoves {n : ONet} {op : SOp} {s' : SWorld} {l : List (String × Obs)}
    (hp : ∀ a o cw, op = .ctrl a o → Controller n.s a cw → Proven ((n.far a).net cw) o)
    (hx : applyS Ex.api n.s op = some (s', l)) : ∃ n', ONetStep Ex.api n (.chain op) n' l ∧ n'.s = s' ∧
      (∀ a cw, Controller s' a cw → n'.far a = (n.far a).moved cw (obsOf a l)) ∧ ∀ a, s'.ctrl a = none → n'.far a = n.far a :=
  ⟨_, .chain op s' l hp hx, rfl, fun a cw h => by dsimp only; rw [show s'.ctrl a = some cw from h],
    fun a h => by dsimp only; rw [h]⟩

theorem hostMoves {n : ONet} {a : String} {cw : World} (hc : Controller n.s a cw) {op : NetOp} (ho : ∀ o, op ≠ .ctrl o)
    {m : Net} (h : NetStep Ex.api ((n.far a).net cw) op m []) : ∃ n', ONetStep Ex.api n (.host a op) n' [] ∧ n'.s = n.s ∧
      n'.far a = farOf m :=
  ⟨_, .host a cw op m hc ho h, rfl, if_pos rfl⟩

/-- The owner contract is deployed and has created a controller, which has proposed its channel. -/
theorem onet2 : ∃ H n a cw, ONetExec Ex.api onet0 H n ∧ Controller n.s a cw ∧
    cw.chans "channel-0" = some ⟨proposalChannel a "channel-0" Ex.opts, .init⟩ ∧ (∀ id, cw.nextSeq id = 1) ∧
    adminOf n.s = some "boss" ∧ n.s.owner.time = 1700000000000000000 ∧ n.s.ctrl "boss" = none ∧
    (∀ conn, (n.far a).hosts conn = host0) := by
  obtain ⟨w, obs, hx⟩ := create
  obtain ⟨a, n, cw, ⟨st, k, cr, b, h1, h2, h3, h4, h5⟩, _, _, k1, k2, k3, _, k4, _, k5, k6, k7, _⟩ :=
    C76_create_effect rsys0 spellsMk hx
  have hab : a ≠ "boss" := by
    obtain rfl := Option.some.inj h1
    obtain rfl := Option.some.inj h2
    obtain rfl := Option.some.inj h3
    obtain rfl := Option.some.inj h4
    obtain rfl := Option.some.inj h5
    decide +kernel
  obtain ⟨n1, s1, e1, -, f1⟩ := chainMoves (n := onet0) (op := .deploy "boss" none) (s' := sys0) (l := [])
    (fun _ _ _ h => by cases h) rfl
  obtain ⟨n2, s2, rfl, f2, -⟩ := chainMoves (n := n1) (op := .owner "boss" mkReq "channel-0" true)
    (fun _ _ _ h => by cases h) (by rw [e1]; exact hx)
  refine ⟨_, n2, a, cw, (ONetExec.nil.step s1).step s2, k2, k3, k4, k6, k7, (k5 _ (Ne.symm hab)).trans rfl, fun conn => ?_⟩
  rw [f2 a cw k2, Far.moved, f1 a rfl]
  rfl

/-- The host has taken up the proposal, and the controller has opened. -/
theorem onet4 : ∃ H n a cw ch id hc, ONetExec Ex.api onet0 H n ∧ Controller n.s a cw ∧
    Listed n.s id a (some ⟨id, "cosmos1ica", .protobuf, ⟨ch, .opened⟩⟩) ∧ Reports cw ch .opened ∧
    ChainOpen cw "channel-0" ch ∧ (∀ id, cw.nextSeq id = 1) ∧
    adminOf n.s = some "boss" ∧ n.s.owner.time = 1700000000000000000 ∧ n.s.ctrl "boss" = none ∧
    ((n.far a).hosts "connection-0").chans "channel-5" = some hc ∧ hc.controller = ch.endpoint ∧ hc.status = .tryOpen ∧
    hc.nextRecv = 1 ∧ (∀ s, hc.acks s = none) ∧ ch.counterpartyEndpoint = ⟨"icahost", "channel-5"⟩ ∧
    ((n.far a).hosts "connection-0").height = host0.height ∧ ((n.far a).hosts "connection-0").time = host0.time := by
  obtain ⟨H, n, a, cw, he, h2, h4, h5, h6, h7, h8, h9⟩ := onet2
  have hi := oninv_exec oinitial he
  obtain ⟨env, m0, h, k1, k2, -⟩ := hi.each a cw h2
  have hv := ninv_exec k1 k2
  have hab : a ≠ "boss" := fun e => by rw [e] at h2; rw [show n.s.ctrl "boss" = some cw from h2] at h8; cases h8
  have hp := hv.waiting "channel-0" _ h4 rfl
  obtain ⟨n1, s3, e1, e2⟩ := hostMoves h2
    (op := .hostOpenTry "connection-0" "channel-5" (proposalChannel a "channel-0" Ex.opts) ver "cosmos1ica")
    (fun o h => by cases h) (.hostOpenTry "connection-0" "channel-5" _ ver "cosmos1ica" hp rfl rfl
      (by simp only [Far.net, h9]; rfl) (by simp only [Far.net, h9]; exact proposalVersion_json opts)
      (by simp only [Far.net, h9]; exact verJson) (by decide) (.inl (by simp only [Far.net, h9]; rfl)))
  obtain ⟨j, hj, hm⟩ := C69_metadata.mp Ex.verParse
  obtain ⟨w', obs, id, ch', cw', q1, q0, q2, q3, q4, _, q5, q6, q7, q8, q9⟩ :=
    C76_handshake hi.sys h2 (cpId := "channel-5") h4 hj hm (metaOk_iff.mp Ex.metaOk) Ex.metaNe
  rw [← e1] at q1
  obtain ⟨n2, s4, rfl, f2, -⟩ := chainMoves (n := n1) (op := .ctrl a (.relayOpenAck "channel-0" "channel-5" ver))
    (fun b o cw2 h hc => by
      simp only [SOp.ctrl.injEq] at h
      obtain ⟨rfl, rfl⟩ := h
      rw [e1] at hc
      obtain rfl : cw = cw2 := Option.some.inj (h2.symm.trans hc)
      refine ⟨_, ⟨(proposalChannel a "channel-0" Ex.opts).endpoint, .ordered, ver, .tryOpen, 1, fun _ => none⟩, h4, ?_, rfl, rfl, rfl⟩
      rw [e2]
      simp [farOf, Far.net, setHost, HostSide.setChan, proposalChannel, Ex.opts]) q1
  refine ⟨_, n2, a, cw', ch', id, ⟨(proposalChannel a "channel-0" Ex.opts).endpoint, .ordered, ver, .tryOpen, 1, fun _ => none⟩,
    (he.step s3).step s4, q3, q2, q4, q5, fun id => by rw [q6]; exact h5 id, q7.trans h6, q8.trans h7,
    (q9 _ (Ne.symm hab)).trans h8, ?_, by rw [q0], rfl, rfl, fun _ => rfl, by rw [q0]; rfl, ?_, ?_⟩
  all_goals
    rw [f2 a cw' q3, Far.moved, e2]
    simp [farOf, Far.net, setHost, HostSide.setChan, HostSide.setAccount, h9]
  rfl

/-- The host has opened and the admin has asked for the action. -/
theorem onet6 : ∃ H n a cw hc p, ONetExec Ex.api onet0 H n ∧ Controller n.s a cw ∧
    ((n.far a).hosts "connection-0").chans "channel-5" = some hc ∧ hc.status = .opened ∧ p ∈ (n.far a).sent ∧
    p.src = hc.controller ∧ p.dest = ⟨"icahost", "channel-5"⟩ ∧ ¬ Elapsed ((n.far a).hosts "connection-0") p.timeout ∧
    hc.acks p.sequence = none ∧ p.sequence.toNat = hc.nextRecv ∧ (∃ ch, ChainOpen cw "channel-0" ch) ∧
    cw.commits "channel-0" p.sequence = some p := by
  obtain ⟨H, n, a, cw, ch, id, hc, he, h2, h3, h4, h5, h6, h7, h8, h9, g1, g2, g3, g4, g5, g6, g7, g8⟩ := onet4
  have hi := oninv_exec oinitial he
  have hc0 : hc.controller.channelId = "channel-0" := by
    have := (inv_of_reachable (((sinv_of_reachable hi.sys).each a cw h2).1.reach)).chans _ _ h5
    rw [g2, show ch.endpoint = _ from this.1]
  obtain ⟨n1, s5, f1, f2⟩ := hostMoves h2 (op := .hostOpenConfirm "connection-0" "channel-5")
    (fun o h => by cases h) (.hostOpenConfirm "connection-0" "channel-5" hc ⟨ch, .opened⟩ g1 g3
      (by rw [hc0]; exact h5) (fun h => by cases h) (by rw [g6]))
  obtain ⟨w', obs, hx⟩ := (C76_action_iff hi.sys (spellsAct id) (sender := "boss") (fresh := "")).mpr
    ⟨h7, h9, ⟨a, _, cw, ch, h3, h2, h4, by rw [h6]; decide⟩, by rw [h8]; decide⟩
  rcases owner_step (sinv_of_reachable hi.sys) hx with ⟨_, _, _, _, _, _, _, hdec, _⟩ |
    ⟨st, b, m, s, dst, cw1, cw2, obs', hdec, e1, e2, e3, e4, hc2, rfl, rfl⟩
  · have := hdec.symm.trans (own_decodes.mpr (Ex.spellsAct id))
    simp at this
  · have := hdec.symm.trans (own_decodes.mpr (Ex.spellsAct id))
    obtain ⟨rfl, rfl⟩ : m = id ∧ dst = "cosmos1dst" := by simpa using this
    have hcon := e3.symm.trans h3
    obtain rfl : b = a := by simpa using congrArg (Option.map (·.contractAddr)) hcon
    obtain rfl : cw = cw1 := Option.some.inj (h2.symm.trans e4)
    obtain ⟨hg, henv, -⟩ := (sinv_of_reachable hi.sys).each b cw h2
    obtain ⟨id0, hone⟩ := hg.one
    obtain ⟨-, -, -, st', info, anys, cqs, c, ts, p, t1, t2, t3, t4, t5, t6, t7, t8, t9, hp, rfl, rfl⟩ := apply_send.1 hc2
    have hid : info.channelId = "channel-0" := (hone _ _ t7).trans (hone _ _ h5).symm
    obtain rfl : c = ⟨ch, .opened⟩ := by
      rw [hid, show cw.chans "channel-0" = _ from h5] at t7
      exact (Option.some.inj t7).symm
    rw [← f1] at hx
    obtain ⟨n2, s6, f3, f4, -⟩ := chainMoves (n := n1) (fun _ _ _ h => by cases h) hx
    have hf := f4 b _ (if_pos rfl)
    have hctrl := (congrArg (SWorld.ctrl · b) f3).trans (if_pos rfl)
    refine ⟨_, n2, b, _, { hc with status := .opened }, p, (he.step s5).step s6, hctrl, ?_, rfl, ?_, ?_, ?_, ?_, ?_, ?_,
      ⟨ch, h5⟩, by rw [hp, ← hid]; simp [setCommit]⟩
    · rw [hf, f2]
      simp [farOf, Far.net, Far.moved, setHost, HostSide.setChan]
    · rw [hf, f2]
      simp [Far.moved, obsOf]
    · rw [hp]; exact g2.symm
    · rw [hp]; exact g6
    · rw [hf, f2, hp]
      rw [show cw.env.time = 1700000000000000000 by rw [henv]; exact h8] at t6
      rintro (⟨x, hx1, -, hx2⟩ | ⟨x, hx1, -⟩)
      · obtain rfl := Option.some.inj hx1
        have hx3 : ts ≤ host0.time := by
          rw [← g8]
          simpa [farOf, Far.net, Far.moved, setHost, HostSide.setChan] using hx2
        have hx4 : ts.toNat ≤ 1700000000000000000 := UInt64.le_iff_toNat_le.1 hx3
        have hx5 : ts.toNat = 1700000000000000000 + 600 * 1000000000 := t6
        omega
      · cases hx1
    · rw [hp]; exact g5 _
    · rw [hp, g4, h6]; rfl

end Ex

/-- C89: in a concrete history a host has executed the transfer the admin asked for. -/
example : ∃ H n a e, ONetExec Ex.api Ex.onet0 H n ∧ e ∈ (n.far a).log := by
  obtain ⟨H, n, a, cw, hc, p, he, h1, h2, h3, h4, h5, h6, h7, h8, h9, -⟩ := Ex.onet6
  obtain ⟨rs, ack, n', e, s1, -, s2, -⟩ := C89_can_execute Ex.oinitial he h1 h2 h3 h4 h5 h6 h7 h8 (fun _ => h9)
  exact ⟨_, n', a, e, he.step s1, by rw [s2]; simp⟩

/-- C89_can_execute: its hypotheses. -/
example : ∃ H n a cw conn hid hc p, ONetExec Ex.api Ex.onet0 H n ∧ Controller n.s a cw ∧
    ((n.far a).hosts conn).chans hid = some hc ∧ hc.status = .opened ∧ p ∈ (n.far a).sent ∧ p.src = hc.controller ∧
    p.dest = ⟨"icahost", hid⟩ ∧ ¬ Elapsed ((n.far a).hosts conn) p.timeout ∧ hc.acks p.sequence = none ∧
    (hc.order = .ordered → p.sequence.toNat = hc.nextRecv) := by
  obtain ⟨H, n, a, cw, hc, p, he, h1, h2, h3, h4, h5, h6, h7, h8, h9, -⟩ := Ex.onet6
  exact ⟨H, n, a, cw, _, _, hc, p, he, h1, h2, h3, h4, h5, h6, h7, h8, fun _ => h9⟩

end Ica
