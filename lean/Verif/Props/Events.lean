import Verif.Spec.Events
import Verif.Props.Interchain

/-!
# The contract's events are acceptable to the chain (C93)
-/
namespace Ica
open Spec

section
variable {api : Api} {env : Env} {n0 n n' : Net} {h : List (NetOp × List Obs)}

theorem space_b64Char (k : Nat) : space (b64Char k) = false := by
  by_cases hk : k < 64
  · have : ∀ k : Fin 64, space (b64Char k.val) = false := by decide +kernel
    exact this ⟨k, hk⟩
  · unfold b64Char
    rw [if_neg (by omega), if_neg (by omega), if_neg (by omega), if_neg (by omega)]
    decide +kernel

theorem blank_b64 (bs : Bytes) : Blank (String.ofList (b64Enc bs)) ↔ bs = [] := by
  constructor
  · intro hb
    have key : ∀ c, c ∈ b64Enc bs → space c = true := fun c hc => hb c (by simpa using hc)
    match bs, key with
    | [], _ => rfl
    | [a], key => exact absurd (key (b64Char (a.toNat / 4)) (by simp [b64Enc])) (by rw [space_b64Char]; decide)
    | [a, b], key => exact absurd (key (b64Char (a.toNat / 4)) (by simp [b64Enc])) (by rw [space_b64Char]; decide)
    | a :: b :: c :: r, key => exact absurd (key (b64Char (a.toNat / 4)) (by simp [b64Enc])) (by rw [space_b64Char]; decide)
  · rintro rfl c hc
    simp [b64Enc] at hc

theorem space_digit {c : Char} (hc : isDigit c = true) : space c = false := by
  have : 48 ≤ c.toNat ∧ c.toNat ≤ 57 := by
    by_contra hn
    rw [isDigit, digitVal, if_neg hn] at hc
    cases hc
  simp only [space, List.mem_cons, List.not_mem_nil, or_false, decide_eq_false_iff_not]
  omega

theorem blank_decString (k : Nat) : ¬ Blank (decString k) := by
  intro hb
  cases hl : decChars k with
  | nil => exact decChars_ne_nil k hl
  | cons c r =>
    have h1 := hb c (by simp [decString, hl])
    rw [space_digit (decChars_all_digit k c (by rw [hl]; exact List.mem_cons_self))] at h1
    cases h1

theorem blank_portOf (a : String) : ¬ Blank (portOf a) := by
  intro hb
  have h1 := hb 'w' (by simp only [portOf, String.toList_append, List.mem_append]; left; decide +kernel)
  revert h1
  decide +kernel

theorem not_blank_of {s : String} {c : Char} (hm : c ∈ s.toList) (hc : space c = false) : ¬ Blank s := fun hb => by
  have := hb c hm
  rw [hc] at this
  cases this

/-- The event of an acknowledgement is acceptable exactly when its last value is not blank: the result is not empty, or the
error text is not blank. -/
theorem C93_acceptable_iff {w w' : World} (hr : Reachable api w) {id relayer : String} {k : UInt64} {ack : Bytes}
    {obs : List Obs} (hc : Commits api w (.relayAck id k ack relayer) w' obs) (hid : ¬ Blank id) :
    (∀ e ∈ eventsOf obs, Acceptable e) ↔
      ((∃ res, readAck ack = some (.result res) ∧ res ≠ []) ∨ ∃ e, readAck ack = some (.error e) ∧ ¬ Blank e) := by
  obtain ⟨p, a, hp, ha, he⟩ := C47_event hc
  obtain ⟨hs, hq, -⟩ := (inv_of_reachable hr).commits _ _ _ hp
  rw [he, ha]
  have hport : ¬ Blank p.src.portId := by rw [hs]; exact blank_portOf _
  have hchan : ¬ Blank p.src.channelId := by rw [hs]; exact hid
  have k1 : ¬ Blank "packet_sequence" := not_blank_of (c := 'p') (by decide +kernel) (by decide +kernel)
  have k2 : ¬ Blank "packet_src_port" := not_blank_of (c := 'p') (by decide +kernel) (by decide +kernel)
  have k3 : ¬ Blank "packet_src_channel" := not_blank_of (c := 'p') (by decide +kernel) (by decide +kernel)
  have k4 : ¬ Blank "packet_ack_base64" := not_blank_of (c := 'p') (by decide +kernel) (by decide +kernel)
  have k5 : ¬ Blank "error" := not_blank_of (c := 'e') (by decide +kernel) (by decide +kernel)
  have t0 : 2 ≤ (trimmed "acknowledge_packet").length := by decide +kernel
  have t1 : (trimmed "packet_sequence").head? ≠ some '_' := by decide +kernel
  have t2 : (trimmed "packet_src_port").head? ≠ some '_' := by decide +kernel
  have t3 : (trimmed "packet_src_channel").head? ≠ some '_' := by decide +kernel
  have t4 : (trimmed "packet_ack_base64").head? ≠ some '_' := by decide +kernel
  have t5 : (trimmed "error").head? ≠ some '_' := by decide +kernel
  cases a with
  | result res =>
    simp only [forall_eq, Acceptable, List.mem_cons, List.not_mem_nil, or_false, forall_eq_or_imp,
      Option.some.injEq, AckData.result.injEq, reduceCtorEq, false_and, exists_false, exists_eq_left', blank_b64]
    exact ⟨fun hx => hx.2.2.2.2.2.2, fun hx => ⟨t0, ⟨k1, t1, blank_decString _⟩, ⟨k2, t2, hport⟩, ⟨k3, t3, hchan⟩, k4, t4, hx⟩⟩
  | error e =>
    simp only [forall_eq, Acceptable, List.mem_cons, List.not_mem_nil, or_false, forall_eq_or_imp,
      Option.some.injEq, AckData.error.injEq, reduceCtorEq, false_and, exists_false, exists_eq_left', false_or]
    exact ⟨fun hx => hx.2.2.2.2.2.2, fun hx => ⟨t0, ⟨k1, t1, blank_decString _⟩, ⟨k2, t2, hport⟩, ⟨k3, t3, hchan⟩, k5, t5, hx⟩⟩

/-- C93_acceptable_iff: the acknowledgements of the scenario. -/
example : Reachable Ex.api Ex.w3 ∧ Commits Ex.api Ex.w3 (.relayAck "channel-0" 1 Ex.okAck "relayer") Ex.w4s
    (.event (ackSuccessEvent Ex.pkt Ex.okRes) :: callObs (some "cb")
      (.onAcknowledgementPacketCallback (.result Ex.okRes) Ex.pkt "relayer" (some Ex.okResult))) ∧ ¬ Blank "channel-0" :=
  ⟨Ex.r3, (apply_iff_step (inv_of_reachable Ex.r3)).2 Ex.s4s,
    not_blank_of (c := 'c') (by decide +kernel) (by decide +kernel)⟩

/-- If the owner never sends a packet without messages and queries, every event is acceptable (as long as the host gives a
reason for a failure). Missing: packets with neither messages nor queries (`C93_empty_packet`). -/
theorem C93_nonempty_partial (h0 : n0.Initial env) (he : NetExec api n0 h n) {id relayer : String} {k : UInt64}
    {ack : Bytes} {obs : List Obs} (hst : NetStep api n (.ctrl (.relayAck id k ack relayer)) n' obs) (hid : ¬ Blank id)
    (hask : ∀ sender ms qs memo t fresh core o,
      (NetOp.ctrl (.execute sender (.sendCosmosMsgs ms qs memo t) fresh core), o) ∈ h → ms ≠ [] ∨ qs ≠ [])
    (herr : ∀ e, readAck ack = some (.error e) → ¬ Blank e) :
    ∀ e ∈ eventsOf obs, Acceptable e := by
  have hv := ninv_exec h0 he
  cases hst with
  | ctrl op w' obs hp hap =>
    obtain ⟨c, p, hc, h1, h2, h3, h4, -⟩ := hp
    refine (C93_acceptable_iff ⟨env, _, hv.exec⟩ hap hid).2 ?_
    obtain ⟨p', a, -, ha, -⟩ := C47_event hap
    cases a with
    | error e => exact .inr ⟨e, ha, herr e ha⟩
    | result res =>
      refine .inl ⟨res, ha, ?_⟩
      rintro rfl
      obtain ⟨p2, l1, l2, l3, l4, ⟨e, m1, m2, m3, m4⟩ | ⟨err, l5⟩⟩ := hv.acked _ _ _ _ _ h3 h4
      · have hlog := hv.logged e m1
        have hasked := C82_only_asked h0 he m1
        obtain ⟨-, -, -, ⟨-, hresp⟩, hc', ack', q1, -, q3, res', q4, q5⟩ := hlog
        rw [m3, m4, h3] at q1
        injection q1 with q1
        subst q1
        rw [m2, l3, h4] at q3
        injection q3 with q3
        subst q3
        rw [ha] at q4
        injection q4 with q4
        injection q4 with q4
        subst q4
        have hnil : e.responses = [] := by
          have : readTxMsgData [] = some [] := readTxMsgData_toBytes []
          rw [this] at q5
          injection q5 with q5
          exact q5.symm
        rw [hnil] at hresp
        cases hm : e.messages with
        | cons a b => rw [hm] at hresp; cases hresp
        | nil =>
          rw [hm] at hasked
          obtain ⟨s, ms, qs, memo, t, f, co, hin, l, last, hl, hf, hq⟩ := hasked
          obtain ⟨rfl, rfl⟩ := List.append_eq_nil_iff.1 hl.symm
          have hms : ms = [] := by cases hf; rfl
          have hqs : qs = [] := by
            rcases hq with ⟨hq, -⟩ | ⟨-, _, _, _, hq, -⟩
            · exact hq
            · cases hq
          obtain ⟨x, hx1, hx2⟩ := List.mem_filterMap.1 hin
          obtain ⟨op, o⟩ := x
          cases op <;> simp only [reduceCtorEq, Option.some.injEq, Prod.mk.injEq] at hx2
          obtain ⟨rfl, rfl⟩ := hx2
          rcases hask _ _ _ _ _ _ _ _ hx1 with hz | hz
          · exact hz hms
          · exact hz hqs
      · rw [show readAck ack = _ from l5] at ha
        cases ha

end

namespace Ex

/-- A packet with nothing in it. -/
def pkt0 : IbcPacket :=
  ⟨IcaPacketData.jc.toBytes (.fromProtoAnys (packetAnys "cosmos1ica" [] []) none),
    ⟨portOf "wasm1controller", "channel-0"⟩, ⟨"icahost", "channel-5"⟩, 1, ⟨none, some 1700000600000000000⟩⟩
theorem s3e : ∃ w, Step api w2 (.execute "alice" (.sendCosmosMsgs [] [] none none) "" true) w [.packetSent pkt0] ∧
    w.chans = w2.chans ∧ w.commits "channel-0" 1 = some pkt0 :=
  ⟨_, .send _ _ _ _ _ _ (st "channel-0") (info "channel-0") [] [] ⟨chan "channel-0" opts, .opened⟩
    1700000600000000000 pkt0 rfl owner2 rfl rfl rfl rfl rfl (by decide +kernel)
    (by simp [w2, eAck, setChan, info]; rfl) rfl (by decide +kernel) (by rfl), rfl, by
      have : w2.nextSeq "channel-0" = 1 := by decide +kernel
      simp [setCommit, info, this]⟩
/-- The host's answer to it. -/
def ack0 : Bytes := AckData.jc.toBytes (.result [])
theorem ack0Read : readAck ack0 = some (.result []) := by
  rw [readAck_eq]; exact JC.ofBytes_toBytes AckData.jc_law _
/-- The history up to the sending. -/
def eh5 : List (NetOp × List Obs) :=
  [(.ctrl (.instantiate "deployer" inst "channel-0" true), [.channelCreated "channel-0"]),
   (.hostOpenTry "connection-0" "channel-5" (prop "channel-0" opts) ver "cosmos1ica", []),
   (.ctrl (.relayOpenAck "channel-0" "channel-5" ver),
    callObs (some "cb") (.onChannelOpenAckCallback (chan "channel-0" opts) "cosmos1ica" .protobuf)),
   (.hostOpenConfirm "connection-0" "channel-5", []),
   (.ctrl (.execute "alice" (.sendCosmosMsgs [] [] none none) "" true), [.packetSent pkt0])]

/-- The owner sends it, the host executes it, and the acknowledgement reaches the contract. -/
theorem emptyRound : ∃ h n n' obs, NetExec api net0 h n ∧
    NetStep api n (.ctrl (.relayAck "channel-0" 1 ack0 "relayer")) n' obs := by
  obtain ⟨w, hs, hch, hcm⟩ := s3e
  have e5 : NetExec api net0 eh5 (net4.moved (.execute "alice" (.sendCosmosMsgs [] [] none none) "" true) w [.packetSent pkt0]) :=
    .step (h := [_, _, _, _]) (.step (h := [_, _, _]) (.step (h := [_, _]) (.step (h := [_]) (.step (h := []) .nil ns1) ns2)
      ns3) ns4) (.ctrl _ _ _ trivial ((apply_iff_step (inv_of_reachable r2)).2 hs))
  obtain ⟨info', p', i1, i2, l, last, i3, i4, i5⟩ := C27_host_reads ((apply_iff_step (inv_of_reachable r2)).2 hs)
  have ep : p' = pkt0 := by simpa using i2.symm
  subst ep
  have el : l = [] := by cases i4; rfl
  have elast : last = [] := by
    rcases i5 with ⟨-, i5⟩ | ⟨i5, -⟩
    · exact i5
    · exact absurd rfl i5
  subst el elast
  generalize hn5 : net4.moved (.execute "alice" (.sendCosmosMsgs [] [] none none) "" true) w [.packetSent pkt0] = n5 at e5
  have hosts5 : n5.hosts = net4.hosts := by rw [← hn5]; rfl
  have hw5 : n5.w = w := by rw [← hn5]; rfl
  have host5 : (n5.hosts "connection-0").chans "channel-5" = some hopen := by
    rw [hosts5]
    simp [net4, net3, Net.moved, setHost, HostSide.setChan, hopen]
  have account5 : (n5.hosts "connection-0").account = some "cosmos1ica" := by
    rw [hosts5]
    simp [net4, net3, net2, Net.moved, setHost, HostSide.setChan, HostSide.setAccount]
  have time5 : (n5.hosts "connection-0").time = 1700000000000000000 := by
    rw [hosts5]
    simp [net4, net3, net2, net1, net0, host0, Net.moved, setHost, HostSide.setChan, HostSide.setAccount]
  have sent5 : pkt0 ∈ n5.sent := by
    rw [← hn5]
    exact List.mem_append_right _ (List.mem_singleton.2 rfl)
  have inTime : ¬ Elapsed (n5.hosts "connection-0") pkt0.timeout := by
    rintro (⟨ts, a, -, b⟩ | ⟨b, a, -⟩)
    · injection a with a
      subst a
      rw [time5] at b
      revert b
      decide +kernel
    · cases a
  have s6 : NetStep api n5 (.hostReceive "connection-0" "channel-5" pkt0 (.ok []) ack0) _ [] :=
    .execute "connection-0" "channel-5" hopen pkt0 ack0 "cosmos1ica" none [] [] host5 rfl sent5 rfl rfl inTime rfl
      (fun _ => rfl) account5 i3 (fun m hm => by cases hm) .nil ⟨[], ack0Read, readTxMsgData_toBytes []⟩
  obtain ⟨n', obs, hst⟩ := C85_can_acknowledge initial0 (.step e5 s6) (id := "channel-0") (k := 1) (p := pkt0)
    (by show n5.w.commits _ _ = _; rw [hw5]; exact hcm) (ch := chan "channel-0" opts)
    (by show n5.w.chans _ = _; rw [hw5, hch]; exact chan2) (hch := hopen.receive 1 ack0) (ack := ack0)
    (by dsimp only; rw [show (chan "channel-0" opts).connectionId = "connection-0" from rfl, setHost_same]
        simp [HostSide.setChan]; rfl) (by rfl) (fun _ => turn_one (ninv_exec initial0 (.step e5 s6))) "relayer"
  exact ⟨_, _, n', obs, .step e5 s6, hst⟩

end Ex

/-- A packet with neither messages nor queries can be sent and executed, and its acknowledgement makes the contract emit an
event with a blank value. -/
theorem C93_empty_packet : ∃ h n n' obs ack, NetExec Ex.api Ex.net0 h n ∧
    NetStep Ex.api n (.ctrl (.relayAck "channel-0" 1 ack "relayer")) n' obs ∧ ¬ ∀ e ∈ eventsOf obs, Acceptable e := by
  obtain ⟨h, n, n', obs, he, hst⟩ := Ex.emptyRound
  refine ⟨h, n, n', obs, Ex.ack0, he, hst, ?_⟩
  cases hst with
  | ctrl op w' obs hp hap =>
    intro hx
    have hid : ¬ Blank "channel-0" := not_blank_of (c := 'c') (by decide +kernel) (by decide +kernel)
    rcases (C93_acceptable_iff ⟨_, _, (ninv_exec Ex.initial0 he).exec⟩ hap hid).1 hx with ⟨res, h1, h2⟩ | ⟨e, h1, -⟩
    · rw [Ex.ack0Read] at h1
      injection h1 with h1
      injection h1 with h1
      exact h2 h1.symm
    · rw [Ex.ack0Read] at h1
      cases h1

/-- C93_nonempty_partial: the whole round of the scenario. -/
example : ∃ n7 n8 obs, NetExec Ex.api Ex.net0 Ex.nh7 n7 ∧
    NetStep Ex.api n7 (.ctrl (.relayAck "channel-0" 1 Ex.okAck "relayer")) n8 obs ∧
    (∀ e, readAck Ex.okAck = some (.error e) → ¬ Blank e) ∧ ∀ e ∈ eventsOf obs, Acceptable e := by
  obtain ⟨n7, n8, h1, h2, -⟩ := Ex.round
  have hx : ∀ e, readAck Ex.okAck = some (.error e) → ¬ Blank e := fun e he => by rw [Ex.okAckRead] at he; cases he
  refine ⟨n7, n8, _, h1, h2, hx, C93_nonempty_partial Ex.initial0 h1 h2
    (not_blank_of (c := 'c') (by decide +kernel) (by decide +kernel)) ?_ hx⟩
  intro s ms qs memo t f co o hm
  simp only [Ex.nh7, Ex.nh6, Ex.nh5, List.cons_append, List.nil_append, List.mem_cons, Prod.mk.injEq, reduceCtorEq, false_and,
    false_or, List.not_mem_nil, or_false, NetOp.ctrl.injEq, Op.execute.injEq, ExecuteMsg.sendCosmosMsgs.injEq] at hm
  left
  rw [hm.1.2.1.1]
  simp [Ex.msgs]

end Ica
