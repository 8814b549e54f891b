import Verif.Props.Accounts
import Verif.Props.Books
import Verif.Spec.Displays

/-!
# Lemmas about scripts (C124)
-/
namespace Ica
open Spec

section
variable {api : Api} {env : Env} {n0 n : Net} {h : List (NetOp × List Obs)}

/-- How much the history tells the address. -/
def Tally (addr : String) (h : List (Op × List Obs)) (success : Nat) (errors : List String) (timeout : Nat) : Prop :=
  ∃ ms : List CallbackMsg, deliveries addr h = ms.map CallbackMsg.intoJsonBinary ∧ (ms.filter isSuccess).length = success ∧
    (ms.filter isError).map errorTold = errors.map some ∧ (ms.filter isTimeout).length = timeout

theorem Tally.append {addr : String} {g g' : List (Op × List Obs)} {a a' : Nat} {b b' : List String} {c c' : Nat}
    (t : Tally addr g a b c) (t' : Tally addr g' a' b' c') : Tally addr (g ++ g') (a + a') (b ++ b') (c + c') := by
  obtain ⟨ms, h1, h2, h3, h4⟩ := t
  obtain ⟨ms', k1, k2, k3, k4⟩ := t'
  refine ⟨ms ++ ms', ?_, ?_, ?_, ?_⟩
  · rw [deliveries_append, h1, k1, List.map_append]
  · rw [List.filter_append, List.length_append, h2, k2]
  · rw [List.filter_append, List.map_append, h3, k3, List.map_append]
  · rw [List.filter_append, List.length_append, h4, k4]

theorem onController_append (a b : List (NetOp × List Obs)) : onController (a ++ b) = onController a ++ onController b := by
  simp [onController, List.filterMap_append]

/-- An operation that is told nothing about packets. -/
def Unsettling : NetOp → Prop
  | .ctrl op => op.isSettling = false
  | _ => True

theorem tally_step {op : Op} {w w' : World} {obs : List Obs} (hs : op.isSettling = false)
    (ha : apply api w op = some (w', obs)) (addr : String) : Tally addr [(op, obs)] 0 [] 0 := by
  obtain ⟨ms, h1, h2⟩ := deliver_step ha addr
  have h3 : settledFor addr [(op, obs)] (callbackOf w) = 0 := by simp [settledFor, hs]
  rw [h3] at h2
  refine ⟨ms, h1, by omega, ?_, by omega⟩
  have : ms.filter isError = [] := List.length_eq_zero_iff.1 (by omega)
  rw [this]
  rfl

theorem tally_quiet {l : List (NetOp × List Obs)} {n' : Net} (hl : NetExec api n l n') (hq : ∀ x ∈ l, Unsettling x.1)
    (addr : String) : Tally addr (onController l) 0 [] 0 := by
  induction hl with
  | nil => exact ⟨[], rfl, rfl, rfl, rfl⟩
  | @step l n1 n2 op obs hl hs ih =>
    have i := ih fun x hx => hq x (List.mem_append_left _ hx)
    have hop : Unsettling op := hq (op, obs) (List.mem_append_right _ (List.mem_singleton.2 rfl))
    rw [onController_append]
    refine i.append (a' := 0) (b' := []) (c' := 0) ?_
    cases hs with
    | ctrl op w' obs hp ha => exact tally_step hop ha addr
    | _ => exact ⟨[], rfl, rfl, rfl, rfl⟩

/-- One callback. -/
theorem tally_told {op : Op} {w w' : World} {obs : List Obs} (ha : apply api w op = some (w', obs)) {addr : String}
    {m : CallbackMsg} (hc : CalledBack obs addr m) :
    Tally addr [(op, obs)] ([m].filter isSuccess).length ([m].filterMap errorTold) ([m].filter isTimeout).length := by
  obtain ⟨ms, h1, -⟩ := deliver_step ha addr
  obtain ⟨bytes, e1, e2⟩ := hc
  have h2 : deliveries addr [(op, obs)] = [bytes] := by simp [deliveries, e1]
  rw [h2] at h1
  cases ms with
  | nil => cases h1
  | cons x ms =>
    cases ms with
    | cons y ms => cases h1
    | nil =>
      obtain rfl : bytes = x.intoJsonBinary := by injection h1
      have h3 := JC.ofBytes_toBytes ReceiverExecuteMsg.jc_law (.receiveIcaCallback x)
      rw [show ReceiverExecuteMsg.jc.ofBytes (ReceiverExecuteMsg.jc.toBytes (.receiveIcaCallback x)) =
        some (.receiveIcaCallback m) from e2] at h3
      obtain rfl : m = x := by injection h3 with h3; injection h3
      refine ⟨[m], h2, rfl, ?_, rfl⟩
      rcases m with ⟨_ | _, _, _, _⟩ | ⟨_, _⟩ | ⟨_, _, _⟩ <;> rfl

/-- What the counter shows. -/
theorem counter_shows {addr : String} {g : List (Op × List Obs)} {a : Nat} {b : List String} {c : Nat}
    {raw0 raw1 : Raw.RawStore} {r : Response} (hi : Counter.instantiate raw0 = (.ok r, raw1)) :
    Tally addr g a b c ↔ (∃ ms : List CallbackMsg, deliveries addr g = ms.map CallbackMsg.intoJsonBinary) ∧
      ∃ raw' k, feed raw1 (deliveries addr g) = some raw' ∧
        Counter.query raw' = (.ok (CallbackCounter.jc.toBytes k), raw') ∧ k.success.length = a ∧
        k.error.map errorTold = b.map some ∧ k.timeout.length = c := by
  have h1 : Counter.CALLBACK_COUNTER.Holds raw1 (some ⟨[], [], []⟩) := by
    unfold Counter.instantiate at hi
    rw [Raw.bind_eq] at hi
    obtain ⟨_, rfl⟩ := Prod.mk.inj hi
    exact Raw.Item.holds_set (i := Counter.CALLBACK_COUNTER) CallbackCounter.jc_law raw0 _
  have key : ∀ ms : List CallbackMsg, ∃ raw2, feed raw1 (ms.map CallbackMsg.intoJsonBinary) = some raw2 ∧
      Counter.query raw2 = (.ok (CallbackCounter.jc.toBytes (CallbackCounter.told ⟨[], [], []⟩ ms)), raw2) := by
    intro ms
    obtain ⟨raw2, h2, h3⟩ := Counter.feed_told ms h1
    refine ⟨raw2, h2, ?_⟩
    unfold Counter.query
    rw [Raw.bind_eq, Raw.Item.load_of_holds h3]
    rfl
  constructor
  · rintro ⟨ms, e1, e2, e3, e4⟩
    obtain ⟨raw2, k1, k2⟩ := key ms
    exact ⟨⟨ms, e1⟩, raw2, _, by rw [e1]; exact k1, k2, e2, e3, e4⟩
  · rintro ⟨⟨ms, e1⟩, raw', k, e2, e3, e4, e5, e6⟩
    obtain ⟨raw2, k1, k2⟩ := key ms
    rw [e1, k1] at e2
    obtain rfl := Option.some.inj e2
    rw [k2] at e3
    have e7 : CallbackCounter.jc.toBytes (CallbackCounter.told ⟨[], [], []⟩ ms) = CallbackCounter.jc.toBytes k := by
      injection e3 with e3
      injection e3
    have e8 := congrArg CallbackCounter.jc.ofBytes e7
    rw [JC.ofBytes_toBytes CallbackCounter.jc_law, JC.ofBytes_toBytes CallbackCounter.jc_law] at e8
    obtain rfl := Option.some.inj e8
    exact ⟨ms, e1, e4, e5, e6⟩

/-- An operation that gives no options. -/
def NoOptions : NetOp → Prop
  | .ctrl (.instantiate ..) => False
  | .ctrl (.execute _ (.createChannel (some _)) _ _) => False
  | _ => True

theorem lastOptions_kept (g : List (Op × List Obs)) {l : List (NetOp × List Obs)} (hl : ∀ x ∈ l, NoOptions x.1) :
    lastOptions (g ++ onController l) = lastOptions g := by
  induction l using List.reverseRecOn with
  | nil => rw [show onController [] = [] from rfl, List.append_nil]
  | append_singleton l x ih =>
    rw [onController_append, ← List.append_assoc, ← ih fun y hy => hl y (List.mem_append_left _ hy)]
    have hx := hl x (List.mem_append_right _ (List.mem_singleton.2 rfl))
    obtain ⟨op, obs⟩ := x
    cases op with
    | ctrl op =>
      rw [show onController [(NetOp.ctrl op, obs)] = [(op, obs)] from rfl, lastOptions_snoc]
      cases op with
      | instantiate => exact absurd hx id
      | execute s m f c =>
        cases m with
        | createChannel o =>
          cases o with
          | none => rfl
          | some o => exact absurd hx id
        | _ => rfl
      | _ => rfl
    | _ => rw [show onController [_] = [] from rfl, List.append_nil]

theorem Spec.ByRelayers.unsettling {op : NetOp} (h : ByRelayers op) : Unsettling op := by
  cases op with
  | ctrl op => cases op <;> first | rfl | exact absurd h id
  | _ => trivial

theorem Spec.ByRelayers.noOptions {op : NetOp} (h : ByRelayers op) : NoOptions op := by
  cases op with
  | ctrl op => cases op <;> trivial
  | _ => trivial

theorem Spec.Planned.staged {owner : String} {op : NetOp} (h : Planned owner op) : Staged owner op := by
  cases op with
  | ctrl op => cases op <;> trivial
  | _ => exact h

/-- A packet that is not brought to the host in time. -/
theorem late_once (h0 : n0.Initial env) (he : NetExec api n0 h n) {owner : String} (ho : ownerOf n.w = some owner)
    {ch : IbcChannel} {a : String} (hw : Working n ch a) (hq : n.w.nextSeq ch.endpoint.channelId < 2 ^ 64)
    {r : Request} (hr : r.Fine n ch a) (hc : (n.hosts ch.connectionId).time.toNat ≤ n.w.env.time.toNat) (relayer : String) :
    ∃ p n1 n2 n3 n4 ts obs, ts.toNat = n.w.env.time.toNat + allowedSeconds r.timeout * 1000000000 ∧
      NetStep api n (.ctrl (.execute owner r.msg "" true)) n1 [.packetSent p] ∧
      NetStep api n1 (.hostBlock ch.connectionId (n.hosts ch.connectionId).height ts) n2 [] ∧
      NetStep api n2 (.ctrl (.relayTimeout ch.endpoint.channelId p.sequence relayer)) n3 obs ∧
      NetStep api n3 (.ctrl (.block n.w.env.height ts)) n4 [] ∧
      (∀ cb, callbackOf n.w = some cb → CalledBack obs cb (.onTimeoutPacketCallback p relayer)) ∧
      ownerOf n4.w = some owner ∧ callbackOf n4.w = callbackOf n.w ∧ n4.w.env.time = ts ∧
      n4.hosts = setHost n.hosts ch.connectionId ((n.hosts ch.connectionId).setBlock (n.hosts ch.connectionId).height ts) ∧
      n4.log = n.log ∧ icaOf n4.w = icaOf n.w ∧
      n4.w.store.channel = some ⟨ch, if ch.order = .ordered then .closed else .opened⟩ ∧
      n4.w.chans ch.endpoint.channelId = some ⟨ch, if ch.order = .ordered then .closed else .opened⟩ ∧
      (∀ x, x ≠ ch.endpoint.channelId → n4.w.chans x = n.w.chans x) ∧
      n4.w.nextSeq ch.endpoint.channelId = n.w.nextSeq ch.endpoint.channelId + 1 := by
  have hv := ninv_exec h0 he
  obtain ⟨hrep, hco, hica, hacc, hch, hh, hctl, hst⟩ := hw
  obtain ⟨w1, obs1, hs⟩ := (C31_send_iff (api := api) ⟨env, _, hv.exec⟩ owner r.messages r.queries r.memo r.timeout "").2
    ⟨ho, ⟨_, ch, hica, hco, hq⟩, hr.messages, hr.queries, hr.fits⟩
  obtain ⟨info, anys, cqs, c, ts, p, i1, i2, i3, i4, i5, i6, i7, i8, i9, i10⟩ := send_inv hs
  rw [hica] at i1
  obtain rfl := Option.some.inj i1
  dsimp only at i5 i7 i8 i9
  rw [show n.w.chans ch.endpoint.channelId = _ from hco] at i5
  obtain rfl := Option.some.inj i5
  subst i10
  rw [allowedSeconds_eq] at i4
  have s1 : NetStep api n (.ctrl (.execute owner r.msg "" true)) _ _ := .ctrl _ _ _ trivial hs
  have he1 := he.step s1
  generalize hn1 : n.moved (.execute owner r.msg "" true) w1 [.packetSent p] = n1 at s1 he1
  have hw1 : n1.w = w1 := by rw [← hn1]; rfl
  have hhosts : n1.hosts = n.hosts := by rw [← hn1]; rfl
  have hlog : n1.log = n.log := by rw [← hn1]; rfl
  have hsq : p.sequence = UInt64.ofNat (n.w.nextSeq ch.endpoint.channelId) := by rw [i8]
  have hsn : p.sequence.toNat = n.w.nextSeq ch.endpoint.channelId := by rw [hsq, ofNat_toNat i7]
  have htm : p.timeout = ⟨none, some ts⟩ := by rw [i8]
  have hdst : p.dest = ch.counterpartyEndpoint := by rw [i8]
  have hsrc : p.src = ch.endpoint := by rw [i8]
  have hle : (n.hosts ch.connectionId).time ≤ ts := by rw [UInt64.le_iff_toNat_le]; omega
  have hle2 : n.w.env.time ≤ ts := by rw [UInt64.le_iff_toNat_le]; omega
  have s2 : NetStep api n1 (.hostBlock ch.connectionId (n.hosts ch.connectionId).height ts) _ [] :=
    .hostBlock _ _ _ (by rw [hhosts]; exact UInt64.le_refl _) (by rw [hhosts]; exact hle)
  have he2 := he1.step s2
  generalize hn2 : ({ n1 with hosts := _ } : Net) = n2 at s2 he2
  have hw2 : n2.w = w1 := by rw [← hn2]; exact hw1
  have hh2 : n2.hosts = setHost n.hosts ch.connectionId
      ((n.hosts ch.connectionId).setBlock (n.hosts ch.connectionId).height ts) := by rw [← hn2, ← hhosts]
  have hl2 : n2.log = n.log := by rw [← hn2]; exact hlog
  have hcom : n2.w.commits ch.endpoint.channelId p.sequence = some p := by
    rw [hw2, i9, hsq]
    simp [setCommit]
  have hco2 : n2.w.chans ch.endpoint.channelId = some ⟨ch, .opened⟩ := by
    rw [hw2, i9]; exact hco
  have hnew : hch.acks p.sequence = none := by
    cases hx : hch.acks p.sequence with
    | none => rfl
    | some ack =>
      obtain ⟨p', g1, g2, g3, -⟩ := hv.acked _ _ _ _ _ hh hx
      obtain ⟨qs, g4⟩ := (hv.sentIff p').1 g1
      have := sent_lt hv.exec _ _ g4
      rw [g3, g2, hctl, hsn] at this
      omega
  have hts : ts ≠ 0 := by
    rintro rfl
    have h1 := hr.later
    rw [← i4] at h1
    exact absurd h1 (by simp)
  have hprov : Proven n2 (.relayTimeout ch.endpoint.channelId p.sequence relayer) := by
    refine ⟨_, p, hch, hco2, hcom, ?_, hnew, ?_, .inl (.inl ⟨ts, by rw [htm], hts, ?_⟩)⟩
    · rw [hh2, setHost_same, hdst]; exact hh
    · intro ho'
      by_contra hlt
      have h1 := hv.inv.seqs ch.endpoint.channelId
      obtain ⟨ack, h2⟩ := ((hv.ordered _ _ _ hh).2 ho' p.sequence).2 ⟨by omega, by omega⟩
      rw [hnew] at h2
      cases h2
    · show ts ≤ (n2.hosts ch.connectionId).time
      rw [hh2, setHost_same]
      exact UInt64.le_refl _
  obtain ⟨f0, f1, f2, f3, -⟩ := storeAfterSend_fields n.w.store ch.endpoint.channelId
    (UInt64.ofNat (n.w.nextSeq ch.endpoint.channelId)) r.queries cqs
  obtain ⟨n3, obs, s3⟩ := C85_can_time_out h0 he2 relayer hprov
  have he3 := he2.step s3
  obtain ⟨w3, rfl, -, hap⟩ := netStep_ctrl s3
  obtain ⟨p', c', st, cs, a1, a2, a3, a4, rfl, rfl⟩ := apply_timeout.1 hap
  rw [hcom] at a1
  obtain rfl := Option.some.inj a1
  rw [hco2] at a2
  obtain rfl := Option.some.inj a2
  have g1 : n2.w.store.ownership = n.w.store.ownership := by rw [hw2, i9]; exact f1
  have g2 : n2.w.store.state = n.w.store.state := by rw [hw2, i9]; exact f2
  have g3 : n2.w.store.channel = n.w.store.channel := by rw [hw2, i9]; exact f3
  have g4 : n2.w.env = n.w.env := by rw [hw2, i9]
  rw [g3, show n.w.store.channel = _ from hrep] at a4
  obtain rfl := Option.some.inj a4
  have hcall : callbackOf n.w = st.callbackAddress := by
    unfold callbackOf
    rw [← g2, a3]
  generalize hn3 : n2.moved _ _ _ = n3 at s3 he3
  have hw3 : n3.w.env = n.w.env := by rw [← hn3]; exact g4
  have b1 : n3.w.store.ownership = n.w.store.ownership := by rw [← hn3]; exact g1
  have b2 : n3.w.store.state = n.w.store.state := by rw [← hn3]; exact g2
  have b3 : n3.w.store.channel = some ⟨ch, if ch.order = .ordered then .closed else .opened⟩ := by
    rw [← hn3]
    simp only [Net.moved]
    split <;> rfl
  have b4 : n3.w.chans = if ch.order = .ordered then setChan n2.w.chans ch.endpoint.channelId ⟨ch, .closed⟩ else n2.w.chans := by
    rw [← hn3]
    rfl
  have b5 : n3.w.nextSeq = n2.w.nextSeq := by rw [← hn3]; rfl
  have b6 : n3.hosts = n2.hosts := by rw [← hn3]; rfl
  have b7 : n3.log = n2.log := by rw [← hn3]; rfl
  have hap4 := (apply_block (api := api) (w := n3.w) (h := n.w.env.height) (t := ts)).2
    ⟨by rw [hw3]; exact UInt64.le_refl _, by rw [hw3]; exact hle2, rfl, rfl⟩
  have s4 : NetStep api n3 (.ctrl (.block n.w.env.height ts)) _ _ := .ctrl _ _ _ trivial hap4
  refine ⟨p, n1, n2, n3, _, ts, _, i4, s1, s2, s3, s4, ?_, ?_, ?_, rfl, b6.trans hh2, b7.trans hl2, ?_, b3, ?_, ?_, ?_⟩
  · intro cb hcb
    exact toldEnd_callObs (a := st.callbackAddress) (by rw [← hcall]; exact hcb) rfl
  · show ownerOf { n3.w with env := _ } = _
    simp only [ownerOf, b1]; exact ho
  · show callbackOf { n3.w with env := _ } = _
    simp only [callbackOf, b2]
  · show icaOf { n3.w with env := _ } = _
    simp only [icaOf, b2]
  · show n3.w.chans _ = _
    rw [b4]
    split
    · exact setChan_same _ _ _
    · exact hco2
  · intro x hx
    show n3.w.chans _ = _
    rw [b4]
    split
    · rw [setChan_ne _ hx, hw2, i9]
    · rw [hw2, i9]
  · show n3.w.nextSeq _ = _
    rw [b5, hw2, i9]
    simp [setSeq]

end

end Ica
