import Verif.Spec.Paging
import Verif.Props.Use

/-!
# Lists (C104, C105, C106)

What the queries that list something report when the host answers them from its books, a page at a time.
-/
namespace Ica
open Spec

/-! ## One query -/

/-- What is reported for the books' answer to a query that lists something. -/
theorem lists_of_answer {b : Books} (hb : b.Proper) {q : QueryRequest} (hl : AsksForList q) {req : String × Bytes} {bs : Bytes}
    (hq : QueryReads q req) (ha : b.Answers req bs) {rec : String × Bool} (hr : RecordedAs q rec) :
    ∃ x, DecodesTo (rec, bs) x ∧ ListsFirst b q x := by
  have gen : ∀ (a : HostAnswer) (y : HostQuery), denotesQuery q = some y → readHostQuery req.1 req.2 = some y →
      b.answer y = some a.bytes → a.path = y.path → a.Wf → DecodesTo (rec, bs) a.reported := by
    intro a y h1 h2 h3 h4 h5
    rw [ha _ _ h2 h3]
    exact C39_answer_decoded h5 h1 h4 hr
  cases q with
  | bank q =>
    cases q with
    | allBalances a =>
      obtain ⟨y, h1, h2⟩ := hq
      obtain rfl := Option.some.inj h1
      exact ⟨_, gen (.allBalances _ _) _ h1 h2 rfl rfl trivial, rfl⟩
    | allDenomMetadata p =>
      obtain ⟨y, h1, h2⟩ := hq
      obtain rfl := Option.some.inj h1
      exact ⟨_, gen (.denomsMetadata _ _) _ h1 h2 rfl rfl trivial, rfl⟩
    | _ => exact hl.elim
  | staking q =>
    cases q with
    | allDelegations d =>
      obtain ⟨y, h1, h2⟩ := hq
      obtain rfl := Option.some.inj h1
      refine ⟨_, gen (.delegatorDelegations _ _) _ h1 h2 rfl rfl trivial, ?_⟩
      simp [ListsFirst, HostAnswer.reported, pageOf, inOrder, pageSize, Function.comp_def]
    | allValidators =>
      obtain ⟨y, h1, h2⟩ := hq
      obtain rfl := Option.some.inj h1
      have hw : b.withStatus "" = b.validators := by simp [Books.withStatus]
      have hbs := ha _ _ h2 rfl
      rw [hw] at hbs
      obtain ⟨rs, k1, k2⟩ := C40_validators_scaled_partial (vs := (pageOf b.validators none).1)
        (page := some (pageOf b.validators none).2) (fun v hv => by
          simp only [pageOf, inOrder, pageSize, List.mem_map] at hv
          obtain ⟨x, hx, rfl⟩ := hv
          exact hb.2 x (List.mem_of_mem_drop (List.mem_of_mem_take hx)))
      refine ⟨_, ?_, rs, rfl, k2⟩
      obtain ⟨y, j1, j2⟩ := hr
      obtain rfl := Option.some.inj j1
      rw [j2, hbs]
      exact k1
    | _ => exact hl.elim
  | _ => exact hl.elim

/-- All queries of a packet. -/
theorem lists_of_answers {b : Books} (hb : b.Proper) {qs : List QueryRequest} {reqs : List (String × Bytes)}
    (hq : List.Forall₂ QueryReads qs reqs) {answers : List Bytes} (ha : List.Forall₂ b.Answers reqs answers)
    {recorded : List (String × Bool)} (hr : List.Forall₂ RecordedAs qs recorded) :
    (∀ rs, List.Forall₂ DecodesTo (recorded.zip answers) rs → List.Forall₂ (ListsFirst b) qs rs) ∧
    ((∀ q ∈ qs, AsksForList q) → ∃ rs, List.Forall₂ DecodesTo (recorded.zip answers) rs) := by
  induction hq generalizing answers recorded with
  | nil =>
    cases hr
    exact ⟨fun rs h => by cases h; exact .nil, fun _ => ⟨[], .nil⟩⟩
  | @cons q req qs reqs h1 _ ih =>
    cases ha with
    | @cons _ bs _ _ a1 a2 =>
      cases hr with
      | @cons _ rec _ _ r1 r2 =>
        obtain ⟨i1, i2⟩ := ih a2 r2
        constructor
        · intro rs hd
          cases hd with
          | @cons _ x _ _ d1 d2 =>
            refine .cons ?_ (i1 _ d2)
            by_cases hl : AsksForList q
            · obtain ⟨x', e1, e2⟩ := lists_of_answer hb hl h1 a1 r1
              have : x = x' := by
                have e1 : responseFromProtobuf rec.1 bs rec.2 = .ok x' := e1
                have d1 : responseFromProtobuf rec.1 bs rec.2 = .ok x := d1
                rw [e1] at d1
                injection d1 with d1
                exact d1.symm
              rw [this]; exact e2
            · unfold ListsFirst
              split <;> first | trivial | exact (hl trivial).elim
        · intro hl
          obtain ⟨rs, d⟩ := i2 fun q hq => hl q (List.mem_cons_of_mem _ hq)
          obtain ⟨x, e1, -⟩ := lists_of_answer hb (hl q (List.mem_cons_self ..)) h1 a1 r1
          exact ⟨x :: rs, .cons e1 d⟩

section
variable {api : Api} {env : Env} {n0 n n' : Net} {h : List (NetOp × List Obs)}

/-- What a relayed acknowledgement of a packet with queries leads to, if the host answered them from its books. -/
theorem listing (h0 : n0.Initial env) (he : NetExec api n0 h n) {e : Executed} (hx : e ∈ n.log) {qs : List QueryRequest}
    (hs : Sent (onController h) e.packet qs) (hq : qs ≠ []) {b : Books} (hb : b.Proper) (hbe : b.Answered e) {ack : Bytes}
    {relayer : String} {obs : List Obs}
    (hst : NetStep api n (.ctrl (.relayAck e.packet.src.channelId e.packet.sequence ack relayer)) n' obs) {cb : String}
    (hcb : callbackOf n.w = some cb) :
    ∃ res r, CalledBack obs cb (.onAcknowledgementPacketCallback (.result res) e.packet relayer (some r)) ∧
      (∀ height rs, r = .success height rs → height = e.height ∧ List.Forall₂ (ListsFirst b) qs rs) ∧
      ((∀ q ∈ qs, AsksForList q) → ∃ rs, r = .success e.height rs) := by
  have hv := ninv_exec h0 he
  cases hst with
  | ctrl op w' obs hp hap =>
    obtain ⟨c, p, hc, h1, h2, h3, h4, -⟩ := hp
    obtain ⟨s1, s2, s3⟩ := commits_chan hv h2
    have hpe : p = e.packet := hv.unique s1 (hv.logged e hx).1 s2 s3
    subst hpe
    obtain ⟨hc', ack', k1, k2, k3⟩ := same_channel hv hx h1
    rw [h3] at k1
    obtain rfl := Option.some.inj k1
    rw [h4] at k2
    obtain rfl := Option.some.inj k2
    obtain ⟨res, r1, r2⟩ := k3
    obtain ⟨url, value, reqs, answers, b1, b2, b3, b4, b5⟩ := C86_answered_at_height h0 he hx hs hq r2
    obtain ⟨r, g1, g2⟩ := forall₂_getLast hbe b1
    obtain ⟨height, as, g3, g4⟩ := g2 _ _ b2
    rw [readQueryAnswer_last r2 g1, g3] at b4
    obtain ⟨rfl, rfl⟩ := Prod.mk.inj (Option.some.inj b4)
    obtain ⟨ht, answers, r, recorded, k1, k2, k3, k4, -, k5⟩ := C38_positional hv.exec hap r1 hs rfl rfl hq hcb
    rw [readQueryAnswer_last r2 g1, g3] at k1
    obtain ⟨rfl, rfl⟩ := Prod.mk.inj (Option.some.inj k1)
    obtain ⟨j1, j2⟩ := lists_of_answers hb b3 g4 k2
    refine ⟨res, r, k3, ?_, ?_⟩
    · intro height' rs hr
      rcases k5 with ⟨rs', k5⟩ | ⟨er, k5⟩
      · rw [k5] at hr
        injection hr with hr1 hr2
        subst hr1 hr2
        exact ⟨rfl, j1 _ ((k4 _).1 k5).2⟩
      · rw [k5] at hr; cases hr
    · intro hl
      obtain ⟨rs, hd⟩ := j2 hl
      exact ⟨rs, (k4 rs).2 ⟨b5, hd⟩⟩

theorem calledBack_unique {obs : List Obs} {cb cb' : String} {m m' : CallbackMsg} (h : CalledBack obs cb m)
    (h' : CalledBack obs cb' m') : m = m' := by
  obtain ⟨bs, h1, h2⟩ := h
  obtain ⟨bs', h3, h4⟩ := h'
  rw [h1] at h3
  simp only [List.cons.injEq, Prod.mk.injEq] at h3
  rw [h3.1.2.1, h4] at h2
  simpa using h2.symm

/-- What is told lists what the books' first pages hold. -/
theorem told_lists (h0 : n0.Initial env) {b : Books} (hb : b.Proper) {qs : List QueryRequest} (hq : qs ≠ []) {height : UInt64}
    {rs : List IcaQueryResponse} (ht : Told api n0 b qs (.success height rs)) : List.Forall₂ (ListsFirst b) qs rs := by
  obtain ⟨h, n, n', e, relayer, ack, obs, cb, res, t1, t2, t3, t4, t5, t6, t7⟩ := ht
  obtain ⟨res', r, k1, k2, -⟩ := listing h0 t1 t2 t3 hq hb t4 t5 t6
  have := calledBack_unique k1 t7
  injection this with _ _ _ e4
  exact (k2 height rs (Option.some.inj e4)).2

/-! ## It happens -/

/-- A host can answer from its books. -/
theorem books_respond (b : Books) (height : UInt64) (ms : List (String × Bytes)) :
    ∃ rs, List.Forall₂ (Responds height) ms rs ∧ List.Forall₂ b.Responds ms rs := by
  have : ∃ rs, List.Forall₂ (fun m r => Responds height m r ∧ b.Responds m r) ms rs := by
    refine forall₂_exists fun m _ => ?_
    by_cases e : ∃ s r, readHostMsg m.1 m.2 = some (.moduleQuerySafe s r)
    · obtain ⟨s, r, e⟩ := e
      refine ⟨("", P.MsgModuleQuerySafeResponse.toBytes ⟨height,
        r.map fun req => ((readHostQuery req.1 req.2).bind b.answer).getD []⟩), ?_, ?_⟩
      · intro s' r' h'
        rw [e] at h'
        injection h' with h'
        injection h' with _ h'
        subst h'
        exact ⟨_, readSafeResponse_toBytes _, by simp⟩
      · intro s' r' h'
        rw [e] at h'
        injection h' with h'
        injection h' with _ h'
        subst h'
        refine ⟨_, _, readSafeResponse_toBytes _, ?_⟩
        dsimp only
        clear e
        induction r with
        | nil => exact .nil
        | cons req r ih =>
          refine .cons ?_ ih
          intro q a h1 h2
          dsimp only
          rw [h1, Option.bind_some, h2]
          rfl
    · exact ⟨("", []), fun s r h => absurd ⟨s, r, h⟩ e, fun s r h => absurd ⟨s, r, h⟩ e⟩
  obtain ⟨rs, h⟩ := this
  exact ⟨rs, h.imp fun _ _ h => h.1, h.imp fun _ _ h => h.2⟩

/-- While the channel works, lists can be asked for and are told. -/
theorem can_list (h0 : n0.Initial env) (he : NetExec api n0 h n) {owner : String} (ho : ownerOf n.w = some owner)
    {ch : IbcChannel} {a : String} (hw : Working n ch a)
    (hidle : ch.order = .ordered → Idle n ch.endpoint.channelId) (hq : n.w.nextSeq ch.endpoint.channelId < 2 ^ 64)
    {cb : String} (hcb : callbackOf n.w = some cb) {r : Request} (hr : r.Fine n ch a) (hne : r.queries ≠ [])
    (hl : ∀ q ∈ r.queries, AsksForList q) {b : Books} (hb : b.Proper) :
    ∃ height rs, Told api n0 b r.queries (.success height rs) := by
  obtain ⟨p, n1, ms, s1, s2, s3⟩ := use_once h0 he ho hw hidle hq hr
  obtain ⟨resp, hresp, hbooks⟩ := books_respond b (n.hosts ch.connectionId).height ms
  obtain ⟨n2, n3, obs, k1, k2, k3, k4, -⟩ := s3 (.ok resp)
    (AckData.jc.toBytes (.result (P.TxMsgData.toBytes ⟨[], resp.map fun a => ⟨a.1, a.2⟩⟩))) "" hresp
    ⟨_, by rw [readAck_eq]; exact JC.ofBytes_toBytes AckData.jc_law _, readTxMsgData_toBytes resp⟩
  obtain ⟨h2, he2, hm⟩ : ∃ h2, NetExec api n0 h2 n2 ∧ (NetOp.ctrl (.execute owner r.msg "" true), [Obs.packetSent p]) ∈ h2 :=
    ⟨_, (he.step s1).step k1, by simp⟩
  have hlog : n3.log = n2.log := by cases k2; rfl
  have hw2 : n2.w = n1.w := by cases k1; rfl
  obtain ⟨hcb2, hsrc⟩ : callbackOf n2.w = some cb ∧ p.src.channelId = ch.endpoint.channelId := by
    rw [hw2]
    cases s1 with
    | ctrl _ w1 _ _ hap =>
      obtain ⟨info, _, _, c, _, p', i1, -, -, -, i5, -, -, i8, i9, i10⟩ := send_inv (show Commits _ _ _ _ _ from hap)
      obtain ⟨-, hco, hica, -⟩ := hw
      rw [hica] at i1
      obtain rfl := Option.some.inj i1
      rw [show n.w.chans ch.endpoint.channelId = _ from hco] at i5
      obtain rfl := Option.some.inj i5
      simp only [List.cons.injEq, Obs.packetSent.injEq, and_true] at i10
      constructor
      · show callbackOf w1 = _
        have : w1.store.state = n.w.store.state := by
          rw [i9]
          dsimp only
          unfold storeAfterSend
          split <;> rfl
        rw [← hcb]
        unfold callbackOf
        rw [this]
      · rw [i10, i8]
  obtain ⟨e, e1, e2, e3, e4⟩ : ∃ e : Executed, e ∈ n2.log ∧ e.packet = p ∧ e.messages = ms ∧ e.responses = resp :=
    ⟨_, by rw [← hlog, k3]; exact List.mem_append_right _ (List.mem_singleton.2 rfl), rfl, rfl, rfl⟩
  subst e2
  have hs : Sent (onController h2) e.packet r.queries :=
    ⟨owner, r.messages, r.memo, r.timeout, "", true, List.mem_filterMap.2 ⟨_, hm, rfl⟩⟩
  rw [← hsrc] at k2
  obtain ⟨res, x, c1, -, c3⟩ := listing h0 he2 e1 hs hne hb (by rw [Books.Answered, e3, e4]; exact hbooks) k2 hcb2
  obtain ⟨rs, rfl⟩ := c3 hl
  exact ⟨e.height, rs, _, n2, n3, e, _, _, obs, cb, res, he2, e1, hs, by rw [Books.Answered, e3, e4]; exact hbooks, k2, hcb2, c1⟩

end

/-! ## Completeness -/

/-- In the scenario, every list can be asked for and is told. -/
theorem Ex.lists_told {b : Books} (hb : b.Proper) {qs : List QueryRequest} (hq : qs ≠ []) (hl : ∀ q ∈ qs, AsksForList q) :
    ∃ height rs, Told Ex.api Ex.net0 b qs (.success height rs) := by
  obtain ⟨h1, h2, h3⟩ := Ex.usable
  have he : NetExec Ex.api Ex.net0 _ Ex.net4 := (((NetExec.nil.step Ex.ns1).step Ex.ns2).step Ex.ns3).step Ex.ns4
  refine can_list Ex.initial0 he (owner := "alice") rfl h1 (fun _ => h2) (by decide +kernel) (cb := "cb") rfl
    (r := ⟨[], qs, none, none⟩) ⟨fun _ h => (by cases h), fun q hq => ?_, fun _ _ h => (by cases h), h3.fits, h3.later⟩ hq hl hb
  have := hl q hq
  unfold AsksForList at this
  split at this
  · exact .inr ⟨_, rfl⟩
  · exact .inr ⟨_, rfl⟩
  · exact .inr ⟨_, rfl⟩
  · exact .inr ⟨_, rfl⟩
  · exact this.elim

/-- **C104**, what holds: of the coins or delegations of an account, the callback contract is told the first hundred, in the host's order.
Missing: the others (`C104_incomplete`). -/
theorem C104_first_hundred_partial {api : Api} {env : Env} {n0 : Net} (h0 : n0.Initial env) {b : Books} (hb : b.Proper)
    {qs : List QueryRequest} (hq : qs ≠ []) {height : UInt64} {rs : List IcaQueryResponse}
    (ht : Told api n0 b qs (.success height rs)) : List.Forall₂ (ListsFirst b) qs rs :=
  told_lists h0 hb hq ht

/-- **C104**, what holds: if the host executed a packet that asks for lists only, and answered from its books, the callback contract is told
the lists and not an error. -/
theorem C104_success_partial {api : Api} {env : Env} {n0 n n' : Net} {h : List (NetOp × List Obs)} (h0 : n0.Initial env)
    (he : NetExec api n0 h n) {e : Executed} (hx : e ∈ n.log) {qs : List QueryRequest}
    (hs : Sent (onController h) e.packet qs) (hq : qs ≠ []) (hl : ∀ q ∈ qs, AsksForList q) {b : Books} (hb : b.Proper)
    (hbe : b.Answered e) {ack : Bytes} {relayer : String} {obs : List Obs}
    (hst : NetStep api n (.ctrl (.relayAck e.packet.src.channelId e.packet.sequence ack relayer)) n' obs) {cb : String}
    (hcb : callbackOf n.w = some cb) :
    ∃ res rs, CalledBack obs cb
        (.onAcknowledgementPacketCallback (.result res) e.packet relayer (some (.success e.height rs))) ∧
      List.Forall₂ (ListsFirst b) qs rs := by
  obtain ⟨res, r, k1, k2, k3⟩ := listing h0 he hx hs hq hb hbe hst hcb
  obtain ⟨rs, rfl⟩ := k3 hl
  exact ⟨res, rs, k1, (k2 _ _ rfl).2⟩

/-- **C104**, what holds: with at most a hundred coins or delegations, all of them are told. Missing: more of them
(`C104_incomplete`). -/
theorem C104_complete_partial {api : Api} {env : Env} {n0 : Net} (h0 : n0.Initial env) {b : Books} (hb : b.Proper)
    {qs : List QueryRequest} (hq : qs ≠ []) (hf : ∀ q ∈ qs, FitsOnePage b q) {height : UInt64} {rs : List IcaQueryResponse}
    (ht : Told api n0 b qs (.success height rs)) : List.Forall₂ (ListsAll b) qs rs := by
  have h := told_lists h0 hb hq ht
  clear ht hq
  induction h with
  | nil => exact .nil
  | @cons q r qs rs h1 _ ih =>
    refine .cons ?_ (ih fun q hq => hf q (List.mem_cons_of_mem _ hq))
    have hf := hf q (List.mem_cons_self ..)
    unfold ListsAll
    split
    · rw [show r = _ from h1, List.take_of_length_le hf]
    · rw [show r = _ from h1, List.take_of_length_le hf]
    · trivial

/-- A hundred and one coins. -/
def Ex.manyCoins : Books :=
  ⟨fun _ => (List.range 101).map fun i => ([UInt8.ofNat (i + 1)], ⟨decString i, ⟨1, by decide⟩⟩), fun _ => [], [], []⟩
theorem Ex.manyCoins_proper : Ex.manyCoins.Proper := by
  refine ⟨⟨?_, ?_⟩, ?_⟩ <;> simp [Ex.manyCoins]

/-- **C104 is false**: of a hundred and one coins, the callback contract is told a hundred, as if these were all. -/
theorem C104_incomplete : ¬ ∀ (api : Api) (env : Env) (n0 : Net) (b : Books) (qs : List QueryRequest) (height : UInt64)
    (rs : List IcaQueryResponse), n0.Initial env → b.Proper → qs ≠ [] → Told api n0 b qs (.success height rs) →
    List.Forall₂ (ListsAll b) qs rs := by
  intro hall
  have hl : ∀ q ∈ [QueryRequest.bank (.allBalances "cosmos1ica")], AsksForList q := by
    intro q hq
    obtain rfl := List.mem_singleton.1 hq
    trivial
  obtain ⟨height, rs, ht⟩ := Ex.lists_told Ex.manyCoins_proper (List.cons_ne_nil _ _) hl
  have h1 := told_lists Ex.initial0 Ex.manyCoins_proper (List.cons_ne_nil _ _) ht
  have h2 := hall _ _ _ _ _ _ _ Ex.initial0 Ex.manyCoins_proper (List.cons_ne_nil _ _) ht
  cases h1 with
  | @cons _ r _ _ a1 _ =>
    cases h2 with
    | cons a2 _ =>
      have a1 : r = _ := a1
      have a2 : r = _ := a2
      rw [a1] at a2
      injection a2 with a2
      injection a2 with a2
      injection a2 with a2
      have := congrArg List.length a2
      simp [Ex.manyCoins] at this

/-- Three coins are all told. -/
example : ∃ height, Told Ex.api Ex.net0
    ⟨fun _ => [([1], ⟨"a", ⟨1, by decide⟩⟩), ([2], ⟨"b", ⟨2, by decide⟩⟩), ([3], ⟨"c", ⟨3, by decide⟩⟩)], fun _ => [], [], []⟩
    [.bank (.allBalances "cosmos1ica")]
    (.success height [.bank (.allBalances ⟨[⟨"a", ⟨1, by decide⟩⟩, ⟨"b", ⟨2, by decide⟩⟩, ⟨"c", ⟨3, by decide⟩⟩]⟩)]) := by
  have hp : (⟨fun _ => [([1], ⟨"a", ⟨1, by decide⟩⟩), ([2], ⟨"b", ⟨2, by decide⟩⟩), ([3], ⟨"c", ⟨3, by decide⟩⟩)],
      fun _ => [], [], []⟩ : Books).Proper := ⟨⟨by simp, by simp⟩, by simp⟩
  have hl : ∀ q ∈ [QueryRequest.bank (.allBalances "cosmos1ica")], AsksForList q := by
    intro q hq
    obtain rfl := List.mem_singleton.1 hq
    trivial
  obtain ⟨height, rs, ht⟩ := Ex.lists_told hp (List.cons_ne_nil _ _) hl
  have h1 := C104_complete_partial Ex.initial0 hp (List.cons_ne_nil _ _) (by
    intro q hq
    obtain rfl := List.mem_singleton.1 hq
    show 3 ≤ 100
    decide) ht
  cases h1 with
  | @cons _ r _ _ a1 t =>
    cases t
    have a1 : r = _ := a1
    subst a1
    exact ⟨height, ht⟩

/-! ## Pages -/

/-- The key at a position; empty beyond the end. -/
def keyAt {α : Type} (l : List (Bytes × α)) (i : Nat) : Bytes := ((l.drop i).head?.map (·.1)).getD []

theorem keyAt_nil {α : Type} {l : List (Bytes × α)} (h : ∀ x ∈ l, x.1 ≠ []) (i : Nat) : keyAt l i = [] ↔ l.length ≤ i := by
  unfold keyAt
  cases hd : l.drop i with
  | nil => simpa using hd
  | cons x t =>
    have : x ∈ l := List.mem_of_mem_drop (hd ▸ List.mem_cons_self ..)
    have hlen : (l.drop i).length = l.length - i := List.length_drop
    rw [hd, List.length_cons] at hlen
    simp only [List.head?_cons, Option.map_some, Option.getD_some]
    exact ⟨fun hx => absurd hx (h x this), fun hle => by omega⟩

theorem ordered_keys {α : Type} {items : List (Bytes × α)} (hk : Keyed items) (reverse : Bool) :
    (∀ x ∈ inOrder reverse items, x.1 ≠ []) ∧
      (inOrder reverse items).Pairwise fun x y => if reverse then y.1 < x.1 else x.1 < y.1 := by
  cases reverse with
  | false => exact ⟨hk.1, hk.2.imp fun h => by simpa using h⟩
  | true =>
    refine ⟨fun x hx => hk.1 x (by simpa [inOrder] using hx), ?_⟩
    simp only [inOrder, if_true, List.pairwise_reverse]
    exact hk.2

/-- From the key at a position on, the list goes on at that position. -/
theorem fromKey_keyAt {α : Type} {items : List (Bytes × α)} (hk : Keyed items) (reverse : Bool) {i : Nat}
    (hi : i < items.length) :
    fromKey reverse (keyAt (inOrder reverse items) i) (inOrder reverse items) = (inOrder reverse items).drop i := by
  obtain ⟨h1, h2⟩ := ordered_keys hk reverse
  have hlen : (inOrder reverse items).length = items.length := by unfold inOrder; split <;> simp
  generalize inOrder reverse items = l at *
  cases hd : l.drop i with
  | nil => rw [List.drop_eq_nil_iff] at hd; omega
  | cons x t =>
    have hx : keyAt l i = x.1 := by simp [keyAt, hd]
    rw [hx]
    have hl : l = l.take i ++ x :: t := by rw [← hd, List.take_append_drop]
    rw [hl, List.pairwise_append] at h2
    obtain ⟨-, -, h2⟩ := h2
    conv_lhs => rw [hl]
    unfold fromKey
    rw [List.dropWhile_append_of_pos (by
      intro y hy
      have := h2 y hy x (List.mem_cons_self ..)
      cases reverse <;> simpa using this)]
    rw [List.dropWhile_cons_of_neg]
    cases reverse <;> simp [List.lt_irrefl]

/-- The pages of a list, one after the other. -/
theorem pageOf_next {α : Type} {items : List (Bytes × α)} (hk : Keyed items) (reverse : Bool) (limit : Nat) {i : Nat}
    (hi : i = 0 ∨ i < items.length) {key : Option Bytes}
    (hkey : i = 0 ∧ key = none ∨ key = some (keyAt (inOrder reverse items) i)) :
    (pageOf items (some ⟨key.getD [], 0, limit, false, reverse⟩)).1 =
      (((inOrder reverse items).drop i).take (pageSize limit)).map (·.2) ∧
    (pageOf items (some ⟨key.getD [], 0, limit, false, reverse⟩)).2.1 =
      keyAt (inOrder reverse items) (i + pageSize limit) := by
  have hlen : (inOrder reverse items).length = items.length := by unfold inOrder; split <;> simp
  have hstart : (if key.getD [] = [] then (inOrder reverse items).drop 0
      else fromKey reverse (key.getD []) (inOrder reverse items)) = (inOrder reverse items).drop i := by
    rcases hkey with ⟨rfl, rfl⟩ | rfl
    · simp
    · simp only [Option.getD_some]
      split
      · rename_i hnil
        rw [keyAt_nil (ordered_keys hk reverse).1] at hnil
        rcases hi with rfl | hi
        · rfl
        · omega
      · rename_i hnil
        rw [keyAt_nil (ordered_keys hk reverse).1] at hnil
        exact fromKey_keyAt hk reverse (by omega)
  unfold pageOf
  simp only [Option.getD_some]
  rw [hstart]
  refine ⟨rfl, ?_⟩
  unfold keyAt
  rw [List.drop_drop]

theorem toldPage_eq {api : Api} {env : Env} {n0 : Net} (h0 : n0.Initial env) {b : Books} (hb : b.Proper) {limit : UInt32}
    {reverse : Bool} {key : Option Bytes} {l : List DenomMetadata} {next : Option Bytes}
    (ht : ToldPage api n0 b limit reverse key l next) :
    l = (pageOf b.metadata (some ⟨key.getD [], 0, limit.toNat, false, reverse⟩)).1 ∧
      next = some (pageOf b.metadata (some ⟨key.getD [], 0, limit.toNat, false, reverse⟩)).2.1 := by
  obtain ⟨height, ht⟩ := ht
  have h := told_lists h0 hb (List.cons_ne_nil _ _) ht
  cases h with
  | cons a _ =>
    have a : IcaQueryResponse.bank _ = .bank _ := a
    injection a with a
    injection a with a
    injection a with a1 a2
    exact ⟨a1, a2⟩

/-- **C105**, what holds: asking for page after page as long as the key that came with the last page is not empty, the callback contract is
told the descriptions in the host's order (or the reverse), each once, as many as the pages hold; and the key is empty exactly
if there are no more. Missing: that there is no key then (`C105_repeats`). -/
theorem C105_pages_partial {api : Api} {env : Env} {n0 : Net} (h0 : n0.Initial env) {b : Books} (hb : b.Proper)
    {limit : UInt32} {reverse : Bool} {k : Nat} {l : List DenomMetadata} {next : Option Bytes}
    (h : Browsed (ToldPage api n0 b limit reverse) (· ≠ some []) k l next) :
    l = ((inOrder reverse b.metadata).take (k * pageSize limit.toNat)).map (·.2) ∧
      (next = some [] ↔ b.metadata.length ≤ k * pageSize limit.toNat) ∧ next ≠ none := by
  have hlen : (inOrder reverse b.metadata).length = b.metadata.length := by unfold inOrder; split <;> simp
  have hnil := fun i => keyAt_nil (ordered_keys hb.1 reverse).1 i
  have main : l = ((inOrder reverse b.metadata).take (k * pageSize limit.toNat)).map (·.2) ∧
      next = some (keyAt (inOrder reverse b.metadata) (k * pageSize limit.toNat)) := by
    induction h with
    | first ht =>
      obtain ⟨e1, e2⟩ := toldPage_eq h0 hb ht
      obtain ⟨p1, p2⟩ := pageOf_next hb.1 reverse limit.toNat (i := 0) (.inl rfl) (key := none) (.inl ⟨rfl, rfl⟩)
      rw [e1, e2, p1, p2]
      simp
    | @more k l l' key next _ hgo ht ih =>
      obtain ⟨i1, i2⟩ := ih
      obtain ⟨e1, e2⟩ := toldPage_eq h0 hb ht
      have hlt : k * pageSize limit.toNat < b.metadata.length := by
        rw [i2] at hgo
        have : ¬ keyAt (inOrder reverse b.metadata) (k * pageSize limit.toNat) = [] := fun e => hgo (by rw [e])
        rw [hnil] at this
        omega
      obtain ⟨p1, p2⟩ := pageOf_next hb.1 reverse limit.toNat (.inr hlt) (.inr i2)
      rw [e1, e2, p1, p2, i1, Nat.succ_mul]
      refine ⟨?_, rfl⟩
      rw [List.take_add, List.map_append]
  obtain ⟨m1, m2⟩ := main
  refine ⟨m1, ?_, by rw [m2]; exact fun e => by cases e⟩
  rw [m2, Option.some.injEq, hnil, hlen]

/-- In the scenario, every page can be asked for and is told. -/
theorem Ex.page_told {b : Books} (hb : b.Proper) (limit : UInt32) (reverse : Bool) (key : Option Bytes) :
    ∃ l next, ToldPage Ex.api Ex.net0 b limit reverse key l next := by
  have hl : ∀ q ∈ [QueryRequest.bank (.allDenomMetadata (some ⟨key, limit, reverse⟩))], AsksForList q := by
    intro q hq
    obtain rfl := List.mem_singleton.1 hq
    trivial
  obtain ⟨height, rs, ht⟩ := Ex.lists_told hb (List.cons_ne_nil _ _) hl
  have h1 := told_lists Ex.initial0 hb (List.cons_ne_nil _ _) ht
  cases h1 with
  | @cons _ r _ _ a t =>
    cases t
    have a : r = _ := a
    subst a
    exact ⟨_, _, height, ht⟩

/-- Three descriptions, two at a time from the last: two pages, told in the scenario, and then an empty key. -/
example (d1 d2 d3 : DenomMetadata) : Browsed
    (ToldPage Ex.api Ex.net0 ⟨fun _ => [], fun _ => [], [], [([1], d1), ([1, 0], d2), ([2], d3)]⟩ 2 true) (· ≠ some []) 2
    [d3, d2, d1] (some []) := by
  have hb : (⟨fun _ => [], fun _ => [], [], [([1], d1), ([1, 0], d2), ([2], d3)]⟩ : Books).Proper := by
    refine ⟨⟨by simp, ?_⟩, by simp⟩
    simp only [List.pairwise_cons, List.mem_cons, List.not_mem_nil, or_false, forall_eq_or_imp, forall_eq, List.Pairwise.nil,
      and_true, false_implies, implies_true]
    decide
  obtain ⟨l1, k1, h1⟩ := Ex.page_told hb 2 true none
  obtain ⟨l2, k2, h2⟩ := Ex.page_told hb 2 true k1
  obtain ⟨e1, e2⟩ := toldPage_eq Ex.initial0 hb h1
  obtain ⟨e3, e4⟩ := toldPage_eq Ex.initial0 hb h2
  subst e2
  have hm : (some [1] : Option Bytes) ≠ some [] := by decide
  have := Browsed.more (goOn := (· ≠ some [])) (.first h1) hm h2
  rw [e1, e3, e4] at this
  exact this

/-- One description. -/
def Ex.oneDenom : Books :=
  ⟨fun _ => [], fun _ => [], [], [([1], ⟨"the atom", [], "uatom", "atom", "Atom", "ATOM", "", ""⟩)]⟩
theorem Ex.oneDenom_proper : Ex.oneDenom.Proper := by
  refine ⟨⟨?_, ?_⟩, ?_⟩ <;> simp [Ex.oneDenom]

/-- **C105 is false**: a contract that asks for page after page as long as there is a key never comes to an end, and is told the
only description twice after two pages. -/
theorem C105_repeats : ¬ ∀ (api : Api) (env : Env) (n0 : Net) (b : Books) (limit : UInt32) (reverse : Bool) (k : Nat)
    (l : List DenomMetadata) (next : Option Bytes), n0.Initial env → b.Proper →
    Browsed (ToldPage api n0 b limit reverse) (· ≠ none) k l next →
    l = ((inOrder reverse b.metadata).take (k * pageSize limit.toNat)).map (·.2) := by
  intro hall
  obtain ⟨l1, next1, h1⟩ := Ex.page_told Ex.oneDenom_proper 1 false none
  obtain ⟨l2, next2, h2⟩ := Ex.page_told Ex.oneDenom_proper 1 false next1
  obtain ⟨e1, e2⟩ := toldPage_eq Ex.initial0 Ex.oneDenom_proper h1
  obtain ⟨e3, -⟩ := toldPage_eq Ex.initial0 Ex.oneDenom_proper h2
  have := hall _ _ _ _ _ _ _ _ _ Ex.initial0 Ex.oneDenom_proper (.more (.first h1) (by rw [e2]; exact fun e => by cases e) h2)
  subst e2
  rw [e1, e3] at this
  have := congrArg List.length this
  revert this
  decide

/-- **C105**: whatever key came with a page, there is one; so there is no end to asking for more while there is a key. -/
theorem C105_always_a_key {api : Api} {env : Env} {n0 : Net} (h0 : n0.Initial env) {b : Books} (hb : b.Proper)
    {limit : UInt32} {reverse : Bool} {key : Option Bytes} {l : List DenomMetadata} {next : Option Bytes}
    (h : ToldPage api n0 b limit reverse key l next) : next ≠ none := by
  rw [(toldPage_eq h0 hb h).2]
  exact fun e => by cases e

/-! ## The active set -/

/-- **C106**, what holds: told are the first hundred validators, of any status, in the host's order. Missing: that they are the active ones
(`C106_others_too`). -/
theorem C106_first_hundred_partial {api : Api} {env : Env} {n0 : Net} (h0 : n0.Initial env) {b : Books} (hb : b.Proper)
    {height : UInt64} {rs : List IcaQueryResponse} (ht : Told api n0 b [.staking .allValidators] (.success height rs)) :
    ∃ vs, rs = [.staking (.allValidators ⟨vs⟩)] ∧ List.Forall₂ ScaledRates ((b.validators.take 100).map (·.2)) vs := by
  have h := told_lists h0 hb (List.cons_ne_nil _ _) ht
  cases h with
  | @cons _ r _ _ a t =>
    cases t
    obtain ⟨vs, rfl, hvs⟩ := (show ∃ vs, r = _ ∧ _ from a)
    exact ⟨vs, rfl, hvs⟩

/-- **C106**, what holds: if all validators are active and there are at most a hundred, the active set is told. -/
theorem C106_active_partial {api : Api} {env : Env} {n0 : Net} (h0 : n0.Initial env) {b : Books} (hb : b.Proper)
    (hlen : b.validators.length ≤ 100) (hact : ∀ v ∈ b.validators, Active v.2) {qs : List QueryRequest} (hq : qs ≠ [])
    {height : UInt64} {rs : List IcaQueryResponse} (ht : Told api n0 b qs (.success height rs)) :
    List.Forall₂ (ListsActive b) qs rs := by
  have h := told_lists h0 hb hq ht
  refine h.imp fun q r h1 => ?_
  unfold ListsActive
  split
  · obtain ⟨vs, e, hvs⟩ := (show ∃ vs, r = _ ∧ _ from h1)
    refine ⟨vs, e, ?_⟩
    have hf : b.withStatus "BOND_STATUS_BONDED" = b.validators := by
      unfold Books.withStatus
      rw [List.filter_eq_self]
      intro v hv
      have h : statusName v.2.status = "BOND_STATUS_BONDED" := hact v hv
      simp [h]
    rw [hf]
    rw [List.take_of_length_le hlen] at hvs
    clear e hlen hact hf
    generalize b.validators = l at hvs
    induction l generalizing vs with
    | nil => cases hvs; rfl
    | cons x l ih =>
      cases hvs with
      | cons a t => simp only [List.map_cons, ih _ t, a.1]
  · trivial

/-- An active validator is told in the scenario. -/
example : ∃ height r, Told Ex.api Ex.net0 ⟨fun _ => [], fun _ => [], [([1], Ex.validator [])], []⟩ [.staking .allValidators]
    (.success height [.staking (.allValidators ⟨[r]⟩)]) ∧ r.address = "cosmosvaloper1x" := by
  have hb : (⟨fun _ => [], fun _ => [], [([1], Ex.validator [])], []⟩ : Books).Proper := by
    refine ⟨⟨by simp, by simp⟩, ?_⟩
    intro v hv
    obtain rfl := List.mem_singleton.1 hv
    exact ⟨⟨⟨by simp [Ex.validator], by simp [Ex.validator]⟩, ⟨by simp [Ex.validator], by simp [Ex.validator]⟩⟩,
      by decide, by decide, by decide⟩
  have hl : ∀ q ∈ [QueryRequest.staking .allValidators], AsksForList q := by
    intro q hq
    obtain rfl := List.mem_singleton.1 hq
    trivial
  obtain ⟨height, rs, ht⟩ := Ex.lists_told hb (List.cons_ne_nil _ _) hl
  obtain ⟨vs, rfl, h1⟩ := C106_first_hundred_partial Ex.initial0 hb ht
  cases h1 with
  | @cons _ r _ _ a t =>
    cases t
    exact ⟨height, r, ht, a.1⟩

/-- An active validator and one that is not. -/
def Ex.twoValidators : Books :=
  ⟨fun _ => [], fun _ => [], [([1], Ex.validator []), ([2], { Ex.validator [] with operator := "cosmosvaloper1y", status := 1 })], []⟩
theorem Ex.twoValidators_proper : Ex.twoValidators.Proper := by
  refine ⟨⟨by simp [Ex.twoValidators], by simp [Ex.twoValidators]⟩, ?_⟩
  intro v hv
  simp only [Ex.twoValidators, List.mem_cons, List.not_mem_nil, or_false] at hv
  rcases hv with rfl | rfl <;>
    exact ⟨⟨⟨by simp [Ex.validator], by simp [Ex.validator]⟩, ⟨by simp [Ex.validator], by simp [Ex.validator]⟩⟩,
      by decide, by decide, by decide⟩

/-- **C106 is false**: a validator that is not active is listed with the active ones. -/
theorem C106_others_too : ¬ ∀ (api : Api) (env : Env) (n0 : Net) (b : Books) (qs : List QueryRequest) (height : UInt64)
    (rs : List IcaQueryResponse), n0.Initial env → b.Proper → qs ≠ [] → b.validators.length ≤ 100 →
    Told api n0 b qs (.success height rs) → List.Forall₂ (ListsActive b) qs rs := by
  intro hall
  have hl : ∀ q ∈ [QueryRequest.staking .allValidators], AsksForList q := by
    intro q hq
    obtain rfl := List.mem_singleton.1 hq
    trivial
  obtain ⟨height, rs, ht⟩ := Ex.lists_told Ex.twoValidators_proper (List.cons_ne_nil _ _) hl
  obtain ⟨vs, rfl, h1⟩ := C106_first_hundred_partial Ex.initial0 Ex.twoValidators_proper ht
  have h2 := hall _ _ _ _ _ _ _ Ex.initial0 Ex.twoValidators_proper (List.cons_ne_nil _ _) (by decide) ht
  cases h2 with
  | cons a _ =>
    obtain ⟨vs', e, hvs⟩ := (show ∃ vs', _ = _ ∧ _ from a)
    injection e with e
    injection e with e
    injection e with e
    subst e
    have e1 := h1.length_eq
    have e2 := congrArg List.length hvs
    rw [List.length_map] at e2
    rw [← e1] at e2
    revert e2
    decide +kernel

end Ica
