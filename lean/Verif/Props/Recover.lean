import Verif.Props.Use

/-!
# C99: a lost channel does not mean lost funds

C91 and C97 together: the account of a closed channel can be reached again and used.
-/
namespace Ica
open Spec

section
variable {api : Api} {env : Env} {n0 n : Net} {h : List (NetOp × List Obs)}

theorem continues_of_carrying {owner : String} {l : List (NetOp × List Obs)} {n' : Net} (hl : NetExec api n l n')
    (hc : ∀ x ∈ l, Carrying owner x.1) : Continues api h n l n' := by
  induction hl with
  | nil => exact .nil
  | @step l n1 n2 op obs _ hs ih =>
    refine .step (ih fun x hx => hc x (List.mem_append_left _ hx)) hs ?_
    have := hc _ (List.mem_append_right _ (List.mem_singleton.2 rfl))
    cases op <;> first | trivial | cases this

/-- **C99.** Whatever became of the channel, as long as no other channel of its connection is open: the owner and relayers
can bring about a new channel to the same account, with any ordering, and then whatever the owner asks for can be carried
out under the account and is answered, any number of times. Hosts may allow one channel at a time. -/
theorem C99_recover_and_use (h0 : n0.Initial env) (he : NetExec api n0 h n) (ht : 0 < env.time) {owner : String}
    (ho : ownerOf n.w = some owner) {ch : IbcChannel} {s : ChannelStatus} (hr : Reports n.w ch s) {info : IcaInfo}
    (hi : icaOf n.w = some info)
    (hu : ∀ id x, ChainOpen n.w id x → x.connectionId = ch.connectionId → id = ch.endpoint.channelId)
    (hq : n.w.nextSeq ch.endpoint.channelId < 2 ^ 64)
    {o : ChannelOpenInitOptions} (ho1 : o.connectionId = ch.connectionId)
    (ho2 : o.counterpartyConnectionId = (n.hosts ch.connectionId).connection)
    (ho3 : o.counterpartyPortId = none ∨ o.counterpartyPortId = some "icahost")
    {rs : List Request} (hrs : rs.length < 2 ^ 64)
    (hf : ∀ r ∈ rs, r.Fine n ch info.icaAddress ∧ r.timeout ≠ some 0) :
    ∃ l n1 ch' l' n2 es, Continues api h n l n1 ∧ (∀ x ∈ l, ByOwnerAndRelayers owner x.1) ∧
      Working n1 ch' info.icaAddress ∧ ch'.connectionId = ch.connectionId ∧ ch'.order = askedOrder o ∧
      Continues api (h ++ l) n1 l' n2 ∧ (∀ x ∈ l', Carrying owner x.1) ∧ n2.log = n1.log ++ es ∧
      List.Forall₂ (fun (r : Request) (e : Executed) => e.account = info.icaAddress ∧ r.ReadAs info.icaAddress e.messages)
        rs es ∧
      (∀ e ∈ es, ∃ x ∈ l', ∃ relayer, ∀ cb, callbackOf n.w = some cb →
        ToldOutcome x.2 cb e.packet relayer (.ok e.responses)) ∧
      Working n2 ch' info.icaAddress := by
  obtain ⟨l, n1, ch', a, b, c, d, e, fresh, obs, -, -, f3, f4, f5, f6, f7, f8, f9⟩ :=
    reopen h0 he ht ho hr hi hu hq ho1 ho2 ho3
  subst f3
  obtain ⟨l', n2, es, k1, k2, k3, k4, k5, k6, -⟩ := C97_any_number h0 (netExec_append he a.exec) f6 c (fun _ => f4) rs
    (by omega) (fun r hr => by
      obtain ⟨f, f'⟩ := hf r hr
      refine ⟨f.messages, f.queries, f.signed, by rw [f7]; exact f.fits, ?_⟩
      have h1 := f.later
      have h2 : 0 < allowedSeconds r.timeout := by
        unfold allowedSeconds
        cases ht : r.timeout with
        | none => decide
        | some t =>
          refine Nat.pos_of_ne_zero fun e => f' ?_
          rw [ht]
          congr 1
          exact UInt64.toNat_inj.1 e
      rw [d, f7]
      omega)
  exact ⟨l, n1, ch', l', n2, es, a, b, c, d, e, continues_of_carrying k1 k2, k2, k3, k4,
    fun e he => by rw [f8] at k5; exact k5 e he, k6⟩

end

/-- In the scenario: the open channel-0 is replaced by an unordered channel, and the scenario's request carried out over it. -/
example : ∃ l n1, ∃ ch' : IbcChannel, ∃ l' n2 e, Continues Ex.api (Ex.nh5.take 4) Ex.net4 l n1 ∧ ch'.order = .unordered ∧
    Continues Ex.api (Ex.nh5.take 4 ++ l) n1 l' n2 ∧ n2.log = n1.log ++ [e] ∧ e.account = "cosmos1ica" ∧
    Request.ReadAs ⟨Ex.msgs, Ex.qs, some "hi", none⟩ "cosmos1ica" e.messages := by
  have he : NetExec Ex.api Ex.net0 (Ex.nh5.take 4) Ex.net4 :=
    .step (h := [_, _, _]) (.step (h := [_, _]) (.step (h := [_]) (.step (h := []) .nil Ex.ns1) Ex.ns2) Ex.ns3) Ex.ns4
  obtain ⟨l, n1, ch', l', n2, es, a, -, -, -, b, c, -, d, e, -⟩ := C99_recover_and_use (owner := "alice")
    (ch := Ex.chan "channel-0" Ex.opts) (s := .opened) (info := Ex.info "channel-0") (o := Ex.opts') Ex.initial0 he (by decide)
    rfl rfl rfl (by
      intro id x hx _
      have hx : Ex.w2.chans id = some ⟨x, .opened⟩ := hx
      by_cases h : id = "channel-0"
      · exact h
      · simp [Ex.w2, Ex.eAck, Ex.w1, Ex.eInst, setChan, h, Ex.w0, World.genesis] at hx) (by decide +kernel) rfl rfl (.inr rfl)
    (rs := [⟨Ex.msgs, Ex.qs, some "hi", none⟩]) (by decide) (by
      intro r hr
      obtain rfl := List.mem_singleton.1 hr
      exact ⟨Ex.usable.2.2, fun h => by cases h⟩)
  cases e with
  | @cons _ x _ _ k t => cases t; exact ⟨l, n1, ch', l', n2, x, a, b, c, d, k.1, k.2⟩

end Ica
