import Verif.Props.Scenario
import Verif.Spec.Observe

/-!
# Ownership: C01 to C05
-/
namespace Ica
open Spec

theorem ownerOf_eq {w : World} {o : String} :
    ownerOf w = some o ↔ ∃ ow, w.store.ownership = some ow ∧ ow.owner = some o := by
  unfold ownerOf
  cases h : w.store.ownership <;> simp

/-- **C01** (entry point). Whatever is in storage, every execute message other than `AcceptOwnership` is refused
unless it comes from the stored owner. -/
theorem C01_only_owner_executes {api : Api} {env : Env} {s : Store} {sender : String} {msg : ExecuteMsg}
    {r : Store × Response} (hne : msg ≠ .updateOwnership .acceptOwnership)
    (h : execute api env s sender msg = .ok r) :
    ∃ ow, s.ownership = some ow ∧ ow.owner = some sender := by
  obtain ⟨s', x⟩ := r
  cases msg with
  | createChannel o => exact (createChannel_eq_ok.1 h).1
  | closeChannel => exact (closeChannel_eq_ok.1 h).1
  | sendCosmosMsgs ms qs memo t => exact (sendCosmosMsgs_eq_ok.1 h).1
  | updateCallbackAddress a => exact (updateCallbackAddress_eq_ok.1 h).1
  | updateOwnership a =>
    cases a with
    | transferOwnership n e => obtain ⟨ow, a, b, _⟩ := transfer_eq_ok.1 h; exact ⟨ow, a, b⟩
    | acceptOwnership => exact absurd rfl hne
    | renounceOwnership => simp only [execute, renounce_err] at h; cases h

/-- **C01** (transaction). In every world, a committed execute other than `AcceptOwnership` was sent by the
owner. -/
theorem C01_only_owner_acts {api : Api} {w w' : World} {sender fresh : String} {core : Bool} {msg : ExecuteMsg}
    {obs : List Obs} (hne : msg ≠ .updateOwnership .acceptOwnership)
    (h : Commits api w (.execute sender msg fresh core) w' obs) : ownerOf w = some sender := by
  rw [ownerOf_eq]
  simp only [Commits, apply, applyWith] at h
  split at h
  · obtain ⟨s, x, obs', h1, _⟩ := finish_eq_some.1 h
    exact C01_only_owner_executes hne h1
  · cases h

/-- Non-vacuous: alice's send commits; the same send by anybody else is refused. -/
example : ∃ w' obs, Commits Ex.api Ex.w2 (.execute "alice" (.sendCosmosMsgs Ex.msgs Ex.qs (some "hi") none) "" true)
    w' obs := ⟨_, _, (apply_iff_step (inv_of_reachable Ex.r2)).2 Ex.s3⟩
example : Refused Ex.api Ex.w2 (.execute "mallory" (.sendCosmosMsgs Ex.msgs Ex.qs (some "hi") none) "" true) := by
  cases h : apply Ex.api Ex.w2 (.execute "mallory" (.sendCosmosMsgs Ex.msgs Ex.qs (some "hi") none) "" true) with
  | none => exact h
  | some r =>
    have := C01_only_owner_acts (by simp) (show Commits _ _ _ r.1 r.2 from h)
    exact absurd this (by decide +kernel)

/-- The ownership record changes only by instantiation, transfer and accept. -/
theorem ownership_frame {api : Api} {w w' : World} {op : Op} {obs : List Obs} (hs : Step api w op w' obs)
    (hl : w.live = true) (h : op.handover = false) : w'.store.ownership = w.store.ownership := by
  cases hs with
  | send sender ms qs memo t fresh st info anys cqs c ts p => exact (storeAfterSend_fields _ _ _ _ _).2.1
  | instantiate _ _ _ hl' => rw [hl] at hl'; cases hl'
  | transfer _ _ _ _ _ => simp [Op.handover] at h
  | accept _ _ _ => simp [Op.handover] at h
  | _ => rfl

theorem unexpired_iff {env : Env} {e : Option Expiration} :
    Unexpired env e ↔ ∀ x, e = some x → x.isExpired env = false := by
  cases e with
  | none => simp [Unexpired]
  | some x =>
    cases x <;> simp [Unexpired, Expiration.isExpired, UInt64.lt_iff_toNat_lt]

/-- What a nomination in force means for the history: it was made by the owner of that time, and no other handover
message has been committed since. -/
theorem nominee_history {api : Api} {env : Env} {h : List (Op × List Obs)} {w : World}
    (he : Exec api (World.genesis env) h w) :
    ∀ p e, nominee w = some (p, e) →
      ∃ prev h1 h2 f c o w1, h = h1 ++ (.execute prev (.updateOwnership (.transferOwnership p e)) f c, o) :: h2 ∧
        Exec api (World.genesis env) h1 w1 ∧ ownerOf w1 = some prev ∧ ownerOf w = some prev ∧
        ∀ x ∈ h2, x.1.handover = false := by
  refine exec_induction (C := fun h w => ∀ p e, nominee w = some (p, e) →
      ∃ prev h1 h2 f c o w1, h = h1 ++ (.execute prev (.updateOwnership (.transferOwnership p e)) f c, o) :: h2 ∧
        Exec api (World.genesis env) h1 w1 ∧ ownerOf w1 = some prev ∧ ownerOf w = some prev ∧
        ∀ x ∈ h2, x.1.handover = false) ?_ ?_ he
  · intro p e hn; simp [nominee, World.genesis, Store.empty] at hn
  · intro h w op w' obs hex hi ih hs p e hn
    by_cases hl : w.live = true
    · by_cases hh : op.handover = false
      · have hf := ownership_frame hs hl hh
        have hn' : nominee w = some (p, e) := by unfold nominee at hn ⊢; rwa [hf] at hn
        obtain ⟨prev, h1, h2, f, c, o, w1, e1, e2, e3, e4, e5⟩ := ih p e hn'
        refine ⟨prev, h1, h2 ++ [(op, obs)], f, c, o, w1, ?_, e2, e3, ?_, ?_⟩
        · rw [e1]; simp
        · unfold ownerOf at e4 ⊢; rwa [hf]
        · intro x hx
          rcases List.mem_append.1 hx with hx | hx
          · exact e5 x hx
          · simp only [List.mem_singleton] at hx
            rw [hx]; exact hh
      · cases hs with
        | transfer sender n e' fresh core ow hl a b c =>
          simp only [nominee, Option.some.injEq, Prod.mk.injEq] at hn
          obtain ⟨rfl, rfl⟩ := hn
          refine ⟨sender, h, [], fresh, core, [], w, by simp, hex, ownerOf_eq.2 ⟨ow, a, b⟩, ?_, by simp⟩
          simp [ownerOf, b]
        | accept sender fresh core ow hl a b => simp [nominee] at hn
        | _ => simp [Op.handover] at hh
    · cases hs with
      | block ht t _ _ =>
        have hd := (hi.dead (by simpa using hl)).1
        simp [nominee, hd, Store.empty] at hn
      | instantiate => simp [nominee] at hn
      | create _ _ _ _ hl' => exact absurd hl' hl
      | close _ _ _ hl' => exact absurd hl' hl
      | send _ _ _ _ _ _ _ _ _ _ _ _ _ hl' => exact absurd hl' hl
      | callback _ _ _ _ _ hl' => exact absurd hl' hl
      | transfer _ _ _ _ _ _ hl' => exact absurd hl' hl
      | accept _ _ _ _ hl' => exact absurd hl' hl
      | openAck _ _ _ _ _ _ hc => exact absurd (hi.live_of_chan hc) hl
      | closeConfirm _ _ hc => exact absurd (hi.live_of_chan hc) hl
      | ackOk _ _ _ _ _ _ _ _ _ _ hc => exact absurd (hi.live_of_chan hc) hl
      | ackErr _ _ _ _ _ _ _ _ _ hc => exact absurd (hi.live_of_chan hc) hl
      | timeout _ _ _ _ _ _ _ _ hc => exact absurd (hi.live_of_chan hc) hl

/-- **C02**. In every history of an instantiated contract: if a transaction changes the owner, it is an
`AcceptOwnership` of the new owner, who was nominated by the previous owner in an earlier committed
`TransferOwnership`, with no other handover message since, and the nomination has not expired. -/
theorem C02_two_step_handover {api : Api} {env : Env} {h : List (Op × List Obs)} {w w' : World} {op : Op}
    {obs : List Obs} (he : Exec api (World.genesis env) h w) (hl : w.live = true)
    (hc : Commits api w op w' obs) (hne : ownerOf w' ≠ ownerOf w) :
    ∃ new fresh core, op = .execute new (.updateOwnership .acceptOwnership) fresh core ∧ ownerOf w' = some new ∧
      ∃ prev expiry h1 h2 f c o w1,
        h = h1 ++ (.execute prev (.updateOwnership (.transferOwnership new expiry)) f c, o) :: h2 ∧
        Exec api (World.genesis env) h1 w1 ∧ ownerOf w1 = some prev ∧ ownerOf w = some prev ∧
        (∀ x ∈ h2, x.1.handover = false) ∧ Unexpired w.env expiry := by
  have hi := inv_exec (inv_genesis api env) he
  have hs := step_of_apply hi hc
  by_cases hh : op.handover = false
  · exact absurd (by unfold ownerOf; rw [ownership_frame hs hl hh]) hne
  · cases hs with
    | transfer sender n e fresh core ow hl a b c =>
      exact absurd (by simp [ownerOf, a]) hne
    | accept sender fresh core ow hl a b =>
      refine ⟨sender, fresh, core, rfl, rfl, ?_⟩
      obtain ⟨b1, b2⟩ := b
      have hn : nominee w = some (sender, ow.pendingExpiry) := by
        obtain ⟨x, y, z⟩ := ow
        simp only at b1
        simp [nominee, a, b1]
      obtain ⟨prev, h1, h2, f, c, o, w1, e1, e2, e3, e4, e5⟩ := nominee_history he _ _ hn
      exact ⟨prev, ow.pendingExpiry, h1, h2, f, c, o, w1, e1, e2, e3, e4, e5, unexpired_iff.2 b2⟩
    | _ => simp [Op.handover] at hh

/-- The world in which alice has nominated bob until height 200. -/
def Ex.n1 : World := { Ex.w2 with store := { Ex.w2.store with
  ownership := some ⟨some "alice", some "bob", some (.atHeight 200)⟩ } }
theorem Ex.sn1 : Step Ex.api Ex.w2 (.execute "alice" (.updateOwnership (.transferOwnership "bob" (some (.atHeight 200))))
    "" true) Ex.n1 [] := .transfer _ _ _ _ _ ⟨some "alice", none, none⟩ rfl rfl rfl (by decide +kernel)
theorem Ex.rn1 : Reachable Ex.api Ex.n1 := Ex.toStep Ex.r2 Ex.sn1
/-- Non-vacuous: bob's acceptance commits and changes the owner. -/
example : ∃ w' obs, Commits Ex.api Ex.n1 (.execute "bob" (.updateOwnership .acceptOwnership) "" true) w' obs ∧
    ownerOf w' = some "bob" ∧ ownerOf w' ≠ ownerOf Ex.n1 :=
  ⟨_, _, (apply_iff_step (inv_of_reachable Ex.rn1)).2
    (.accept _ _ _ ⟨some "alice", some "bob", some (.atHeight 200)⟩ rfl rfl
      ⟨rfl, fun e h => by cases h; decide +kernel⟩), rfl, by decide +kernel⟩

/-- **C03**. From instantiation on there is always an owner; and the contract stays instantiated. -/
theorem C03_always_an_owner {api : Api} {w : World} (h : Reachable api w) (hl : w.live = true) :
    ∃ o, ownerOf w = some o := by
  obtain ⟨ow, o, a, b⟩ := (inv_of_reachable h).owner hl
  exact ⟨o, ownerOf_eq.2 ⟨ow, a, b⟩⟩

theorem live_step {api : Api} {w w' : World} {op : Op} {obs : List Obs} (hs : Step api w op w' obs)
    (hl : w.live = true) : w'.live = true := by
  cases hs <;> first | rfl | exact hl

/-- **C03**. An instantiated contract stays instantiated, so it keeps having an owner for ever. -/
theorem C03_owner_for_ever {api : Api} {w w' : World} {h : List (Op × List Obs)} (hr : Reachable api w)
    (hl : w.live = true) (he : Exec api w h w') : ∃ o, ownerOf w' = some o := by
  have hi := inv_of_reachable hr
  have hl' : w'.live = true := by
    refine exec_induction' (C := fun _ w => w.live = true) hi hl ?_ he
    intro _ _ _ _ _ _ _ ih hs
    exact live_step hs ih
  obtain ⟨ow, o, a, b⟩ := (inv_exec hi he).owner hl'
  exact ⟨o, ownerOf_eq.2 ⟨ow, a, b⟩⟩

/-- **C03**. `RenounceOwnership` is refused in every world, whoever sends it. -/
theorem C03_no_renounce (api : Api) (w : World) (sender fresh : String) (core : Bool) :
    Refused api w (.execute sender (.updateOwnership .renounceOwnership) fresh core) := apply_renounce

example : Reachable Ex.api Ex.w1 ∧ Ex.w1.live = true := ⟨Ex.r1, rfl⟩

/-- **C04**. `AcceptOwnership` by the nominee commits exactly while the nomination has not expired (strictly
before the stated height or time), and then makes the nominee the owner. -/
theorem C04_accept_iff_unexpired {api : Api} {w : World} {p : String} {e : Option Expiration}
    (hl : w.live = true) (hn : nominee w = some (p, e)) (fresh : String) (core : Bool) :
    (∃ w' obs, Commits api w (.execute p (.updateOwnership .acceptOwnership) fresh core) w' obs) ↔
      Unexpired w.env e := by
  unfold nominee at hn
  split at hn
  · rename_i o p' e' ho
    simp only [Option.some.injEq, Prod.mk.injEq] at hn
    obtain ⟨rfl, rfl⟩ := hn
    rw [unexpired_iff]
    constructor
    · rintro ⟨w', obs, h⟩
      obtain ⟨_, ow, a, b, _⟩ := apply_accept.1 h
      rw [ho] at a
      cases a
      exact b.2
    · intro h
      exact ⟨_, _, apply_accept.2 ⟨hl, _, ho, ⟨rfl, h⟩, rfl, rfl⟩⟩
  · cases hn

/-- **C04**. Nobody but the nominee can accept. -/
theorem C04_only_nominee {api : Api} {w w' : World} {x fresh : String} {core : Bool} {obs : List Obs}
    (h : Commits api w (.execute x (.updateOwnership .acceptOwnership) fresh core) w' obs) :
    ∃ e, nominee w = some (x, e) ∧ ownerOf w' = some x ∧ nominee w' = none := by
  obtain ⟨_, ow, a, b, rfl, _⟩ := apply_accept.1 h
  obtain ⟨o, p, e⟩ := ow
  obtain ⟨b1, _⟩ := b
  simp only at b1
  subst b1
  exact ⟨e, by simp [nominee, a], rfl, rfl⟩

theorem env_mono {api : Api} {w w' : World} {op : Op} {obs : List Obs} (hs : Step api w op w' obs) :
    w.env.height.toNat ≤ w'.env.height.toNat ∧ w.env.time.toNat ≤ w'.env.time.toNat := by
  cases hs with
  | block h t a b => exact ⟨UInt64.le_iff_toNat_le.1 a, UInt64.le_iff_toNat_le.1 b⟩
  | _ => exact ⟨Nat.le_refl _, Nat.le_refl _⟩

/-- **C04**. A lapsed nomination stays lapsed: whatever happens afterwards, as long as the owner makes no new
nomination the owner does not change. -/
theorem C04_lapsed_for_ever {api : Api} {w w' : World} {p : String} {e : Option Expiration}
    {h : List (Op × List Obs)} (hr : Reachable api w) (hl : w.live = true) (hn : nominee w = some (p, e))
    (hx : ¬ Unexpired w.env e) (he : Exec api w h w')
    (hno : ∀ x ∈ h, ∀ s n ex f c, x.1 ≠ .execute s (.updateOwnership (.transferOwnership n ex)) f c) :
    w'.store.ownership = w.store.ownership ∧ ¬ Unexpired w'.env e := by
  have hi := inv_of_reachable hr
  revert hno
  have key := exec_induction' (C := fun h w' =>
    (∀ x ∈ h, ∀ s n ex f c, x.1 ≠ .execute s (.updateOwnership (.transferOwnership n ex)) f c) →
    w'.live = true ∧ w'.store.ownership = w.store.ownership ∧ ¬ Unexpired w'.env e) hi
    (fun _ => ⟨hl, rfl, hx⟩) ?_ he
  · exact fun hno => (key hno).2
  · intro l w1 op w2 obs _ hi1 ih hs hno
    obtain ⟨a, b, c⟩ := ih fun x hx => hno x (List.mem_append_left _ hx)
    have hop := hno (op, obs) (by simp)
    have hx2 : ¬ Unexpired w2.env e := by
      have hm := env_mono hs
      intro hu
      apply c
      revert hu
      cases e with
      | none => exact id
      | some x =>
        cases x with
        | never => exact id
        | atHeight k => exact fun hu => Nat.lt_of_le_of_lt hm.1 hu
        | atTime k => exact fun hu => Nat.lt_of_le_of_lt hm.2 hu
    refine ⟨live_step hs a, ?_, hx2⟩
    by_cases hh : op.handover = false
    · rw [ownership_frame hs a hh, b]
    · cases hs with
      | transfer sender n ex fresh core ow => exact absurd rfl (hop _ _ _ _ _)
      | accept sender fresh core ow hl' ho hb =>
        rw [b] at ho
        obtain ⟨x, y, z⟩ := ow
        simp only [nominee, ho] at hn
        cases y with
        | none => simp at hn
        | some y =>
          simp only [Option.some.injEq, Prod.mk.injEq] at hn
          obtain ⟨rfl, rfl⟩ := hn
          exact absurd (unexpired_iff.2 hb.2) c
      | _ => simp [Op.handover] at hh

/-- The boundary: at height 199 bob can accept, at height 200 bob cannot. -/
example : Unexpired { Ex.env with height := 199 } (some (.atHeight 200)) ∧
    ¬ Unexpired { Ex.env with height := 200 } (some (.atHeight 200)) := by
  constructor <;> simp [Unexpired]
example : nominee Ex.n1 = some ("bob", some (.atHeight 200)) := rfl

/-- **C05**. What a committed instantiation does: owner, callback address, options as given, no ICA account, no
tracked channel, no pending query, no handover in progress. -/
theorem C05_instantiation {api : Api} {w w' : World} {sender fresh : String} {core : Bool} {msg : InstantiateMsg}
    {obs : List Obs} (hr : Reachable api w) (h : Commits api w (.instantiate sender msg fresh core) w' obs) :
    ownerOf w' = some (msg.owner.getD sender) ∧ api.validAddr (msg.owner.getD sender) = true ∧ nominee w' = none ∧
    callbackOf w' = msg.sendCallbacksTo ∧ (∀ a, msg.sendCallbacksTo = some a → api.validAddr a = true) ∧
    w'.store.options = some msg.channelOpenInitOptions ∧ icaOf w' = none ∧ w'.store.channel = none ∧
    w'.store.query = none ∧ (∀ c n, w'.store.pending c n = none) ∧ w.live = false ∧ w'.live = true := by
  obtain ⟨hl, _, _, h1, h2, _, _, rfl, _⟩ := apply_instantiate.1 h
  have hd := ((inv_of_reachable hr).dead hl).1
  refine ⟨rfl, h1, rfl, rfl, h2, rfl, rfl, ?_, ?_, ?_, hl, rfl⟩
  · simp [hd, Store.empty]
  · simp [hd, Store.empty]
  · simp [hd, Store.empty]

/-- **C05** (entry point): instantiate succeeds exactly when the given addresses are valid. -/
theorem C05_instantiate_iff {api : Api} {env : Env} {s : Store} {sender : String} {msg : InstantiateMsg} :
    (∃ r, instantiate api env s sender msg = .ok r) ↔
      api.validAddr (msg.owner.getD sender) = true ∧ ∀ a, msg.sendCallbacksTo = some a → api.validAddr a = true := by
  constructor
  · rintro ⟨⟨s', r⟩, h⟩
    obtain ⟨a, b, _⟩ := instantiate_eq_ok.1 h
    exact ⟨a, b⟩
  · rintro ⟨a, b⟩
    exact ⟨_, instantiate_eq_ok.2 ⟨a, b, rfl, rfl⟩⟩

example : Commits Ex.api Ex.w0 (.instantiate "deployer" Ex.inst "channel-0" true) Ex.w1
    [.channelCreated "channel-0"] := (apply_iff_step (inv_of_reachable Ex.r0)).2 Ex.s1

end Ica
