import Verif.Spec.OwnerRefusal
import Verif.Props.OwnerMachine

/-!
# What the owner contract says when it refuses: C115
-/
namespace Ica.OwnerRefusal
open Spec Format Api Owner RawOwner OwnerMachine

variable {api : Api} {o : OWorld} {r : Register} {w : ROWorld} {c : OwnerComplaint}

/-- The outcome of the typed contract, without the new storage. -/
def outcome (t : Res (Owner.Store × Response)) : Res Response :=
  match t with
  | .ok (_, a) => .ok a
  | .err e => .err e
  | .panic x => .panic x

theorem agrees_outcome {out : Res Response × Raw.RawStore} {t : Res (Owner.Store × Response)} (h : RawOwner.Agrees out t) :
    out.1 = outcome t := by
  unfold RawOwner.Agrees at h
  unfold outcome
  split at h
  · exact h.1
  · exact h
  · exact h

theorem heard_unauthorized : ownerHeard (.std "unauthorized") = some .unauthorized := by decide +kernel
theorem heard_notFound : ownerHeard (.std "not found") = some .nothingThere := by decide +kernel
theorem heard_badAddress : ownerHeard (.std "invalid address") = some .badAddress := by decide +kernel
theorem heard_noPlace : ownerHeard (.std "instantiate2") = some .noPlace := by decide +kernel
theorem heard_parse : ownerHeard (.std "Error parsing into type") = some .notUnderstood := by decide +kernel

theorem refuses_err {e : Err} {c' : OwnerComplaint} (h : ownerHeard e = some c') {out : Res Response × Raw.RawStore}
    (ho : out.1 = .err e) : OwnerRefuses out c ↔ c' = c := by
  unfold OwnerRefuses
  rw [ho]
  constructor
  · rintro ⟨e', h1, h2⟩
    cases h1
    rw [h] at h2
    exact Option.some.inj h2
  · rintro rfl
    exact ⟨e, rfl, h⟩

theorem refuses_ok {a : Response} {out : Res Response × Raw.RawStore} (ho : out.1 = .ok a) : ¬ OwnerRefuses out c := by
  rintro ⟨e, h1, _⟩
  rw [ho] at h1
  cases h1

theorem refuses_panic {x : String} {out : Res Response × Raw.RawStore} (ho : out.1 = .panic x) : ¬ OwnerRefuses out c := by
  rintro ⟨e, h1, _⟩
  rw [ho] at h1
  cases h1

theorem first_cons {p : Prop} {c' : OwnerComplaint} {l : List (Prop × OwnerComplaint)} :
    OwnerFirst ((p, c') :: l) c ↔ (p ∧ c' = c) ∨ (¬ p ∧ OwnerFirst l c) := by
  constructor
  · intro h
    cases h with
    | here h => exact .inl ⟨h, rfl⟩
    | later h h' => exact .inr ⟨h, h'⟩
  · rintro (⟨h, rfl⟩ | ⟨h, h'⟩)
    · exact .here h
    · exact .later h h'

theorem first_nil : ¬ OwnerFirst [] c := by intro h; cases h

theorem call_eq (h : Same w o) (sender : String) (text : Bytes) : (ownerCall w sender text).1 =
    outcome (Owner.execute ⟨o.self, o.time, o.addr, ⟨fun _ _ => none, o.codes⟩⟩ o.store sender text) := by
  have e := agrees_outcome (execute_ag h.store ⟨w.self, w.time, w.addr, ⟨fun _ _ => none, w.codes⟩⟩ sender text)
  have hr := h.rest
  have h1 : o.self = w.self := by rw [hr]
  have h2 : o.time = w.time := by rw [hr]
  have h3 : o.addr = w.addr := by rw [hr]
  have h4 : o.codes = w.codes := by rw [hr]
  rw [h1, h2, h3, h4]
  exact e

/-- What is to be shown of a message. -/
def Told (out : Res Response × Raw.RawStore) (l : List (Prop × OwnerComplaint)) (imp : Prop) : Prop :=
  (∀ c, OwnerRefuses out c ↔ OwnerFirst l c) ∧ ((∃ why, out.1 = .panic why) ↔ imp) ∧
    ((∃ answer, out.1 = .ok answer) ↔ (∀ c, ¬ OwnerFirst l c) ∧ ¬ imp)

theorem told_err {out : Res Response × Raw.RawStore} {l : List (Prop × OwnerComplaint)} {imp : Prop} {e : Err}
    {c0 : OwnerComplaint} (ho : out.1 = .err e) (hh : ownerHeard e = some c0) (hf : ∀ c, OwnerFirst l c ↔ c0 = c)
    (hi : ¬ imp) : Told out l imp := by
  refine ⟨fun c => (refuses_err hh ho).trans (hf c).symm, ⟨?_, fun k => absurd k hi⟩, ⟨?_, fun k => absurd ((hf c0).2 rfl) (k.1 c0)⟩⟩
  · rintro ⟨x, hx⟩; rw [ho] at hx; cases hx
  · rintro ⟨x, hx⟩; rw [ho] at hx; cases hx

theorem told_ok {out : Res Response × Raw.RawStore} {l : List (Prop × OwnerComplaint)} {imp : Prop} {a : Response}
    (ho : out.1 = .ok a) (hf : ∀ c, ¬ OwnerFirst l c) (hi : ¬ imp) : Told out l imp := by
  refine ⟨fun c => ⟨fun k => absurd k (refuses_ok ho), fun k => absurd k (hf c)⟩, ⟨?_, fun k => absurd k hi⟩,
    ⟨fun _ => ⟨hf, hi⟩, fun _ => ⟨a, ho⟩⟩⟩
  rintro ⟨x, hx⟩; rw [ho] at hx; cases hx

theorem told_panic {out : Res Response × Raw.RawStore} {l : List (Prop × OwnerComplaint)} {imp : Prop} {x : String}
    (ho : out.1 = .panic x) (hf : ∀ c, ¬ OwnerFirst l c) (hi : imp) : Told out l imp := by
  refine ⟨fun c => ⟨fun k => absurd k (refuses_panic ho), fun k => absurd k (hf c)⟩, ⟨fun _ => hi, fun _ => ⟨x, ho⟩⟩,
    ⟨?_, fun k => absurd hi k.2⟩⟩
  rintro ⟨x, hx⟩; rw [ho] at hx; cases hx

/-- The contract finds an address exactly if the chain would give one. -/
theorem place_iff (s : Sim o r) (hl : ∀ b, r.addr.canonicalize r.self = some b → b ≠ [] ∧ b.length ≤ 255) {code : UInt64}
    {salt : Option String} {opts : ChannelOpenInitOptions} {label : String} :
    (∃ x, (Helpers.Code.mk code).instantiate2 o.addr ⟨fun _ _ => none, o.codes⟩ o.self (controllerMsg o.self opts) label
      (some o.self) (salt.getD (decString (o.time.toNat / 1000000000))) = some x) ↔ ∃ a, r.Next code salt a := by
  unfold Helpers.Code.instantiate2 Register.Next Register.salt
  rw [s.addr, s.codes, s.self, s.time]
  constructor
  · rintro ⟨x, hx⟩
    dsimp only at hx
    cases hc : r.codes code with
    | none => rw [hc] at hx; cases hx
    | some checksum =>
    rw [hc] at hx
    dsimp only at hx
    cases hk : r.addr.canonicalize r.self with
    | none => rw [hk] at hx; cases hx
    | some creator =>
    rw [hk] at hx
    dsimp only at hx
    cases ha : Helpers.instantiate2Address r.addr checksum creator (utf8 (salt.getD (decString (r.time.toNat / 1000000000)))) with
    | none => rw [ha] at hx; cases hx
    | some b =>
    rw [ha] at hx
    dsimp only at hx
    cases hh : r.addr.humanize b with
    | none => rw [hh] at hx; cases hx
    | some a =>
    refine ⟨a, checksum, creator, b, rfl, rfl, ?_, hh⟩
    obtain ⟨b', hb⟩ : ∃ b', Wasmd.predictable r.addr.sha256 checksum creator
        (utf8 (salt.getD (decString (r.time.toNat / 1000000000)))) = some b' := by
      unfold Helpers.instantiate2Address at ha
      split at ha
      · cases ha
      next h1 =>
      split at ha
      · cases ha
      next h2 =>
      unfold Wasmd.predictable
      rw [not_or] at h2
      obtain ⟨k1, k2⟩ := hl creator hk
      rw [if_pos ⟨not_not.mp h1, k1, k2, List.length_pos_iff.mpr h2.1, not_lt.mp h2.2⟩]
      exact ⟨_, rfl⟩
    have := address_agrees hb
    rw [ha] at this
    rw [hb, Option.some.inj this]
  · rintro ⟨a, checksum, creator, b, k1, k2, k3, k4⟩
    simp only [k1, k2, address_agrees k3, k4]
    exact ⟨_, rfl⟩

theorem admin_iff (s : Sim o r) {st : State} (hs : o.store.state = some st) (sender : String) :
    (∀ code, r.admin ≠ some (sender, code)) ↔ st.admin ≠ sender := by
  have := s.admin
  rw [hs] at this
  cases ha : r.admin with
  | none => rw [ha] at this; cases this
  | some x =>
    rw [ha] at this
    cases this
    obtain ⟨a, b⟩ := x
    simp

/-- **C115.** After every history of the owner contract on its raw storage, for any texts: whatever it refuses, it says the
first thing that is wrong on a fixed list; if nothing on the list is wrong it does not refuse; and it aborts only where the
controllers would outnumber the numbers. -/
theorem C115_owner_explains {h : List (ROOp × List CosmosMsg)} {self : String} {time : UInt64} {addr : Helpers.AddrApi}
    {codes : Wasmd.Codes} {taken : String → Bool}
    (he : ROExec api (ROWorld.genesis self time addr codes taken) h w) (hlive : w.live = true)
    (hl : ∀ b, addr.canonicalize self = some b → b ≠ [] ∧ b.length ≤ 255) :
    ∃ r, Goes api (Register.start self time addr codes taken) h r ∧ Replying w r ∧ OwnerExplains w r := by
  obtain ⟨o, r, h1, h0, h2, h3⟩ := sim_exec he
  have hl' : ∀ b, r.addr.canonicalize r.self = some b → b ≠ [] ∧ b.length ≤ 255 := by
    have : r.addr = addr ∧ r.self = self := by
      clear hlive h1 h0 h3 he
      induction h2 with
      | nil => exact ⟨rfl, rfl⟩
      | step _ hd ih => cases hd <;> exact ih
    rw [this.1, this.2]
    exact hl
  obtain ⟨st, hst⟩ := Option.isSome_iff_exists.1 (h1.live.symm.trans hlive)
  refine ⟨r, h2, sim_replying h1 h3, ⟨?_, ?_, ?_⟩⟩
  · intro sender text hn hn'
    refine (refuses_err heard_parse ?_).2 rfl
    rw [call_eq h1]
    unfold Owner.execute
    cases hd : (jsonOfBytes text).bind (decodeEnum execVariants) with
    | none => rfl
    | some x =>
      cases x with
      | inl m => exact absurd (own_decodes.1 hd) (hn m)
      | inr m => exact absurd (Owner.callback_decodes.1 hd) (hn' m)
  · intro sender text m hm
    show Told (ownerCall w sender text) (ownerWrong r sender m) (OwnerImpossible r sender m)
    have hcall := call_eq h1 sender text
    unfold Owner.execute at hcall
    rw [own_decodes.2 hm] at hcall
    have had := admin_iff h3 hst sender
    cases m with
    | createIcaContract salt opts =>
      dsimp only at hcall
      unfold Owner.createIcaContract at hcall
      rw [hst] at hcall
      dsimp only at hcall
      by_cases ha : st.admin = sender
      · rw [if_neg (not_not.mpr ha)] at hcall
        have hn : ¬ ∀ code, r.admin ≠ some (sender, code) := fun k => (had.1 k) ha
        have hadm : r.admin = some (sender, st.codeId) := by
          have := h3.admin
          rw [hst] at this
          cases hr : r.admin with
          | none => rw [hr] at this; cases this
          | some x => rw [hr] at this; cases this; rw [← ha]
        have hpl := place_iff h3 hl' (code := st.codeId) (salt := salt) (opts := opts)
          (label := "icacontroller-" ++ o.self ++ "-" ++ decString (o.store.icaCount.getD 0).toNat)
        have hnext : (∀ code a, r.admin = some (sender, code) → ¬ r.Next code salt a) ↔ ¬ ∃ a, r.Next st.codeId salt a := by
          rw [hadm]
          constructor
          · rintro k ⟨a, ka⟩; exact k _ a rfl ka
          · intro k code a e ka; cases e; exact k ⟨a, ka⟩
        cases hi : (Helpers.Code.mk st.codeId).instantiate2 o.addr ⟨fun _ _ => none, o.codes⟩ o.self (controllerMsg o.self opts)
            ("icacontroller-" ++ o.self ++ "-" ++ decString (o.store.icaCount.getD 0).toNat)
            (some o.self) (salt.getD (decString (o.time.toNat / 1000000000))) with
        | none =>
          rw [hi] at hcall hpl
          have hno : ¬ ∃ a, r.Next st.codeId salt a := fun k => by obtain ⟨x, hx⟩ := hpl.2 k; cases hx
          refine told_err hcall heard_noPlace (fun c => ?_) ?_
          · simp only [ownerWrong, notAdmin, first_cons, first_nil, hn, hnext, hno, not_false_eq_true, true_and, false_and,
              false_or, and_false, or_false, not_true_eq_false]
          · rintro ⟨code, a, e, k, _⟩
            rw [hadm] at e
            cases e
            exact hno ⟨a, k⟩
        | some x =>
          rw [hi] at hcall hpl
          have hyes : ∃ a, r.Next st.codeId salt a := hpl.1 ⟨_, rfl⟩
          have hf : ∀ c, ¬ OwnerFirst (ownerWrong r sender (.createIcaContract salt opts)) c := by
            intro c
            simp only [ownerWrong, notAdmin, first_cons, first_nil, hn, hnext, hyes, not_true_eq_false, false_and,
              false_or, and_false, not_false_eq_true]
          obtain ⟨m, addr⟩ := x
          dsimp only at hcall
          rw [h3.counted] at hcall
          split at hcall
          · next hroom =>
            refine told_ok hcall hf ?_
            rintro ⟨_, _, _, _, k⟩
            omega
          · next hroom =>
            refine told_panic hcall hf ?_
            obtain ⟨a, ka⟩ := hyes
            exact ⟨st.codeId, a, hadm, ka, by have := h3.room; omega⟩
      · rw [if_pos ha] at hcall
        have hn : ∀ code, r.admin ≠ some (sender, code) := had.2 ha
        refine told_err hcall heard_unauthorized (fun c => ?_) ?_
        · simp [ownerWrong, notAdmin, first_cons, hn]
        · rintro ⟨code, _, e, _⟩
          exact hn code e
    | sendPredefinedAction i dst =>
      dsimp only at hcall
      unfold Owner.sendPredefinedAction at hcall
      rw [hst] at hcall
      dsimp only at hcall
      by_cases ha : st.admin = sender
      · rw [if_neg (not_not.mpr ha)] at hcall
        have hn : ¬ ∀ code, r.admin ≠ some (sender, code) := fun k => (had.1 k) ha
        rw [h3.states i] at hcall
        cases hi : r.entries[i.toNat]? with
        | none =>
          rw [hi] at hcall
          refine told_err hcall heard_notFound (fun c => ?_) (fun k => k)
          simp only [ownerWrong, notAdmin, first_cons, first_nil, hn, hi, not_false_eq_true, true_and, false_and,
            false_or, and_false, or_false, not_true_eq_false]
        | some x =>
          rw [hi] at hcall
          refine told_ok hcall (fun c => ?_) (fun k => k)
          simp only [ownerWrong, notAdmin, first_cons, first_nil, hn, hi, not_false_eq_true, reduceCtorEq, false_and,
            false_or, and_false]
      · rw [if_pos ha] at hcall
        have hn : ∀ code, r.admin ≠ some (sender, code) := had.2 ha
        refine told_err hcall heard_unauthorized (fun c => ?_) (fun k => k)
        simp [ownerWrong, notAdmin, first_cons, hn]
  · intro sender text m hm
    have hcall := call_eq h1 sender text
    unfold Owner.execute at hcall
    rw [Owner.callback_decodes.2 hm] at hcall
    dsimp only at hcall
    unfold Owner.icaCallbackHandler at hcall
    cases hid : o.store.addrToId sender with
    | none =>
      rw [hid] at hcall
      have hno : ∀ n : Nat, ∀ told, r.entries[n]? ≠ some (sender, told) := by
        intro n told k
        have hlt := (List.getElem?_eq_some_iff.1 k).1
        have hn : (UInt64.ofNat n).toNat = n := Nat.mod_eq_of_lt (by have := h3.room; simpa using by omega)
        have := (h3.ids sender (UInt64.ofNat n)).2 ⟨told, by rw [hn]; exact k⟩
        rw [hid] at this
        cases this
      refine ⟨fun c => ?_, ?_, ?_⟩
      · rw [refuses_err heard_notFound hcall]
        exact ⟨fun k => ⟨hno, k.symm⟩, fun k => k.2.symm⟩
      · rintro ⟨x, hx⟩; rw [hcall] at hx; cases hx
      · rintro ⟨n, told, k⟩; exact absurd k (hno n told)
    | some id =>
      obtain ⟨told, ht⟩ := (h3.ids sender id).1 hid
      rw [hid] at hcall
      dsimp only at hcall
      rw [h3.states id, ht] at hcall
      dsimp only [Option.map_some] at hcall
      have hok : ∃ a, (ownerCall w sender text).1 = .ok a := by
        rw [hcall]
        cases m <;> exact ⟨_, rfl⟩
      obtain ⟨a, ha⟩ := hok
      exact ⟨fun c => ⟨fun k => absurd k (refuses_ok ha), fun k => absurd ht (k.1 _ _)⟩,
        ⟨fun _ => ⟨_, _, ht⟩, fun _ => ⟨a, ha⟩⟩⟩

theorem instantiate_fails {m : Owner.InstantiateMsg} {sender a : String} {raw : Raw.RawStore} (ha : m.admin = some a)
    (hv : api.validAddr a = false) : (RawOwner.instantiate api sender m raw).1 = .err (.std "invalid address") := by
  have he : addrValidate api a = .err (.std "invalid address") := by unfold addrValidate; rw [hv]; rfl
  unfold RawOwner.instantiate
  rw [ha]
  dsimp only
  rw [he]
  rfl

theorem instantiate_works {m : Owner.InstantiateMsg} {sender : String} {raw : Raw.RawStore}
    (hv : ∀ a, m.admin = some a → api.validAddr a = true) : (RawOwner.instantiate api sender m raw).1 = .ok .empty := by
  unfold RawOwner.instantiate
  cases ha : m.admin with
  | none => rfl
  | some a =>
    have he : addrValidate api a = .ok a := by unfold addrValidate; rw [hv a ha]; rfl
    dsimp only
    rw [he]
    rfl

/-- **C115.** An instantiation, on any storage, is refused for a text that is no message, or for an admin whose address the
chain does not accept; never for anything else. -/
theorem C115_owner_instantiation (api : Api) (sender : String) (text : Bytes) (raw : Raw.RawStore) :
    ((∀ m, ¬ Spells Api.OwnerInstantiate text m) →
      ∀ c, OwnerRefuses (RawOwner.vmInstantiate api sender text raw) c ↔ c = .notUnderstood) ∧
    ∀ m, Spells Api.OwnerInstantiate text m →
      (∀ c, OwnerRefuses (RawOwner.vmInstantiate api sender text raw) c ↔
        (∃ a, m.admin = some a ∧ api.validAddr a = false) ∧ c = .badAddress) ∧
      ((∃ answer, (RawOwner.vmInstantiate api sender text raw).1 = .ok answer) ↔
        ∀ a, m.admin = some a → api.validAddr a = true) := by
  constructor
  · intro hn c
    have hd : Owner.InstantiateMsg.jc.ofBytes text = none := by
      cases hd : Owner.InstantiateMsg.jc.ofBytes text with
      | none => rfl
      | some m => exact absurd ((ofBytes_iff OwnerInstantiate_reads).mp hd) (hn m)
    have ho : (RawOwner.vmInstantiate api sender text raw).1 = .err (.std "Error parsing into type") := by
      unfold RawOwner.vmInstantiate Raw.withMsg
      rw [hd]
      rfl
    exact (refuses_err heard_parse ho).trans eq_comm
  · intro m hm
    have hr : RawOwner.vmInstantiate api sender text raw = RawOwner.instantiate api sender m raw := by
      unfold RawOwner.vmInstantiate Raw.withMsg
      rw [(ofBytes_iff OwnerInstantiate_reads).mpr hm]
    rw [hr]
    by_cases hv : ∀ a, m.admin = some a → api.validAddr a = true
    · have ho := instantiate_works (sender := sender) (raw := raw) hv
      refine ⟨fun c => ⟨fun k => absurd k (refuses_ok ho), ?_⟩, ⟨fun _ => hv, fun _ => ⟨_, ho⟩⟩⟩
      rintro ⟨⟨a, h1, h2⟩, _⟩
      rw [hv a h1] at h2
      cases h2
    · obtain ⟨a, h1, h2⟩ : ∃ a, m.admin = some a ∧ api.validAddr a = false := by
        by_contra hc
        exact hv fun a ha => by
          cases hb : api.validAddr a with
          | true => rfl
          | false => exact absurd ⟨a, ha, hb⟩ hc
      have ho := instantiate_fails (sender := sender) (raw := raw) h1 h2
      refine ⟨fun c => ?_, ⟨?_, fun k => absurd k hv⟩⟩
      · rw [refuses_err heard_badAddress ho]
        exact ⟨fun k => ⟨⟨a, h1, h2⟩, k.symm⟩, fun k => k.2.symm⟩
      · rintro ⟨x, hx⟩
        rw [ho] at hx
        cases hx

/-- After a controller has been made: a stranger, an unknown number and an unknown contract are told so. -/
example : ∃ h w r a, ROExec Ex.api (ROWorld.genesis "wasm1owner" 1700000000000000000 Ex.addrApi
      (fun n => if n = 7 then some (List.replicate 32 1) else none) (fun _ => false)) h w ∧ w.live = true ∧
    (∀ b, Ex.addrApi.canonicalize "wasm1owner" = some b → b ≠ [] ∧ b.length ≤ 255) ∧
    r.entries = [(a, none)] ∧ r.admin = some ("boss", 7) ∧ OwnerExplains w r := by
  let r0 := Register.start "wasm1owner" 1700000000000000000 Ex.addrApi
      (fun n => if n = 7 then some (List.replicate 32 1) else none) (fun _ => false)
  let r1 : Register := { r0 with admin := some ("boss", 7) }
  obtain ⟨t1, hs1⟩ : ∃ text, Spells Api.OwnerInstantiate text ⟨none, 7⟩ := by
    obtain ⟨op, hm⟩ := means_exists (.instantiate "boss" ⟨none, 7⟩)
    cases hm with
    | instantiate h => exact ⟨_, h⟩
  have d1 : Does Ex.api r0 (.instantiate "boss" t1) r1 [] := .instantiate rfl hs1 (fun a h => by cases h)
  obtain ⟨a, ha⟩ : ∃ a, r1.Next 7 (some "salt") a := by
    have h1 : r1.addr.canonicalize r1.self = some (utf8 "wasm1owner") := rfl
    obtain ⟨b, hb⟩ : ∃ b, Wasmd.predictable r1.addr.sha256 (List.replicate 32 1) (utf8 "wasm1owner") (r1.salt (some "salt")) = some b := by
      unfold Wasmd.predictable
      exact ⟨_, if_pos (by refine ⟨by decide, ?_⟩; decide +kernel)⟩
    exact ⟨_, _, _, b, rfl, h1, hb, rfl⟩
  have d2 := Does.create (api := Ex.api) (r := r1) (sender := "boss") Ex.spellsMk rfl ha rfl (by decide) (spells_first _)
  have hg : Goes Ex.api r0 _ _ := .step (.step .nil d1) d2
  obtain ⟨h', w, k1, k2, k3⟩ := C112_complete hg
  have hl : ∀ b, Ex.addrApi.canonicalize "wasm1owner" = some b → b ≠ [] ∧ b.length ≤ 255 := by
    intro b hb
    cases hb
    constructor <;> decide +kernel
  have hlive : w.live = true := k3.live
  obtain ⟨r, e1, _, e3⟩ := C115_owner_explains k1 hlive hl
  obtain rfl := C112_determined e1 hg k2
  exact ⟨h', w, _, a, k1, hlive, hl, rfl, rfl, e3⟩

end Ica.OwnerRefusal
