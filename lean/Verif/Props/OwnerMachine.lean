import Verif.Props.System
import Verif.Props.OwnerBytes
import Verif.Spec.OwnerMachine

/-!
# The owner contract and the machine on one page are the same (C112)
-/
namespace Ica.OwnerMachine
open Spec Format Api Owner RawOwner
open Function (update)

/-- The typed owner contract and the machine are in the same state. -/
structure Sim (o : OWorld) (r : Register) : Prop where
  admin : o.store.state = r.admin.map fun x => ⟨x.1, x.2⟩
  room : r.entries.length < 18446744073709551616
  count : o.store.icaCount = if r.entries = [] then none else some (UInt64.ofNat r.entries.length)
  states : ∀ i, o.store.icaStates i = (r.entries[i.toNat]?).map fun x =>
    ⟨x.1, x.2.map fun t => ⟨i, t.2.1, t.2.2, ⟨t.1, .opened⟩⟩⟩
  ids : ∀ a i, o.store.addrToId a = some i ↔ ∃ t, r.entries[i.toNat]? = some (a, t)
  used : ∀ x ∈ r.entries, r.taken x.1 = true
  born : r.entries ≠ [] → r.admin.isSome = true
  self : o.self = r.self
  time : o.time = r.time
  addr : o.addr = r.addr
  codes : o.codes = r.codes
  taken : o.taken = r.taken

variable {api : Api} {o o' : OWorld} {r r' : Register} {ms : List CosmosMsg}

theorem sim_start (self : String) (time : UInt64) (addr : Helpers.AddrApi) (codes : Wasmd.Codes) (taken : String → Bool) :
    Sim (OWorld.genesis self time addr codes taken) (Register.start self time addr codes taken) where
  admin := rfl
  room := by simp [Register.start]
  count := rfl
  states _ := rfl
  ids a i := ⟨fun h => (by cases h), fun ⟨t, h⟩ => (by simp [Register.start] at h)⟩
  used _ h := by cases h
  born h := absurd rfl h
  self := rfl
  time := rfl
  addr := rfl
  codes := rfl
  taken := rfl

theorem Sim.counted (s : Sim o r) : (o.store.icaCount.getD 0).toNat = r.entries.length := by
  rw [s.count]
  split
  · next h => rw [h]; rfl
  · simp only [Option.getD_some]
    exact Nat.mod_eq_of_lt s.room

/-- An accepted request for a new controller. -/
theorem create_iff {bytes : Bytes} {salt : Option String} {opts : ChannelOpenInitOptions} {sender : String} {ok : Bool}
    (hd : Spells OwnerCall bytes (.createIcaContract salt opts)) :
    applyO api o (.execute sender bytes ok) = some (o', ms) ↔
      ok = true ∧ ∃ st checksum creator b a, o.store.state = some st ∧ st.admin = sender ∧ o.codes st.codeId = some checksum ∧
        o.addr.canonicalize o.self = some creator ∧
        Wasmd.predictable o.addr.sha256 checksum creator (utf8 (salt.getD (decString (o.time.toNat / 1000000000)))) = some b ∧
        o.addr.humanize b = some a ∧ o.taken a = false ∧
        (o.store.icaCount.getD 0).toNat + 1 < 18446744073709551616 ∧
        ms = [.wasm (.instantiate2 (some o.self) st.codeId
          ("icacontroller-" ++ o.self ++ "-" ++ decString (o.store.icaCount.getD 0).toNat)
          (InstantiateMsg.jc.toBytes (controllerMsg o.self opts)) []
          (utf8 (salt.getD (decString (o.time.toNat / 1000000000)))))] ∧
        o' = { o with
          store := { o.store with
              icaStates := fun i => if i = o.store.icaCount.getD 0 then some ⟨a, none⟩ else o.store.icaStates i
              addrToId := fun x => if x = a then some (o.store.icaCount.getD 0) else o.store.addrToId x
              icaCount := some (UInt64.ofNat ((o.store.icaCount.getD 0).toNat + 1)) }
          taken := fun x => if x = a then true else o.taken x
          created := o.created ++ [⟨a, st.codeId, o.self, some o.self,
            "icacontroller-" ++ o.self ++ "-" ++ decString (o.store.icaCount.getD 0).toNat,
            InstantiateMsg.jc.toBytes (controllerMsg o.self opts), []⟩] } := by
  have hd := own_decodes.mpr hd
  have hi : ∀ {st : State} {checksum creator b a}, o.codes st.codeId = some checksum →
      o.addr.canonicalize o.self = some creator →
      Wasmd.predictable o.addr.sha256 checksum creator (utf8 (salt.getD (decString (o.time.toNat / 1000000000)))) = some b →
      o.addr.humanize b = some a → ∀ label, (Helpers.Code.mk st.codeId).instantiate2 o.addr ⟨fun _ _ => none, o.codes⟩ o.self
        (controllerMsg o.self opts) label (some o.self)
        (salt.getD (decString (o.time.toNat / 1000000000))) =
        some (.wasm (.instantiate2 (some o.self) st.codeId label
          (InstantiateMsg.jc.toBytes (controllerMsg o.self opts)) []
          (utf8 (salt.getD (decString (o.time.toNat / 1000000000))))), a) := by
    intro st checksum creator b a k2 k3 k4 k5 label
    unfold Helpers.Code.instantiate2
    simp only [k2, k3, address_agrees k4, k5]
  constructor
  · intro h
    unfold applyO at h
    dsimp only at h
    split at h
    · next s r he =>
      unfold Owner.execute at he
      rw [hd] at he
      dsimp only at he
      obtain ⟨st, m, addr, h1, h2, h3, h4, rfl, rfl⟩ := create_ok he
      obtain ⟨b, rfl, _⟩ := C54_instantiate2 h3
      dsimp only at h h3
      rw [Owner.runMessages] at h
      cases ok with
      | false => cases h
      | true =>
        rw [if_pos rfl] at h
        dsimp only [SubMsg.new] at h
        cases hc : Wasmd.instantiate2 o.addr o.codes o.taken o.self (.wasm (.instantiate2 (some o.self) st.codeId
            ("icacontroller-" ++ o.self ++ "-" ++ decString (o.store.icaCount.getD 0).toNat) b []
            (utf8 (salt.getD (decString (o.time.toNat / 1000000000)))))) with
        | none => rw [hc] at h; cases h
        | some c =>
          rw [hc] at h
          obtain ⟨checksum, creator, cb, a, k1, k2, k3, k4, k5, rfl⟩ := System.wasmd_address.mp hc
          rw [hi k1 k2 k3 k4] at h3
          obtain ⟨e1, e2⟩ := Prod.mk.inj (Option.some.inj h3)
          subst e2
          obtain rfl : InstantiateMsg.jc.toBytes (controllerMsg o.self opts) = b := by
            injection e1 with e1; injection e1
          simp only [Owner.runMessages, Option.map_some, Option.some.injEq, Prod.mk.injEq, List.map_cons, List.map_nil] at h
          exact ⟨rfl, st, checksum, creator, cb, a, h1, h2, k1, k2, k3, k4, k5, h4, h.2.symm, h.1.symm⟩
    · cases h
  · rintro ⟨rfl, st, checksum, creator, b, a, k1, k0, k2, k3, k4, k5, k6, k7, rfl, rfl⟩
    unfold applyO
    dsimp only
    unfold Owner.execute
    rw [hd]
    dsimp only
    unfold Owner.createIcaContract
    rw [k1]
    dsimp only
    rw [if_neg (not_not.mpr k0)]
    simp only [hi k2 k3 k4 k5, if_pos k7, Owner.runMessages, SubMsg.new, if_true,
      System.wasmd_address.mpr ⟨checksum, creator, b, a, k2, k3, k4, k5, k6, rfl⟩, Option.map_some, List.map_cons, List.map_nil]

/-- An accepted request for the fixed action. -/
theorem send_iff {bytes : Bytes} {i : UInt64} {dst sender : String} {ok : Bool}
    (hd : Spells OwnerCall bytes (.sendPredefinedAction i dst)) :
    applyO api o (.execute sender bytes ok) = some (o', ms) ↔
      ok = true ∧ ∃ st ica, o.store.state = some st ∧ st.admin = sender ∧ o.store.icaStates i = some ica ∧ o' = o ∧
        ms = [.wasm (.execute ica.contractAddr (jsonToBytes (sendCosmosMsgsPlain [predefined dst] none none)) [])] := by
  have hd := own_decodes.mpr hd
  unfold applyO
  dsimp only
  unfold Owner.execute
  rw [hd]
  dsimp only
  unfold Owner.sendPredefinedAction
  cases hst : o.store.state with
  | none => simp
  | some st =>
    dsimp only
    by_cases ha : st.admin = sender
    · rw [if_neg (not_not.mpr ha)]
      cases hi : o.store.icaStates i with
      | none => simp
      | some ica =>
        cases ok with
        | false => simp [Owner.runMessages]
        | true =>
          simp only [Owner.runMessages, SubMsg.new, if_true, Option.map_some, Option.some.injEq, Prod.mk.injEq, List.map_cons,
            List.map_nil, true_and]
          constructor
          · rintro ⟨rfl, rfl⟩; exact ⟨st, ica, rfl, ha, rfl, rfl, rfl⟩
          · rintro ⟨_, _, rfl, _, rfl, rfl, rfl⟩; exact ⟨rfl, rfl⟩
    · rw [if_pos ha]
      simp only [reduceCtorEq, false_iff]
      rintro ⟨_, _, _, e, k, _⟩
      exact ha (Option.some.inj e ▸ k)

/-- An accepted callback. -/
theorem callback_iff {bytes : Bytes} {m : CallbackMsg} {sender : String} {ok : Bool} (hd : Spells OwnerCallback bytes m) :
    applyO api o (.execute sender bytes ok) = some (o', ms) ↔
      ∃ id ica, o.store.addrToId sender = some id ∧ o.store.icaStates id = some ica ∧ ms = [] ∧
      ((∃ ch a e, m = .onChannelOpenAckCallback ch a e ∧ o' = { o with
          store := { o.store with
            icaStates := fun i => if i = id then some { ica with icaState := some ⟨id, a, e, ⟨ch, .opened⟩⟩ }
              else o.store.icaStates i } }) ∨
        ((∀ ch a e, m ≠ .onChannelOpenAckCallback ch a e) ∧ o' = o)) := by
  have hd := Owner.callback_decodes.mpr hd
  unfold applyO
  dsimp only
  unfold Owner.execute
  rw [hd]
  dsimp only
  unfold Owner.icaCallbackHandler
  cases hst : o.store.addrToId sender with
  | none => simp
  | some id =>
    dsimp only
    cases hi : o.store.icaStates id with
    | none => simp [hi]
    | some ica =>
      dsimp only
      have hsome : ∀ {x : OWorld × List CosmosMsg}, some x = some (o', ms) ↔ ms = x.2 ∧ o' = x.1 := by
        rintro ⟨a, b⟩
        simp only [Option.some.injEq, Prod.mk.injEq]
        exact ⟨fun ⟨h1, h2⟩ => ⟨h2.symm, h1.symm⟩, fun ⟨h1, h2⟩ => ⟨h2.symm, h1.symm⟩⟩
      cases m with
      | onChannelOpenAckCallback ch a e =>
        simp only [Owner.runMessages, Response.empty, Option.map_some, List.map_nil, hsome]
        constructor
        · rintro ⟨rfl, rfl⟩; exact ⟨id, ica, rfl, hi, rfl, .inl ⟨ch, a, e, rfl, rfl⟩⟩
        · rintro ⟨_, _, k0, k, rfl, ⟨_, _, _, k2, rfl⟩ | ⟨k2, _⟩⟩
          · cases k0
            cases k2
            rw [hi] at k
            cases k
            exact ⟨rfl, rfl⟩
          · exact absurd rfl (k2 ch a e)
      | _ =>
        simp only [Owner.runMessages, Response.empty, Option.map_some, List.map_nil, hsome]
        constructor
        · rintro ⟨rfl, rfl⟩; exact ⟨id, ica, rfl, hi, rfl, .inr ⟨fun _ _ _ k => (by cases k), rfl⟩⟩
        · rintro ⟨_, _, -, k, rfl, ⟨_, _, _, k2, rfl⟩ | ⟨k2, rfl⟩⟩
          · cases k2
          · exact ⟨rfl, rfl⟩

theorem Sim.ofNat {n : Nat} (s : Sim o r) {x : String × Option (IbcChannel × String × TxEncoding)}
    (h : r.entries[n]? = some x) : (UInt64.ofNat n).toNat = n :=
  Nat.mod_eq_of_lt (Nat.lt_trans (List.getElem?_eq_some_iff.mp h).1 s.room)

theorem Sim.created (s : Sim o r) {a : String} (free : r.taken a = false) (room : r.entries.length + 1 < 18446744073709551616)
    (ha : r.admin.isSome = true) (l : List Wasmd.Created) :
    Sim { o with
      store := { o.store with
          icaStates := fun i => if i = o.store.icaCount.getD 0 then some ⟨a, none⟩ else o.store.icaStates i
          addrToId := fun x => if x = a then some (o.store.icaCount.getD 0) else o.store.addrToId x
          icaCount := some (UInt64.ofNat ((o.store.icaCount.getD 0).toNat + 1)) }
      taken := fun x => if x = a then true else o.taken x
      created := l }
      { r with entries := r.entries ++ [(a, none)], taken := update r.taken a true } where
  admin := s.admin
  room := by simpa using room
  count := by simp [s.counted]
  states i := by
    dsimp only
    by_cases hi : i = o.store.icaCount.getD 0
    · rw [if_pos hi, hi, s.counted]
      simp
    · rw [if_neg hi, s.states]
      have hne : i.toNat ≠ r.entries.length := fun e => hi (UInt64.toNat_inj.mp (e.trans s.counted.symm))
      rcases Nat.lt_or_gt_of_ne hne with h | h
      · rw [List.getElem?_append_left h]
      · rw [List.getElem?_eq_none (Nat.le_of_lt h), List.getElem?_eq_none (by rw [List.length_append]; exact h)]
  ids x i := by
    dsimp only
    have old : ∀ t, (x, t) ∈ r.entries → x ≠ a := by
      rintro t hm rfl
      have := s.used _ hm
      rw [free] at this
      cases this
    by_cases hx : x = a
    · subst hx
      rw [if_pos rfl]
      constructor
      · intro h
        obtain rfl := Option.some.inj h
        exact ⟨none, by rw [s.counted]; simp⟩
      · rintro ⟨t, h⟩
        rcases Nat.lt_trichotomy i.toNat r.entries.length with hi | hi | hi
        · rw [List.getElem?_append_left hi] at h
          exact absurd rfl (old t (List.mem_of_getElem? h))
        · rw [UInt64.toNat_inj.mp (hi.trans s.counted.symm)]
        · rw [List.getElem?_eq_none (by rw [List.length_append]; exact hi)] at h
          cases h
    · rw [if_neg hx, s.ids]
      constructor
      · rintro ⟨t, h⟩
        exact ⟨t, by rw [List.getElem?_append_left (List.getElem?_eq_some_iff.mp h).1]; exact h⟩
      · rintro ⟨t, h⟩
        rcases Nat.lt_trichotomy i.toNat r.entries.length with hi | hi | hi
        · exact ⟨t, by rwa [List.getElem?_append_left hi] at h⟩
        · rw [hi] at h
          simp at h
          exact absurd h.1.symm hx
        · rw [List.getElem?_eq_none (by rw [List.length_append]; exact hi)] at h
          cases h
  used x hm := by
    dsimp only at hm ⊢
    by_cases hx : x.1 = a
    · rw [hx]; simp
    · rw [Function.update_of_ne hx]
      rcases List.mem_append.mp hm with h | h
      · exact s.used x h
      · exact absurd (congrArg Prod.fst (List.mem_singleton.mp h)) hx
  born _ := ha
  self := s.self
  time := s.time
  addr := s.addr
  codes := s.codes
  taken := by
    funext x
    dsimp only
    rw [s.taken]
    simp [Function.update_apply]

theorem Sim.told (s : Sim o r) {id : UInt64} {ica : IcaContractState} {sender : String}
    {t : Option (IbcChannel × String × TxEncoding)} (hn : r.entries[id.toNat]? = some (sender, t))
    (hi : o.store.icaStates id = some ica) (ch : IbcChannel) (a : String) (e : TxEncoding) :
    Sim { o with
      store := { o.store with
        icaStates := fun i => if i = id then some { ica with icaState := some ⟨id, a, e, ⟨ch, .opened⟩⟩ }
          else o.store.icaStates i } }
      { r with entries := r.entries.set id.toNat (sender, some (ch, a, e)) } where
  admin := s.admin
  room := by simpa using s.room
  count := by
    dsimp only
    rw [s.count]
    simp
  states i := by
    have hlt := (List.getElem?_eq_some_iff.mp hn).1
    have hst := s.states id
    rw [hi, hn] at hst
    dsimp only
    rw [List.getElem?_set]
    by_cases hx : i = id
    · subst hx
      simp only [if_true, if_pos hlt, Option.map_some]
      obtain rfl := Option.some.inj hst
      rfl
    · rw [if_neg hx, if_neg (fun e => hx (UInt64.toNat_inj.mp e.symm))]
      exact s.states i
  ids x i := by
    have hlt := (List.getElem?_eq_some_iff.mp hn).1
    dsimp only
    rw [List.getElem?_set, s.ids]
    by_cases hx : id.toNat = i.toNat
    · rw [if_pos hx, if_pos hlt, ← hx, hn]
      simp
    · rw [if_neg hx]
  used x hm := by
    rcases List.mem_or_eq_of_mem_set hm with h | rfl
    · exact s.used x h
    · exact s.used (sender, t) (List.mem_of_getElem? hn)
  born h := s.born (fun e => h (by simp [e]))
  self := s.self
  time := s.time
  addr := s.addr
  codes := s.codes
  taken := s.taken

theorem spells_first (x : InstantiateMsg) : Spells Api.Instantiate (InstantiateMsg.jc.toBytes x) x :=
  (ofBytes_iff InstantiateMsg_reads).mp (JC.ofBytes_toBytes InstantiateMsg.jc_law _)

theorem spells_ask (dst : String) : Spells Api.Execute (jsonToBytes (sendCosmosMsgsPlain [predefined dst] none none))
    (.sendCosmosMsgs [predefined dst] [] none none) :=
  (ofBytes_iff ExecuteMsg_reads).mp (System.decode_plain _ _ _)

/-- Instantiating. -/
theorem instantiate_iff {sender : String} {msg : Owner.InstantiateMsg} :
    applyO api o (.instantiate sender msg) = some (o', ms) ↔ o.store.state = none ∧
      (∀ a, msg.admin = some a → api.validAddr a = true) ∧ ms = [] ∧
      o' = { o with store := { o.store with state := some ⟨msg.admin.getD sender, msg.codeId⟩ } } := by
  unfold applyO
  dsimp only
  cases hs : o.store.state with
  | some x => simp
  | none =>
    dsimp only
    unfold Owner.instantiate
    cases hm : msg.admin with
    | none =>
      simp only [Option.some.injEq, Prod.mk.injEq, reduceCtorEq, false_implies, implies_true, true_and, Option.getD_none]
      exact ⟨fun ⟨h1, h2⟩ => ⟨h2.symm, h1.symm⟩, fun ⟨h1, h2⟩ => ⟨h2.symm, h1.symm⟩⟩
    | some a =>
      dsimp only
      unfold addrValidate
      cases hv : api.validAddr a with
      | false => simp [hv]
      | true =>
        constructor
        · intro h; cases h; exact ⟨rfl, fun _ k => Option.some.inj k ▸ hv, rfl, rfl⟩
        · rintro ⟨_, _, rfl, rfl⟩; rfl

/-- What the contract does, the machine does. -/
theorem sim_step (s : Sim o r) {op : ROOp} {op' : OOp} (hm : Means op op') (h : applyO api o op' = some (o', ms)) :
    ∃ r', Does api r op r' ms ∧ Sim o' r' := by
  cases hm with
  | block t =>
    obtain ⟨rfl, rfl⟩ := Prod.mk.inj (Option.some.inj h)
    exact ⟨_, .block t, s.admin, s.room, s.count, s.states, s.ids, s.used, s.born, s.self, rfl, s.addr, s.codes, s.taken⟩
  | elsewhere a =>
    obtain ⟨rfl, rfl⟩ := Prod.mk.inj (Option.some.inj h)
    refine ⟨_, .elsewhere a, s.admin, s.room, s.count, s.states, s.ids, fun x hx => ?_, s.born, s.self, s.time, s.addr, s.codes, ?_⟩
    · dsimp only
      rw [Function.update_apply]
      split
      · rfl
      · exact s.used x hx
    · funext x
      dsimp only
      rw [s.taken, Function.update_apply]
  | upload c k =>
    unfold applyO at h
    dsimp only at h
    cases hc : o.codes c with
    | some x => rw [hc] at h; cases h
    | none =>
      rw [hc] at h
      obtain ⟨rfl, rfl⟩ := Prod.mk.inj (Option.some.inj h)
      refine ⟨_, .upload k (s.codes ▸ hc), s.admin, s.room, s.count, s.states, s.ids, s.used, s.born, s.self, s.time, s.addr, ?_, s.taken⟩
      funext x
      dsimp only
      rw [s.codes, Function.update_apply]
  | @instantiate sender bytes msg hsp =>
    obtain ⟨h1, h2, rfl, rfl⟩ := instantiate_iff.mp h
    have hn : r.admin = none := by
      have := s.admin
      rw [h1] at this
      cases ha : r.admin with
      | none => rfl
      | some x => rw [ha] at this; cases this
    exact ⟨_, .instantiate hn hsp h2, rfl, s.room, s.count, s.states, s.ids, s.used, fun _ => rfl, s.self, s.time, s.addr, s.codes,
      s.taken⟩
  | execute sender bytes ok =>
    have hadm : ∀ {st : State}, o.store.state = some st → r.admin = some (st.admin, st.codeId) := by
      intro st hs
      have := s.admin
      rw [hs] at this
      cases ha : r.admin with
      | none => rw [ha] at this; cases this
      | some x => rw [ha] at this; cases this; rfl
    cases hd : (jsonOfBytes bytes).bind (decodeEnum execVariants) with
    | none =>
      unfold applyO at h
      dsimp only at h
      unfold Owner.execute at h
      rw [hd] at h
      cases h
    | some x =>
      rcases x with (⟨salt, opts⟩ | ⟨i, dst⟩) | m
      · have hsp := own_decodes.mp hd
        obtain ⟨rfl, st, checksum, creator, b, a, k1, rfl, k2, k3, k4, k5, k6, k7, rfl, rfl⟩ := (create_iff hsp).mp h
        rw [s.counted] at k7
        have hfree : r.taken a = false := s.taken ▸ k6
        refine ⟨_, ?_, s.created hfree k7 (by rw [hadm k1]; rfl) _⟩
        rw [s.counted, s.self, s.time]
        refine .create hsp (hadm k1) ⟨checksum, creator, b, s.codes ▸ k2, ?_, ?_, s.addr ▸ k5⟩ hfree k7 (spells_first _)
        · rw [← s.addr, ← s.self]; exact k3
        · unfold Register.salt
          rw [← s.addr, ← s.time]; exact k4
      · have hsp := own_decodes.mp hd
        obtain ⟨rfl, st, ica, k1, rfl, k2, rfl, rfl⟩ := (send_iff hsp).mp h
        have hst := s.states i
        rw [k2] at hst
        obtain ⟨⟨a, t⟩, he, rfl⟩ := Option.map_eq_some_iff.mp hst.symm
        exact ⟨r, .send hsp (hadm k1) he (spells_ask dst), s⟩
      · have hsp := Owner.callback_decodes.mp hd
        obtain ⟨id, ica, k1, k2, rfl, ⟨ch, a, e, rfl, rfl⟩ | ⟨k3, rfl⟩⟩ := (callback_iff hsp).mp h
        · obtain ⟨t, ht⟩ := (s.ids _ _).mp k1
          exact ⟨_, .account hsp ht, s.told ht k2 ch a e⟩
        · obtain ⟨t, ht⟩ := (s.ids _ _).mp k1
          exact ⟨r, .outcome hsp k3 ht, s⟩

/-- What the machine does, the contract does. -/
theorem sim_can (s : Sim o r) {op : ROOp} (h : Does api r op r' ms) :
    ∃ op' o' ms', Means op op' ∧ applyO api o op' = some (o', ms') ∧ Sim o' r' := by
  have hadm : ∀ {a c}, r.admin = some (a, c) → o.store.state = some ⟨a, c⟩ := by
    intro a c h
    rw [s.admin, h]; rfl
  cases h with
  | block t =>
    exact ⟨_, _, _, .block t, rfl, s.admin, s.room, s.count, s.states, s.ids, s.used, s.born, s.self, rfl, s.addr, s.codes, s.taken⟩
  | elsewhere a =>
    refine ⟨_, _, _, .elsewhere a, rfl, s.admin, s.room, s.count, s.states, s.ids, fun x hx => ?_, s.born, s.self, s.time, s.addr,
      s.codes, ?_⟩
    · dsimp only
      rw [Function.update_apply]
      split
      · rfl
      · exact s.used x hx
    · funext x
      dsimp only
      rw [s.taken, Function.update_apply]
  | @upload c k new =>
    refine ⟨_, { o with codes := fun x => if x = c then some k else o.codes x }, [], .upload c k, ?_, s.admin, s.room, s.count,
      s.states, s.ids, s.used, s.born, s.self, s.time, s.addr, ?_, s.taken⟩
    · unfold applyO
      dsimp only
      rw [s.codes, new]
    · funext x
      dsimp only
      rw [s.codes, Function.update_apply]
  | instantiate once spelled valid =>
    refine ⟨_, _, _, .instantiate spelled, instantiate_iff.mpr ⟨by rw [s.admin, once]; rfl, valid, rfl, rfl⟩, rfl, s.room, s.count,
      s.states, s.ids, s.used, fun _ => rfl, s.self, s.time, s.addr, s.codes, s.taken⟩
  | @create sender text salt opts code a first spelled admin next free room first_spelled =>
    obtain ⟨checksum, creator, b, k2, k3, k4, k5⟩ := next
    refine ⟨_, _, _, .execute _ _ _, (create_iff spelled).mpr ⟨rfl, ⟨sender, code⟩, checksum, creator, b, a, hadm admin, rfl,
      s.codes ▸ k2, ?_, ?_, s.addr ▸ k5, s.taken ▸ free, ?_, rfl, rfl⟩, s.created free room (by rw [admin]; rfl) _⟩
    · rw [s.addr, s.self]; exact k3
    · rw [s.addr, s.time]; exact k4
    · rw [s.counted]; exact room
  | @send sender text i dst code a told ask spelled admin entry _ =>
    refine ⟨_, _, _, .execute _ _ _, (send_iff spelled).mpr ⟨rfl, _,
      ⟨a, told.map fun t => ⟨i, t.2.1, t.2.2, ⟨t.1, .opened⟩⟩⟩, hadm admin, rfl, ?_, rfl, rfl⟩, s⟩
    rw [s.states, entry]; rfl
  | @account n sender text told ch a e ok spelled entry =>
    have hn := s.ofNat entry
    have hst : o.store.icaStates (UInt64.ofNat n) =
        some ⟨sender, told.map fun t => ⟨UInt64.ofNat n, t.2.1, t.2.2, ⟨t.1, .opened⟩⟩⟩ := by rw [s.states, hn, entry]; rfl
    refine ⟨_, _, _, .execute _ _ _, (callback_iff spelled).mpr ⟨UInt64.ofNat n, _, (s.ids _ _).mpr ⟨told, by rw [hn]; exact entry⟩, hst,
      rfl, .inl ⟨ch, a, e, rfl, rfl⟩⟩, ?_⟩
    have := s.told (id := UInt64.ofNat n) (by rw [hn]; exact entry) hst ch a e
    rw [hn] at this
    exact this
  | @outcome n sender text told m ok spelled other entry =>
    have hn := s.ofNat entry
    exact ⟨_, _, _, .execute _ _ _, (callback_iff spelled).mpr ⟨UInt64.ofNat n, _, (s.ids _ _).mpr ⟨told, by rw [hn]; exact entry⟩,
      (by rw [s.states, hn, entry]; rfl), rfl, .inr ⟨other, rfl⟩⟩, s⟩

theorem written_ownerState (a : String) (c : UInt64) : Written (· = ownerStateJson a c) (Owner.State.jc.toBytes ⟨a, c⟩) :=
  written _ _ rfl

theorem sim_replying {w : ROWorld} (h : Same w o) (s : Sim o r) : Replying w r where
  live := by rw [h.live, s.admin, Option.isSome_map]
  self := by rw [← s.self, h.rest]
  time := by rw [← s.time, h.rest]
  addr := by rw [← s.addr, h.rest]
  codes := by rw [← s.codes, h.rest]
  taken := by rw [← s.taken, h.rest]
  state text hq := by
    rw [query_runs h hq]
    unfold typedQuery
    dsimp only
    rw [s.admin]
    cases r.admin with
    | none => exact ⟨_, rfl⟩
    | some x => exact ⟨_, rfl, written_ownerState _ _⟩
  count text hq := by
    rw [query_runs h hq]
    unfold typedQuery
    dsimp only
    rw [s.count]
    by_cases he : r.entries = []
    · rw [if_pos he, if_pos he]; exact ⟨_, rfl⟩
    · rw [if_neg he, if_neg he]
      refine ⟨_, rfl, written _ _ ?_⟩
      exact congrArg Json.num (Nat.mod_eq_of_lt s.room)
  entry i text hq := by
    rw [query_runs h hq]
    unfold typedQuery
    dsimp only
    rw [s.states]
    cases r.entries[i.toNat]? with
    | none => exact ⟨_, rfl⟩
    | some x =>
      refine ⟨_, rfl, written _ _ ?_⟩
      obtain ⟨a, _ | ⟨ch, b, e⟩⟩ := x
      · rfl
      · cases e <;> obtain ⟨_, _, o, _, _⟩ := ch <;> cases o <;> rfl

theorem means_unique {op : ROOp} {p q : OOp} (h1 : Means op p) (h2 : Means op q) : p = q := by
  cases h1 with
  | instantiate a =>
    cases h2 with
    | instantiate b =>
      rw [Option.some.inj (((ofBytes_iff OwnerInstantiate_reads).mpr a).symm.trans ((ofBytes_iff OwnerInstantiate_reads).mpr b))]
  | _ => cases h2; rfl

/-- The contract tells everything about the machine. -/
theorem Sim.unique {r1 r2 : Register} (s1 : Sim o r1) (s2 : Sim o r2) : r1 = r2 := by
  have e1 : r1.admin = r2.admin := by
    have := s1.admin.symm.trans s2.admin
    cases h1 : r1.admin <;> cases h2 : r2.admin <;> rw [h1, h2] at this <;> simp_all [Prod.ext_iff]
  have e2 : r1.entries = r2.entries := by
    apply List.ext_getElem?
    intro n
    by_cases hn : n < 18446744073709551616
    · have := (s1.states (UInt64.ofNat n)).symm.trans (s2.states (UInt64.ofNat n))
      have hm : (UInt64.ofNat n).toNat = n := Nat.mod_eq_of_lt hn
      rw [hm] at this
      cases h1 : r1.entries[n]? with
      | none =>
        cases h2 : r2.entries[n]? with
        | none => rfl
        | some y => rw [h1, h2] at this; cases this
      | some x =>
        cases h2 : r2.entries[n]? with
        | none => rw [h1, h2] at this; cases this
        | some y =>
          rw [h1, h2] at this
          obtain ⟨a, t⟩ := x
          obtain ⟨b, u⟩ := y
          cases t <;> cases u <;> simp_all [Prod.ext_iff]
    · rw [List.getElem?_eq_none (Nat.le_trans (Nat.le_of_lt s1.room) (Nat.not_lt.mp hn)),
        List.getElem?_eq_none (Nat.le_trans (Nat.le_of_lt s2.room) (Nat.not_lt.mp hn))]
  have e3 := s1.self.symm.trans s2.self
  have e4 := s1.time.symm.trans s2.time
  have e5 := s1.addr.symm.trans s2.addr
  have e6 := s1.codes.symm.trans s2.codes
  have e7 := s1.taken.symm.trans s2.taken
  cases r1
  cases r2
  simp_all

variable {self : String} {time : UInt64} {addr : Helpers.AddrApi} {codes : Wasmd.Codes} {taken : String → Bool}
  {h : List (ROOp × List CosmosMsg)} {w : ROWorld}

theorem sim_exec (he : ROExec api (ROWorld.genesis self time addr codes taken) h w) :
    ∃ o r, Same w o ∧ OInv o ∧ Goes api (Register.start self time addr codes taken) h r ∧ Sim o r := by
  induction he with
  | nil => exact ⟨_, _, genesis_same .., oinv_genesis .., .nil, sim_start ..⟩
  | step _ ha ih =>
    obtain ⟨o, r, h1, h0, h2, h3⟩ := ih
    obtain ⟨op', o', h4, h5, h6⟩ := forward h1 ha
    obtain ⟨r', h7, h8⟩ := sim_step h3 h4 h5
    exact ⟨o', r', h6, oinv_step h0 h5, .step h2 h7, h8⟩

theorem sim_apply (h1 : Same w o) (h0 : OInv o) (s : Sim o r) {op : ROOp} (hd : Does api r op r' ms) :
    ∃ w' ms' o', applyRO api w op = some (w', ms') ∧ Same w' o' ∧ OInv o' ∧ Sim o' r' := by
  obtain ⟨op', o', ms', k1, k2, k3⟩ := sim_can s hd
  obtain ⟨w', k4, k5⟩ := backward h1 k1 k2 (by
    rintro sender bytes ok rfl
    cases k1
    rw [h1.live]
    exact live_of_exec h0 k2)
  exact ⟨w', ms', o', k4, k5, oinv_step h0 k2, k3⟩

end Ica.OwnerMachine

namespace Ica
open Spec OwnerMachine RawOwner

variable {api : Api} {self : String} {time : UInt64} {addr : Helpers.AddrApi} {codes : Wasmd.Codes} {taken : String → Bool}
  {h : List (ROOp × List CosmosMsg)} {w : ROWorld} {r : Register}

/-- **C112.** Every history of the owner contract, on its raw storage and for any texts, is one of the machine, with the same
messages sent; the answers to queries are those of the machine; and a transaction is accepted exactly if the machine has a
rule for it. -/
theorem C112_machine (he : ROExec api (ROWorld.genesis self time addr codes taken) h w) :
    ∃ r, Goes api (Register.start self time addr codes taken) h r ∧ Replying w r ∧
      ∀ op, (∃ w' ms, applyRO api w op = some (w', ms)) ↔ ∃ r' ms, Does api r op r' ms := by
  obtain ⟨o, r, h1, h0, h2, h3⟩ := sim_exec he
  refine ⟨r, h2, sim_replying h1 h3, fun op => ⟨?_, ?_⟩⟩
  · rintro ⟨w', ms, hx⟩
    obtain ⟨op', o', h4, h5, h6⟩ := forward h1 hx
    obtain ⟨r', h7, -⟩ := sim_step h3 h4 h5
    exact ⟨r', ms, h7⟩
  · rintro ⟨r', ms, hd⟩
    obtain ⟨w', ms', _, k, -⟩ := sim_apply h1 h0 h3 hd
    exact ⟨w', ms', k⟩

theorem OwnerMachine.sim_goes (hr : Goes api (Register.start self time addr codes taken) h r) :
    ∃ h' w o, ROExec api (ROWorld.genesis self time addr codes taken) h' w ∧ h'.map (·.1) = h.map (·.1) ∧ Same w o ∧
      Owner.OInv o ∧ Sim o r := by
  induction hr with
  | nil => exact ⟨[], _, _, .nil, rfl, genesis_same .., Owner.oinv_genesis .., sim_start ..⟩
  | step _ hd ih =>
    obtain ⟨h', w, o, a, b, c, d, e⟩ := ih
    obtain ⟨w', ms', o', k1, k2, k3, k4⟩ := sim_apply c d e hd
    exact ⟨_, w', o', .step a k1, by simp [b], k2, k3, k4⟩

/-- **C112.** Everything that the machine can do the contract can do: whatever history of the machine, the contract accepts its
transactions one after the other and then shows the state of the machine. -/
theorem C112_complete (hr : Goes api (Register.start self time addr codes taken) h r) :
    ∃ h' w, ROExec api (ROWorld.genesis self time addr codes taken) h' w ∧ h'.map (·.1) = h.map (·.1) ∧ Replying w r := by
  obtain ⟨h', w, o, a, b, c, d, e⟩ := sim_goes hr
  exact ⟨h', w, a, b, sim_replying c e⟩

/-- **C112.** The machine is determined: the transactions alone say in which state it is. -/
theorem C112_determined {h1 h2 : List (ROOp × List CosmosMsg)} {r1 r2 : Register}
    (k1 : Goes api (Register.start self time addr codes taken) h1 r1)
    (k2 : Goes api (Register.start self time addr codes taken) h2 r2) (hh : h1.map (·.1) = h2.map (·.1)) : r1 = r2 := by
  induction k1 generalizing h2 r2 with
  | nil =>
    cases k2 with
    | nil => rfl
    | step _ _ => simp at hh
  | @step g1 r r1 op ms k1 d1 ih =>
    cases k2 with
    | nil => simp at hh
    | @step g2 q r2 op2 ms2 k2 d2 =>
      rw [List.map_append, List.map_append] at hh
      obtain ⟨e, hx⟩ := List.append_inj' hh rfl
      obtain rfl : op = op2 := by simpa using hx
      obtain rfl := ih k2 e
      obtain ⟨_, _, o, _, _, _, _, s⟩ := sim_goes k1
      obtain ⟨p1, o1, m1, a1, b1, c1⟩ := sim_can s d1
      obtain ⟨p2, o2, m2, a2, b2, c2⟩ := sim_can s d2
      obtain rfl := means_unique a1 a2
      rw [b1] at b2
      cases b2
      exact c1.unique c2

/-- The admin makes a controller, the controller reports its account, and the admin has it send something: a history of the
machine, and by `C112_complete` of the contract. -/
example (ch : IbcChannel) : ∃ h r a ask, Goes Ex.api (Register.start "wasm1owner" 1700000000000000000 Ex.addrApi
      (fun n => if n = 7 then some (List.replicate 32 1) else none) (fun _ => false)) h r ∧
    r.admin = some ("boss", 7) ∧ r.entries = [(a, some (ch, "cosmos1ica", .protobuf))] ∧
    (h.map (·.2)).getLast? = some [.wasm (.execute a ask [])] := by
  let r0 := Register.start "wasm1owner" 1700000000000000000 Ex.addrApi
      (fun n => if n = 7 then some (List.replicate 32 1) else none) (fun _ => false)
  let r1 : Register := { r0 with admin := some ("boss", 7) }
  obtain ⟨t1, hs1⟩ : ∃ text, Spells Api.OwnerInstantiate text ⟨none, 7⟩ := by
    obtain ⟨op, hm⟩ := means_exists (.instantiate "boss" ⟨none, 7⟩)
    cases hm with
    | instantiate h => exact ⟨_, h⟩
  have d1 : Does Ex.api r0 (.instantiate "boss" t1) r1 [] := .instantiate rfl hs1 (fun a h => by cases h)
  obtain ⟨a, ha⟩ : ∃ a, r1.Next 7 (some "salt") a := by
    have h1 : r1.addr.canonicalize r1.self = some (utf8 "wasm1owner") := rfl
    obtain ⟨b, hb⟩ : ∃ b, Wasmd.predictable r1.addr.sha256 (List.replicate 32 1) (utf8 "wasm1owner") (r1.salt (some "salt")) = some b := by
      unfold Wasmd.predictable
      exact ⟨_, if_pos (by refine ⟨by decide, ?_⟩; decide +kernel)⟩
    exact ⟨_, _, _, b, rfl, h1, hb, rfl⟩
  have d2 := Does.create (api := Ex.api) (r := r1) (sender := "boss") Ex.spellsMk rfl ha rfl (by decide) (spells_first _)
  have hs2 := Owner.callback_decodes.mp (Owner.decode_callback (.onChannelOpenAckCallback ch "cosmos1ica" .protobuf))
  have d3 := Does.account (api := Ex.api) (r := { r1 with entries := [(a, none)], taken := Function.update r1.taken a true })
    (n := 0) (sender := a) (told := none) (ok := true) hs2 rfl
  have d4 := Does.send (api := Ex.api) (sender := "boss") (code := 7)
    (r := { r1 with entries := [(a, some (ch, "cosmos1ica", .protobuf))], taken := Function.update r1.taken a true })
    (Ex.spellsAct 0) rfl rfl (spells_ask _)
  exact ⟨_, _, a, _, .step (.step (.step (.step .nil d1) d2) d3) d4, rfl, rfl, rfl⟩

end Ica
