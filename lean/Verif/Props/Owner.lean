import Mathlib.Data.List.Nodup
import Verif.Props.Receivers

/-!
# The owner contract (C64, C65)
-/
namespace Ica
open Spec

namespace Owner

theorem own_no_clash : ∀ x ∈ ownVariants, snakeCase x.ident ≠ "receive_ica_callback" := by
  intro x hx
  simp only [ownVariants, List.mem_cons, List.not_mem_nil, or_false] at hx
  rcases hx with rfl | rfl <;> decide +kernel

theorem decode_callback (m : CallbackMsg) :
    (jsonOfBytes m.intoJsonBinary).bind (decodeEnum execVariants) = some (.inr (withoutQueryResult m)) := by
  rw [show m.intoJsonBinary = jsonToBytes (.obj [("receive_ica_callback", CallbackMsg.jc.enc m)]) from rfl,
    jsonOfBytes_toBytes, Option.bind_some,
    (merge_find (vs := ownVariants) (dec := CallbackMsg.decPlain) (new := execVariants) rfl _).1 _ rfl own_no_clash,
    C62_plain_receiver]
  rfl

theorem create_ok {env : Env} {s s' : Store} {sender : String} {salt : Option String} {o : ChannelOpenInitOptions}
    {r : Response} (h : createIcaContract env s sender salt o = .ok (s', r)) :
    ∃ st m addr, s.state = some st ∧ st.admin = sender ∧
      (Helpers.Code.mk st.codeId).instantiate2 env.addr env.querier env.self (controllerMsg env.self o)
          ("icacontroller-" ++ env.self ++ "-" ++ decString (s.icaCount.getD 0).toNat) (some env.self)
          (salt.getD (decString (env.time.toNat / 1000000000))) = some (m, addr) ∧
      (s.icaCount.getD 0).toNat + 1 < 18446744073709551616 ∧
      s' = { s with
              icaStates := fun i => if i = s.icaCount.getD 0 then some ⟨addr, none⟩ else s.icaStates i
              addrToId := fun a => if a = addr then some (s.icaCount.getD 0) else s.addrToId a
              icaCount := some (UInt64.ofNat ((s.icaCount.getD 0).toNat + 1)) } ∧ r = ⟨[.new m], []⟩ := by
  unfold createIcaContract at h
  cases hst : s.state with
  | none => rw [hst] at h; cases h
  | some st =>
    rw [hst] at h
    dsimp only at h
    split at h
    · cases h
    next ha =>
    split at h
    · cases h
    next m addr hi =>
    split at h
    · next hlt =>
      simp only [Res.ok.injEq, Prod.mk.injEq] at h
      exact ⟨st, m, addr, rfl, not_not.mp ha, hi, hlt, h.1.symm, h.2.symm⟩
    · cases h

theorem send_ok {s s' : Store} {sender dst : String} {i : UInt64} {r : Response}
    (h : sendPredefinedAction s sender i dst = .ok (s', r)) :
    ∃ st ica, s.state = some st ∧ st.admin = sender ∧ s.icaStates i = some ica ∧ s' = s ∧
      r = ⟨[.new (.wasm (.execute ica.contractAddr (jsonToBytes (sendCosmosMsgsPlain [predefined dst] none none)) []))],
        []⟩ := by
  unfold sendPredefinedAction at h
  cases hst : s.state with
  | none => rw [hst] at h; cases h
  | some st =>
    rw [hst] at h
    dsimp only at h
    split at h
    · cases h
    next ha =>
    cases hi : s.icaStates i with
    | none => rw [hi] at h; cases h
    | some ica =>
      rw [hi] at h
      simp only [Res.ok.injEq, Prod.mk.injEq] at h
      exact ⟨st, ica, rfl, not_not.mp ha, rfl, h.1.symm, h.2.symm⟩

theorem callback_ok {s s' : Store} {sender : String} {m : CallbackMsg} {r : Response}
    (h : icaCallbackHandler s sender m = .ok (s', r)) :
    ∃ id ica, s.addrToId sender = some id ∧ s.icaStates id = some ica ∧ r = .empty ∧
      ((∃ ch a e, m = .onChannelOpenAckCallback ch a e ∧ s' = { s with
          icaStates := fun i => if i = id then some { ica with icaState := some ⟨id, a, e, ⟨ch, .opened⟩⟩ }
            else s.icaStates i }) ∨
        ((∀ ch a e, m ≠ .onChannelOpenAckCallback ch a e) ∧ s' = s)) := by
  unfold icaCallbackHandler at h
  cases hi : s.addrToId sender with
  | none => rw [hi] at h; cases h
  | some id =>
    rw [hi] at h
    dsimp only at h
    cases hs : s.icaStates id with
    | none => rw [hs] at h; cases h
    | some ica =>
      rw [hs] at h
      dsimp only at h
      cases m with
      | onChannelOpenAckCallback ch a e =>
        simp only [Res.ok.injEq, Prod.mk.injEq] at h
        exact ⟨id, ica, rfl, hs, h.2.symm, .inl ⟨ch, a, e, rfl, h.1.symm⟩⟩
      | onAcknowledgementPacketCallback a p rl q =>
        simp only [Res.ok.injEq, Prod.mk.injEq] at h
        exact ⟨id, ica, rfl, hs, h.2.symm, .inr ⟨fun _ _ _ e => (by cases e), h.1.symm⟩⟩
      | onTimeoutPacketCallback p rl =>
        simp only [Res.ok.injEq, Prod.mk.injEq] at h
        exact ⟨id, ica, rfl, hs, h.2.symm, .inr ⟨fun _ _ _ e => (by cases e), h.1.symm⟩⟩

/-- What a call of the owner contract can be. -/
theorem exec_ok {api : Api} {w w' : OWorld} {sender : String} {bytes : Bytes} {ok : Bool} {ms : List CosmosMsg}
    (h : applyO api w (.execute sender bytes ok) = some (w', ms)) :
    (∃ st m addr o label salt,
      (∃ s, (jsonOfBytes bytes).bind (decodeEnum execVariants) = some (.inl (.createIcaContract s o)) ∧
        salt = s.getD (decString (w.time.toNat / 1000000000)) ∧
        ∃ c, Wasmd.instantiate2 w.addr w.codes w.taken w.self m = some c) ∧
      w.store.state = some st ∧ st.admin = sender ∧
      (Helpers.Code.mk st.codeId).instantiate2 w.addr ⟨fun _ _ => none, w.codes⟩ w.self (controllerMsg w.self o) label
          (some w.self) salt = some (m, addr) ∧ w.taken addr = false ∧
      (w.store.icaCount.getD 0).toNat + 1 < 18446744073709551616 ∧ ms = [m] ∧
      w' = { w with
        store := { w.store with
              icaStates := fun i => if i = w.store.icaCount.getD 0 then some ⟨addr, none⟩ else w.store.icaStates i
              addrToId := fun a => if a = addr then some (w.store.icaCount.getD 0) else w.store.addrToId a
              icaCount := some (UInt64.ofNat ((w.store.icaCount.getD 0).toNat + 1)) }
        taken := fun a => if a = addr then true else w.taken a
        created := w.created ++
          [⟨addr, st.codeId, w.self, some w.self, label, InstantiateMsg.jc.toBytes (controllerMsg w.self o), []⟩] }) ∨
    (∃ st ica i dst, (jsonOfBytes bytes).bind (decodeEnum execVariants) = some (.inl (.sendPredefinedAction i dst)) ∧
      w.store.state = some st ∧ st.admin = sender ∧ w.store.icaStates i = some ica ∧ w' = w ∧
      ms = [.wasm (.execute ica.contractAddr (jsonToBytes (sendCosmosMsgsPlain [predefined dst] none none)) [])]) ∨
    (∃ m id ica, (jsonOfBytes bytes).bind (decodeEnum execVariants) = some (.inr m) ∧
      w.store.addrToId sender = some id ∧ w.store.icaStates id = some ica ∧ ms = [] ∧
      ((∃ ch a e, m = .onChannelOpenAckCallback ch a e ∧ w' = { w with
          store := { w.store with
            icaStates := fun i => if i = id then some { ica with icaState := some ⟨id, a, e, ⟨ch, .opened⟩⟩ }
              else w.store.icaStates i } }) ∨
        ((∀ ch a e, m ≠ .onChannelOpenAckCallback ch a e) ∧ w' = w))) := by
  unfold applyO at h
  dsimp only at h
  split at h
  · next s r he =>
    unfold execute at he
    split at he
    · next salt o hd =>
      left
      obtain ⟨st, m, addr, h1, h2, h3, h4, rfl, rfl⟩ := create_ok he
      obtain ⟨b, rfl, _⟩ := C54_instantiate2 h3
      dsimp only at h h3
      rw [runMessages] at h
      cases ok with
      | false => cases h
      | true =>
        rw [if_pos rfl] at h
        dsimp only [SubMsg.new] at h
        cases hc : Wasmd.instantiate2 w.addr w.codes w.taken w.self (.wasm (.instantiate2 (some w.self) st.codeId
            ("icacontroller-" ++ w.self ++ "-" ++ decString (w.store.icaCount.getD 0).toNat) b []
            (utf8 (salt.getD (decString (w.time.toNat / 1000000000)))))) with
        | none => rw [hc] at h; cases h
        | some c =>
          rw [hc] at h
          have hcc := C55_address_is_right h3 rfl hc
          have ht : w.taken addr = false := by
            have := hc
            unfold Wasmd.instantiate2 at this
            dsimp only at this
            split at this
            · split at this
              · split at this
                · split at this
                  · cases this
                  · next hh =>
                    rw [← Option.some.inj this] at hcc
                    have : _ = addr := congrArg Wasmd.Created.addr hcc
                    dsimp only at this
                    rw [← this]
                    simpa using hh
                · cases this
              · cases this
            · cases this
          simp only [runMessages, Option.map_some, Option.some.injEq, Prod.mk.injEq, List.map_cons, List.map_nil] at h
          refine ⟨st, _, addr, o, _, _, ⟨salt, hd, rfl, c, hc⟩, h1, h2, h3, ht, h4, h.2.symm, ?_⟩
          rw [← h.1, hcc]
    · next i dst hd =>
      right; left
      obtain ⟨st, ica, h1, h2, h3, rfl, rfl⟩ := send_ok he
      dsimp only at h
      rw [runMessages] at h
      cases ok with
      | false => cases h
      | true =>
        rw [if_pos rfl] at h
        simp only [SubMsg.new, runMessages, Option.map_some, Option.some.injEq, Prod.mk.injEq, List.map_cons,
          List.map_nil] at h
        exact ⟨st, ica, i, dst, hd, h1, h2, h3, h.1.symm, h.2.symm⟩
    · next m hd =>
      right; right
      obtain ⟨id, ica, h1, h2, rfl, h3⟩ := callback_ok he
      simp only [Response.empty, runMessages, Option.map_some, Option.some.injEq, Prod.mk.injEq, List.map_nil] at h
      refine ⟨m, id, ica, hd, h1, h2, h.2.symm, ?_⟩
      rw [← h.1]
      rcases h3 with ⟨ch, a, e, rfl, rfl⟩ | ⟨h3, rfl⟩
      · exact .inl ⟨ch, a, e, rfl, rfl⟩
      · exact .inr ⟨h3, rfl⟩
    · cases he
  · cases h

/-- The registry of the owner contract describes the contracts created for it. -/
structure OInv (w : OWorld) : Prop where
  len : w.created.length = (w.store.icaCount.getD 0).toNat
  states : ∀ id, (w.store.icaStates id).map (·.contractAddr) = (w.created[id.toNat]?).map (·.addr)
  ids : ∀ a id, w.store.addrToId a = some id ↔ ∃ c, w.created[id.toNat]? = some c ∧ c.addr = a
  each : ∀ c ∈ w.created, w.taken c.addr = true ∧ c.creator = w.self ∧ c.admin = some w.self ∧ c.funds = [] ∧
    (∃ st, w.store.state = some st ∧ c.codeId = st.codeId) ∧
    ∃ o, c.msg = InstantiateMsg.jc.toBytes (controllerMsg w.self o)
  own : ∀ id s i, w.store.icaStates id = some s → s.icaState = some i → i.icaId = id ∧ i.channelState.channelStatus = .opened

theorem oinv_genesis (self : String) (time : UInt64) (addr : Helpers.AddrApi) (codes : Wasmd.Codes) (taken : String → Bool) :
    OInv (OWorld.genesis self time addr codes taken) :=
  ⟨rfl, fun _ => rfl, fun a id => ⟨fun h => (by cases h), fun ⟨c, h, _⟩ => (by simp [OWorld.genesis] at h)⟩,
    fun c h => (by cases h), fun _ _ _ h => (by cases h)⟩

theorem oinv_step {api : Api} {w w' : OWorld} {op : OOp} {ms : List CosmosMsg} (hv : OInv w)
    (h : applyO api w op = some (w', ms)) : OInv w' := by
  cases op with
  | block t =>
    obtain ⟨rfl, _⟩ := Prod.mk.inj (Option.some.inj h)
    exact ⟨hv.len, hv.states, hv.ids, hv.each, hv.own⟩
  | elsewhere a =>
    obtain ⟨rfl, _⟩ := Prod.mk.inj (Option.some.inj h)
    refine ⟨hv.len, hv.states, hv.ids, fun c hc => ⟨?_, (hv.each c hc).2⟩, hv.own⟩
    dsimp only
    split
    · rfl
    · exact (hv.each c hc).1
  | upload c k =>
    simp only [applyO] at h
    split at h
    · cases h
    · obtain ⟨rfl, _⟩ := Prod.mk.inj (Option.some.inj h)
      exact ⟨hv.len, hv.states, hv.ids, hv.each, hv.own⟩
  | instantiate sender msg =>
    simp only [applyO] at h
    cases hst : w.store.state with
    | some st => rw [hst] at h; cases h
    | none =>
      have hc : w.created = [] := by
        rcases hcr : w.created with _ | ⟨c, l⟩
        · rfl
        · obtain ⟨_, _, _, _, ⟨st, e, _⟩, _⟩ := hv.each c (by rw [hcr]; exact List.mem_cons_self)
          rw [hst] at e; cases e
      have key : ∀ st, OInv { w with store := { w.store with state := some st } } := fun st =>
        ⟨hv.len, hv.states, hv.ids, fun c h => (by dsimp only at h; rw [hc] at h; cases h), hv.own⟩
      rw [hst] at h
      dsimp only at h
      unfold instantiate at h
      cases ha : msg.admin with
      | none =>
        rw [ha] at h
        obtain ⟨rfl, _⟩ := Prod.mk.inj (Option.some.inj h)
        exact key _
      | some a =>
        rw [ha] at h
        dsimp only at h
        cases hv : addrValidate api a with
        | ok b =>
          rw [hv] at h
          obtain ⟨rfl, _⟩ := Prod.mk.inj (Option.some.inj h)
          exact key _
        | err e => rw [hv] at h; cases h
        | panic e => rw [hv] at h; cases h
  | execute sender bytes ok =>
    rcases exec_ok h with ⟨st, m, addr, o, label, salt, hdec, h1, h2, h3, ht, h4, rfl, rfl⟩ |
      ⟨st, ica, i, dst, hdec, h1, h2, h3, rfl, rfl⟩ | ⟨m, id, ica, h1, h2, h3, rfl, h4⟩
    · generalize hc : (⟨addr, st.codeId, w.self, some w.self, label,
        InstantiateMsg.jc.toBytes (controllerMsg w.self o), []⟩ : Wasmd.Created) = c
      have hca : c.addr = addr := by rw [← hc]
      have hn : (UInt64.ofNat ((w.store.icaCount.getD 0).toNat + 1)).toNat = (w.store.icaCount.getD 0).toNat + 1 := by
        rw [UInt64.toNat_ofNat']
        exact Nat.mod_eq_of_lt h4
      have hget : ∀ id : UInt64, (w.created ++ [c])[id.toNat]? =
          if id = w.store.icaCount.getD 0 then some c else w.created[id.toNat]? := by
        intro id
        split
        · next e => rw [e, ← hv.len]; simp
        · next e =>
          have hne : id.toNat ≠ w.created.length := fun e2 => e (UInt64.toNat_inj.mp (e2.trans hv.len))
          by_cases hlt : id.toNat < w.created.length
          · rw [List.getElem?_append_left hlt]
          · rw [List.getElem?_eq_none (by simp; omega), List.getElem?_eq_none (by omega)]
      have hfresh : ∀ d ∈ w.created, d.addr ≠ addr := by
        intro d hd e
        have := (hv.each d hd).1
        rw [e, ht] at this
        cases this
      refine ⟨?_, ?_, ?_, ?_, ?_⟩
      · dsimp only
        rw [List.length_append, Option.getD_some, hn, hv.len]
        rfl
      · intro id
        dsimp only
        rw [hget]
        split
        · simp [hca]
        · exact hv.states id
      · intro a id
        dsimp only
        rw [hget]
        by_cases ha : a = addr
        · rw [if_pos ha]
          subst ha
          constructor
          · rintro e
            obtain rfl := Option.some.inj e
            exact ⟨c, if_pos rfl, hca⟩
          · rintro ⟨d, hd, e⟩
            split at hd
            · next e2 => rw [e2]
            · exact absurd e (hfresh d (List.mem_of_getElem? hd))
        · rw [if_neg ha, hv.ids]
          constructor
          · rintro ⟨d, hd, e⟩
            refine ⟨d, ?_, e⟩
            rw [if_neg]
            · exact hd
            · rintro rfl
              rw [← hv.len] at hd
              simp at hd
          · rintro ⟨d, hd, e⟩
            split at hd
            · obtain rfl := Option.some.inj hd
              exact absurd (e.symm.trans hca) ha
            · exact ⟨d, hd, e⟩
      · intro d hd
        rcases List.mem_append.mp hd with hd | hd
        · obtain ⟨e1, e2⟩ := hv.each d hd
          refine ⟨?_, e2⟩
          dsimp only
          split
          · rfl
          · exact e1
        · obtain rfl := List.mem_singleton.mp hd
          refine ⟨if_pos hca, ?_⟩
          rw [← hc]
          exact ⟨rfl, rfl, rfl, ⟨st, h1, rfl⟩, o, rfl⟩
      · intro id s i hs hi
        dsimp only at hs
        split at hs
        · obtain rfl := Option.some.inj hs
          cases hi
        · exact hv.own id s i hs hi
    · exact hv
    · rcases h4 with ⟨ch, a, e, rfl, rfl⟩ | ⟨_, rfl⟩
      · refine ⟨hv.len, fun j => ?_, hv.ids, hv.each, fun j s i hs hi => ?_⟩
        · dsimp only
          split
          · next e2 => rw [e2, ← hv.states, h3]; rfl
          · exact hv.states j
        · dsimp only at hs
          split at hs
          · next e2 =>
            obtain rfl := Option.some.inj hs
            obtain rfl := Option.some.inj hi
            exact ⟨e2.symm, rfl⟩
          · exact hv.own j s i hs hi
      · exact hv

theorem oinv_exec {api : Api} {w0 w : OWorld} {h : List (OOp × List CosmosMsg)} (he : OExec api w0 h w) (hv : OInv w0) :
    OInv w := by
  induction he with
  | nil => exact hv
  | step _ ha ih => exact oinv_step ih ha

end Owner

open Owner

/-- **C64.** In any world: a call of the owner contract that makes it send anything is one of its admin, and nobody
changes the admin or the code it creates controllers from once it is instantiated. -/
theorem C64_only_admin {api : Api} {w w' : OWorld} {op : OOp} {ms : List CosmosMsg}
    (h : applyO api w op = some (w', ms)) :
    (ms ≠ [] → ∃ sender bytes ok st, op = .execute sender bytes ok ∧ w.store.state = some st ∧ st.admin = sender) ∧
    (∀ st, w.store.state = some st → w'.store.state = some st) := by
  cases op with
  | block t => obtain ⟨rfl, rfl⟩ := Prod.mk.inj (Option.some.inj h); exact ⟨fun h => absurd rfl h, fun _ h => h⟩
  | elsewhere a => obtain ⟨rfl, rfl⟩ := Prod.mk.inj (Option.some.inj h); exact ⟨fun h => absurd rfl h, fun _ h => h⟩
  | upload c k =>
    simp only [applyO] at h
    split at h
    · cases h
    · obtain ⟨rfl, rfl⟩ := Prod.mk.inj (Option.some.inj h)
      exact ⟨fun h => absurd rfl h, fun _ h => h⟩
  | instantiate sender msg =>
    simp only [applyO] at h
    split at h
    · cases h
    next hn =>
    split at h
    · obtain ⟨rfl, rfl⟩ := Prod.mk.inj (Option.some.inj h)
      exact ⟨fun h => absurd rfl h, fun st e => by rw [hn] at e; cases e⟩
    · cases h
  | execute sender bytes ok =>
    rcases exec_ok h with ⟨st, m, addr, o, label, salt, hdec, h1, h2, h3, ht, h4, rfl, rfl⟩ |
      ⟨st, ica, i, dst, hdec, h1, h2, h3, rfl, rfl⟩ | ⟨m, id, ica, h1, h2, h3, rfl, h4⟩
    · exact ⟨fun _ => ⟨sender, bytes, ok, st, rfl, h1, h2⟩, fun _ h => h⟩
    · exact ⟨fun _ => ⟨sender, bytes, ok, st, rfl, h1, h2⟩, fun _ h => h⟩
    · refine ⟨fun h => absurd rfl h, ?_⟩
      rcases h4 with ⟨ch, a, e, rfl, rfl⟩ | ⟨_, rfl⟩ <;> exact fun _ h => h

/-- **C64.** After any history: the ids in use are exactly those below the count, in the order of creation; each entry has
the address of the contract that the chain created for it; the map from addresses to ids is the inverse; and no two
ids share an address. -/
theorem C64_registry {api : Api} {self : String} {time : UInt64} {addr : Helpers.AddrApi} {codes : Wasmd.Codes}
    {taken : String → Bool} {h : List (OOp × List CosmosMsg)} {w : OWorld}
    (he : OExec api (OWorld.genesis self time addr codes taken) h w) :
    w.created.length = (w.store.icaCount.getD 0).toNat ∧
    (∀ id, (w.store.icaStates id).isSome ↔ id < w.store.icaCount.getD 0) ∧
    (∀ id, (w.store.icaStates id).map (·.contractAddr) = (w.created[id.toNat]?).map (·.addr)) ∧
    (∀ a id, w.store.addrToId a = some id ↔ ∃ s, w.store.icaStates id = some s ∧ s.contractAddr = a) ∧
    (w.created.map (·.addr)).Nodup := by
  have hv := oinv_exec he (oinv_genesis ..)
  refine ⟨hv.len, fun id => ?_, hv.states, fun a id => ?_, ?_⟩
  · have := congrArg Option.isSome (hv.states id)
    simp only [Option.isSome_map] at this
    rw [this, UInt64.lt_iff_toNat_lt, ← hv.len]
    simp
  · rw [hv.ids]
    have := hv.states id
    constructor
    · rintro ⟨c, hc, e⟩
      rw [hc] at this
      obtain ⟨s, hs, e2⟩ := Option.map_eq_some_iff.mp this
      exact ⟨s, hs, e2.trans e⟩
    · rintro ⟨s, hs, e⟩
      rw [hs] at this
      obtain ⟨c, hc, e2⟩ := Option.map_eq_some_iff.mp this.symm
      exact ⟨c, hc, e2.trans e⟩
  · rw [List.nodup_iff_injective_get]
    intro i j e
    have hb : ∀ k : Fin (w.created.map (·.addr)).length, (UInt64.ofNat k.1).toNat = k.1 := by
      intro k
      have h1 : k.1 < (w.store.icaCount.getD 0).toNat := Nat.lt_of_lt_of_eq k.2 (by rw [List.length_map, hv.len])
      rw [UInt64.toNat_ofNat']
      exact Nat.mod_eq_of_lt (h1.trans (UInt64.toNat_lt _))
    have hid : ∀ k : Fin (w.created.map (·.addr)).length,
        w.store.addrToId ((w.created.map (·.addr)).get k) = some (UInt64.ofNat k.1) := by
      intro k
      have h1 : k.1 < w.created.length := Nat.lt_of_lt_of_eq k.2 (List.length_map ..)
      refine (hv.ids _ _).mpr ⟨w.created[k.1], ?_, by simp⟩
      rw [hb]
      exact List.getElem?_eq_getElem h1
    have h2 := (hid i).symm.trans ((congrArg w.store.addrToId e).trans (hid j))
    have h3 := congrArg UInt64.toNat (Option.some.inj h2)
    rw [hb, hb] at h3
    exact Fin.ext h3

/-- **C64.** Every controller it created is created by it from the configured code, with itself as the contract's admin,
and a message by which the controller makes it the owner and the receiver of the callbacks. -/
theorem C64_controllers_are_its_own {api : Api} {self : String} {time : UInt64} {addr : Helpers.AddrApi}
    {codes : Wasmd.Codes} {taken : String → Bool} {h : List (OOp × List CosmosMsg)} {w : OWorld}
    (he : OExec api (OWorld.genesis self time addr codes taken) h w) {c : Wasmd.Created} (hc : c ∈ w.created) :
    c.creator = w.self ∧ c.admin = some w.self ∧ c.funds = [] ∧ (∃ st, w.store.state = some st ∧ c.codeId = st.codeId) ∧
    ∀ (capi : Api) (cw cw' : World) (sender fresh : String) (core : Bool) (obs : List Obs),
      (∀ msg, InstantiateMsg.jc.ofBytes c.msg = some msg → Commits capi cw (.instantiate sender msg fresh core) cw' obs) →
      ownerOf cw' = some w.self ∧ callbackOf cw' = some w.self := by
  obtain ⟨_, e1, e2, e3, e4, o, e5⟩ := (oinv_exec he (oinv_genesis ..)).each c hc
  refine ⟨e1, e2, e3, e4, fun capi cw cw' sender fresh core obs hi => ?_⟩
  have := hi (controllerMsg w.self o) (by rw [e5]; exact JC.ofBytes_toBytes InstantiateMsg.jc_law _)
  obtain ⟨_, _, _, _, _, _, _, rfl, _⟩ := apply_instantiate.mp this
  exact ⟨rfl, rfl⟩

/-- **C64.** Only its own controllers can change what it knows about ICAs, each only its own entry, and only by telling it
about an open channel. -/
theorem C64_callbacks_only_from_controllers {api : Api} {self : String} {time : UInt64} {addr : Helpers.AddrApi}
    {codes : Wasmd.Codes} {taken : String → Bool} {h : List (OOp × List CosmosMsg)} {w w' : OWorld}
    (he : OExec api (OWorld.genesis self time addr codes taken) h w) {op : OOp} {ms : List CosmosMsg}
    (ha : applyO api w op = some (w', ms)) {id : UInt64} {s s' : IcaContractState} (hs : w.store.icaStates id = some s)
    (hs' : w'.store.icaStates id = some s') (hne : s'.icaState ≠ s.icaState) :
    ∃ bytes ok ch a e, op = .execute s.contractAddr bytes ok ∧
      (jsonOfBytes bytes).bind (decodeEnum execVariants) = some (.inr (.onChannelOpenAckCallback ch a e)) ∧
      s' = ⟨s.contractAddr, some ⟨id, a, e, ⟨ch, .opened⟩⟩⟩ := by
  have hv := oinv_exec he (oinv_genesis ..)
  have same : w'.store.icaStates = w.store.icaStates → False := by
    intro e
    rw [e, hs] at hs'
    obtain rfl := Option.some.inj hs'
    exact hne rfl
  cases op with
  | block t => obtain ⟨rfl, rfl⟩ := Prod.mk.inj (Option.some.inj ha); exact (same rfl).elim
  | elsewhere a => obtain ⟨rfl, rfl⟩ := Prod.mk.inj (Option.some.inj ha); exact (same rfl).elim
  | upload c k =>
    simp only [applyO] at ha
    split at ha
    · cases ha
    · obtain ⟨rfl, rfl⟩ := Prod.mk.inj (Option.some.inj ha); exact (same rfl).elim
  | instantiate sender msg =>
    simp only [applyO] at ha
    split at ha
    · cases ha
    split at ha
    · next st r hi =>
      obtain ⟨rfl, rfl⟩ := Prod.mk.inj (Option.some.inj ha)
      refine (same ?_).elim
      unfold Owner.instantiate at hi
      split at hi
      · next a _ =>
        cases hx : addrValidate api a with
        | ok b => rw [hx] at hi; obtain ⟨rfl, _⟩ := Prod.mk.inj (Res.ok.inj hi); rfl
        | err e => rw [hx] at hi; cases hi
        | panic e => rw [hx] at hi; cases hi
      · obtain ⟨rfl, _⟩ := Prod.mk.inj (Res.ok.inj hi); rfl
    · cases ha
  | execute sender bytes ok =>
    rcases exec_ok ha with ⟨st, m, addr, o, label, salt, hdec, h1, h2, h3, ht, h4, rfl, rfl⟩ |
      ⟨st, ica, i, dst, hdec, h1, h2, h3, rfl, rfl⟩ | ⟨m, i, ica, h1, h2, h3, rfl, h4⟩
    · exfalso
      dsimp only at hs'
      rw [if_neg] at hs'
      · rw [hs] at hs'
        obtain rfl := Option.some.inj hs'
        exact hne rfl
      · rintro rfl
        have := hv.states (w.store.icaCount.getD 0)
        rw [hs, ← hv.len] at this
        simp at this
    · exact (same rfl).elim
    · rcases h4 with ⟨ch, a, e, rfl, rfl⟩ | ⟨_, rfl⟩
      · dsimp only at hs'
        by_cases hid : id = i
        · subst hid
          rw [if_pos rfl] at hs'
          rw [h3] at hs
          obtain rfl := Option.some.inj hs
          obtain rfl := Option.some.inj hs'
          obtain ⟨c, hc, hca⟩ := (hv.ids _ _).mp h2
          have := hv.states id
          rw [h3, hc] at this
          have e1 : ica.contractAddr = c.addr := by simpa using this
          rw [e1, hca]
          exact ⟨bytes, ok, ch, a, e, rfl, h1, by rw [← hca, ← e1]⟩
        · rw [if_neg hid, hs] at hs'
          obtain rfl := Option.some.inj hs'
          exact absurd rfl hne
      · exact (same rfl).elim

/-- **C65.** The controller's calls are never refused: whatever callback it sends, the owner contract that created it
accepts. -/
theorem C65_accepts_every_callback {api : Api} {self : String} {time : UInt64} {addr : Helpers.AddrApi}
    {codes : Wasmd.Codes} {taken : String → Bool} {h : List (OOp × List CosmosMsg)} {w : OWorld}
    (he : OExec api (OWorld.genesis self time addr codes taken) h w) {c : Wasmd.Created} (hc : c ∈ w.created)
    {capi : Api} {cw cw' : World} {op : Op} {obs : List Obs} (hcm : Commits capi cw op cw' obs)
    {x : String × Bytes × List Coin} (hx : x ∈ callsOf obs) (ok : Bool) :
    ∃ w', applyO api w (.execute c.addr x.2.1 ok) = some (w', []) := by
  have hv := oinv_exec he (oinv_genesis ..)
  obtain ⟨n, hn, hget⟩ := List.mem_iff_getElem.mp hc
  have hb : (UInt64.ofNat n).toNat = n := by
    rw [UInt64.toNat_ofNat']
    refine Nat.mod_eq_of_lt ?_
    rw [hv.len] at hn
    exact hn.trans (UInt64.toNat_lt _)
  have hi : w.store.addrToId c.addr = some (UInt64.ofNat n) := by
    refine (hv.ids _ _).mpr ⟨c, ?_, rfl⟩
    rw [hb, List.getElem?_eq_getElem hn, hget]
  have hst := hv.states (UInt64.ofNat n)
  rw [hb, List.getElem?_eq_getElem hn] at hst
  obtain ⟨ica, hs, _⟩ := Option.map_eq_some_iff.mp hst
  have hdec : ∃ m, x.2.1 = CallbackMsg.intoJsonBinary m := by
    cases ho : op.notifies with
    | false => rw [C43_no_other hcm ho] at hx; cases hx
    | true =>
      obtain ⟨m, e⟩ := notify_calls hcm ho
      rw [e, callsOf_callObs] at hx
      cases hcb : callbackOf cw with
      | none => rw [hcb] at hx; cases hx
      | some a =>
        rw [hcb] at hx
        rw [List.mem_singleton.mp hx]
        exact ⟨m, rfl⟩
  obtain ⟨m, e⟩ := hdec
  simp only [applyO, Owner.execute, e, decode_callback, icaCallbackHandler, hi, hs]
  generalize withoutQueryResult m = m'
  cases m' <;> exact ⟨_, rfl⟩

/-- **C65.** When a controller it created completes a handshake, the entry of the owner contract becomes what the
controller itself reports: its open channel, ICA address and encoding. -/
theorem C65_open_ack_recorded {api : Api} {self : String} {time : UInt64} {addr : Helpers.AddrApi}
    {codes : Wasmd.Codes} {taken : String → Bool} {h : List (OOp × List CosmosMsg)} {w w' : OWorld}
    (he : OExec api (OWorld.genesis self time addr codes taken) h w) {c : Wasmd.Created} (hc : c ∈ w.created)
    {capi : Api} {cw cw' : World} {id cpId v : String} {obs : List Obs}
    (hcm : Commits capi cw (.relayOpenAck id cpId v) cw' obs) (hcb : callbackOf cw = some w.self)
    {bytes : Bytes} (hx : (w.self, bytes, []) ∈ callsOf obs) {ok : Bool}
    (ha : applyO api w (.execute c.addr bytes ok) = some (w', [])) :
    ∃ n ch ica, w.store.addrToId c.addr = some n ∧ Reports cw' ch .opened ∧ icaOf cw' = some ica ∧
      w'.store.icaStates n = some ⟨c.addr, some ⟨n, ica.icaAddress, ica.encoding, ⟨ch, .opened⟩⟩⟩ := by
  have hv := oinv_exec he (oinv_genesis ..)
  obtain ⟨ch, ica, _, hr, hi, b, hb, hd⟩ := C44_open_ack hcm hcb
  obtain ⟨m, e⟩ := notify_calls hcm rfl
  rw [callsOf_callObs, hcb] at e
  rw [hb] at e hx
  simp only [List.cons.injEq, Prod.mk.injEq, true_and, and_true] at e
  obtain ⟨_, rfl, _⟩ := by simpa using hx
  subst e
  rw [show ReceiverExecuteMsg.jc.ofBytes m.intoJsonBinary = some (.receiveIcaCallback m) from
    JC.ofBytes_toBytes ReceiverExecuteMsg.jc_law _] at hd
  obtain rfl : m = .onChannelOpenAckCallback ch ica.icaAddress ica.encoding := by simpa using hd
  rcases exec_ok ha with ⟨st, m, addr, o, label, salt, hdec, h1, h2, h3, ht, h4, hm, _⟩ |
      ⟨st, ica, i, dst, hdec, h1, h2, h3, _, hm⟩ | ⟨m, n, s, h1, h2, h3, _, h4⟩
  · cases hm
  · cases hm
  · rw [decode_callback] at h1
    obtain rfl := Sum.inr.inj (Option.some.inj h1)
    refine ⟨n, ch, ica, h2, hr, hi, ?_⟩
    rcases h4 with ⟨ch', a', e', he', rfl⟩ | ⟨hne, _⟩
    · cases he'
      dsimp only
      rw [if_pos rfl]
      obtain ⟨d, hd1, hd2⟩ := (hv.ids _ _).mp h2
      have := hv.states n
      rw [h3, hd1] at this
      have e1 : s.contractAddr = d.addr := by simpa using this
      rw [← hd2, ← e1]
    · exact absurd rfl (hne _ _ _)

/-- **C65.** The predefined action goes to the controller with the given id and is run there as a `SendCosmosMsgs` with
exactly one message, a transfer of 100 stake to the given address. -/
theorem C65_predefined_action {api : Api} {self : String} {time : UInt64} {addr : Helpers.AddrApi}
    {codes : Wasmd.Codes} {taken : String → Bool} {h : List (OOp × List CosmosMsg)} {w w' : OWorld}
    (he : OExec api (OWorld.genesis self time addr codes taken) h w) {sender : String} {bytes : Bytes} {ok : Bool}
    {ms : List CosmosMsg} (ha : applyO api w (.execute sender bytes ok) = some (w', ms)) {i : UInt64} {dst : String}
    (hd : (jsonOfBytes bytes).bind (decodeEnum execVariants) = some (.inl (.sendPredefinedAction i dst))) :
    ∃ c b, w.created[i.toNat]? = some c ∧ ms = [.wasm (.execute c.addr b [])] ∧ w' = w ∧
      ∀ capi env s, Raw.vmExecute capi env s b =
        Raw.execute capi env s (.sendCosmosMsgs [.bank (.send dst [⟨"stake", ⟨100, by decide⟩⟩])] [] none none) := by
  have hv := oinv_exec he (oinv_genesis ..)
  unfold applyO at ha
  dsimp only at ha
  unfold Owner.execute at ha
  rw [hd] at ha
  dsimp only at ha
  split at ha
  · next s r hs =>
    obtain ⟨st, ica, h1, h2, h3, rfl, rfl⟩ := send_ok hs
    rw [runMessages] at ha
    cases ok with
    | false => cases ha
    | true =>
      rw [if_pos rfl] at ha
      simp only [SubMsg.new, runMessages, Option.map_some, Option.some.injEq, Prod.mk.injEq, List.map_cons,
        List.map_nil] at ha
      have := hv.states i
      rw [h3] at this
      obtain ⟨c, hc, e⟩ := Option.map_eq_some_iff.mp this.symm
      refine ⟨c, _, hc, ?_, ha.1.symm, fun capi env s => C62_plain_client _ none none capi env s⟩
      rw [← ha.2, e]
      rfl
  · cases ha

/-- The JSON of a request to create a controller. -/
def Owner.createJson (salt : Option String) (o : ChannelOpenInitOptions) : Json :=
  .obj [("create_ica_contract", .obj [("salt", (jcOpt jcStr).enc salt),
    ("channel_open_init_options", ChannelOpenInitOptions.jc.enc o)])]

/-- The JSON of a request for the predefined action. -/
def Owner.predefinedJson (i : UInt64) (dst : String) : Json :=
  .obj [("send_predefined_action", .obj [("ica_id", jcU64.enc i), ("to_address", jcStr.enc dst)])]

theorem Owner.decode_create (salt : Option String) (o : ChannelOpenInitOptions) :
    decodeEnum execVariants (createJson salt o) = some (.inl (.createIcaContract salt o)) := by
  have h1 : snakeCase "CreateIcaContract" = "create_ica_contract" := by decide +kernel
  rw [(merge_find (vs := ownVariants) (dec := CallbackMsg.decPlain) (new := execVariants) rfl _).2
    (fun v h => by simp [createJson] at h)]
  cases salt <;> simp [decodeEnum, createJson, ownVariants, h1, getObj, countKey, lookupKey, optF, reqF, jcOpt, jcStr,
    ChannelOpenInitOptions.jc_law _]

theorem Owner.decode_predefined (i : UInt64) (dst : String) :
    decodeEnum execVariants (predefinedJson i dst) = some (.inl (.sendPredefinedAction i dst)) := by
  have h1 : snakeCase "CreateIcaContract" = "create_ica_contract" := by decide +kernel
  have h2 : snakeCase "SendPredefinedAction" = "send_predefined_action" := by decide +kernel
  rw [(merge_find (vs := ownVariants) (dec := CallbackMsg.decPlain) (new := execVariants) rfl _).2
    (fun v h => by simp [predefinedJson] at h)]
  simp [decodeEnum, predefinedJson, ownVariants, h1, h2, getObj, countKey, lookupKey, reqF, jcStr_law _, jcU64_law _]

/-- **C64.** The admin can create controllers: whenever the code exists, the salt is good, the predicted address is free
and the new controller accepts its message, the call succeeds. -/
theorem C64_admin_can_create {api : Api} {w : OWorld} {st : State} (hst : w.store.state = some st) {salt : Option String}
    {o : ChannelOpenInitOptions} {m : CosmosMsg} {addr : String}
    (hi : (Helpers.Code.mk st.codeId).instantiate2 w.addr ⟨fun _ _ => none, w.codes⟩ w.self ⟨some w.self, o, some w.self⟩
      ("icacontroller-" ++ w.self ++ "-" ++ decString (w.store.icaCount.getD 0).toNat) (some w.self)
      (salt.getD (decString (w.time.toNat / 1000000000))) = some (m, addr))
    (hl : ∀ b, w.addr.canonicalize w.self = some b → b ≠ [] ∧ b.length ≤ 255) (hf : w.taken addr = false)
    (hn : (w.store.icaCount.getD 0).toNat + 1 < 18446744073709551616) :
    ∃ w', applyO api w (.execute st.admin (jsonToBytes (createJson salt o)) true) = some (w', [m]) ∧
      w'.created.map (·.addr) = w.created.map (·.addr) ++ [addr] := by
  have hacc := C55_chain_accepts (codes := w.codes) (taken := w.taken) hi rfl hl hf
  obtain ⟨b, rfl, _⟩ := C54_instantiate2 hi
  unfold applyO
  dsimp only
  unfold Owner.execute
  rw [jsonOfBytes_toBytes, Option.bind_some, decode_create]
  dsimp only
  unfold createIcaContract
  rw [hst]
  dsimp only
  rw [if_neg (not_not.mpr rfl)]
  simp only [controllerMsg, hi, if_pos hn, runMessages, SubMsg.new, if_true, hacc, Option.map_some, List.map_cons,
    List.map_nil]
  exact ⟨_, rfl, by simp⟩

/-- A chain with the code, and the owner contract instantiated by its admin. -/
def Ex.o0 : OWorld :=
  { OWorld.genesis "wasm1owner" 1700000000000000000 Ex.addrApi (fun n => if n = 7 then some (List.replicate 32 1) else none)
      (fun _ => false) with
    store := ⟨some ⟨"boss", 7⟩, fun _ => none, none, fun _ => none⟩ }

/-- A history in which a controller is created, so that there is one to speak about. -/
theorem Ex.owner_creates : ∃ h w c, OExec Ex.api (OWorld.genesis "wasm1owner" 1700000000000000000 Ex.addrApi
      (fun n => if n = 7 then some (List.replicate 32 1) else none) (fun _ => false)) h w ∧ w.created = [c] := by
  have hi : ∃ m a, (Helpers.Code.mk 7).instantiate2 Ex.o0.addr ⟨fun _ _ => none, Ex.o0.codes⟩ Ex.o0.self
      ⟨some Ex.o0.self, Ex.opts, some Ex.o0.self⟩
      ("icacontroller-" ++ Ex.o0.self ++ "-" ++ decString (Ex.o0.store.icaCount.getD 0).toNat) (some Ex.o0.self)
      ((some "salt" : Option String).getD (decString (Ex.o0.time.toNat / 1000000000))) = some (m, a) := by
    unfold Helpers.Code.instantiate2
    exact ⟨_, _, rfl⟩
  obtain ⟨m, a, hi⟩ := hi
  obtain ⟨w', h1, h2⟩ := C64_admin_can_create (api := Ex.api) (w := Ex.o0) (st := ⟨"boss", 7⟩) rfl hi
    (fun b hb => by
      obtain rfl : utf8 "wasm1owner" = b := Option.some.inj hb
      exact ⟨by decide +kernel, by decide +kernel⟩) rfl (by decide)
  obtain ⟨c, e⟩ : ∃ c, w'.created = [c] := by
    rw [show Ex.o0.created = [] from rfl] at h2
    exact List.length_eq_one_iff.mp (by simpa using congrArg List.length h2)
  exact ⟨_, w', c, .step (.step .nil (op := .instantiate "boss" ⟨none, 7⟩) (w' := Ex.o0) (ms := []) rfl) h1, e⟩

end Ica
