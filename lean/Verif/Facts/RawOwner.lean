import Verif.Facts.ApiStored
import Verif.Facts.OwnerApi
import Verif.Facts.RawStore
import Verif.Spec.RawOwnerWorld

/-! # The owner contract on raw storage does what the typed one does (helper lemmas) -/
namespace Ica
open Api Raw

/-! ## Codecs -/

theorem Owner.State.jc_law : Owner.State.jc.Law := by
  rintro ⟨a, c⟩
  simp [Owner.State.jc, getObj, countKey, lookupKey, reqF, jcStr_law _, jcU64_law _]

theorem Owner.IcaState.jc_law : Owner.IcaState.jc.Law := by
  rintro ⟨i, a, e, c⟩
  simp [Owner.IcaState.jc, getObj, countKey, lookupKey, reqF, jcStr_law _, jcU64_law _, TxEncoding.jc_law _,
    ChannelState.jc_law _]
theorem Owner.IcaState.jc_nn : Owner.IcaState.jc.NonNull := fun _ h => by cases h

theorem Owner.IcaContractState.jc_law : Owner.IcaContractState.jc.Law := by
  rintro ⟨a, s⟩
  simp [Owner.IcaContractState.jc, getObj, countKey, lookupKey, reqF, optF, jcStr_law _,
    jcOpt_law Owner.IcaState.jc_law Owner.IcaState.jc_nn _]

theorem OwnerInstantiate_reads : Reads Owner.InstantiateMsg.jc OwnerInstantiate := by
  intro j m
  constructor
  · intro h
    simp only [Owner.InstantiateMsg.jc, matchToBind] at h
    obtain ⟨fs, hg, g0⟩ := Option.bind_eq_some_iff.mp h
    obtain ⟨rfl, ho, hk⟩ := getObj_closed.mp hg
    obtain ⟨x0, h0, g1⟩ := Option.bind_eq_some_iff.mp g0
    obtain ⟨x1, h1, g2⟩ := Option.bind_eq_some_iff.mp g1
    cases g2
    exact ⟨fs, rfl, ho, (optF_iff reads_text (hk _ (by simp))).mp h0, (reqF_iff reads_num64 (hk _ (by simp))).mp h1⟩
  · rintro ⟨fs, rfl, ho, h0, h1⟩
    have c0 := may_count h0
    replace h0 := (optF_iff reads_text c0).mpr h0
    have c1 := has_count h1
    replace h1 := (reqF_iff reads_num64 c1).mpr h1
    have hg : getObj true ["admin", "ica_controller_code_id"] (.obj fs) = some fs :=
      getObj_closed.mpr ⟨rfl, ho, by simp [c0, c1]⟩
    simp [Owner.InstantiateMsg.jc, hg, h0, h1]

theorem OwnerQuery_reads (j : Json) (m : Owner.QueryMsg) : Owner.QueryMsg.dec j = some m ↔ OwnerQuery j m := by
  constructor
  · intro h
    rcases j with _ | _ | _ | _ | _ | fs
    all_goals try (simp [Owner.QueryMsg.dec] at h; done)
    rcases fs with _ | ⟨⟨k, v⟩, _ | ⟨_, _⟩⟩
    · simp [Owner.QueryMsg.dec] at h
    swap
    · simp [Owner.QueryMsg.dec] at h
    simp only [Owner.QueryMsg.dec] at h
    split at h
    · next e =>
      subst e
      obtain ⟨fs, hg, rfl⟩ := Option.map_eq_some_iff.mp h
      obtain ⟨rfl, ho, -⟩ := getObj_closed.mp hg
      exact ⟨_, rfl, fs, rfl, ho, trivial⟩
    split at h
    · next e =>
      subst e
      simp only [matchToBind] at h
      obtain ⟨fs, hg, g0⟩ := Option.bind_eq_some_iff.mp h
      obtain ⟨rfl, ho, hk⟩ := getObj_closed.mp hg
      obtain ⟨x0, h0, rfl⟩ := Option.map_eq_some_iff.mp g0
      exact ⟨_, rfl, fs, rfl, ho, (reqF_iff reads_num64 (hk _ (by simp))).mp h0⟩
    split at h
    · next e =>
      subst e
      obtain ⟨fs, hg, rfl⟩ := Option.map_eq_some_iff.mp h
      obtain ⟨rfl, ho, -⟩ := getObj_closed.mp hg
      exact ⟨_, rfl, fs, rfl, ho, trivial⟩
    · cases h
  · cases m with
    | getContractState =>
      rintro ⟨_, rfl, fs, rfl, ho, -⟩
      have hg : getObj true [] (.obj fs) = some fs := getObj_closed.mpr ⟨rfl, ho, by simp⟩
      simp [Owner.QueryMsg.dec, hg]
    | getIcaCount =>
      rintro ⟨_, rfl, fs, rfl, ho, -⟩
      have hg : getObj true [] (.obj fs) = some fs := getObj_closed.mpr ⟨rfl, ho, by simp⟩
      simp [Owner.QueryMsg.dec, hg]
    | getIcaContractState i =>
      rintro ⟨_, rfl, fs, rfl, ho, h0⟩
      have c0 := has_count h0
      replace h0 := (reqF_iff reads_num64 c0).mpr h0
      have hg : getObj true ["ica_id"] (.obj fs) = some fs := getObj_closed.mpr ⟨rfl, ho, by simp [c0]⟩
      simp [Owner.QueryMsg.dec, hg, h0]

/-- A receiver without the `query` feature reads the callback and does not look at `query_result`. -/
theorem PlainCallback_reads (j : Json) (m : CallbackMsg) : CallbackMsg.decPlain j = some m ↔ PlainCallback j m := by
  constructor
  · intro h
    rcases j with _ | _ | _ | _ | _ | fs
    all_goals try (simp [CallbackMsg.decPlain] at h; done)
    rcases fs with _ | ⟨⟨k, v⟩, _ | ⟨_, _⟩⟩
    · simp [CallbackMsg.decPlain] at h
    swap
    · simp [CallbackMsg.decPlain] at h
    simp only [CallbackMsg.decPlain] at h
    split at h
    · next e =>
      subst e
      simp only [matchToBind] at h
      obtain ⟨fs, hg, g0⟩ := Option.bind_eq_some_iff.mp h
      obtain ⟨rfl, hk⟩ := getObj_open.mp hg
      obtain ⟨x0, h0, g1⟩ := Option.bind_eq_some_iff.mp g0
      obtain ⟨x1, h1, g2⟩ := Option.bind_eq_some_iff.mp g1
      obtain ⟨x2, h2, g3⟩ := Option.bind_eq_some_iff.mp g2
      cases g3
      exact ⟨rfl, _, rfl, fs, rfl, (reqF_iff AckData_reads (hk _ (by simp))).mp h0,
        (reqF_iff IbcPacket_reads (hk _ (by simp))).mp h1, (reqF_iff reads_text (hk _ (by simp))).mp h2⟩
    · next hk =>
      have hc := (CallbackMsg_reads _ _).mp h
      cases m with
      | onAcknowledgementPacketCallback a p r q =>
        obtain ⟨v', e, _⟩ := hc
        simp only [Json.obj.injEq, List.cons.injEq, Prod.mk.injEq, and_true] at e
        exact absurd e.1 hk
      | onTimeoutPacketCallback p r => exact hc
      | onChannelOpenAckCallback c a e => exact hc
  · cases m with
    | onAcknowledgementPacketCallback a p r q =>
      rintro ⟨rfl, _, rfl, fs, rfl, h0, h1, h2⟩
      have c0 := has_count h0
      replace h0 := (reqF_iff AckData_reads c0).mpr h0
      have c1 := has_count h1
      replace h1 := (reqF_iff IbcPacket_reads c1).mpr h1
      have c2 := has_count h2
      replace h2 := (reqF_iff reads_text c2).mpr h2
      have hg : getObj false ["ica_acknowledgement", "original_packet", "relayer"] (.obj fs) = some fs :=
        getObj_open.mpr ⟨rfl, by simp [c0, c1, c2]⟩
      simp [CallbackMsg.decPlain, hg, h0, h1, h2]
    | onTimeoutPacketCallback p r =>
      intro h
      have hc := (CallbackMsg_reads j (.onTimeoutPacketCallback p r)).mpr h
      obtain ⟨v, rfl, _⟩ := h
      simpa [CallbackMsg.decPlain] using hc
    | onChannelOpenAckCallback c a e =>
      intro h
      have hc := (CallbackMsg_reads j (.onChannelOpenAckCallback c a e)).mpr h
      obtain ⟨v, rfl, _⟩ := h
      simpa [CallbackMsg.decPlain] using hc

theorem Owner.callback_reads (j : Json) (m : CallbackMsg) :
    decodeEnum Owner.execVariants j = some (.inr m) ↔ OwnerCallback j m := by
  constructor
  · intro h
    rcases j with _ | _ | _ | _ | _ | fs
    all_goals try (simp [decodeEnum] at h; done)
    rcases fs with _ | ⟨⟨k, v⟩, _ | ⟨_, _⟩⟩
    · simp [decodeEnum] at h
    swap
    · simp [decodeEnum] at h
    rw [Owner.own_find] at h
    split at h
    · obtain ⟨_, _, e⟩ := Option.map_eq_some_iff.mp h; cases e
    split at h
    · obtain ⟨_, _, e⟩ := Option.map_eq_some_iff.mp h; cases e
    split at h
    · next e =>
      subst e
      obtain ⟨m', h, e⟩ := Option.map_eq_some_iff.mp h
      cases e
      exact ⟨_, rfl, (PlainCallback_reads _ _).mp h⟩
    · cases h
  · rintro ⟨v, rfl, h⟩
    have h := (PlainCallback_reads _ _).mpr h
    simp [Owner.own_find, h]

theorem Owner.callback_decodes {bytes : Bytes} {m : CallbackMsg} :
    (jsonOfBytes bytes).bind (decodeEnum Owner.execVariants) = some (.inr m) ↔ Spells OwnerCallback bytes m := by
  unfold jsonOfBytes Spells
  rw [Option.bind_eq_some_iff]
  constructor
  · rintro ⟨j, h1, h2⟩
    obtain ⟨t, h3, h4⟩ := Option.bind_eq_some_iff.mp h1
    exact ⟨t, j, (utf8_of_ofUtf8 h3).symm, C67_reads_json.mp h4, (Owner.callback_reads _ _).mp h2⟩
  · rintro ⟨t, j, rfl, h1, h2⟩
    exact ⟨j, by rw [ofUtf8_utf8]; exact C67_reads_json.mpr h1, (Owner.callback_reads _ _).mpr h2⟩

theorem Owner.query_decodes {bytes : Bytes} {m : Owner.QueryMsg} :
    (jsonOfBytes bytes).bind Owner.QueryMsg.dec = some m ↔ Spells OwnerQuery bytes m := by
  unfold jsonOfBytes Spells
  rw [Option.bind_eq_some_iff]
  constructor
  · rintro ⟨j, h1, h2⟩
    obtain ⟨t, h3, h4⟩ := Option.bind_eq_some_iff.mp h1
    exact ⟨t, j, (utf8_of_ofUtf8 h3).symm, C67_reads_json.mp h4, (OwnerQuery_reads _ _).mp h2⟩
  · rintro ⟨t, j, rfl, h1, h2⟩
    exact ⟨j, by rw [ofUtf8_utf8]; exact C67_reads_json.mpr h1, (OwnerQuery_reads _ _).mpr h2⟩

namespace RawOwner
open Owner

/-! ## Keys -/

theorem key_states (id : UInt64) : ICA_STATES.rawKey id = 0 :: 10 :: (utf8 "ica_states" ++ be64 id) := by
  have : (utf8 "ica_states").length = 10 := by decide +kernel
  simp [Map1.rawKey, ICA_STATES, prefixed, be16, this]
theorem key_ids (a : String) :
    CONTRACT_ADDR_TO_ICA_ID.rawKey a = 0 :: 23 :: (utf8 "contract_addr_to_ica_id" ++ utf8 a) := by
  have : (utf8 "contract_addr_to_ica_id").length = 23 := by decide +kernel
  simp [Map1.rawKey, CONTRACT_ADDR_TO_ICA_ID, prefixed, be16, this]

theorem key_states_inj {i j : UInt64} (h : ICA_STATES.rawKey i = ICA_STATES.rawKey j) : i = j := by
  rw [key_states, key_states] at h
  simp only [List.cons.injEq, true_and] at h
  exact be64_inj (List.append_cancel_left h)
theorem key_ids_inj {a b : String} (h : CONTRACT_ADDR_TO_ICA_ID.rawKey a = CONTRACT_ADDR_TO_ICA_ID.rawKey b) : a = b := by
  rw [key_ids, key_ids] at h
  simp only [List.cons.injEq, true_and] at h
  exact utf8_inj (List.append_cancel_left h)
theorem key_states_ids (i : UInt64) (a : String) : ICA_STATES.rawKey i ≠ CONTRACT_ADDR_TO_ICA_ID.rawKey a := by
  rw [key_states, key_ids]
  simp
theorem state_head : (utf8 STATE.key).head? ≠ some 0 := by decide +kernel
theorem count_head : (utf8 ICA_COUNT.key).head? ≠ some 0 := by decide +kernel
theorem states_ne_item {i : UInt64} {k : Bytes} (hk : k.head? ≠ some 0) : ICA_STATES.rawKey i ≠ k := by
  rintro rfl
  rw [key_states] at hk
  exact hk rfl
theorem ids_ne_item {a : String} {k : Bytes} (hk : k.head? ≠ some 0) : CONTRACT_ADDR_TO_ICA_ID.rawKey a ≠ k := by
  rintro rfl
  rw [key_ids] at hk
  exact hk rfl

/-! ## Reading and writing -/

theorem holds_ne {κ α : Type} {m : Map1 κ α} {raw : RawStore} {k : κ} {o : Option α} (h : MapHolds m raw k o) {k' : Bytes}
    {v : Option Bytes} (hk : m.rawKey k ≠ k') : MapHolds m (setKey raw k' v) k o := by
  unfold MapHolds at h ⊢
  simpa [setKey, hk] using h

theorem holds_set {κ α : Type} {m : Map1 κ α} (law : m.jc.Law) (raw : RawStore) (k : κ) (x : α) :
    MapHolds m (setKey raw (m.rawKey k) (some (m.jc.toBytes x))) k (some x) := by
  simp [MapHolds, setKey, JC.ofBytes_toBytes law]

theorem load_of_holds {κ α : Type} {m : Map1 κ α} {raw : RawStore} {k : κ} {o : Option α} (h : MapHolds m raw k o) :
    m.load k raw = (Ica.load o, raw) := by
  unfold MapHolds at h
  unfold Map1.load Ica.load
  cases hr : raw (m.rawKey k) with
  | none => cases o <;> simp_all
  | some b => cases o <;> simp_all

variable {raw : RawStore} {s : Owner.Store}

theorem stands_state (h : Stands raw s) (x : State) :
    Stands (setKey raw (utf8 STATE.key) (some (STATE.jc.toBytes x))) { s with state := some x } :=
  ⟨Item.holds_set State.jc_law raw x, Item.holds_ne h.count (item_ne (by decide)),
    fun id => holds_ne (h.states id) (states_ne_item state_head), fun a => holds_ne (h.ids a) (ids_ne_item state_head)⟩

theorem stands_count (h : Stands raw s) (x : UInt64) :
    Stands (setKey raw (utf8 ICA_COUNT.key) (some (ICA_COUNT.jc.toBytes x))) { s with icaCount := some x } :=
  ⟨Item.holds_ne h.state (item_ne (by decide)), Item.holds_set jcU64_law raw x,
    fun id => holds_ne (h.states id) (states_ne_item count_head), fun a => holds_ne (h.ids a) (ids_ne_item count_head)⟩

theorem stands_states (h : Stands raw s) (id : UInt64) (x : IcaContractState) :
    Stands (setKey raw (ICA_STATES.rawKey id) (some (ICA_STATES.jc.toBytes x)))
      { s with icaStates := fun i => if i = id then some x else s.icaStates i } := by
  refine ⟨Item.holds_ne h.state (states_ne_item state_head).symm, Item.holds_ne h.count (states_ne_item count_head).symm,
    fun i => ?_, fun a => holds_ne (h.ids a) (key_states_ids _ _).symm⟩
  dsimp only
  split
  · next e => subst e; exact holds_set IcaContractState.jc_law raw _ _
  · next e => exact holds_ne (h.states i) fun hh => e (key_states_inj hh)

theorem stands_ids (h : Stands raw s) (a : String) (x : UInt64) :
    Stands (setKey raw (CONTRACT_ADDR_TO_ICA_ID.rawKey a) (some (CONTRACT_ADDR_TO_ICA_ID.jc.toBytes x)))
      { s with addrToId := fun b => if b = a then some x else s.addrToId b } := by
  refine ⟨Item.holds_ne h.state (ids_ne_item state_head).symm, Item.holds_ne h.count (ids_ne_item count_head).symm,
    fun i => holds_ne (h.states i) (key_states_ids _ _), fun b => ?_⟩
  dsimp only
  split
  · next e => subst e; exact holds_set jcU64_law raw _ _
  · next e => exact holds_ne (h.ids b) fun hh => e (key_ids_inj hh)

/-! ## Entry points -/

/-- As `Raw.Agrees`. -/
def Agrees {α : Type} (out : Res α × RawStore) (t : Res (Owner.Store × α)) : Prop :=
  match t with
  | .ok (s, a) => out.1 = .ok a ∧ Stands out.2 s
  | .err e => out.1 = .err e
  | .panic w => out.1 = .panic w

theorem write {α β : Type} {m : RM α} {f : α → RM β} {raw' : RawStore} {a : α} {t : Res (Owner.Store × β)}
    (hm : m raw = (.ok a, raw')) (hf : Agrees (f a raw') t) : Agrees ((m >>= f) raw) t := by
  rw [bind_eq, hm]; exact hf

theorem instantiate_ag (h : Stands raw s) (api : Api) (sender : String) (msg : Owner.InstantiateMsg) :
    Agrees (instantiate api sender msg raw) (Owner.instantiate api s sender msg) := by
  unfold instantiate Owner.instantiate
  cases msg.admin with
  | none => exact write rfl (write rfl ⟨rfl, stands_state h _⟩)
  | some a =>
    dsimp only
    rw [bind_eq]
    unfold lift
    cases addrValidate api a with
    | ok b => exact write rfl ⟨rfl, stands_state h _⟩
    | err e => rfl
    | panic e => rfl

theorem create_ag (h : Stands raw s) (env : Owner.Env) (sender : String) (salt : Option String) (o : ChannelOpenInitOptions) :
    Agrees (createIcaContract env sender salt o raw) (Owner.createIcaContract env s sender salt o) := by
  unfold createIcaContract Owner.createIcaContract
  have hl := Item.load_of_holds h.state
  cases hs : s.state with
  | none => rw [hs] at hl; rw [bind_eq, hl]; rfl
  | some st =>
    rw [hs] at hl
    refine write hl ?_
    dsimp only
    split
    · rfl
    · refine write (attempt_load h.count) ?_
      cases (Helpers.Code.mk st.codeId).instantiate2 env.addr env.querier env.self (controllerMsg env.self o)
        ("icacontroller-" ++ env.self ++ "-" ++ decString (s.icaCount.getD 0).toNat) (some env.self)
        (salt.getD (decString (env.time.toNat / 1000000000))) with
      | none => rfl
      | some p =>
        obtain ⟨m, addr⟩ := p
        refine write rfl (write rfl ?_)
        split
        · refine write rfl ⟨rfl, ?_⟩
          have k := stands_count (stands_ids (stands_states h (s.icaCount.getD 0) ⟨addr, none⟩) addr (s.icaCount.getD 0))
            (UInt64.ofNat ((s.icaCount.getD 0).toNat + 1))
          dsimp only at k
          rw [hs] at k
          exact k
        · rfl

theorem send_ag (h : Stands raw s) (sender : String) (i : UInt64) (a : String) :
    Agrees (sendPredefinedAction sender i a raw) (Owner.sendPredefinedAction s sender i a) := by
  unfold sendPredefinedAction Owner.sendPredefinedAction
  have hl := Item.load_of_holds h.state
  cases hs : s.state with
  | none => rw [hs] at hl; rw [bind_eq, hl]; rfl
  | some st =>
    rw [hs] at hl
    refine write hl ?_
    dsimp only
    split
    · rfl
    · have hi := load_of_holds (h.states i)
      cases hc : s.icaStates i with
      | none => rw [hc] at hi; rw [bind_eq, hi]; rfl
      | some ica => rw [hc] at hi; exact write hi ⟨rfl, h⟩

theorem callback_ag (h : Stands raw s) (sender : String) (m : CallbackMsg) :
    Agrees (icaCallbackHandler sender m raw) (Owner.icaCallbackHandler s sender m) := by
  unfold icaCallbackHandler Owner.icaCallbackHandler
  have hl := load_of_holds (h.ids sender)
  cases hs : s.addrToId sender with
  | none => rw [hs] at hl; rw [bind_eq, hl]; rfl
  | some id =>
    rw [hs] at hl
    refine write hl ?_
    have hi := load_of_holds (h.states id)
    dsimp only
    cases hc : s.icaStates id with
    | none => rw [hc] at hi; rw [bind_eq, hi]; rfl
    | some ica =>
      rw [hc] at hi
      refine write hi ?_
      cases m with
      | onChannelOpenAckCallback ch a e => exact write rfl ⟨rfl, stands_states h _ _⟩
      | onAcknowledgementPacketCallback => exact ⟨rfl, h⟩
      | onTimeoutPacketCallback => exact ⟨rfl, h⟩

theorem execute_ag (h : Stands raw s) (env : Owner.Env) (sender : String) (bytes : Bytes) :
    Agrees (vmExecute env sender bytes raw) (Owner.execute env s sender bytes) := by
  unfold vmExecute Owner.execute
  cases (jsonOfBytes bytes).bind (decodeEnum execVariants) with
  | none => rfl
  | some x =>
    cases x with
    | inl m =>
      cases m with
      | createIcaContract salt o => exact create_ag h ..
      | sendPredefinedAction i a => exact send_ag h ..
    | inr m => exact callback_ag h ..

theorem stands_empty : Stands .empty ⟨none, fun _ => none, none, fun _ => none⟩ :=
  ⟨trivial, trivial, fun _ => trivial, fun _ => trivial⟩

theorem typed_eq {α : Type} {i : Item α} {raw : RawStore} {o o' : Option α} (h : i.Holds raw o) (h' : i.Holds raw o') :
    o = o' := by
  have e1 := Item.load_of_holds h
  have e2 := Item.load_of_holds h'
  rw [e1] at e2
  cases o <;> cases o' <;> simp_all [Ica.load]

/-! ## Worlds -/

theorem run_same {w : ROWorld} {o : OWorld} (h : Same w o) (ok : Bool) (ms : List SubMsg) :
    (∀ w', runMessages w ok ms = some w' → ∃ o', Owner.runMessages o ok ms = some o' ∧ Same w' o') ∧
    (∀ o', Owner.runMessages o ok ms = some o' → ∃ w', runMessages w ok ms = some w' ∧ Same w' o') := by
  induction ms generalizing w o with
  | nil => exact ⟨fun w' e => ⟨o, rfl, Option.some.inj e ▸ h⟩, fun o' e => ⟨w, rfl, Option.some.inj e ▸ h⟩⟩
  | cons m ms ih =>
    unfold runMessages Owner.runMessages
    have e := h.rest
    have e1 : o.addr = w.addr := by rw [e]
    have e2 : o.codes = w.codes := by rw [e]
    have e3 : o.taken = w.taken := by rw [e]
    have e4 : o.self = w.self := by rw [e]
    have e5 : o.created = w.created := by rw [e]
    rw [e1, e2, e3, e4, e5]
    cases ok with
    | false => exact ⟨fun _ e => (by cases e), fun _ e => (by cases e)⟩
    | true =>
      simp only [if_true]
      obtain ⟨i, msg, ro⟩ := m
      cases msg with
      | wasm x =>
        cases x with
        | instantiate2 adm code label b f salt =>
          dsimp only
          cases Wasmd.instantiate2 w.addr w.codes w.taken w.self (.wasm (.instantiate2 adm code label b f salt)) with
          | none => exact ⟨fun _ e => (by cases e), fun _ e => (by cases e)⟩
          | some c =>
            apply ih
            exact ⟨h.store, h.live, by conv_lhs => rw [e]⟩
        | _ => exact ih h
      | _ => exact ih h

theorem agrees_out {α : Type} {r : Res α} {raw' : RawStore} {t : Res (Owner.Store × α)} (h : Agrees (r, raw') t) :
    (∀ a, r = .ok a → ∃ s', t = .ok (s', a) ∧ Stands raw' s') ∧ (∀ s' a, t = .ok (s', a) → r = .ok a ∧ Stands raw' s') := by
  cases t with
  | ok p => exact ⟨fun a e => ⟨p.1, by have := h.1; dsimp only at this; rw [e] at this; cases this; rfl, h.2⟩, fun s' a e => by cases e; exact h⟩
  | err e => exact ⟨fun a e => (by have := h; dsimp only [Agrees] at this; rw [e] at this; cases this), fun s' a e => (by cases e)⟩
  | panic e => exact ⟨fun a e => (by have := h; dsimp only [Agrees] at this; rw [e] at this; cases this), fun s' a e => (by cases e)⟩

theorem genesis_same (self : String) (time : UInt64) (addr : Helpers.AddrApi) (codes : Wasmd.Codes) (taken : String → Bool) :
    Same (ROWorld.genesis self time addr codes taken) (OWorld.genesis self time addr codes taken) :=
  ⟨stands_empty, rfl, rfl⟩

theorem store_state_of_instantiate {api : Api} {s s' : Owner.Store} {sender : String} {msg : Owner.InstantiateMsg} {r : Response}
    (h : Owner.instantiate api s sender msg = .ok (s', r)) : s'.state.isSome = true := by
  unfold Owner.instantiate at h
  cases hm : msg.admin with
  | none => rw [hm] at h; cases h; rfl
  | some a =>
    rw [hm] at h
    dsimp only at h
    cases hv : addrValidate api a with
    | ok b => rw [hv] at h; cases h; rfl
    | err e => rw [hv] at h; cases h
    | panic e => rw [hv] at h; cases h

theorem store_state_of_execute {env : Owner.Env} {s s' : Owner.Store} {sender : String} {bytes : Bytes} {r : Response}
    (h : Owner.execute env s sender bytes = .ok (s', r)) : s'.state = s.state := by
  unfold Owner.execute at h
  split at h
  · obtain ⟨st, m, addr, h1, h2, h3, h4, rfl, rfl⟩ := create_ok h; rfl
  · obtain ⟨st, ica, h1, h2, h3, rfl, rfl⟩ := send_ok h; rfl
  · obtain ⟨id, ica, h1, h2, rfl, h3⟩ := callback_ok h
    rcases h3 with ⟨ch, a, e, rfl, rfl⟩ | ⟨h3, rfl⟩ <;> rfl
  · cases h

/-- Every step on bytes is a step on values. -/
theorem forward {api : Api} {w w' : ROWorld} {o : OWorld} (h : Same w o) {op : ROOp} {ms : List CosmosMsg}
    (ha : applyRO api w op = some (w', ms)) : ∃ op' o', Means op op' ∧ applyO api o op' = some (o', ms) ∧ Same w' o' := by
  have e := h.rest
  cases op with
  | block t =>
    obtain ⟨rfl, rfl⟩ := Prod.mk.inj (Option.some.inj ha)
    exact ⟨_, _, .block t, rfl, h.store, h.live, by conv_lhs => rw [e]⟩
  | elsewhere a =>
    obtain ⟨rfl, rfl⟩ := Prod.mk.inj (Option.some.inj ha)
    exact ⟨_, _, .elsewhere a, rfl, h.store, h.live, by conv_lhs => rw [e]⟩
  | upload c k =>
    refine ⟨_, { o with codes := fun x => if x = c then some k else o.codes x }, .upload c k, ?_⟩
    have ec : o.codes = w.codes := by rw [e]
    unfold applyRO at ha
    unfold applyO
    dsimp only at ha ⊢
    rw [ec]
    cases hc : w.codes c with
    | some x => rw [hc] at ha; cases ha
    | none =>
      rw [hc] at ha
      obtain ⟨rfl, rfl⟩ := Prod.mk.inj (Option.some.inj ha)
      exact ⟨rfl, h.store, h.live, by conv_lhs => rw [e]⟩
  | instantiate sender bytes =>
    unfold applyRO at ha
    dsimp only at ha
    split at ha
    · cases ha
    next hl =>
    cases hb : Owner.InstantiateMsg.jc.ofBytes bytes with
    | none => unfold vmInstantiate withMsg at ha; rw [hb] at ha; cases ha
    | some msg =>
      unfold vmInstantiate withMsg at ha
      rw [hb] at ha
      dsimp only at ha
      have hag := instantiate_ag h.store api sender msg
      have hn : o.store.state = none := by
        have := h.live
        cases hs : o.store.state with
        | none => rfl
        | some x => rw [hs] at this; exact absurd this (by simpa using hl)
      cases hr : instantiate api sender msg w.raw with
      | mk r raw' =>
        rw [hr] at ha hag
        cases r with
        | err e => cases ha
        | panic e => cases ha
        | ok r =>
          obtain ⟨rfl, rfl⟩ := Prod.mk.inj (Option.some.inj ha)
          obtain ⟨s', hs', hst⟩ := (agrees_out hag).1 r rfl
          refine ⟨_, { o with store := s' }, .instantiate ((ofBytes_iff OwnerInstantiate_reads).mp hb), ?_, hst, ?_, ?_⟩
          · simp [applyO, hn, hs']
          · exact (store_state_of_instantiate hs').symm
          · conv_lhs => rw [e]
  | execute sender bytes ok =>
    unfold applyRO at ha
    dsimp only at ha
    split at ha
    swap
    · cases ha
    next hl =>
    have hag := execute_ag h.store ⟨w.self, w.time, w.addr, ⟨fun _ _ => none, w.codes⟩⟩ sender bytes
    have henv : (⟨w.self, w.time, w.addr, ⟨fun _ _ => none, w.codes⟩⟩ : Owner.Env) =
        ⟨o.self, o.time, o.addr, ⟨fun _ _ => none, o.codes⟩⟩ := by rw [e]
    cases hr : vmExecute ⟨w.self, w.time, w.addr, ⟨fun _ _ => none, w.codes⟩⟩ sender bytes w.raw with
    | mk r raw' =>
      rw [hr] at ha hag
      cases r with
      | err e => cases ha
      | panic e => cases ha
      | ok r =>
        dsimp only at ha
        obtain ⟨w1, hw1, e1⟩ := Option.map_eq_some_iff.mp ha
        obtain ⟨rfl, rfl⟩ := Prod.mk.inj e1
        obtain ⟨s', hs', hst⟩ := (agrees_out hag).1 r rfl
        have hsame : Same { w with raw := raw' } { o with store := s' } :=
          ⟨hst, by rw [store_state_of_execute hs']; exact h.live, by conv_lhs => rw [e]⟩
        obtain ⟨o1, ho1, hs1⟩ := (run_same hsame ok r.messages).1 _ hw1
        refine ⟨_, o1, .execute sender bytes ok, ?_, hs1⟩
        rw [henv] at hs'
        simp [applyO, hs', ho1]

/-- Every step on values is a step on bytes, whatever text spells the message. -/
theorem backward {api : Api} {w : ROWorld} {o o' : OWorld} (h : Same w o) {op : ROOp} {op' : OOp} (hop : Means op op')
    {ms : List CosmosMsg} (ha : applyO api o op' = some (o', ms))
    (hlive : ∀ sender bytes ok, op = .execute sender bytes ok → w.live = true) :
    ∃ w', applyRO api w op = some (w', ms) ∧ Same w' o' := by
  have e := h.rest
  cases hop with
  | block t =>
    obtain ⟨rfl, rfl⟩ := Prod.mk.inj (Option.some.inj ha)
    exact ⟨_, rfl, h.store, h.live, by conv_lhs => rw [e]⟩
  | elsewhere a =>
    obtain ⟨rfl, rfl⟩ := Prod.mk.inj (Option.some.inj ha)
    exact ⟨_, rfl, h.store, h.live, by conv_lhs => rw [e]⟩
  | upload c k =>
    refine ⟨{ w with codes := fun x => if x = c then some k else w.codes x }, ?_⟩
    have ec : o.codes = w.codes := by rw [e]
    unfold applyO at ha
    unfold applyRO
    dsimp only at ha ⊢
    rw [ec] at ha
    cases hc : w.codes c with
    | some x => rw [hc] at ha; cases ha
    | none =>
      rw [hc] at ha
      obtain ⟨rfl, rfl⟩ := Prod.mk.inj (Option.some.inj ha)
      exact ⟨rfl, h.store, h.live, by conv_lhs => rw [e]⟩
  | @instantiate sender bytes msg hsp =>
    unfold applyO at ha
    dsimp only at ha
    cases hs : o.store.state with
    | some x => rw [hs] at ha; cases ha
    | none =>
      rw [hs] at ha
      dsimp only at ha
      have hl : w.live = false := by rw [h.live, hs]; rfl
      have hag := instantiate_ag h.store api sender msg
      cases hi : Owner.instantiate api o.store sender msg with
      | err e => rw [hi] at ha; cases ha
      | panic e => rw [hi] at ha; cases ha
      | ok p =>
        obtain ⟨s', r⟩ := p
        rw [hi] at ha hag
        obtain ⟨rfl, rfl⟩ := Prod.mk.inj (Option.some.inj ha)
        cases hr : instantiate api sender msg w.raw with
        | mk r' raw' =>
          rw [hr] at hag
          obtain ⟨e1, hst⟩ := (agrees_out hag).2 _ _ rfl
          subst e1
          refine ⟨{ w with raw := raw', live := true }, ?_, hst, (store_state_of_instantiate hi).symm, by conv_lhs => rw [e]⟩
          have hb := (ofBytes_iff OwnerInstantiate_reads).mpr hsp
          simp [applyRO, hl, vmInstantiate, withMsg, hb, hr]
  | execute sender bytes ok =>
    have hl := hlive _ _ _ rfl
    unfold applyO at ha
    dsimp only at ha
    have henv : (⟨o.self, o.time, o.addr, ⟨fun _ _ => none, o.codes⟩⟩ : Owner.Env) =
        ⟨w.self, w.time, w.addr, ⟨fun _ _ => none, w.codes⟩⟩ := by rw [e]
    rw [henv] at ha
    have hag := execute_ag h.store ⟨w.self, w.time, w.addr, ⟨fun _ _ => none, w.codes⟩⟩ sender bytes
    cases hi : Owner.execute ⟨w.self, w.time, w.addr, ⟨fun _ _ => none, w.codes⟩⟩ o.store sender bytes with
    | err e => rw [hi] at ha; cases ha
    | panic e => rw [hi] at ha; cases ha
    | ok p =>
      obtain ⟨s', r⟩ := p
      rw [hi] at ha hag
      dsimp only at ha
      obtain ⟨o1, ho1, e1⟩ := Option.map_eq_some_iff.mp ha
      obtain ⟨rfl, rfl⟩ := Prod.mk.inj e1
      cases hr : vmExecute ⟨w.self, w.time, w.addr, ⟨fun _ _ => none, w.codes⟩⟩ sender bytes w.raw with
      | mk r' raw' =>
        rw [hr] at hag
        obtain ⟨e1, hst⟩ := (agrees_out hag).2 _ _ rfl
        subst e1
        have hsame : Same { w with raw := raw' } { o with store := s' } :=
          ⟨hst, by rw [store_state_of_execute hi]; exact h.live, by conv_lhs => rw [e]⟩
        obtain ⟨w1, hw1, hs1⟩ := (run_same hsame ok r.messages).2 _ ho1
        exact ⟨w1, by unfold applyRO; dsimp only; rw [if_pos hl, hr]; dsimp only; rw [hw1]; rfl, hs1⟩

/-- A successful call of the owner contract on values is one of an instantiated contract. -/
theorem live_of_exec {api : Api} {o o' : OWorld} (hv : OInv o) {sender : String} {bytes : Bytes} {ok : Bool}
    {ms : List CosmosMsg} (ha : applyO api o (.execute sender bytes ok) = some (o', ms)) : o.store.state.isSome = true := by
  rcases exec_ok ha with ⟨st, m, addr, op, label, salt, hdec, h1, h2, h3, ht, h4, rfl, rfl⟩ |
      ⟨st, ica, i, dst, hdec, h1, h2, h3, rfl, rfl⟩ | ⟨m, id, ica, h1, h2, h3, rfl, h4⟩
  · rw [h1]; rfl
  · rw [h1]; rfl
  · obtain ⟨c, hc, _⟩ := (hv.ids sender id).mp h2
    obtain ⟨_, _, _, _, ⟨st, e, _⟩, _⟩ := hv.each c (List.mem_of_getElem? hc)
    rw [e]; rfl

end RawOwner

end Ica
