import Verif.Facts.GoAnswers
import Verif.Props.GoClient

/-!
# What the Go client reads in answers (C103)

What a Go value stands for is stated in `Verif/Spec/GoAnswers.lean`, the client is modelled in `Verif/Model/GoReader.lean`. A contract
is the function from the text of a query to its answer.
-/
namespace Ica
open Spec Format GoClient GoMeans Api

theorem unmarshal_written {α : Type} {dec : Json → Option α} {P : Json → Prop} {b : Bytes} (h : Written P b) :
    ∃ j, P j ∧ Written (fun k => k = j) b ∧ unmarshal dec b = dec j := by
  obtain ⟨t, j, rfl, hd, hp⟩ := h
  refine ⟨j, hp, ⟨t, j, rfl, hd, rfl⟩, ?_⟩
  simp [unmarshal, jsonOfBytes, ofUtf8_utf8, C67_reads_json.mpr hd]

theorem ask_ok {α : Type} {contract : Bytes → Res Bytes} {tag : String} {req : Json} {dec : Json → Option α} {b : Bytes}
    (h : contract (toBytes (.obj [(tag, req)])) = .ok b) : ask contract tag req dec = unmarshal dec b := by
  simp [ask, queryContract, h]

theorem ask_fails {α : Type} {contract : Bytes → Res Bytes} {tag : String} {req : Json} {dec : Json → Option α}
    (h : ∀ b, contract (toBytes (.obj [(tag, req)])) ≠ .ok b) : ask contract tag req dec = none := by
  unfold ask queryContract
  cases hc : contract (toBytes (.obj [(tag, req)])) with
  | ok b => exact absurd hc (h b)
  | _ => rfl

theorem controller_asked {raw : Raw.RawStore} {t u : Bytes} {m : QueryMsg} (h : Spells QueryMessage t m) (h' : Spells QueryMessage u m) :
    Raw.vmQuery t raw = Raw.vmQuery u raw := by
  unfold Raw.vmQuery Raw.withMsg
  simp only [(ofBytes_iff QueryMsg_reads).2 h, (ofBytes_iff QueryMsg_reads).2 h']

theorem controller_answers {raw : Raw.RawStore} {t b : Bytes} {m : QueryMsg} (h : Spells QueryMessage t m)
    (hb : Raw.vmQuery t raw = .ok b) : match m with
      | .getContractState => ∃ x, b = ContractState.jc.toBytes x
      | .getChannel => ∃ x, b = ChannelState.jc.toBytes x
      | .ownership => ∃ x, b = Ownership.jc.toBytes x := by
  unfold Raw.vmQuery Raw.withMsg at hb
  simp only [(ofBytes_iff QueryMsg_reads).2 h] at hb
  cases m <;> simp only [Raw.query, Raw.bind_eq, Raw.pure_eq] at hb ⊢
  case getContractState =>
    generalize Raw.STATE.load raw = r at hb
    obtain ⟨r, r'⟩ := r
    cases r <;> simp at hb
    exact ⟨_, hb.symm⟩
  case getChannel =>
    generalize Raw.CHANNEL_STATE.load raw = r at hb
    obtain ⟨r, r'⟩ := r
    cases r <;> simp at hb
    exact ⟨_, hb.symm⟩
  case ownership =>
    generalize Raw.OWNERSHIP.load raw = r at hb
    obtain ⟨r, r'⟩ := r
    cases r <;> simp at hb
    exact ⟨_, hb.symm⟩

theorem fits_endpoint {e : IbcEndpoint} : Fits (endpointJson e) := by simp [endpointJson, fits_obj, fits_str]
theorem fits_channel {c : IbcChannel} : Fits (channelJson c) := by simp [channelJson, fits_obj, fits_str, fits_endpoint]
theorem fits_channelState {c : ChannelState} : Fits (channelStateJson c) := by simp [channelStateJson, fits_obj, fits_str, fits_channel]
theorem fits_text {o : Option String} : Fits (textOrNull o) := by cases o <;> simp [textOrNull, orNull, fits_null, fits_str]
theorem fits_state {c : ContractState} : Fits (contractStateJson c) := by
  obtain ⟨i, cb⟩ := c
  cases i <;> simp [contractStateJson, fits_obj, fits_str, fits_text, orNull, fits_null]

theorem request_eq {tag : String} {req : Option GoController.Empty} :
    Json.obj [(tag, pointer GoController.Empty.json req)] = queryRequest tag req := by cases req <;> rfl

theorem controller_request {tag : String} {m : QueryMsg} (h : tag = match m with
        | .getChannel => "get_channel"
        | .getContractState => "get_contract_state"
        | .ownership => "ownership") :
    Spells QueryMessage (toBytes (.obj [(tag, pointer GoController.Empty.json (some {}))])) m := by
  rw [request_eq]
  exact C100_query_client.mpr ⟨by simp, h⟩

/-- **C103** (`GetChannel`). Whatever the contract stores: if it answers `get_channel`, then the Go client returns a value
that stands for the channel the contract names, and if it does not, the Go client returns an error. -/
theorem C103_channel (raw : Raw.RawStore) {text : Bytes} (hq : Spells QueryMessage text .getChannel) :
    (∀ answer, Raw.vmQuery text raw = .ok answer → ∃ cs g, Written (· = channelStateJson cs) answer ∧
      getChannel (Raw.vmQuery · raw) (some {}) = some g ∧ ReadChannel g cs) ∧
    ((∀ answer, Raw.vmQuery text raw ≠ .ok answer) → getChannel (Raw.vmQuery · raw) (some {}) = none) := by
  have hs := controller_request (tag := "get_channel") (m := .getChannel) rfl
  rw [controller_asked hq hs]
  refine ⟨fun answer ha => ?_, fun h => ask_fails (contract := fun t => Raw.vmQuery t raw) h⟩
  obtain ⟨cs, rfl⟩ := controller_answers hs ha
  have hw := written (P := (· = channelStateJson cs)) _ cs (enc_channelState cs)
  obtain ⟨j, rfl, -, hu⟩ := unmarshal_written (dec := GoController.ChannelState.ofJson) hw
  rcases reads_channelState cs with ⟨-, g, e, m⟩ | ⟨h, -⟩
  · exact ⟨cs, g, hw, by unfold getChannel; rw [ask_ok (contract := fun t => Raw.vmQuery t raw) ha, hu, e], m⟩
  · exact absurd fits_channelState h

/-- **C103** (`GetContractState`). -/
theorem C103_state (raw : Raw.RawStore) {text : Bytes} (hq : Spells QueryMessage text .getContractState) :
    (∀ answer, Raw.vmQuery text raw = .ok answer → ∃ st g, Written (· = contractStateJson st) answer ∧
      getContractState (Raw.vmQuery · raw) (some {}) = some g ∧ ReadState g st) ∧
    ((∀ answer, Raw.vmQuery text raw ≠ .ok answer) → getContractState (Raw.vmQuery · raw) (some {}) = none) := by
  have hs := controller_request (tag := "get_contract_state") (m := .getContractState) rfl
  rw [controller_asked hq hs]
  refine ⟨fun answer ha => ?_, fun h => ask_fails (contract := fun t => Raw.vmQuery t raw) h⟩
  obtain ⟨cs, rfl⟩ := controller_answers hs ha
  have hw := written (P := (· = contractStateJson cs)) _ cs (enc_contractState cs)
  obtain ⟨j, rfl, -, hu⟩ := unmarshal_written (dec := GoController.State.ofJson) hw
  rcases reads_state cs with ⟨-, g, e, m⟩ | ⟨h, -⟩
  · exact ⟨cs, g, hw, by unfold getContractState; rw [ask_ok (contract := fun t => Raw.vmQuery t raw) ha, hu, e], m⟩
  · exact absurd fits_state h

/-- **C103** (`Ownership`). The one answer that the Go client cannot read is that an offer ends at a block height of 2^63 or
more; then it returns an error. -/
theorem C103_ownership (raw : Raw.RawStore) {text : Bytes} (hq : Spells QueryMessage text .ownership) :
    (∀ answer, Raw.vmQuery text raw = .ok answer → ∃ o, Written (WritesOwnership o) answer ∧
      ((∃ h, o.pendingExpiry = some (.atHeight h) ∧ 2 ^ 63 ≤ h.toNat ∧ ownership (Raw.vmQuery · raw) (some {}) = none) ∨
        (∀ h, o.pendingExpiry = some (.atHeight h) → h.toNat < 2 ^ 63) ∧
        ∃ g, ownership (Raw.vmQuery · raw) (some {}) = some g ∧ ReadOwnership g o)) ∧
    ((∀ answer, Raw.vmQuery text raw ≠ .ok answer) → ownership (Raw.vmQuery · raw) (some {}) = none) := by
  have hs := controller_request (tag := "ownership") (m := .ownership) rfl
  rw [controller_asked hq hs]
  refine ⟨fun answer ha => ?_, fun h => ask_fails (contract := fun t => Raw.vmQuery t raw) h⟩
  obtain ⟨o, rfl⟩ := controller_answers hs ha
  have hw := written (P := WritesOwnership o) _ o (writes_ownership o)
  obtain ⟨j, hj, -, hu⟩ := unmarshal_written (dec := GoController.Ownership_for_String.ofJson) hw
  refine ⟨o, hw, ?_⟩
  have hf : Fits j ↔ ∀ h, o.pendingExpiry = some (.atHeight h) → h.toNat < 2 ^ 63 := by
    obtain ⟨e, he, rfl⟩ := hj
    simp only [fits_obj, List.forall_mem_cons, List.not_mem_nil, fits_text, true_and, IsEmpty.forall_iff, implies_true, and_true]
    cases hx : o.pendingExpiry with
    | none => rw [hx] at he; cases he; simp [fits_null]
    | some x =>
      rw [hx] at he
      cases x with
      | atHeight n => cases he; simp [fits_obj, fits_num]
      | atTime n => obtain ⟨_, ⟨s, rfl, -⟩, rfl⟩ := he; simp [fits_obj, fits_str]
      | never => cases he; simp [fits_obj]
  rcases reads_ownership o j hj with ⟨f, g, e, m⟩ | ⟨h, e⟩
  · exact .inr ⟨hf.mp f, g, by unfold ownership; rw [ask_ok (contract := fun t => Raw.vmQuery t raw) ha, hu, e], m⟩
  · rw [hf] at h
    simp only [not_forall, Nat.not_lt] at h
    obtain ⟨n, h1, h2⟩ := h
    exact .inl ⟨n, h1, h2, by unfold ownership; rw [ask_ok (contract := fun t => Raw.vmQuery t raw) ha, hu, e]⟩

/-- **C103** (`nil` requests). A request that is `nil` is an error, whatever is asked and whatever the contract stores. -/
theorem C103_nil (raw : Raw.RawStore) : getChannel (Raw.vmQuery · raw) none = none ∧
    getContractState (Raw.vmQuery · raw) none = none ∧ ownership (Raw.vmQuery · raw) none = none := by
  have h : ∀ tag b, Raw.vmQuery (toBytes (.obj [(tag, pointer GoController.Empty.json none)])) raw ≠ .ok b := by
    intro tag b
    rw [request_eq]
    unfold Raw.vmQuery Raw.withMsg
    cases hd : QueryMsg.jc.ofBytes (toBytes (queryRequest tag none)) with
    | none => simp [Raw.fail, Raw.lift]
    | some m => exact absurd rfl (C100_query_client.mp ((ofBytes_iff QueryMsg_reads).1 hd)).1
  exact ⟨ask_fails (contract := fun t => Raw.vmQuery t raw) (h _), ask_fails (contract := fun t => Raw.vmQuery t raw) (h _),
    ask_fails (contract := fun t => Raw.vmQuery t raw) (h _)⟩

/-- **C103** (no confusion). A Go value stands for one answer only. -/
theorem C103_one_channel {g : GoController.ChannelState} {a b : ChannelState} (ha : ReadChannel g a) (hb : ReadChannel g b) : a = b := by
  obtain ⟨c, st⟩ := a
  obtain ⟨c', st'⟩ := b
  cases ibcChannel_inj ha.1 hb.1
  cases status_inj ha.2 hb.2
  rfl
/-- **C103** (no confusion). -/
theorem C103_one_state {g : GoController.State} {a b : ContractState} (ha : ReadState g a) (hb : ReadState g b) : a = b := by
  obtain ⟨i, cb⟩ := a
  obtain ⟨i', cb'⟩ := b
  obtain ⟨rfl, h1⟩ := ha
  obtain ⟨rfl, h2⟩ := hb
  cases pointer_inj (fun x (a b : IcaInfo) h h' => by
    obtain ⟨a1, a2, a3⟩ := a
    obtain ⟨b1, b2, b3⟩ := b
    obtain ⟨rfl, rfl, h⟩ := h
    obtain ⟨rfl, rfl, h'⟩ := h'
    cases encoding_inj h h'
    rfl) h1 h2
  rfl
/-- **C103** (no confusion). -/
theorem C103_one_ownership {g : GoController.Ownership_for_String} {a b : Ownership} (ha : ReadOwnership g a)
    (hb : ReadOwnership g b) : a = b := by
  obtain ⟨i, cb, e⟩ := a
  obtain ⟨i', cb', e'⟩ := b
  obtain ⟨rfl, rfl, h1⟩ := ha
  obtain ⟨rfl, rfl, h2⟩ := hb
  cases pointer_inj (r := ReadExpiry) (fun x a b h h' => readExpiry_inj h h') h1 h2
  rfl

/-! ## The owner contract -/

section
open RawOwner
variable {api : Api} {self : String} {time : UInt64} {addr : Helpers.AddrApi} {codes : Wasmd.Codes} {taken : String → Bool}
  {h : List (ROOp × List CosmosMsg)} {w : ROWorld}

theorem owner_request_state : Spells OwnerQuery (toBytes (.obj [("get_contract_state",
    pointer GoOwner.QueryMsg_GetContractState.json (some {}))])) .getContractState := by
  rw [show Json.obj [("get_contract_state", pointer GoOwner.QueryMsg_GetContractState.json (some {}))] =
    GoOwner.QueryMsg.json { GetContractState := some {} } from rfl, C100_owner_query]
  exact ⟨_, rfl⟩
theorem owner_request_count : Spells OwnerQuery (toBytes (.obj [("get_ica_count",
    pointer GoOwner.QueryMsg_GetIcaCount.json (some {}))])) .getIcaCount := by
  rw [show Json.obj [("get_ica_count", pointer GoOwner.QueryMsg_GetIcaCount.json (some {}))] =
    GoOwner.QueryMsg.json { GetIcaCount := some {} } from rfl, C100_owner_query]
  exact ⟨_, rfl⟩
theorem owner_request_ica {id : UInt64} : Spells OwnerQuery (toBytes (.obj [("get_ica_contract_state",
    pointer GoOwner.QueryMsg_GetIcaContractState.json (some ⟨id.toNat⟩))])) (.getIcaContractState id) := by
  rw [show Json.obj [("get_ica_contract_state", pointer GoOwner.QueryMsg_GetIcaContractState.json (some ⟨id.toNat⟩))] =
    GoOwner.QueryMsg.json { GetIcaContractState := some ⟨id.toNat⟩ } from rfl, C100_owner_query]
  exact ⟨_, rfl, rfl⟩

/-- **C103** (the owner contract, `GetContractState`). After any history: the Go client returns the administrator and the code
the contract was instantiated with, if the number of the code is below 2^63, and otherwise an error. -/
theorem C103_owner_state (he : ROExec api (ROWorld.genesis self time addr codes taken) h w) :
    (∃ sender bytes msg ms, (ROOp.instantiate sender bytes, ms) ∈ h ∧ Spells OwnerInstantiate bytes msg ∧
      (msg.codeId.toNat < 2 ^ 63 → ∃ g, getOwnerState (RawOwner.vmQuery · w.raw) (some {}) = some g ∧
        ReadOwnerState g (msg.admin.getD sender) msg.codeId) ∧
      (2 ^ 63 ≤ msg.codeId.toNat → getOwnerState (RawOwner.vmQuery · w.raw) (some {}) = none)) ∨
    ((∀ sender bytes ms, (ROOp.instantiate sender bytes, ms) ∉ h) ∧ getOwnerState (RawOwner.vmQuery · w.raw) (some {}) = none) := by
  rcases C79_contract_state he owner_request_state with ⟨sender, bytes, msg, ms, b, h1, h2, h3, h4⟩ | ⟨h1, e, h2⟩
  · refine .inl ⟨sender, bytes, msg, ms, h1, h2, ?_⟩
    obtain ⟨j, rfl, -, hu⟩ := unmarshal_written (dec := GoOwner.ContractState.ofJson) h4
    unfold getOwnerState
    rw [ask_ok (contract := fun t => RawOwner.vmQuery t w.raw) h3, hu]
    have hf : Fits (ownerStateJson (msg.admin.getD sender) msg.codeId) ↔ msg.codeId.toNat < 2 ^ 63 := by
      simp [ownerStateJson, fits_obj, fits_str, fits_num]
    rcases reads_ownerState (msg.admin.getD sender) msg.codeId with ⟨f, g, e, m⟩ | ⟨f, e⟩
    · exact ⟨fun _ => ⟨g, e, m⟩, fun h => absurd (hf.mp f) (Nat.not_lt.mpr h)⟩
    · exact ⟨fun h => absurd (hf.mpr h) f, fun _ => e⟩
  · refine .inr ⟨h1, ask_fails (contract := fun t => RawOwner.vmQuery t w.raw) fun b hb => ?_⟩
    have hb : RawOwner.vmQuery _ w.raw = .ok b := hb
    rw [h2] at hb
    cases hb

/-- **C103** (the owner contract, `GetIcaCount`). After any history: the number of controllers that were created, if there are
any (and fewer than 2^63). -/
theorem C103_owner_count (he : ROExec api (ROWorld.genesis self time addr codes taken) h w) :
    (w.created ≠ [] → w.created.length < 2 ^ 63 →
      getIcaCount (RawOwner.vmQuery · w.raw) (some {}) = some w.created.length) ∧
    (w.created = [] ∨ 2 ^ 63 ≤ w.created.length → getIcaCount (RawOwner.vmQuery · w.raw) (some {}) = none) := by
  obtain ⟨h1, h2⟩ := C79_ica_count he owner_request_count
  by_cases hc : w.created = []
  · refine ⟨fun h => absurd hc h, fun _ => ?_⟩
    obtain ⟨e, h1⟩ := h1 hc
    refine ask_fails (contract := fun t => RawOwner.vmQuery t w.raw) fun b hb => ?_
    have hb : RawOwner.vmQuery _ w.raw = .ok b := hb
    rw [h1] at hb
    cases hb
  · obtain ⟨b, h3, h4⟩ := h2 hc
    obtain ⟨j, rfl, -, hu⟩ := unmarshal_written (dec := goInt) h4
    unfold getIcaCount
    rw [ask_ok (contract := fun t => RawOwner.vmQuery t w.raw) h3, hu]
    refine ⟨fun _ h => by simpa [goInt] using h, fun h => ?_⟩
    rcases h with h | h
    · exact absurd h hc
    · simpa [goInt] using h

/-- **C103** (the owner contract, `GetIcaContractState`). After any history, for any number that the Go client can ask for:
the Go client returns the address of the controller created with that number and what that controller told last (see
C79), and an error if there is no such controller. -/
theorem C103_owner_registry (he : ROExec api (ROWorld.genesis self time addr codes taken) h w) {id : UInt64} (hid : id.toNat < 2 ^ 63) :
    match w.created[id.toNat]? with
    | some c => ∃ told g, LastTold h c.addr told ∧
        getIcaContractState (RawOwner.vmQuery · w.raw) (some ⟨id.toNat⟩) = some g ∧ ReadRegistry g c.addr id told
    | none => getIcaContractState (RawOwner.vmQuery · w.raw) (some ⟨id.toNat⟩) = none := by
  have hx := C79_ica_contract_state he (owner_request_ica (id := id))
  cases hc : w.created[id.toNat]? with
  | none =>
    rw [hc] at hx
    obtain ⟨e, hx⟩ := hx
    refine ask_fails (contract := fun t => RawOwner.vmQuery t w.raw) fun b hb => ?_
    have hb : RawOwner.vmQuery _ w.raw = .ok b := hb
    rw [hx] at hb
    cases hb
  | some c =>
    rw [hc] at hx
    obtain ⟨b, told, h1, h3, h4⟩ := hx
    obtain ⟨j, rfl, -, hu⟩ := unmarshal_written (dec := GoOwner.IcaContractState.ofJson) h4
    have hf : Fits (registryJson c.addr id told) := by
      cases told <;> simp [registryJson, orNull, fits_obj, fits_str, fits_num, fits_null, fits_channel]
      exact hid
    rcases reads_registry c.addr id told with ⟨-, g, e, m⟩ | ⟨f, -⟩
    · refine ⟨told, g, h1, ?_, m⟩
      unfold getIcaContractState
      rw [ask_ok (contract := fun t => RawOwner.vmQuery t w.raw) h3, hu, e]
    · exact absurd hf f

end

/-- **C103** (no confusion). -/
theorem C103_one_registry {g : GoOwner.IcaContractState} {a b : String} {i j : UInt64} {s t : Option (IbcChannel × String × TxEncoding)}
    (ha : ReadRegistry g a i s) (hb : ReadRegistry g b j t) : a = b ∧ s = t ∧ (s ≠ none → i = j) := by
  obtain ⟨rfl, h1⟩ := ha
  obtain ⟨rfl, h2⟩ := hb
  have h3 : s = t := by
    rcases h1 with ⟨e1, rfl⟩ | ⟨x, y, e1, rfl, k⟩
    · rcases h2 with ⟨-, rfl⟩ | ⟨x, y, e2, -⟩
      · rfl
      · rw [e1] at e2; cases e2
    · rcases h2 with ⟨e2, -⟩ | ⟨x', y', e2, rfl, k'⟩
      · rw [e1] at e2; cases e2
      · rw [e1] at e2
        cases e2
        obtain ⟨y1, y2, y3⟩ := y
        obtain ⟨z1, z2, z3⟩ := y'
        obtain ⟨-, k2, k3, k4, -⟩ := k
        obtain ⟨-, l2, l3, l4, -⟩ := k'
        dsimp only at k2 k3 k4 l2 l3 l4
        cases oibcChannel_inj k4 l4
        cases encoding_inj k3 l3
        rw [← k2, ← l2]
  refine ⟨rfl, h3, fun hn => ?_⟩
  rcases h1 with ⟨-, e⟩ | ⟨x, y, e1, rfl, k⟩
  · exact absurd e hn
  · rcases h2 with ⟨e2, -⟩ | ⟨x', y', e2, -, k'⟩
    · rw [e1] at e2; cases e2
    · rw [e1] at e2
      cases e2
      exact UInt64.toNat_inj.mp (k.1.symm.trans k'.1)

/-! ## The callback counter -/

theorem counter_request : Spells CounterQuery (toBytes (.obj [("get_callback_counter", pointer (fun _ => .obj []) (some ()))])) ⟨⟩ := by
  rw [spells_text]
  exact ⟨_, rfl, [], rfl, by simp⟩

/-- **C103** (the callback counter). Whatever texts the counter was called with: all numbers in its answer are below 2^63 and the Go
client returns a value that stands for the callbacks that were received, in order and sorted by outcome, or the Go client
returns an error. -/
theorem C103_counter {i : Bytes} {raw0 raw1 : Raw.RawStore} {r : Response} (hi : Counter.vmInstantiate i raw0 = (.ok r, raw1))
    {bs : List Bytes} {os : List (Option CallbackMsg)} (hb : List.Forall₂ MeansCallback bs os) {q : Bytes}
    (hq : Spells CounterQuery q ⟨⟩) :
    let ms := os.filterMap fun x => x
    let go := getCallbackCounter (fun t => (Counter.vmQuery t (callAll bs raw1)).1) (some ())
    ∃ b j, (Counter.vmQuery q (callAll bs raw1)).1 = .ok b ∧ Written (· = j) b ∧
      WritesCounter (ms.filter isSuccess) (ms.filter isError) (ms.filter isTimeout) j ∧
      (Fits j → ∃ g, go = some g ∧ CReadCounter g (ms.filter isSuccess) (ms.filter isError) (ms.filter isTimeout)) ∧
      (¬ Fits j → go = none) := by
  intro ms go
  obtain ⟨b, h1, h2⟩ := C80_counter hi hb hq
  obtain ⟨b', h1', h2'⟩ := C80_counter hi hb counter_request
  have hbb : b' = b := by
    have : Counter.vmQuery q (callAll bs raw1) = Counter.vmQuery (toBytes (.obj [("get_callback_counter",
        pointer (fun _ => .obj []) (some ()))])) (callAll bs raw1) := by
      unfold Counter.vmQuery
      rw [counter_query_decodes.mpr hq, counter_query_decodes.mpr counter_request]
    rw [this, h1'] at h1
    cases h1
    rfl
  subst hbb
  obtain ⟨j, hj, hw, hu⟩ := unmarshal_written (dec := GoCounter.CallbackCounter.ofJson) h2
  have hgo : go = GoCounter.CallbackCounter.ofJson j := by
    show ask _ _ _ _ = _
    rw [ask_ok (contract := fun t => (Counter.vmQuery t (callAll bs raw1)).1) (b := b') (by show (Counter.vmQuery _ _).1 = _; rw [h1']), hu]
  refine ⟨b', j, by rw [h1], hw, hj, ?_⟩
  rw [hgo]
  rcases reads_counter hj with ⟨f, g, e, m⟩ | ⟨f, e⟩
  · exact ⟨fun _ => ⟨g, e, m⟩, fun h => absurd f h⟩
  · exact ⟨fun h => absurd h f, fun _ => e⟩

theorem decodeQuads_enc : ∀ bs : Bytes, decodeQuads (b64Enc bs) = some bs
  | [] => rfl
  | [a] => by
    have ha := a.toNat_lt
    have h1 : a.toNat / 4 < 64 := by omega
    have h2 : a.toNat % 4 * 16 < 64 := by omega
    simp only [b64Enc, decodeQuads, b64Val_b64Char h1, b64Val_b64Char h2, and_self, if_true, Option.bind_some, Option.map_some]
    rw [u8_eq (a := a) (by omega)]
  | [a, b] => by
    have ha := a.toNat_lt
    have hb := b.toNat_lt
    have h1 : a.toNat / 4 < 64 := by omega
    have h2 : a.toNat % 4 * 16 + b.toNat / 16 < 64 := by omega
    have h3 : b.toNat % 16 * 4 < 64 := by omega
    simp only [b64Enc, decodeQuads, b64Val_b64Char h1, b64Val_b64Char h2, b64Val_b64Char h3,
      and_self, if_true, Option.bind_some, Option.map_some, b64Char_ne_pad h3, if_false]
    rw [u8_eq (a := a) (by omega), u8_eq (a := b) (by omega)]
  | a :: b :: c :: r => by
    have ha := a.toNat_lt
    have hb := b.toNat_lt
    have hc := c.toNat_lt
    have h1 : a.toNat / 4 < 64 := by omega
    have h2 : a.toNat % 4 * 16 + b.toNat / 16 < 64 := by omega
    have h3 : b.toNat % 16 * 4 + c.toNat / 64 < 64 := by omega
    have h4 : c.toNat % 64 < 64 := by omega
    have ih := decodeQuads_enc r
    simp only [b64Enc, decodeQuads, b64Dec4, b64Val_b64Char h1, b64Val_b64Char h2, b64Val_b64Char h3,
      b64Val_b64Char h4, b64Char_ne_pad h4, and_false, if_false, Option.bind_eq_bind,
      Option.bind_some, Option.map_some, ih]
    rw [u8_eq (a := a) (by omega), u8_eq (a := b) (by omega), u8_eq (a := c) (by omega)]
    rfl

theorem b64Char_ne_line {n : Nat} (h : n < 64) : b64Char n ≠ '\r' ∧ b64Char n ≠ '\n' := by
  have key : ∀ m : Fin 64, b64Char m.val ≠ '\r' ∧ b64Char m.val ≠ '\n' := by decide
  exact key ⟨n, h⟩

theorem b64Enc_lines : ∀ bs : Bytes, ∀ c ∈ b64Enc bs, c ≠ '\r' ∧ c ≠ '\n'
  | [] => by simp [b64Enc]
  | [a] => by
    have ha := a.toNat_lt
    simp only [b64Enc, List.forall_mem_cons]
    exact ⟨b64Char_ne_line (by omega), b64Char_ne_line (by omega), by decide, by decide, by simp⟩
  | [a, b] => by
    have ha := a.toNat_lt
    have hb := b.toNat_lt
    simp only [b64Enc, List.forall_mem_cons]
    exact ⟨b64Char_ne_line (by omega), b64Char_ne_line (by omega), b64Char_ne_line (by omega), by decide, by simp⟩
  | a :: b :: c :: r => by
    have ha := a.toNat_lt
    have hb := b.toNat_lt
    have hc := c.toNat_lt
    simp only [b64Enc, List.forall_mem_cons]
    exact ⟨b64Char_ne_line (by omega), b64Char_ne_line (by omega), b64Char_ne_line (by omega), b64Char_ne_line (by omega),
      b64Enc_lines r⟩

/-- **C103** (bytes). `Unwrap` gives the bytes that a string shows: it does not panic on an answer of the counter. -/
theorem C103_unwrap {s : String} {b : Bytes} (h : ShownBytes s b) : unwrap s = .ok b := by
  obtain ⟨s', e, h⟩ := h
  cases e
  unfold unwrap
  have hf : (s.toList.filter fun c => c ≠ '\r' ∧ c ≠ '\n') = b64Enc b := by
    rw [isBase64_unique h, List.filter_eq_self]
    intro c hc
    simpa using b64Enc_lines b c hc
  rw [hf, decodeQuads_enc]

/-- **C103** (a weakness). The Go client cannot tell which question it was that had no answer: no such contract, no such code,
no such value. -/
theorem C103_absent : ∃ g : GoCounter.IcaQueryResponse, CReadResponse g (.wasm (.contractInfo none)) ∧
    CReadResponse g (.wasm (.codeInfo none)) ∧ CReadResponse g (.wasm (.rawContractState none)) :=
  ⟨_, ⟨_, rfl, rfl⟩, ⟨_, rfl, rfl⟩, ⟨_, rfl, rfl⟩⟩

/-! ## Cases -/

namespace GoEx

/-- A storage with a channel, a state and an offer of ownership that ends at the given height. -/
def raw (height : UInt64) : Raw.RawStore :=
  Raw.setKey (Raw.setKey (Raw.setKey .empty (utf8 "ica_channel") (some (ChannelState.jc.toBytes (ChannelState.mk ⟨⟨"wasm.controller", "channel-0"⟩, ⟨"icahost", "channel-5"⟩, .ordered, "ics27-1", "connection-0"⟩ .opened))))
    (utf8 "state") (some (ContractState.jc.toBytes (Ex.st "channel-0"))))
    (utf8 "ownership") (some (Ownership.jc.toBytes ⟨some "alice", some "bob", some (.atHeight height)⟩))

/-- Whether a query is answered. -/
def answered : Res Bytes → Bool
  | .ok _ => true
  | _ => false

/-- The contract answers all three queries. -/
example : answered (Raw.vmQuery (utf8 "{\"get_channel\":{}}") (raw 7)) ∧
    answered (Raw.vmQuery (utf8 " { \"get_contract_state\" : {} } ") (raw 7)) ∧
    answered (Raw.vmQuery (utf8 "{\"ownership\":{}}") (raw 7)) := by decide +kernel

/-- What the Go client reads. -/
example : (getChannel (Raw.vmQuery · (raw 7)) (some {})).map (fun g => (g.ChannelStatus, g.Channel.Endpoint.ChannelId)) =
    some ("STATE_OPEN", "channel-0") := by decide +kernel
example : (getContractState (Raw.vmQuery · (raw 7)) (some {})).map (fun g => (g.CallbackAddress, g.IcaInfo.map (·.IcaAddress))) =
    some (some "cb", some "cosmos1ica") := by decide +kernel
example : (ownership (Raw.vmQuery · (raw 7)) (some {})).map (fun g => (g.Owner, g.PendingOwner, g.PendingExpiry.map (·.AtHeight))) =
    some (some "alice", some "bob", some (some 7)) := by decide +kernel
/-- A height that Go cannot hold. -/
example : (ownership (Raw.vmQuery · (raw 9223372036854775808)) (some {})).isNone := by decide +kernel
/-- Nothing stored. -/
example : (ownership (Raw.vmQuery · .empty) (some {})).isNone := by decide +kernel

/-- A counter that got a refused packet: the Go client finds it, and its data. -/
example : ∃ r raw1, Counter.vmInstantiate (utf8 "{}") (fun _ => none) = (.ok r, raw1) ∧
    (getCallbackCounter (fun t => (Counter.vmQuery t (callAll
      [(CallbackMsg.onAcknowledgementPacketCallback (.error "abci") ⟨[1, 2], ⟨"p", "channel-0"⟩, ⟨"q", "channel-5"⟩, 3, ⟨none, some 9⟩⟩ "r"
        none).intoJsonBinary, utf8 "{}"] raw1)).1) (some ())).map (fun g => (g.Success.map List.length,
        g.Error.map (·.map fun m => m.OnAcknowledgementPacketCallback.map fun x => (x.OriginalPacket.Sequence, x.OriginalPacket.Data)))) =
      some (some 0, some [some (3, "AQI=")]) := by
  refine ⟨_, _, rfl, ?_⟩
  decide +kernel

/-- The same string, as bytes. -/
example : unwrap "AQI=" = .ok [1, 2] ∧ unwrap "AQ\nI=" = .ok [1, 2] ∧ unwrap "AQI" = .panic "illegal base64 data" := by decide +kernel

end GoEx

open RawOwner in
/-- A history of the owner contract on bytes in which a controller was created: the Go client counts one and finds it. -/
example : ∃ h w c g, ROExec Ex.api (ROWorld.genesis "wasm1owner" 1700000000000000000 Ex.addrApi
      (fun n => if n = 7 then some (List.replicate 32 1) else none) (fun _ => false)) h w ∧ w.created = [c] ∧
    getIcaCount (vmQuery · w.raw) (some {}) = some 1 ∧
    getIcaContractState (vmQuery · w.raw) (some ⟨0⟩) = some g ∧ g.ContractAddr = c.addr := by
  obtain ⟨h0, w0, c, he, hc⟩ := Ex.owner_creates
  obtain ⟨h', hh⟩ := means_all h0
  obtain ⟨w, h1, h2⟩ := C78_values_to_bytes he hh
  have hcr : w.created = [c] := by rw [← hc, h2.rest]
  have h3 := (C103_owner_count h1).1 (by simp [hcr]) (by simp [hcr])
  have h4 := C103_owner_registry h1 (id := 0) (by decide)
  rw [show (0 : UInt64).toNat = 0 from rfl, hcr] at h4
  obtain ⟨told, g, -, hg, hr⟩ := h4
  exact ⟨h', w, c, g, h1, hcr, by rw [h3, hcr]; rfl, hg, hr.1⟩

end Ica
