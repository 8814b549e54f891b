import Verif.Model.Contract

/-!
# When each handler succeeds, and with what result

Helper lemmas: explicit success conditions of the handlers of `Model/Contract.lean`.
-/
namespace Ica

namespace Res
variable {α β : Type}
@[simp] theorem bind_ok' (a : α) (f : α → Res β) : (ok a).bind f = f a := rfl
@[simp] theorem bind_err' (e : Err) (f : α → Res β) : (err e).bind f = err e := rfl
@[simp] theorem bind_panic' (w : String) (f : α → Res β) : (panic w).bind f = panic w := rfl

theorem bind_eq_ok' {x : Res α} {f : α → Res β} {b : β} :
    x.bind f = ok b ↔ ∃ a, x = ok a ∧ f a = ok b := by
  cases x <;> simp
end Res

@[simp] theorem load_eq_ok {α : Type} {o : Option α} {x : α} : load o = .ok x ↔ o = some x := by
  cases o <;> simp [load]

theorem load_some {α : Type} (x : α) : load (some x) = .ok x := rfl

@[simp] theorem addrValidate_eq_ok {api : Api} {s a : String} :
    addrValidate api s = .ok a ↔ api.validAddr s = true ∧ a = s := by
  unfold addrValidate
  split
  · simp_all [eq_comm (a := a)]
  · simp_all

theorem addrValidateOpt_eq_ok {api : Api} {o r : Option String} :
    addrValidateOpt api o = .ok r ↔ r = o ∧ ∀ a, o = some a → api.validAddr a = true := by
  cases o with
  | none => simp [addrValidateOpt, eq_comm (a := r)]
  | some s =>
    simp only [addrValidateOpt, Res.bind_eq_ok', addrValidate_eq_ok]
    constructor
    · rintro ⟨a, ⟨h1, rfl⟩, h2⟩
      cases h2
      exact ⟨rfl, fun b hb => by cases hb; exact h1⟩
    · rintro ⟨rfl, h⟩
      exact ⟨s, ⟨h s rfl, rfl⟩, rfl⟩

theorem checkOwner_eq_ok {ow : Ownership} {sender : String} {u : Unit} :
    checkOwner ow sender = .ok u ↔ ow.owner = some sender := by
  unfold checkOwner
  cases h : ow.owner with
  | none => simp
  | some o =>
    by_cases h' : sender = o
    · simp [h']
    · simp [h']; exact fun e => h' e.symm

theorem assertOwner_eq_ok {s : Store} {sender : String} {u : Unit} :
    assertOwner s sender = .ok u ↔ ∃ ow, s.ownership = some ow ∧ ow.owner = some sender := by
  simp [assertOwner, Res.bind_eq_ok', checkOwner_eq_ok]

theorem Store.with_options {s : Store} {o : ChannelOpenInitOptions} (h : s.options = some o) :
    { s with options := some o } = s := by cases s; cases h; rfl

/-- The contract's proposal for the given options. -/
def proposalMsg (addr : String) (o : ChannelOpenInitOptions) : CosmosMsg :=
  newIcaChannelOpenInitCosmosMsg addr o.connectionId o.counterpartyPortId o.counterpartyConnectionId none
    o.channelOrdering

theorem instantiate_eq_ok {api : Api} {env : Env} {s s' : Store} {sender : String} {msg : InstantiateMsg}
    {r : Response} :
    instantiate api env s sender msg = .ok (s', r) ↔
      api.validAddr (msg.owner.getD sender) = true ∧
      (∀ a, msg.sendCallbacksTo = some a → api.validAddr a = true) ∧
      s' = { s with
        version := some ⟨CONTRACT_NAME, CONTRACT_VERSION⟩
        ownership := some ⟨some (msg.owner.getD sender), none, none⟩
        state := some ⟨none, msg.sendCallbacksTo⟩
        options := some msg.channelOpenInitOptions
        allowOpenInit := some true } ∧
      r = ⟨[.new (proposalMsg env.contractAddr msg.channelOpenInitOptions)], []⟩ := by
  simp only [instantiate, setContractVersion, initializeOwner, Res.bind_eq_ok', addrValidate_eq_ok,
    addrValidateOpt_eq_ok, Res.ok.injEq, Prod.mk.injEq, proposalMsg]
  constructor
  · rintro ⟨_, ⟨_, ⟨h1, rfl⟩, rfl⟩, _, ⟨rfl, h2⟩, rfl, rfl⟩
    exact ⟨h1, h2, rfl, rfl⟩
  · rintro ⟨h1, h2, rfl, rfl⟩
    exact ⟨_, ⟨_, ⟨h1, rfl⟩, rfl⟩, _, ⟨rfl, h2⟩, rfl, rfl⟩

theorem createChannel_eq_ok {env : Env} {s s' : Store} {sender : String} {o : Option ChannelOpenInitOptions}
    {r : Response} :
    createChannel env s sender o = .ok (s', r) ↔
      (∃ ow, s.ownership = some ow ∧ ow.owner = some sender) ∧
      ∃ o', o.or s.options = some o' ∧
        s' = { s with options := some o', allowOpenInit := some true } ∧
        r = ⟨[.new (proposalMsg env.contractAddr o')], []⟩ := by
  simp only [createChannel, Res.bind_eq_ok', assertOwner_eq_ok]
  cases o with
  | some o =>
    simp only [Res.ok.injEq, Option.some_or, Option.some.injEq, proposalMsg]
    constructor
    · rintro ⟨_, h, ⟨_, _⟩, h1, h2⟩
      cases h1
      cases h2
      exact ⟨h, o, rfl, rfl, rfl⟩
    · rintro ⟨h, _, rfl, rfl, rfl⟩
      exact ⟨(), h, _, rfl, rfl⟩
  | none =>
    cases ho : s.options with
    | none => simp
    | some o =>
      simp only [Res.ok.injEq, Option.none_or, Option.some.injEq, proposalMsg]
      constructor
      · rintro ⟨_, h, ⟨_, _⟩, h1, h2⟩
        cases h1
        cases h2
        exact ⟨h, o, rfl, by rw [← ho], rfl⟩
      · rintro ⟨h, _, rfl, rfl, rfl⟩
        exact ⟨(), h, _, rfl, by rw [← ho]⟩

theorem isOpen_iff {c : ChannelState} : c.isOpen = true ↔ c.channelStatus = .opened := by
  unfold ChannelState.isOpen
  cases c.channelStatus <;> simp

theorem isOrdered_iff {c : ChannelState} : c.isOrdered = true ↔ c.channel.order = .ordered := by
  unfold ChannelState.isOrdered
  cases c.channel.order <;> simp

theorem closeChannel_eq_ok {s s' : Store} {sender : String} {r : Response} :
    closeChannel s sender = .ok (s', r) ↔
      (∃ ow, s.ownership = some ow ∧ ow.owner = some sender) ∧
      ∃ c, s.channel = some c ∧ c.channelStatus = .opened ∧
        s' = { s with allowCloseInit := some true } ∧
        r = ⟨[.new (.ibc (.closeChannel c.channel.endpoint.channelId))], []⟩ := by
  simp only [closeChannel, Res.bind_eq_ok', assertOwner_eq_ok, load_eq_ok]
  constructor
  · rintro ⟨_, h, c, hc, h2⟩
    split at h2
    · cases h2
    · rename_i ho
      cases h2
      exact ⟨h, c, hc, isOpen_iff.1 (by simpa using ho), rfl, rfl⟩
  · rintro ⟨h, c, hc, ho, rfl, rfl⟩
    refine ⟨(), h, c, hc, ?_⟩
    rw [if_neg (by simpa using isOpen_iff.2 ho)]

theorem getIcaInfo_eq_ok {c : ContractState} {i : IcaInfo} : c.getIcaInfo = .ok i ↔ c.icaInfo = some i := by
  unfold ContractState.getIcaInfo
  cases c.icaInfo <;> simp

theorem plusSeconds_eq_ok {t r : UInt64} {n : Nat} :
    plusSeconds t n = .ok r ↔ r.toNat = t.toNat + n * 1000000000 := by
  unfold plusSeconds
  have hr := r.toNat_lt
  split
  · rename_i h
    simp only [Res.ok.injEq]
    constructor
    · rintro rfl
      exact UInt64.toNat_ofNat_of_lt' h
    · intro e
      rw [← e]
      simp
  · rename_i h
    simp only [reduceCtorEq, false_iff]
    intro e
    rw [← e] at h
    exact h hr

theorem toIbcMsg_eq_ok {p : IcaPacketData} {env : Env} {id : String} {t : Option UInt64} {m : IbcMsg} :
    p.toIbcMsg env id t = .ok m ↔
      ∃ ts : UInt64, ts.toNat = env.time.toNat + ((t.map (·.toNat)).getD 600) * 1000000000 ∧
        m = .sendPacket id (IcaPacketData.jc.toBytes p) ⟨none, some ts⟩ := by
  simp only [IcaPacketData.toIbcMsg, Res.bind_eq_ok', plusSeconds_eq_ok, Res.ok.injEq,
    DEFAULT_TIMEOUT_SECONDS]
  constructor
  · rintro ⟨a, h, rfl⟩; exact ⟨a, h, rfl⟩
  · rintro ⟨a, h, rfl⟩; exact ⟨a, h, rfl⟩

/-- The messages of the packet, given the converted messages and queries. -/
def packetAnys (ica : String) (anys : List P.Any) (qs : List (String × Bytes × Bool)) : List P.Any :=
  if qs = [] then anys
  else anys ++ [⟨"/ibc.applications.interchain_accounts.host.v1.MsgModuleQuerySafe",
    P.MsgModuleQuerySafe.toBytes ⟨ica, qs.map fun q => ⟨q.1, q.2.1⟩⟩⟩]

/-- The paths recorded for the queries. -/
def queryPaths (qs : List (String × Bytes × Bool)) : QueryPaths := qs.map fun q => (q.1, q.2.2)

theorem fromCosmosMsgs_eq_ok {s s' : Store} {ms : List CosmosMsg} {qs : List QueryRequest} {e : TxEncoding}
    {memo : Option String} {ica : String} {p : IcaPacketData} :
    fromCosmosMsgs s ms qs e memo ica = .ok (s', p) ↔
      e = .protobuf ∧ ∃ anys cqs,
        mapRes (fun m => convertToProtoAny m ica) ms = .ok anys ∧
        mapRes queryToProtobuf qs = .ok cqs ∧
        s' = (if qs = [] then s else { s with query := some (queryPaths cqs) }) ∧
        p = .fromProtoAnys (packetAnys ica anys cqs) memo := by
  cases e with
  | proto3Json => simp [fromCosmosMsgs]
  | protobuf =>
    simp only [fromCosmosMsgs, Res.bind_eq_ok', true_and]
    by_cases hq : qs = []
    · subst hq
      simp only [if_true, Res.ok.injEq, Prod.mk.injEq, mapRes]
      constructor
      · rintro ⟨anys, h, rfl, rfl⟩
        exact ⟨anys, [], h, rfl, rfl, by simp [packetAnys]⟩
      · rintro ⟨anys, cqs, h, h2, rfl, rfl⟩
        cases h2
        exact ⟨anys, h, rfl, by simp [packetAnys]⟩
    · simp only [if_neg hq, Res.bind_eq_ok', mkAny, Res.ok.injEq, Prod.mk.injEq]
      have hne : ∀ {cqs}, mapRes queryToProtobuf qs = .ok cqs → cqs ≠ [] := by
        intro cqs h e
        subst e
        have := mapRes_eq_ok.1 h
        cases qs with
        | nil => exact hq rfl
        | cons a b => cases this
      constructor
      · rintro ⟨anys, h, cqs, h2, a, rfl, rfl, rfl⟩
        exact ⟨anys, cqs, h, h2, rfl, by rw [packetAnys, if_neg (hne h2)]⟩
      · rintro ⟨anys, cqs, h, h2, rfl, rfl⟩
        exact ⟨anys, h, cqs, h2, _, rfl, rfl, by rw [packetAnys, if_neg (hne h2)]⟩

/-- The submessage of a send. -/
def sendSubMsg (qs : List QueryRequest) (m : IbcMsg) : SubMsg :=
  if qs = [] then .new (.ibc m) else ⟨SEND_QUERY_PACKET, .ibc m, .success⟩

theorem sendCosmosMsgs_eq_ok {env : Env} {s s' : Store} {sender : String} {ms : List CosmosMsg}
    {qs : List QueryRequest} {memo : Option String} {t : Option UInt64} {r : Response} :
    sendCosmosMsgs env s sender ms qs memo t = .ok (s', r) ↔
      (∃ ow, s.ownership = some ow ∧ ow.owner = some sender) ∧
      ∃ st info anys cqs, ∃ ts : UInt64, s.state = some st ∧ st.icaInfo = some info ∧ info.encoding = .protobuf ∧
        mapRes (fun m => convertToProtoAny m info.icaAddress) ms = .ok anys ∧
        mapRes queryToProtobuf qs = .ok cqs ∧
        ts.toNat = env.time.toNat + ((t.map (·.toNat)).getD 600) * 1000000000 ∧
        s' = (if qs = [] then s else { s with query := some (queryPaths cqs) }) ∧
        r = ⟨[sendSubMsg qs (.sendPacket info.channelId
          (IcaPacketData.jc.toBytes (.fromProtoAnys (packetAnys info.icaAddress anys cqs) memo))
          ⟨none, some ts⟩)], []⟩ := by
  simp only [sendCosmosMsgs, Res.bind_eq_ok', assertOwner_eq_ok, load_eq_ok, getIcaInfo_eq_ok, Prod.exists,
    fromCosmosMsgs_eq_ok, toIbcMsg_eq_ok, Res.ok.injEq, Prod.mk.injEq, sendSubMsg]
  constructor
  · rintro ⟨_, h, st, hst, info, hi, s1, p, ⟨he, anys, cqs, h1, h2, rfl, rfl⟩, m, ⟨ts, ht, rfl⟩, rfl, rfl⟩
    exact ⟨h, st, info, anys, cqs, ts, hst, hi, he, h1, h2, ht, rfl, rfl⟩
  · rintro ⟨h, st, info, anys, cqs, ts, hst, hi, he, h1, h2, ht, rfl, rfl⟩
    exact ⟨(), h, st, hst, info, hi, _, _, ⟨he, anys, cqs, h1, h2, rfl, rfl⟩, _, ⟨ts, ht, rfl⟩, rfl, rfl⟩

/-- A nomination that lets `sender` take over now. -/
def canAccept (env : Env) (ow : Ownership) (sender : String) : Prop :=
  ow.pendingOwner = some sender ∧ ∀ e, ow.pendingExpiry = some e → e.isExpired env = false

theorem transfer_eq_ok {api : Api} {env : Env} {s s' : Store} {sender n : String} {e : Option Expiration}
    {r : Response} :
    updateOwnership api env s sender (.transferOwnership n e) = .ok (s', r) ↔
      ∃ ow, s.ownership = some ow ∧ ow.owner = some sender ∧ api.validAddr n = true ∧
        s' = { s with ownership := some { ow with pendingOwner := some n, pendingExpiry := e } } ∧
        r = .empty := by
  simp only [updateOwnership, reduceCtorEq, if_false, cwUpdateOwnership, Res.bind_eq_ok', load_eq_ok,
    checkOwner_eq_ok, addrValidate_eq_ok, Res.ok.injEq, Prod.mk.injEq]
  constructor
  · rintro ⟨_, ⟨ow, h, _, ho, _, ⟨hv, rfl⟩, rfl⟩, rfl, rfl⟩
    exact ⟨ow, h, ho, hv, rfl, rfl⟩
  · rintro ⟨ow, h, ho, hv, rfl, rfl⟩
    exact ⟨_, ⟨ow, h, (), ho, _, ⟨hv, rfl⟩, rfl⟩, rfl, rfl⟩

theorem accept_eq_ok {api : Api} {env : Env} {s s' : Store} {sender : String} {r : Response} :
    updateOwnership api env s sender .acceptOwnership = .ok (s', r) ↔
      ∃ ow, s.ownership = some ow ∧ canAccept env ow sender ∧
        s' = { s with ownership := some ⟨some sender, none, none⟩ } ∧ r = .empty := by
  simp only [updateOwnership, reduceCtorEq, if_false, cwUpdateOwnership, Res.bind_eq_ok', load_eq_ok,
    Res.ok.injEq, Prod.mk.injEq, canAccept]
  constructor
  · rintro ⟨s1, ⟨ow, h, h2⟩, rfl, rfl⟩
    refine ⟨ow, h, ?_⟩
    cases hp : ow.pendingOwner with
    | none => rw [hp] at h2; cases h2
    | some p =>
      rw [hp] at h2
      simp only at h2
      split at h2
      · rename_i e
        subst e
        cases he : ow.pendingExpiry with
        | none =>
          rw [he] at h2
          simp only [Res.ok.injEq] at h2
          exact ⟨⟨rfl, fun e h => by cases h⟩, h2.symm, rfl⟩
        | some x =>
          rw [he] at h2
          simp only at h2
          split at h2
          · cases h2
          · rename_i hx
            simp only [Res.ok.injEq] at h2
            exact ⟨⟨rfl, fun e h => by cases h; simpa using hx⟩, h2.symm, rfl⟩
      · cases h2
  · rintro ⟨ow, h, ⟨hp, he⟩, rfl, rfl⟩
    refine ⟨_, ⟨ow, h, ?_⟩, rfl, rfl⟩
    rw [hp]
    simp only [if_true]
    cases hx : ow.pendingExpiry with
    | none => rfl
    | some x => simp only [he x hx]; simp

theorem renounce_err {api : Api} {env : Env} {s : Store} {sender : String} :
    updateOwnership api env s sender .renounceOwnership = .err .ownershipCannotBeRenounced := rfl

theorem updateCallbackAddress_eq_ok {api : Api} {s s' : Store} {sender : String} {a : Option String}
    {r : Response} :
    updateCallbackAddress api s sender a = .ok (s', r) ↔
      (∃ ow, s.ownership = some ow ∧ ow.owner = some sender) ∧
      (∀ x, a = some x → api.validAddr x = true) ∧
      ∃ st, s.state = some st ∧ s' = { s with state := some { st with callbackAddress := a } } ∧ r = .empty := by
  simp only [updateCallbackAddress, Res.bind_eq_ok', assertOwner_eq_ok, load_eq_ok, addrValidateOpt_eq_ok,
    Res.ok.injEq, Prod.mk.injEq]
  constructor
  · rintro ⟨_, h, st, hst, _, ⟨rfl, hv⟩, rfl, rfl⟩
    exact ⟨h, hv, st, hst, rfl, rfl⟩
  · rintro ⟨h, hv, st, hst, rfl, rfl⟩
    exact ⟨(), h, st, hst, _, ⟨rfl, hv⟩, rfl, rfl⟩

/-- Metadata accepted for a channel over `conn`. -/
structure MetaOk (api : Api) (m : IcaMetadata) (conn : String) : Prop where
  version : m.version = "ics27-1"
  connection : m.controllerConnectionId = conn
  encoding : m.encoding = .protobuf
  address : m.address = "" ∨ ((utf8 m.address).length ≤ 128 ∧ ∀ c ∈ m.address.toList, isAlphanumeric api c = true)
  txType : m.txType = "sdk_multi_msg"

theorem validateIcaAddress_eq_ok {api : Api} {a : String} {u : Unit} :
    validateIcaAddress api a = .ok u ↔
      (utf8 a).length ≤ 128 ∧ ∀ c ∈ a.toList, isAlphanumeric api c = true := by
  unfold validateIcaAddress
  by_cases h1 : (utf8 a).length > 128
  · simp [h1]
  · by_cases h2 : a.toList.all (isAlphanumeric api) = true
    · rw [if_neg (by simp [h1, h2])]
      simp only [true_iff]
      exact ⟨by omega, by simpa using h2⟩
    · rw [if_pos (Or.inr h2)]
      simp only [reduceCtorEq, false_iff, not_and]
      intro _ h
      exact h2 (by simpa using h)

theorem validate_eq_ok {api : Api} {m : IcaMetadata} {ch : IbcChannel} {u : Unit} :
    m.validate api ch = .ok u ↔ MetaOk api m ch.connectionId := by
  unfold IcaMetadata.validate ICA_VERSION
  split
  · rename_i h
    simp only [reduceCtorEq, false_iff]
    exact fun x => h x.version
  · rename_i hv
    split
    · rename_i h
      simp only [reduceCtorEq, false_iff]
      exact fun x => h x.connection
    · rename_i hc
      split
      · rename_i h
        simp only [reduceCtorEq, false_iff]
        exact fun x => h x.encoding
      · rename_i he
        simp only [Res.bind_eq_ok']
        have ha : ∀ {u}, (if m.address ≠ "" then validateIcaAddress api m.address else Res.ok ()) = Res.ok u ↔
            (m.address = "" ∨
              ((utf8 m.address).length ≤ 128 ∧ ∀ c ∈ m.address.toList, isAlphanumeric api c = true)) := by
          intro u
          by_cases h : m.address = ""
          · simp [h]
          · rw [if_pos h, validateIcaAddress_eq_ok]
            simp [h]
        constructor
        · rintro ⟨_, h1, h2⟩
          split at h2
          · cases h2
          · rename_i ht
            exact ⟨not_not.1 hv, not_not.1 hc, not_not.1 he, ha.1 h1, not_not.1 ht⟩
        · rintro ⟨_, _, _, h4, h5⟩
          refine ⟨(), ha.2 h4, ?_⟩
          rw [if_neg (by simp [h5])]

theorem channelOpenInit_eq_ok {api : Api} {s s' : Store} {ch : IbcChannel} {v : String} :
    channelOpenInit api s ch = .ok (s', v) ↔
      s.allowOpenInit = some true ∧ ch.counterpartyEndpoint.portId = "icahost" ∧
      (∀ c, s.channel = some c → c.channelStatus ≠ .opened) ∧
      s' = { s with allowOpenInit := some false } ∧
      ∃ m, (if ch.version = "" then IcaMetadata.fromChannel { s with allowOpenInit := some false } ch = .ok m
            else IcaMetadata.parse ch.version = some m) ∧
        MetaOk api m ch.connectionId ∧ v = m.display := by
  unfold channelOpenInit HOST_PORT_ID
  split
  · rename_i h
    simp only [reduceCtorEq, false_iff]
    rintro ⟨h', -⟩
    rw [h'] at h
    exact h rfl
  · rename_i hf
    have hf' : s.allowOpenInit = some true := by
      cases ha : s.allowOpenInit with
      | none => rw [ha] at hf; exact absurd (by simp) hf
      | some b => cases b with
        | true => rfl
        | false => rw [ha] at hf; exact absurd (by simp) hf
    simp only [hf', true_and]
    split
    · rename_i h
      simp only [reduceCtorEq, false_iff]
      exact fun x => h x.1
    · rename_i hp
      simp only [Res.bind_eq_ok', validate_eq_ok]
      have hm : ∀ {m}, (if ch.version = "" then IcaMetadata.fromChannel { s with allowOpenInit := some false } ch
          else match IcaMetadata.parse ch.version with
            | some m => .ok m
            | none => .err (.unknownDataType "cannot unmarshal ICS-27 interchain accounts metadata")) = Res.ok m ↔
          (if ch.version = "" then IcaMetadata.fromChannel { s with allowOpenInit := some false } ch = .ok m
            else IcaMetadata.parse ch.version = some m) := by
        intro m
        split
        · rfl
        · cases IcaMetadata.parse ch.version <;> simp
      simp only [not_not.1 hp, true_and]
      constructor
      · rintro ⟨m, h1, _, h2, h3⟩
        split at h3
        · rename_i c hc
          split at h3
          · cases h3
          · rename_i ho
            simp only [Res.ok.injEq, Prod.mk.injEq] at h3
            refine ⟨fun c' h => ?_, h3.1.symm, m, hm.1 h1, h2, h3.2.symm⟩
            have hc' : s.channel = some c := hc
            rw [h] at hc'
            cases hc'
            exact fun e => ho (isOpen_iff.2 e)
        · rename_i hc
          have hc' : s.channel = none := hc
          simp only [Res.ok.injEq, Prod.mk.injEq] at h3
          refine ⟨fun c' h => ?_, h3.1.symm, m, hm.1 h1, h2, h3.2.symm⟩
          rw [h] at hc'
          cases hc'
      · rintro ⟨hc, rfl, m, h1, h2, rfl⟩
        refine ⟨m, hm.2 h1, (), h2, ?_⟩
        split
        · rename_i c hcs
          rw [if_neg (fun e => hc c hcs (isOpen_iff.1 e))]
        · rfl

/-- The response of an accepted OpenAck. -/
def openAckResponse (cb : Option String) (ch : IbcChannel) (m : IcaMetadata) : Response :=
  match cb with
  | some a => ⟨[.new ((CallbackMsg.onChannelOpenAckCallback ch m.address m.encoding).intoCosmosMsg a)], []⟩
  | none => .empty

theorem channelOpenAck_eq_ok {api : Api} {s s' : Store} {ch : IbcChannel} {cv : String} {r : Response} :
    channelOpenAck api s ch cv = .ok (s', r) ↔
      ∃ st m, s.state = some st ∧ ch.endpoint.portId ≠ "icahost" ∧ IcaMetadata.parse cv = some m ∧
        MetaOk api m ch.connectionId ∧ m.address ≠ "" ∧
        s' = { s with
          state := some { st with icaInfo := some ⟨m.address, ch.endpoint.channelId, m.encoding⟩ }
          channel := some ⟨{ ch with version := cv }, .opened⟩ } ∧
        r = openAckResponse st.callbackAddress { ch with version := cv } m := by
  simp only [channelOpenAck, Res.bind_eq_ok', load_eq_ok, HOST_PORT_ID]
  constructor
  · rintro ⟨st, hst, h⟩
    split at h
    · cases h
    · rename_i hp
      cases hm : IcaMetadata.parse cv with
      | none => rw [hm] at h; cases h
      | some m =>
        rw [hm] at h
        simp only [Res.bind_eq_ok', validate_eq_ok] at h
        obtain ⟨_, hv, h⟩ := h
        split at h
        · cases h
        · rename_i ha
          refine ⟨st, m, hst, hp, rfl, hv, ha, ?_⟩
          cases hcb : st.callbackAddress with
          | none =>
            rw [hcb] at h
            simp only [Res.ok.injEq, Prod.mk.injEq] at h
            exact ⟨by rw [← h.1], by rw [← h.2]; rfl⟩
          | some a =>
            rw [hcb] at h
            simp only [Res.ok.injEq, Prod.mk.injEq] at h
            exact ⟨by rw [← h.1], by rw [← h.2]; rfl⟩
  · rintro ⟨st, m, hst, hp, hm, hv, ha, rfl, rfl⟩
    refine ⟨st, hst, ?_⟩
    rw [if_neg hp, hm]
    simp only [Res.bind_eq_ok', validate_eq_ok]
    refine ⟨(), hv, ?_⟩
    rw [if_neg ha]
    cases hcb : st.callbackAddress <;> simp [openAckResponse]

theorem channelCloseConfirm_eq_ok {s s' : Store} {ch : IbcChannel} {r : Response} :
    channelCloseConfirm s ch = .ok (s', r) ↔
      s.channel = some ⟨ch, .opened⟩ ∧ s' = { s with channel := some ⟨ch, .closed⟩ } ∧ r = .empty := by
  simp only [channelCloseConfirm, Res.bind_eq_ok', load_eq_ok]
  constructor
  · rintro ⟨c, hc, h⟩
    split at h
    · cases h
    · rename_i e
      split at h
      · cases h
      · rename_i ho
        cases h
        obtain ⟨c1, c2⟩ := c
        have e' : c1 = ch := not_not.1 e
        have ho' : c2 = .opened := isOpen_iff.1 (by simpa using ho)
        subst e' ho'
        exact ⟨hc, rfl, rfl⟩
  · rintro ⟨hc, rfl, rfl⟩
    refine ⟨_, hc, ?_⟩
    simp [ChannelState.isOpen, ChannelState.close]

theorem channelCloseInit_eq_ok {s s' : Store} {ch : IbcChannel} {r : Response} :
    channelCloseInit s ch = .ok (s', r) ↔
      s.allowCloseInit = some true ∧ s.channel = some ⟨ch, .opened⟩ ∧
        s' = { s with allowCloseInit := some false, channel := some ⟨ch, .closed⟩ } ∧ r = .empty := by
  unfold channelCloseInit
  split
  · rename_i h
    simp only [reduceCtorEq, false_iff]
    rintro ⟨h', -⟩
    rw [h'] at h
    exact h rfl
  · rename_i hf
    have hf' : s.allowCloseInit = some true := by
      cases ha : s.allowCloseInit with
      | none => rw [ha] at hf; exact absurd (by simp) hf
      | some b => cases b with
        | true => rfl
        | false => rw [ha] at hf; exact absurd (by simp) hf
    have := channelCloseConfirm_eq_ok (s := { s with allowCloseInit := some false }) (s' := s') (ch := ch) (r := r)
    simp only [channelCloseConfirm] at this
    simp only [hf', true_and]
    exact this

/-- What the acknowledgement of a packet with pending paths is decoded to. -/
def ackQueryResult (o : Option QueryPaths) (res : Bytes) : Res (Option IcaQueryResult) :=
  match o with
  | none => .ok none
  | some paths =>
    (decodeModuleQuerySafeRespLast (.result res)).bind fun m =>
    (resultFromResponse paths m).bind fun r => .ok (some r)

theorem ackSuccess_eq_ok {s s' : Store} {p : IbcPacket} {relayer : String} {res : Bytes} {r : Response} :
    ackSuccess s p relayer res = .ok (s', r) ↔
      ∃ q st, ackQueryResult (s.pending p.src.channelId p.sequence) res = .ok q ∧ s.state = some st ∧
        s' = { s with pending := setPending s.pending p.src.channelId p.sequence none } ∧
        r = ackResponse st.callbackAddress
          (.onAcknowledgementPacketCallback (.result res) p relayer q) (ackSuccessEvent p res) := by
  simp only [ackSuccess, Res.bind_eq_ok', load_eq_ok, Res.ok.injEq, Prod.mk.injEq]
  constructor
  · rintro ⟨q, h, st, hst, rfl, rfl⟩
    refine ⟨q, st, ?_, hst, rfl, rfl⟩
    cases hp : s.pending p.src.channelId p.sequence with
    | none => rw [hp] at h; exact h
    | some x => rw [hp] at h; exact h
  · rintro ⟨q, st, h, hst, rfl, rfl⟩
    refine ⟨q, ?_, st, hst, rfl, rfl⟩
    cases hp : s.pending p.src.channelId p.sequence with
    | none => rw [hp] at h; exact h
    | some x => rw [hp] at h; exact h

theorem ackError_eq_ok {s s' : Store} {p : IbcPacket} {relayer e : String} {r : Response} :
    ackError s p relayer e = .ok (s', r) ↔
      ∃ st, s.state = some st ∧ s' = s ∧
        r = ackResponse st.callbackAddress
          (.onAcknowledgementPacketCallback (.error e) p relayer (some (.error e))) (ackErrorEvent p e) := by
  simp only [ackError, Res.bind_eq_ok', load_eq_ok, Res.ok.injEq, Prod.mk.injEq]
  constructor
  · rintro ⟨st, h, rfl, rfl⟩; exact ⟨st, h, rfl, rfl⟩
  · rintro ⟨st, h, rfl, rfl⟩; exact ⟨st, h, rfl, rfl⟩

theorem ibcPacketAck_eq_ok {s s' : Store} {ack : Bytes} {p : IbcPacket} {relayer : String} {r : Response} :
    ibcPacketAck s ack p relayer = .ok (s', r) ↔
      (∃ res q st, AckData.jc.ofBytes ack = some (.result res) ∧
        ackQueryResult (s.pending p.src.channelId p.sequence) res = .ok q ∧ s.state = some st ∧
        s' = { s with pending := setPending s.pending p.src.channelId p.sequence none } ∧
        r = ackResponse st.callbackAddress
          (.onAcknowledgementPacketCallback (.result res) p relayer q) (ackSuccessEvent p res)) ∨
      (∃ e st, AckData.jc.ofBytes ack = some (.error e) ∧ s.state = some st ∧ s' = s ∧
        r = ackResponse st.callbackAddress
          (.onAcknowledgementPacketCallback (.error e) p relayer (some (.error e))) (ackErrorEvent p e)) := by
  unfold ibcPacketAck
  cases ha : AckData.jc.ofBytes ack with
  | none => simp
  | some a =>
    cases a with
    | result res =>
      simp only [ackSuccess_eq_ok, Option.some.injEq, AckData.result.injEq, reduceCtorEq, false_and,
        exists_false, or_false]
      constructor
      · rintro ⟨q, st, h⟩; exact ⟨res, q, st, rfl, h⟩
      · rintro ⟨_, q, st, rfl, h⟩; exact ⟨q, st, h⟩
    | error e =>
      simp only [ackError_eq_ok, Option.some.injEq, AckData.error.injEq, reduceCtorEq, false_and,
        exists_false, false_or]
      constructor
      · rintro ⟨st, h⟩; exact ⟨e, st, rfl, h⟩
      · rintro ⟨_, st, rfl, h⟩; exact ⟨st, h⟩

/-- The response of a timeout. -/
def timeoutResponse (cb : Option String) (p : IbcPacket) (relayer : String) : Response :=
  match cb with
  | some a => ⟨[.new ((CallbackMsg.onTimeoutPacketCallback p relayer).intoCosmosMsg a)], []⟩
  | none => .empty

theorem ibcPacketTimeout_eq_ok {s s' : Store} {p : IbcPacket} {relayer : String} {r : Response} :
    ibcPacketTimeout s p relayer = .ok (s', r) ↔
      ∃ c st, s.channel = some c ∧ s.state = some st ∧
        s' = { s with
          channel := some (if c.channel.order = .ordered then ⟨c.channel, .closed⟩ else c)
          pending := setPending s.pending p.src.channelId p.sequence none } ∧
        r = timeoutResponse st.callbackAddress p relayer := by
  simp only [ibcPacketTimeout, Res.bind_eq_ok', load_eq_ok, timeoutCallback]
  have hif : ∀ c : ChannelState, s.channel = some c →
      (if c.isOrdered = true then { s with channel := some c.close } else s) =
      { s with channel := some (if c.channel.order = .ordered then ⟨c.channel, .closed⟩ else c) } := by
    intro c hc
    by_cases h : c.channel.order = .ordered
    · rw [if_pos (isOrdered_iff.2 h), if_pos h]; rfl
    · rw [if_neg (fun e => h (isOrdered_iff.1 e)), if_neg h, ← hc]
  constructor
  · rintro ⟨c, hc, st, hst, h⟩
    rw [hif c hc] at hst h
    refine ⟨c, st, hc, hst, ?_⟩
    cases hcb : st.callbackAddress with
    | none =>
      rw [hcb] at h
      simp only [Res.ok.injEq, Prod.mk.injEq] at h
      exact ⟨h.1.symm, h.2.symm⟩
    | some a =>
      rw [hcb] at h
      simp only [Res.ok.injEq, Prod.mk.injEq] at h
      exact ⟨h.1.symm, h.2.symm⟩
  · rintro ⟨c, st, hc, hst, rfl, rfl⟩
    refine ⟨c, hc, st, ?_, ?_⟩
    · rw [hif c hc]; exact hst
    · rw [hif c hc]
      cases hcb : st.callbackAddress <;> simp [timeoutResponse]

theorem replySendQueryPacket_eq_ok {s s' : Store} {data : Option Bytes} {r : Response} :
    replySendQueryPacket s (.ok data) = .ok (s', r) ↔
      ∃ n st info paths, bufanyUint64 (data.getD []) = .ok n ∧ s.state = some st ∧ st.icaInfo = some info ∧
        s.query = some paths ∧
        s' = { s with query := none, pending := setPending s.pending info.channelId n (some paths) } ∧
        r = .empty := by
  simp only [replySendQueryPacket, Res.bind_eq_ok', load_eq_ok, getIcaInfo_eq_ok, Res.ok.injEq, Prod.mk.injEq]
  constructor
  · rintro ⟨n, hn, st, hst, i, hi, q, hq, rfl, rfl⟩
    exact ⟨n, st, i, q, hn, hst, hi, hq, rfl, rfl⟩
  · rintro ⟨n, st, i, q, hn, hst, hi, hq, rfl, rfl⟩
    exact ⟨n, hn, st, hst, i, hi, q, hq, rfl, rfl⟩

theorem bufany_sendPacketResponse (n : UInt64) : bufanyUint64 (P.SendPacketResponse.toBytes ⟨n⟩) = .ok n := by
  unfold bufanyUint64 P.SendPacketResponse.toBytes
  rw [parseWire_encFields (P.SendPacketResponse.valid _)]
  simp only [P.SendPacketResponse.enc]
  by_cases h : n = 0
  · simp [h, vU64]
  · simp [h, vU64]

theorem validateSemver_eq_ok {s : Store} {u : Unit} :
    validateSemver s = .ok u ↔
      ∃ prev p v, s.version = some prev ∧ prev.contract = CONTRACT_NAME ∧
        Semver.parse CONTRACT_VERSION = some v ∧ Semver.parse prev.version = some p ∧ Semver.cmp p v = .lt := by
  simp only [validateSemver, Res.bind_eq_ok', load_eq_ok]
  constructor
  · rintro ⟨prev, hp, h⟩
    split at h
    · cases h
    · rename_i hn
      cases hv : Semver.parse CONTRACT_VERSION with
      | none => rw [hv] at h; cases h
      | some v =>
        rw [hv] at h
        simp only at h
        cases hpp : Semver.parse prev.version with
        | none => rw [hpp] at h; cases h
        | some p =>
          rw [hpp] at h
          simp only at h
          split at h
          · cases h
          · rename_i hg
            refine ⟨prev, p, v, hp, not_not.1 hn, rfl, hpp, ?_⟩
            simpa [Semver.ge] using hg
  · rintro ⟨prev, p, v, hp, hn, hv, hpp, hc⟩
    refine ⟨prev, hp, ?_⟩
    rw [if_neg (by simp [hn]), hv]
    simp only
    rw [hpp]
    simp only
    rw [if_neg (by simp [Semver.ge, hc])]

theorem validateChannelEncoding_eq_ok {s : Store} {u : Unit} :
    validateChannelEncoding s = .ok u ↔
      ∃ st, s.state = some st ∧ ∀ i, st.icaInfo = some i → i.encoding = .protobuf := by
  simp only [validateChannelEncoding, Res.bind_eq_ok', load_eq_ok]
  constructor
  · rintro ⟨st, hst, h⟩
    refine ⟨st, hst, fun i hi => ?_⟩
    rw [hi] at h
    simp only at h
    cases he : i.encoding with
    | protobuf => rfl
    | proto3Json => rw [he] at h; cases h
  · rintro ⟨st, hst, h⟩
    refine ⟨st, hst, ?_⟩
    cases hi : st.icaInfo with
    | none => rfl
    | some i => simp only [h i hi]

theorem migrate_eq_ok {s s' : Store} {r : Response} :
    migrate s = .ok (s', r) ↔
      (∃ prev p v, s.version = some prev ∧ prev.contract = CONTRACT_NAME ∧
        Semver.parse CONTRACT_VERSION = some v ∧ Semver.parse prev.version = some p ∧ Semver.cmp p v = .lt) ∧
      (∃ st, s.state = some st ∧ ∀ i, st.icaInfo = some i → i.encoding = .protobuf) ∧
      s' = { s with version := some ⟨CONTRACT_NAME, CONTRACT_VERSION⟩ } ∧ r = .empty := by
  simp only [migrate, Res.bind_eq_ok', validateSemver_eq_ok, validateChannelEncoding_eq_ok, Res.ok.injEq,
    Prod.mk.injEq, setContractVersion]
  constructor
  · rintro ⟨_, h1, _, h2, rfl, rfl⟩; exact ⟨h1, h2, rfl, rfl⟩
  · rintro ⟨h1, h2, rfl, rfl⟩; exact ⟨(), h1, (), h2, rfl, rfl⟩

end Ica
