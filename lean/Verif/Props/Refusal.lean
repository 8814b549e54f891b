import Verif.Props.Machine
import Verif.Spec.Refusal

/-!
# What is said when something is refused (C113)
-/
namespace Ica.Refusal
open Spec Format Function

set_option linter.unusedSimpArgs false

variable {api : Api} {env : Env} {h : List (Op × List Obs)} {w : World} {v : View} {c : Complaint}

/-- The same for the contract over typed storage. -/
def Says {α : Type} (t : Res α) (c : Complaint) : Prop := ∃ e, t = .err e ∧ heard e = c

theorem refuses_iff {α : Type} {out : Res α × Raw.RawStore} {t : Res (Store × α)} (h : Raw.Agrees out t) :
    Refuses out c ↔ Says t c := by
  unfold Refuses Says
  cases t with
  | ok x =>
    obtain ⟨h1, -⟩ := h
    rw [h1]
    constructor <;> (rintro ⟨e, h, -⟩; cases h)
  | err e =>
    rw [show out.1 = .err e from h]
    constructor <;> (rintro ⟨e, h, h2⟩; cases h; exact ⟨_, rfl, h2⟩)
  | panic e =>
    rw [show out.1 = .panic e from h]
    constructor <;> (rintro ⟨e, h, -⟩; cases h)

theorem panics_iff {α : Type} {out : Res α × Raw.RawStore} {t : Res (Store × α)} (h : Raw.Agrees out t) :
    (∃ why, out.1 = .panic why) ↔ ∃ why, t = .panic why := by
  obtain ⟨r, raw⟩ := out
  cases r <;> cases t <;> simp_all [Raw.Agrees]

theorem ok_bind {α β : Type} (a : α) (f : α → Res β) : (Res.ok a).bind f = f a := rfl
theorem err_bind {α β : Type} (e : Err) (f : α → Res β) : (Res.err e : Res α).bind f = .err e := rfl
theorem panic_bind {α β : Type} (e : String) (f : α → Res β) : (Res.panic e : Res α).bind f = .panic e := rfl

theorem says_err {α : Type} (e : Err) : Says (.err e : Res α) c ↔ c = heard e := by
  constructor
  · rintro ⟨e', h1, h2⟩; cases h1; exact h2.symm
  · rintro rfl; exact ⟨_, rfl, rfl⟩

theorem says_ok {α : Type} (a : α) : ¬ Says (.ok a) c := by
  rintro ⟨e, h, -⟩; cases h

theorem says_panic {α : Type} (e : String) : ¬ Says (.panic e : Res α) c := by
  rintro ⟨e, h, -⟩; cases h

theorem first_nil : ¬ First [] c := nofun

theorem first_cons {p : Prop} {c' : Complaint} {l : List (Prop × Complaint)} :
    First ((p, c') :: l) c ↔ (p ∧ c = c') ∨ (¬ p ∧ First l c) := by
  constructor
  · intro h
    cases h with
    | here hp => exact .inl ⟨hp, rfl⟩
    | later hp hl => exact .inr ⟨hp, hl⟩
  · rintro (⟨hp, rfl⟩ | ⟨hp, hl⟩)
    · exact .here hp
    · exact .later hp hl

theorem owner_sim (s : Sim h w v) (hl : v.live = true) (hv : Inv api w) : ∃ o, v.owner = some o := by
  obtain ⟨ow, o, h1, h2⟩ := hv.owner (s.live.trans hl)
  rw [s.ownership, if_pos hl] at h1
  cases h1
  exact ⟨o, h2⟩

/-- The check of the owner. -/
theorem assertOwner_sim (s : Sim h w v) (hl : v.live = true) (hv : Inv api w) (sender : String) :
    assertOwner w.store sender = if v.owner = some sender then .ok () else .err (.ownership .notOwner) := by
  obtain ⟨o, ho⟩ := owner_sim s hl hv
  unfold assertOwner checkOwner
  rw [s.ownership, if_pos hl]
  simp only [load, ok_bind, err_bind, panic_bind, ho, Option.some.injEq]
  by_cases hs : sender = o
  · subst hs; simp
  · rw [if_neg hs, if_neg (fun e => hs e.symm)]

theorem validate_opt (api : Api) (a : Option String) :
    addrValidateOpt api a = (match a with | some x => if api.validAddr x then .ok a else .err (.std "invalid address") | none => .ok a) := by
  cases a with
  | none => rfl
  | some x =>
    unfold addrValidateOpt addrValidate
    dsimp only
    split <;> rfl

theorem mapRes_outcome {α β : Type} {f : α → Res β} {P : α → Prop} (h1 : ∀ a, P a → ∃ b, f a = .ok b)
    (h2 : ∀ a, ¬ P a → ∃ e, f a = .panic e) (l : List α) :
    ((∀ a ∈ l, P a) → ∃ bs, mapRes f l = .ok bs) ∧ (¬ (∀ a ∈ l, P a) → ∃ e, mapRes f l = .panic e) := by
  induction l with
  | nil => exact ⟨fun _ => ⟨[], rfl⟩, fun h => absurd (fun _ h => (by cases h)) h⟩
  | cons x l ih =>
    by_cases hx : P x
    · obtain ⟨b, hb⟩ := h1 x hx
      constructor
      · intro h
        obtain ⟨bs, hbs⟩ := ih.1 fun a ha => h a (.tail _ ha)
        exact ⟨b :: bs, by simp [mapRes, hb, hbs]⟩
      · intro h
        obtain ⟨e, he⟩ := ih.2 fun hl => h fun a ha => by
          cases ha with
          | head => exact hx
          | tail _ ha => exact hl a ha
        exact ⟨e, by simp [mapRes, hb, he]⟩
    · obtain ⟨e, he⟩ := h2 x hx
      exact ⟨fun h => absurd (h x (.head _)) hx, fun _ => ⟨e, by simp [mapRes, he]⟩⟩

/-- A packet is built, or the contract aborts. -/
theorem packet_outcome (s : Store) (ms : List CosmosMsg) (qs : List QueryRequest) (memo : Option String) (a : String) :
    (((∀ m ∈ ms, Supported m) ∧ ∀ q ∈ qs, SupportedQuery q) → ∃ x, fromCosmosMsgs s ms qs .protobuf memo a = .ok x) ∧
    (¬ ((∀ m ∈ ms, Supported m) ∧ ∀ q ∈ qs, SupportedQuery q) → ∃ e, fromCosmosMsgs s ms qs .protobuf memo a = .panic e) := by
  have h1 := mapRes_outcome (f := fun m => convertToProtoAny m a) (P := Supported)
    (fun m hm => convert_of_supported hm a) (fun m hm => not_convert hm a) ms
  have h2 := mapRes_outcome (f := queryToProtobuf) (P := SupportedQuery)
    (fun q hq => convert_of_supportedQuery hq) (fun q hq => not_convertQuery hq) qs
  unfold fromCosmosMsgs
  dsimp only
  by_cases hm : ∀ m ∈ ms, Supported m
  · obtain ⟨anys, e1⟩ := h1.1 hm
    rw [e1]
    simp only [ok_bind, err_bind, panic_bind]
    by_cases hq : qs = []
    · rw [if_pos hq]
      refine ⟨fun _ => ⟨_, rfl⟩, fun h => absurd ⟨hm, ?_⟩ h⟩
      rw [hq]; exact fun _ h => (by cases h)
    · rw [if_neg hq]
      by_cases hs : ∀ q ∈ qs, SupportedQuery q
      · obtain ⟨cqs, e2⟩ := h2.1 hs
        rw [e2]
        exact ⟨fun _ => ⟨_, rfl⟩, fun h => absurd ⟨hm, hs⟩ h⟩
      · obtain ⟨e, e2⟩ := h2.2 hs
        rw [e2]
        exact ⟨fun h => absurd h.2 hs, fun _ => ⟨_, rfl⟩⟩
  · obtain ⟨e, e1⟩ := h1.2 hm
    rw [e1]
    exact ⟨fun h => absurd h.1 hm, fun _ => ⟨_, rfl⟩⟩

theorem seconds_eq (t : Option UInt64) : (t.map (·.toNat)).getD DEFAULT_TIMEOUT_SECONDS = allowedSeconds t := by
  cases t <;> rfl

/-- A packet is sent, or the contract aborts. -/
theorem toIbcMsg_outcome (p : IcaPacketData) (env : Env) (ch : String) (t : Option UInt64) :
    (¬ 18446744073709551616 ≤ env.time.toNat + allowedSeconds t * 1000000000 → ∃ m, p.toIbcMsg env ch t = .ok m) ∧
    (18446744073709551616 ≤ env.time.toNat + allowedSeconds t * 1000000000 → ∃ e, p.toIbcMsg env ch t = .panic e) := by
  unfold IcaPacketData.toIbcMsg plusSeconds
  rw [seconds_eq]
  generalize env.time.toNat + allowedSeconds t * 1000000000 = n
  constructor
  · intro h
    rw [if_pos (by omega : n < 18446744073709551616)]
    exact ⟨_, rfl⟩
  · intro h
    rw [if_neg (by omega : ¬ n < 18446744073709551616)]
    exact ⟨_, rfl⟩

theorem heard_notOwner : heard (.ownership .notOwner) = .says "Caller is not the contract's current owner" := rfl
theorem heard_address : heard (.std "invalid address") = .badAddress := by decide
theorem heard_missing : heard (.std "not found") = .nothingThere := by decide
theorem heard_unset : heard .icaInfoNotSet = .says "interchain account information is not set" := rfl
theorem heard_renounce : heard .ownershipCannotBeRenounced = .says "this contract must have an owner" := rfl
theorem heard_noOffer : heard (.ownership .transferNotFound) = .noOffer := rfl
theorem heard_another : heard (.ownership .notPendingOwner) = .offeredToAnother := rfl
theorem heard_expired : heard (.ownership .transferExpired) = .offerExpired := rfl
theorem heard_port : heard .invalidHostPort = .says "invalid host port" := rfl
theorem heard_active : heard .activeChannelAlreadySet = .says "active channel already set for this contract" := rfl
theorem heard_other : heard .invalidChannelInContractState = .says "invalid channel in contract state" := rfl
theorem heard_connection : heard .invalidConnection = .says "invalid connection" := rfl
theorem heard_ica : heard .invalidIcaAddress = .says "invalid interchain account address" := rfl
theorem heard_txType (t : String) : heard (.unsupportedTxType t) = .says ("unsupported transaction type " ++ t) := rfl
theorem heard_status : heard (.invalidChannelStatus "STATE_OPEN" "STATE_CLOSED") =
    .says "invalid channel status: expected STATE_OPEN, got STATE_CLOSED" := by decide +kernel
theorem heard_encoding : heard (.unsupportedPacketEncoding (TxEncoding.display .proto3Json)) =
    .says "unsupported packet encoding: \"proto3json\"" := by decide +kernel
theorem heard_data : heard (.unknownDataType "cannot unmarshal ICS-27 interchain accounts metadata") =
    .says "unknown data type: cannot unmarshal ICS-27 interchain accounts metadata" := by decide +kernel
theorem heard_migration : heard (.invalidMigrationVersion "> 0.20.0" "0.20.0") =
    .says "invalid migration version: expected > 0.20.0, got 0.20.0" := by decide +kernel
theorem heard_version (t : String) : heard (.invalidVersion "ics27-1" t) =
    .says ("invalid interchain accounts version: expected ics27-1, got " ++ t) := by
  have : "invalid interchain accounts version: expected " ++ "ics27-1" ++ ", got " =
    "invalid interchain accounts version: expected ics27-1, got " := by decide +kernel
  show Complaint.says ("invalid interchain accounts version: expected " ++ "ics27-1" ++ ", got " ++ t) = _
  rw [this]
theorem heard_parse : heard (.std "Error parsing into type") = .notUnderstood := by decide

theorem send_other {s : Store} {sender : String} {e : Err} (ho : assertOwner s sender = .err e) {ms : List CosmosMsg}
    {qs : List QueryRequest} {memo : Option String} {t : Option UInt64} :
    sendCosmosMsgs env s sender ms qs memo t = .err e := by
  unfold sendCosmosMsgs
  rw [ho, err_bind]

theorem send_none {s : Store} {sender : String} {cb : Option String} (ho : assertOwner s sender = .ok ())
    (hst : s.state = some ⟨Option.map (fun x => ⟨x.1, x.2, .protobuf⟩) (none : Option (String × String)), cb⟩) {ms : List CosmosMsg}
    {qs : List QueryRequest} {memo : Option String} {t : Option UInt64} :
    sendCosmosMsgs env s sender ms qs memo t = .err .icaInfoNotSet := by
  unfold sendCosmosMsgs
  rw [ho, hst, ok_bind]
  rfl

/-- The account is there: the packet is sent, or the contract aborts. -/
theorem send_some {s : Store} {sender : String} {cb : Option String} {x : String × String} (ho : assertOwner s sender = .ok ())
    (hst : s.state = some ⟨Option.map (fun x => ⟨x.1, x.2, .protobuf⟩) (some x), cb⟩) (ms : List CosmosMsg)
    (qs : List QueryRequest) (memo : Option String) (t : Option UInt64) :
    (∀ c, ¬ Says (sendCosmosMsgs env s sender ms qs memo t) c) ∧
    ((∃ why, sendCosmosMsgs env s sender ms qs memo t = .panic why) ↔ Unsendable env ms qs t) := by
  have e0 : sendCosmosMsgs env s sender ms qs memo t =
      (fromCosmosMsgs s ms qs .protobuf memo x.1).bind fun y => (y.2.toIbcMsg env x.2 t).bind fun m =>
        .ok (y.1, ⟨[if qs = [] then .new (.ibc m) else ⟨SEND_QUERY_PACKET, .ibc m, .success⟩], []⟩) := by
    unfold sendCosmosMsgs
    rw [ho, hst, ok_bind]
    rfl
  rw [e0]
  clear e0
  obtain ⟨p1, p2⟩ := packet_outcome s ms qs memo x.1
  have hno : ¬ ((∀ m ∈ ms, Supported m) ∧ ∀ q ∈ qs, SupportedQuery q) → Unsendable env ms qs t := by
    intro hsup
    by_cases hm : ∀ m ∈ ms, Supported m
    · refine .inr (.inl ?_)
      by_contra hq
      exact hsup ⟨hm, fun q hq' => by_contra fun hx => hq ⟨q, hq', hx⟩⟩
    · refine .inl ?_
      by_contra hq
      exact hm fun q hq' => by_contra fun hx => hq ⟨q, hq', hx⟩
  by_cases hsup : (∀ m ∈ ms, Supported m) ∧ ∀ q ∈ qs, SupportedQuery q
  · obtain ⟨y, hy⟩ := p1 hsup
    rw [hy, ok_bind]
    obtain ⟨q1, q2⟩ := toIbcMsg_outcome y.2 env x.2 t
    have hiff : Unsendable env ms qs t ↔ 18446744073709551616 ≤ env.time.toNat + allowedSeconds t * 1000000000 := by
      constructor
      · rintro (⟨m, a, b⟩ | ⟨m, a, b⟩ | h)
        · exact absurd (hsup.1 m a) b
        · exact absurd (hsup.2 m a) b
        · exact h
      · exact fun h => .inr (.inr h)
    rw [hiff]
    by_cases ht : 18446744073709551616 ≤ env.time.toNat + allowedSeconds t * 1000000000
    · obtain ⟨e, he⟩ := q2 ht
      rw [he, panic_bind]
      exact ⟨fun c => says_panic _, ⟨fun _ => ht, fun _ => ⟨e, rfl⟩⟩⟩
    · obtain ⟨m, he⟩ := q1 ht
      rw [he, ok_bind]
      exact ⟨fun c => says_ok _, ⟨fun h => (by obtain ⟨_, h⟩ := h; cases h), fun h => absurd h ht⟩⟩
  · obtain ⟨e, he⟩ := p2 hsup
    rw [he, panic_bind]
    exact ⟨fun c => says_panic _, ⟨fun _ => hno hsup, fun _ => ⟨_, rfl⟩⟩⟩

/-- What the contract says to a message of a user. -/
theorem execute_says (s : Sim h w v) (hl : v.live = true) (hv : Inv api w) (sender : String) (m : ExecuteMsg) :
    (∀ c, Says (execute api w.env w.store sender m) c ↔ First (wrong api v sender m) c) ∧
    ((∃ why, execute api w.env w.store sender m = .panic why) ↔ Impossible v sender m) := by
  have ho := assertOwner_sim s hl hv sender
  have hst : w.store.state = some ⟨v.account.map fun x => ⟨x.1, x.2, .protobuf⟩, v.callback⟩ := by
    rw [s.state, if_pos hl]
  cases m with
  | createChannel o =>
    obtain ⟨o0, hopt⟩ := hv.options (s.live.trans hl)
    simp only [execute, createChannel, ho, wrong, notOwner, first_cons, Impossible]
    by_cases hs : v.owner = some sender
    · rw [if_pos hs]
      simp only [ok_bind, err_bind, panic_bind]
      refine ⟨fun c => ⟨fun hc => ?_, ?_⟩, ⟨?_, False.elim⟩⟩
      · cases o <;> simp only [hopt] at hc <;> exact absurd hc (says_ok _)
      · rintro (⟨hn, -⟩ | ⟨-, hn⟩)
        · exact absurd hs hn
        · exact absurd hn first_nil
      · rintro ⟨why, hw⟩
        cases o <;> simp only [hopt] at hw <;> cases hw
    · rw [if_neg hs]
      simp only [ok_bind, err_bind, panic_bind, says_err, heard_notOwner]
      refine ⟨fun c => ⟨fun hc => .inl ⟨hs, hc⟩, ?_⟩, ⟨?_, False.elim⟩⟩
      · rintro (⟨-, hc⟩ | ⟨hn, -⟩)
        · exact hc
        · exact absurd hs hn
      · rintro ⟨why, hw⟩; cases hw
  | closeChannel =>
    simp only [execute, closeChannel, ho, wrong, notOwner, first_cons, Impossible, s.channel]
    by_cases hs : v.owner = some sender
    · rw [if_pos hs]
      simp only [ok_bind, err_bind, panic_bind]
      cases hc : v.channel with
      | none =>
        simp [load, says_err, heard_missing, hs]
      | some cs =>
        obtain ⟨ch, st⟩ := cs
        obtain ⟨hst', -⟩ := hv.tracked ⟨ch, st⟩ (s.channel.trans hc)
        rcases hst' with h1 | h1 <;> simp only at h1 <;> subst h1
        · simp [load, ChannelState.isOpen, says_ok, hs, first_nil]
        · simp [load, ChannelState.isOpen, says_err, hs, first_nil, notOpenErr, ChannelStatus.display, heard_status]
    · rw [if_neg hs]
      simp [ok_bind, err_bind, panic_bind, says_err, heard_notOwner, hs]
  | updateCallbackAddress a =>
    simp only [execute, updateCallbackAddress, ho, wrong, notOwner, first_cons, Impossible, hst, validate_opt]
    by_cases hs : v.owner = some sender
    · rw [if_pos hs]
      cases a with
      | none => simp [load, says_ok, hs, first_nil]
      | some x =>
        by_cases hx : api.validAddr x = true
        · simp [load, says_ok, hs, first_nil, hx]
        · simp [load, says_err, hs, first_nil, hx, heard_address]
    · rw [if_neg hs]
      simp [ok_bind, err_bind, panic_bind, says_err, heard_notOwner, hs]
  | sendCosmosMsgs ms qs memo t =>
    show (∀ c, Says (sendCosmosMsgs w.env w.store sender ms qs memo t) c ↔ First (wrong api v sender (.sendCosmosMsgs ms qs memo t)) c) ∧
      ((∃ why, sendCosmosMsgs w.env w.store sender ms qs memo t = .panic why) ↔
        v.owner = some sender ∧ v.account ≠ none ∧ Unsendable v.env ms qs t)
    simp only [wrong, notOwner, first_cons]
    by_cases hs : v.owner = some sender
    · rw [if_pos hs] at ho
      cases ha : v.account with
      | none =>
        rw [ha] at hst
        rw [send_none ho hst]
        simp only [says_err, heard_unset, hs, ne_eq, not_true_eq_false, false_and, false_or, not_false_eq_true, true_and,
          first_nil, and_false, or_false, reduceCtorEq, exists_false]
        exact ⟨fun _ => trivial, trivial⟩
      | some x =>
        rw [ha] at hst
        have h1 := send_some (env := w.env) ho hst ms qs memo t
        rw [s.env] at h1
        have h2 : ¬ (some x = none) := nofun
        simp only [hs, ne_eq, not_true_eq_false, false_and, false_or, not_false_eq_true, true_and, first_nil, and_false,
          or_false, h2, iff_false]
        rw [s.env]
        exact h1
    · rw [if_neg hs] at ho
      rw [send_other ho]
      simp only [says_err, heard_notOwner, hs, ne_eq, not_false_eq_true, true_and, not_true_eq_false, false_and, or_false, iff_false,
        not_exists, reduceCtorEq]
      exact ⟨fun _ => trivial, fun _ => trivial⟩
  | updateOwnership a =>
    have hown : w.store.ownership = some ⟨v.owner, v.offer.map (·.1), v.offer.bind (·.2)⟩ := by rw [s.ownership, if_pos hl]
    cases a with
    | renounceOwnership =>
      simp [execute, updateOwnership, wrong, first_cons, Impossible, says_err, heard_renounce]
    | transferOwnership to' e =>
      unfold assertOwner at ho
      rw [hown] at ho
      simp only [load, ok_bind, err_bind, panic_bind] at ho
      simp only [execute, updateOwnership, reduceCtorEq, if_false, cwUpdateOwnership, hown, load, ok_bind, err_bind, panic_bind, ho, wrong, notOwner,
        first_cons, Impossible]
      by_cases hs : v.owner = some sender
      · rw [if_pos hs]
        by_cases hx : api.validAddr to' = true
        · simp [addrValidate, says_ok, hs, first_nil, hx]
        · simp [addrValidate, says_err, hs, first_nil, hx, heard_address]
      · rw [if_neg hs]
        simp [says_err, heard_notOwner, hs]
    | acceptOwnership =>
      simp only [execute, updateOwnership, reduceCtorEq, if_false, cwUpdateOwnership, hown, load, ok_bind, err_bind, panic_bind, wrong,
        first_cons, Impossible]
      cases hof : v.offer with
      | none => simp [says_err, heard_noOffer]
      | some x =>
        obtain ⟨p, e⟩ := x
        simp only [Option.map_some, Option.bind_some]
        by_cases hp : sender = p
        · subst hp
          have hu := unexpired_iff (env := w.env) (e := e)
          rw [if_pos rfl]
          cases e with
          | none => simp [says_ok, first_nil, Unexpired]
          | some y =>
            have hu' : Unexpired v.env (some y) ↔ y.isExpired w.env = false := by
              rw [← s.env, hu]; simp
            by_cases hy : y.isExpired w.env = true
            · simp [says_err, first_nil, hy, hu', heard_expired]
            · simp [says_ok, first_nil, hy, hu']
        · rw [if_neg hp]
          have : p ≠ sender := fun e => hp e.symm
          simp [says_err, heard_another, this]

/-- What the contract says to the channel that was asked for. -/
theorem open_says (s : Sim h w v) (hv : Inv api w) {s' : Store} (hs' : s'.allowOpenInit = some true)
    (hch : s'.channel = w.store.channel) (address fresh : String) (o : ChannelOpenInitOptions) (c : Complaint) :
    Says (ibcChannelOpen api s' (.openInit (asked address fresh o))) c ↔ First (wrongChannel v o) c := by
  have hm : (asked address fresh o).version = (IcaMetadata.ofOptions o).display := rfl
  have hne : (asked address fresh o).version ≠ "" := by
    rw [hm]; exact display_ne_empty _
  have hp : IcaMetadata.parse (asked address fresh o).version = some (IcaMetadata.ofOptions o) := by
    rw [hm]; exact parse_display _
  have hval : (IcaMetadata.ofOptions o).validate api (asked address fresh o) = .ok () := by
    rw [validate_eq_ok]
    exact metaOk_ofOptions api o
  unfold ibcChannelOpen channelOpenInit
  simp only [hs', Option.getD_some, not_true_eq_false, if_false]
  rw [show (asked address fresh o).counterpartyEndpoint.portId = askedPort o from rfl]
  simp only [HOST_PORT_ID, wrongChannel, first_cons]
  by_cases hport : askedPort o = "icahost"
  · simp only [hport, ne_eq, not_true_eq_false, if_false, false_and, false_or, not_false_eq_true, true_and, hne, hp, ok_bind, err_bind, panic_bind,
      hval, hch, s.channel]
    cases hc : v.channel with
    | none => simp [says_ok, first_nil]
    | some cs =>
      obtain ⟨ch, st⟩ := cs
      obtain ⟨hst', -⟩ := hv.tracked ⟨ch, st⟩ (s.channel.trans hc)
      rcases hst' with h1 | h1 <;> simp only at h1 <;> subst h1
      · simp [ChannelState.isOpen, says_err, heard_active, first_nil]
      · simp [ChannelState.isOpen, says_ok, first_nil]
  · simp [hport, says_err, heard_port]

theorem validateIcaAddress_outcome (a : String) :
    (AccountAddress api a → validateIcaAddress api a = .ok ()) ∧
    (¬ AccountAddress api a → validateIcaAddress api a = .err .invalidIcaAddress) := by
  have h := validateIcaAddress_eq_ok (api := api) (a := a) (u := ())
  simp only [alnum_iff] at h
  refine ⟨h.2, fun hg => ?_⟩
  have hn := mt h.1 hg
  unfold validateIcaAddress at hn ⊢
  split
  · rfl
  · rename_i hx; exact absurd (if_neg hx) hn

/-- What the contract says to the answer of the host. -/
theorem ack_says (s : Sim h w v) (hl : v.live = true) {ch : IbcChannel} (hp : ch.endpoint.portId ≠ "icahost") (version : String) :
    (IcaMetadata.parse version = none → ∀ c, Says (ibcChannelConnect api w.store (.openAck ch version)) c ↔
      c = .says "unknown data type: cannot unmarshal ICS-27 interchain accounts metadata") ∧
    ∀ m, IcaMetadata.parse version = some m → ∀ c, Says (ibcChannelConnect api w.store (.openAck ch version)) c ↔
      First (wrongMetadata api ch.connectionId m) c := by
  have hst : w.store.state = some ⟨v.account.map fun x => ⟨x.1, x.2, .protobuf⟩, v.callback⟩ := by
    rw [s.state, if_pos hl]
  unfold ibcChannelConnect channelOpenAck
  simp only [hst, load, ok_bind, err_bind, panic_bind, HOST_PORT_ID, hp, if_false]
  constructor
  · intro hn c
    rw [hn]
    simp only [says_err, heard_data]
  · intro m hm c
    rw [hm]
    simp only [IcaMetadata.validate, ICA_VERSION, wrongMetadata, first_cons]
    by_cases h1 : m.version = "ics27-1"
    swap
    · simp [h1, says_err, heard_version, ok_bind, err_bind, panic_bind]
    by_cases h2 : m.controllerConnectionId = ch.connectionId
    swap
    · simp [h1, h2, says_err, heard_connection, ok_bind, err_bind, panic_bind]
    cases h3 : m.encoding with
    | proto3Json =>
      simp [h1, h2, says_err, heard_encoding, ok_bind, err_bind, panic_bind]
    | protobuf =>
      by_cases h4 : m.address = ""
      · by_cases h5 : m.txType = "sdk_multi_msg"
        · simp [h1, h2, h4, h5, says_err, heard_ica, ok_bind, err_bind, panic_bind, first_nil]
        · simp [h1, h2, h4, h5, says_err, heard_txType, ok_bind, err_bind, panic_bind]
      · obtain ⟨g1, g2⟩ := validateIcaAddress_outcome (api := api) m.address
        by_cases h6 : AccountAddress api m.address
        · by_cases h5 : m.txType = "sdk_multi_msg"
          · simp only [h1, h2, h4, h5, g1 h6, ne_eq, not_true_eq_false, not_false_eq_true, if_false, if_true, ok_bind,
              false_and, false_or, true_and, first_nil, or_false, h6, and_self, or_true, iff_false]
            cases v.callback <;> exact says_ok _
          · simp only [h1, h2, h4, h5, g1 h6, ne_eq, not_true_eq_false, not_false_eq_true, if_false, if_true, ok_bind, err_bind,
              false_and, false_or, true_and, h6, and_self, or_true, says_err, or_false, heard_txType]
        · simp only [h1, h2, h4, g2 h6, ne_eq, not_true_eq_false, not_false_eq_true, if_false, if_true, err_bind,
            false_and, false_or, true_and, h6, says_err, or_false, heard_ica]

theorem close_says (s : Sim h w v) (hv : Inv api w) (ch : IbcChannel) (c : Complaint) :
    Says (ibcChannelClose w.store (.closeConfirm ch)) c ↔ First (wrongClose v ch) c := by
  unfold ibcChannelClose channelCloseConfirm
  simp only [s.channel, wrongClose, first_cons]
  cases hc : v.channel with
  | none => simp [load, says_err, heard_missing]
  | some cs =>
    obtain ⟨ch', st⟩ := cs
    obtain ⟨hst', -⟩ := hv.tracked ⟨ch', st⟩ (s.channel.trans hc)
    by_cases hch : ch' = ch
    · subst hch
      rcases hst' with h1 | h1 <;> simp only at h1 <;> subst h1
      · simp [load, ChannelState.isOpen, says_ok, first_nil]
      · simp [load, ChannelState.isOpen, says_err, first_nil, notOpenErr, ChannelStatus.display, heard_status]
    · simp [load, says_err, hch, heard_other]

theorem flag_off {b : Option Bool} (hb : b ≠ some true) : b.getD false = false := by
  rcases b with _ | b
  · rfl
  · cases b
    · rfl
    · exact absurd rfl hb

theorem migrate_says (s : Sim h w v) (hl : v.live = true) (hv : Inv api w) (c : Complaint) :
    Says (migrate w.store) c ↔ c = .says "invalid migration version: expected > 0.20.0, got 0.20.0" := by
  have hver := hv.version (s.live.trans hl)
  have : validateSemver w.store = .err (.invalidMigrationVersion "> 0.20.0" "0.20.0") := by
    unfold validateSemver
    rw [hver]
    decide +kernel
  unfold migrate
  rw [this]
  simp only [ok_bind, err_bind, panic_bind, says_err, heard_migration]

/-- **C113.** After every history of the contract as the VM runs it, whatever it refuses, it says what belongs to the first
thing that is wrong, and refuses nothing else. -/
theorem C113_explains {h : List (Raw.ROp × List Obs)} {w : Raw.RWorld} (he : Raw.RExec api (.genesis env) h w)
    (hs : ∀ x ∈ h, x.1.Short) (hl : w.live = true) :
    ∃ h' v, List.Forall₂ (fun x y => Spec.Says x.1 y.1 ∧ x.2 = y.2) h h' ∧ Runs api (View.start env) h' v ∧ Answering w v ∧
      Explains api w v := by
  obtain ⟨h', st, h1, h2, h3⟩ := rel_exec he hs
  obtain ⟨v, k1, k2⟩ := sim_exec h1
  refine ⟨h', v, h3, k1, sim_answering h2.rep k2, ?_⟩
  have hv : Inv api (w.typed st) := inv_of_reachable ⟨env, h', h1⟩
  have hlv : v.live = true := k2.live.symm.trans hl
  have hvm : ∀ {sender text m}, Spells Api.Execute text m →
      Raw.vmExecute api w.env sender text w.raw = Raw.execute api w.env sender m w.raw := by
    intro sender text m hm
    unfold Raw.vmExecute Raw.withMsg
    rw [(ofBytes_iff ExecuteMsg_reads).2 hm]
  refine ⟨?_, ?_, ?_, ?_, ?_, ?_, ?_, ?_⟩
  · intro sender text hn
    have : ExecuteMsg.jc.ofBytes text = none := by
      cases hx : ExecuteMsg.jc.ofBytes text with
      | none => rfl
      | some m => exact absurd ((ofBytes_iff ExecuteMsg_reads).1 hx) (hn m)
    refine ⟨.std "Error parsing into type", ?_, heard_parse⟩
    unfold Raw.vmExecute Raw.withMsg
    rw [this]
    rfl
  · intro sender text m hm
    rw [hvm hm]
    have ha := Raw.execute_ag h2.rep api w.env sender m
    obtain ⟨e1, e2⟩ := execute_says k2 hlv hv sender m
    exact ⟨fun c => (refuses_iff ha).trans (e1 c), (panics_iff ha).trans e2⟩
  · intro sender text o o' fresh hm ho hopt
    rw [hvm hm]
    have ha := Raw.execute_ag h2.rep api w.env sender (.createChannel o)
    have hx : Ica.execute api w.env st sender (.createChannel o) =
        .ok ({ st with options := some o', allowOpenInit := some true },
          ⟨[.new (newIcaChannelOpenInitCosmosMsg w.env.contractAddr o'.connectionId o'.counterpartyPortId
            o'.counterpartyConnectionId none o'.channelOrdering)], []⟩) := by
      have := assertOwner_sim k2 hlv hv sender
      rw [if_pos ho] at this
      simp only [execute, createChannel]
      rw [show assertOwner st sender = .ok () from this]
      simp only [ok_bind, err_bind, panic_bind]
      cases o with
      | some o => cases hopt; rfl
      | none =>
        have : st.options = some o' := k2.options.trans hopt
        simp only [this]
        rw [← this]
        rfl
    rw [hx] at ha
    obtain ⟨a1, a2⟩ := ha
    refine ⟨_, _, Prod.ext a1 rfl, fun c => ?_⟩
    refine (refuses_iff (Raw.ibcChannelOpen_ag a2 api _)).trans ?_
    exact open_says (s' := { st with options := some o', allowOpenInit := some true }) k2 hv rfl rfl _ _ _ _
  · intro ch c
    refine (refuses_iff (Raw.ibcChannelOpen_ag h2.rep api _)).trans ?_
    unfold ibcChannelOpen channelOpenInit
    simp only [flag_off hv.noOpenFlag]
    have : st.allowOpenInit.getD false = false := flag_off hv.noOpenFlag
    simp only [this, Bool.false_eq_true, not_false_eq_true, if_true, says_err]
    exact Iff.rfl
  · intro id ch cpId version hch
    have hport : (answered ch cpId version).endpoint.portId ≠ "icahost" := by
      have := (hv.chans id ⟨ch, .init⟩ (by rw [k2.chans]; exact hch)).1
      show ch.endpoint.portId ≠ _
      rw [this]
      exact portOf_ne_icahost _
    obtain ⟨e1, e2⟩ := ack_says (api := api) k2 hlv hport version
    constructor
    · intro hn c
      refine (refuses_iff (Raw.ibcChannelConnect_ag h2.rep api _)).trans (e1 ?_ c)
      cases hx : IcaMetadata.parse version with
      | none => rfl
      | some m => exact absurd (C69_metadata.1 hx) (hn m)
    · intro m hm c
      exact (refuses_iff (Raw.ibcChannelConnect_ag h2.rep api _)).trans (e2 m (C69_metadata.2 hm) c)
  · intro ch c
    refine (refuses_iff (Raw.ibcChannelClose_ag h2.rep _)).trans ?_
    unfold ibcChannelClose channelCloseInit
    have : st.allowCloseInit.getD false = false := flag_off hv.noCloseFlag
    simp only [this, Bool.false_eq_true, not_false_eq_true, if_true, says_err]
    exact Iff.rfl
  · intro ch c
    exact (refuses_iff (Raw.ibcChannelClose_ag h2.rep _)).trans (close_says k2 hv ch c)
  · intro text hm c
    have : Raw.vmMigrate text w.raw = Raw.migrate w.raw := by
      unfold Raw.vmMigrate Raw.withMsg
      rw [(ofBytes_iff MigrateMsg_reads).2 hm]
    rw [this]
    exact (refuses_iff (Raw.migrate_ag h2.rep)).trans (migrate_says k2 hlv hv c)

/-- The scenario with an account, in bytes: somebody who renounces an ownership that is not theirs is told that there must be an
owner; a relayer who opens a channel is told that it is not allowed; half a message is not understood. -/
example : ∃ h w, Raw.RExec Ex.api (.genesis Ex.env) h w ∧ (∀ x ∈ h, x.1.Short) ∧ w.live = true ∧ h.length = 2 ∧
    Refuses (Raw.vmExecute Ex.api w.env "mallory" (ExecuteMsg.jc.toBytes (.updateOwnership .renounceOwnership)) w.raw)
      (.says "this contract must have an owner") ∧
    Refuses (Raw.ibcChannelOpen Ex.api (.openInit (Ex.chan "channel-7" Ex.opts)) w.raw) (.says "MsgChannelOpenInit is not allowed") ∧
    Refuses (Raw.vmExecute Ex.api w.env "mallory" (utf8 "{") w.raw) .notUnderstood := by
  have hs : ∀ x ∈ Ex.h2, (asBytes x.1).Short := by
    intro x hx
    simp only [Ex.h2, List.mem_cons, List.not_mem_nil, or_false] at hx
    rcases hx with rfl | rfl
    · show Raw.Short "channel-0"; decide +kernel
    · trivial
  obtain ⟨w, h1, h2, h3⟩ := C58_every_history_in_bytes Ex.e2 hs
  have hs' : ∀ x ∈ Ex.h2.map fun x => (asBytes x.1, x.2), x.1.Short := by
    intro x hx
    obtain ⟨y, hy, rfl⟩ := List.mem_map.1 hx
    exact hs y hy
  have hl : w.live = true := (congrArg World.live h3).symm
  obtain ⟨_, v, -, -, -, hx⟩ := C113_explains h1 hs' hl
  refine ⟨_, w, h1, hs', hl, rfl, ?_, (hx.uninvited _ _).2 rfl, hx.nonsense _ _ fun m hm => ?_⟩
  · exact ((hx.message "mallory" _ _ ((ofBytes_iff ExecuteMsg_reads).1 (JC.ofBytes_toBytes ExecuteMsg.jc_law _))).1 _).2 (.here trivial)
  · have : ExecuteMsg.jc.ofBytes (utf8 "{") = none := by decide +kernel
    rw [(ofBytes_iff ExecuteMsg_reads).2 hm] at this
    cases this

/-- On that channel the owner cannot ask for another one, and mallory not at all; a second answer of the host with another
version is refused for its version. -/
example (v : View) (ch : IbcChannel) (o : ChannelOpenInitOptions) (ho : v.owner = some "alice") (hc : v.channel = some ⟨ch, .opened⟩)
    (hp : askedPort o = "icahost") :
    First (wrong Ex.api v "mallory" (.createChannel none)) (.says "Caller is not the contract's current owner") ∧
    First (wrongChannel v o) (.says "active channel already set for this contract") ∧
    First (wrongMetadata Ex.api "connection-0" ⟨"ics27-2", "connection-1", "", "", .proto3Json, ""⟩)
      (.says "invalid interchain accounts version: expected ics27-1, got ics27-2") :=
  ⟨.here (by rw [ho]; decide), .later (not_not.2 hp) (.here ⟨ch, hc⟩), .here (by decide)⟩

/-- **C113** (instantiation). -/
theorem C113_instantiation {text : Bytes} {msg : InstantiateMsg} (hm : Spells Api.Instantiate text msg) (env : Env) (sender : String)
    (c : Complaint) :
    Refuses (Raw.vmInstantiate api env sender text Raw.RawStore.empty) c ↔ First (wrongStart api sender msg) c := by
  have : Raw.vmInstantiate api env sender text Raw.RawStore.empty = Raw.instantiate api env sender msg Raw.RawStore.empty := by
    unfold Raw.vmInstantiate Raw.withMsg
    rw [(ofBytes_iff InstantiateMsg_reads).2 hm]
  rw [this]
  refine (refuses_iff (Raw.instantiate_ag Raw.rep_empty api env sender msg)).trans ?_
  have ho : msg.owner.getD sender = askedOwner sender msg := by
    unfold askedOwner; cases msg.owner <;> rfl
  unfold instantiate initializeOwner addrValidate
  simp only [ho, wrongStart, first_cons, validate_opt]
  by_cases h1 : api.validAddr (askedOwner sender msg) = true
  · cases h2 : msg.sendCallbacksTo with
    | none => simp [h1, ok_bind, err_bind, panic_bind, says_ok, first_nil]
    | some x =>
      by_cases h3 : api.validAddr x = true
      · simp [h1, h3, ok_bind, err_bind, panic_bind, says_ok, first_nil]
      · simp [h1, h3, ok_bind, err_bind, panic_bind, says_err, first_nil, heard_address]
  · simp [h1, ok_bind, err_bind, panic_bind, says_err, heard_address]

/-- A chain that knows no addresses. -/
example : ∃ c, Refuses (Raw.vmInstantiate ⟨fun _ => false, fun _ => false⟩ Ex.env "alice" (InstantiateMsg.jc.toBytes Ex.inst) Raw.RawStore.empty) c :=
  ⟨_, (C113_instantiation ((ofBytes_iff InstantiateMsg_reads).1 (JC.ofBytes_toBytes InstantiateMsg.jc_law _)) _ _ _).2 (.here rfl)⟩

/-- **C113.** One thing is said. -/
theorem C113_one {l : List (Prop × Complaint)} {c c' : Complaint} (h1 : First l c) (h2 : First l c') : c = c' := by
  induction h1 with
  | here hp =>
    rcases first_cons.1 h2 with ⟨-, rfl⟩ | ⟨hn, -⟩
    · rfl
    · exact absurd hp hn
  | later hp _ ih =>
    rcases first_cons.1 h2 with ⟨hq, -⟩ | ⟨-, h⟩
    · exact absurd hq hp
    · exact ih h

end Ica.Refusal
