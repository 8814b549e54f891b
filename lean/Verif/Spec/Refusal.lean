import Verif.Spec.Machine

/-!
# What is said when something is refused

For each call of the contract, the checks it makes, in order, and what is said when one of them fails: the sentences of
`/repo/src/types/error.rs`, or an error of a dependency by its kind. The checks are about the state of the machine of
`Spec/Machine`, that is, about what users see.
-/
namespace Ica.Spec

/-- What the caller is told. -/
inductive Complaint where
  /-- a sentence -/
  | says (text : String)
  /-- the message cannot be read -/
  | notUnderstood
  /-- something is not in storage -/
  | nothingThere
  /-- the chain does not accept an address -/
  | badAddress
  /-- ownership is offered to nobody, to somebody else, or was offered until then (cw-ownable) -/
  | noOffer
  | offeredToAnother
  | offerExpired
  deriving DecidableEq

/-- How an error is heard. -/
def heard (e : Err) : Complaint :=
  match e with
  | .ownership .transferNotFound => .noOffer
  | .ownership .notPendingOwner => .offeredToAnother
  | .ownership .transferExpired => .offerExpired
  | .std m =>
    if m = "not found" then .nothingThere
    else if m = "invalid address" then .badAddress
    else if m = "Error parsing into type" then .notUnderstood
    else .says m
  | e => .says (errText e)

/-- The contract, called like this, refuses and says this. -/
def Refuses {α : Type} (out : Res α × Raw.RawStore) (c : Complaint) : Prop := ∃ e, out.1 = .err e ∧ heard e = c

/-- The first of these that holds, and what belongs to it. -/
inductive First : List (Prop × Complaint) → Complaint → Prop where
  | here {p : Prop} {c : Complaint} {l : List (Prop × Complaint)} : p → First ((p, c) :: l) c
  | later {p : Prop} {c c' : Complaint} {l : List (Prop × Complaint)} : ¬ p → First l c → First ((p, c') :: l) c

/-- The sender is not the owner. -/
def notOwner (v : View) (sender : String) : Prop × Complaint :=
  (v.owner ≠ some sender, .says "Caller is not the contract's current owner")

/-- What can be wrong with a message of a user. -/
def wrong (api : Api) (v : View) (sender : String) : ExecuteMsg → List (Prop × Complaint)
  | .createChannel _ => [notOwner v sender]
  | .closeChannel => [notOwner v sender, (v.channel = none, .nothingThere),
      (∀ ch, v.channel ≠ some ⟨ch, .opened⟩, .says "invalid channel status: expected STATE_OPEN, got STATE_CLOSED")]
  | .sendCosmosMsgs .. => [notOwner v sender, (v.account = none, .says "interchain account information is not set")]
  | .updateCallbackAddress a => [notOwner v sender, (∃ x, a = some x ∧ api.validAddr x = false, .badAddress)]
  | .updateOwnership (.transferOwnership to' _) => [notOwner v sender, (api.validAddr to' = false, .badAddress)]
  | .updateOwnership .acceptOwnership => [(v.offer = none, .noOffer), (∀ e, v.offer ≠ some (sender, e), .offeredToAnother),
      (∀ e, v.offer = some (sender, e) → ¬ Unexpired v.env e, .offerExpired)]
  | .updateOwnership .renounceOwnership => [(True, .says "this contract must have an owner")]

/-- A packet with something that has no counterpart on the host, or one that would have to arrive after the end of time. -/
def Unsendable (env : Env) (ms : List CosmosMsg) (qs : List QueryRequest) (t : Option UInt64) : Prop :=
  (∃ m ∈ ms, ¬ Supported m) ∨ (∃ q ∈ qs, ¬ SupportedQuery q) ∨ 18446744073709551616 ≤ env.time.toNat + allowedSeconds t * 1000000000

/-- What cannot be carried out at all. The contract aborts. -/
def Impossible (v : View) (sender : String) : ExecuteMsg → Prop
  | .sendCosmosMsgs ms qs _ t => v.owner = some sender ∧ v.account ≠ none ∧ Unsendable v.env ms qs t
  | _ => False

/-- What can be wrong with an instantiation. -/
def wrongStart (api : Api) (sender : String) (msg : InstantiateMsg) : List (Prop × Complaint) :=
  [(api.validAddr (askedOwner sender msg) = false, .badAddress),
    (∃ x, msg.sendCallbacksTo = some x ∧ api.validAddr x = false, .badAddress)]

/-- The channel the chain opens for these options. -/
def asked (address fresh : String) (o : ChannelOpenInitOptions) : IbcChannel :=
  { proposed address fresh o with counterpartyEndpoint := ⟨askedPort o, ""⟩ }

/-- What can be wrong with the channel that the owner asked for. -/
def wrongChannel (v : View) (o : ChannelOpenInitOptions) : List (Prop × Complaint) :=
  [(askedPort o ≠ "icahost", .says "invalid host port"),
    (∃ ch, v.channel = some ⟨ch, .opened⟩, .says "active channel already set for this contract")]

/-- The channel after the answer of the host. -/
def answered (ch : IbcChannel) (cpId version : String) : IbcChannel :=
  ⟨ch.endpoint, ⟨ch.counterpartyEndpoint.portId, cpId⟩, ch.order, version, ch.connectionId⟩

/-- What the contract takes for the address of an account: letters and digits, at most 128 bytes. -/
def AccountAddress (api : Api) (a : String) : Prop :=
  (utf8 a).length ≤ 128 ∧ ∀ c ∈ a.toList, ('0' ≤ c ∧ c ≤ '9') ∨ ('A' ≤ c ∧ c ≤ 'Z') ∨ ('a' ≤ c ∧ c ≤ 'z') ∨
    (128 ≤ c.toNat ∧ api.alnumNonAscii c = true)

/-- What can be wrong with the metadata with which the host answers. -/
def wrongMetadata (api : Api) (connection : String) (m : IcaMetadata) : List (Prop × Complaint) :=
  [(m.version ≠ "ics27-1", .says ("invalid interchain accounts version: expected ics27-1, got " ++ m.version)),
    (m.controllerConnectionId ≠ connection, .says "invalid connection"),
    (m.encoding ≠ .protobuf, .says "unsupported packet encoding: \"proto3json\""),
    (¬ (m.address = "" ∨ AccountAddress api m.address), .says "invalid interchain account address"),
    (m.txType ≠ "sdk_multi_msg", .says ("unsupported transaction type " ++ m.txType)),
    (m.address = "", .says "invalid interchain account address")]

/-- What can be wrong with a channel that the other side has closed. -/
def wrongClose (v : View) (ch : IbcChannel) : List (Prop × Complaint) :=
  [(v.channel = none, .nothingThere), (∀ s, v.channel ≠ some ⟨ch, s⟩, .says "invalid channel in contract state"),
    (v.channel ≠ some ⟨ch, .opened⟩, .says "invalid channel status: expected STATE_OPEN, got STATE_CLOSED")]

/-- The contract as the VM runs it says all of this. -/
structure Explains (api : Api) (w : Raw.RWorld) (v : View) : Prop where
  /-- texts that are no messages -/
  nonsense : ∀ sender text, (∀ m, ¬ Spells Api.Execute text m) →
    Refuses (Raw.vmExecute api w.env sender text w.raw) .notUnderstood
  /-- messages of users -/
  message : ∀ sender text m, Spells Api.Execute text m →
    (∀ c, Refuses (Raw.vmExecute api w.env sender text w.raw) c ↔ First (wrong api v sender m) c) ∧
    ((∃ why, (Raw.vmExecute api w.env sender text w.raw).1 = .panic why) ↔ Impossible v sender m)
  /-- the channel that the owner asked for: the chain asks the contract whether it may be opened -/
  channel : ∀ sender text o o' fresh, Spells Api.Execute text (.createChannel o) → v.owner = some sender →
    o.or v.options = some o' → ∃ r raw', Raw.vmExecute api w.env sender text w.raw = (.ok r, raw') ∧
      ∀ c, Refuses (Raw.ibcChannelOpen api (.openInit (asked v.env.contractAddr fresh o')) raw') c ↔ First (wrongChannel v o') c
  /-- a channel that a relayer asks for -/
  uninvited : ∀ ch c, Refuses (Raw.ibcChannelOpen api (.openInit ch) w.raw) c ↔ c = .says "MsgChannelOpenInit is not allowed"
  /-- the answer of the host -/
  answer : ∀ id ch cpId version, v.chans id = some ⟨ch, .init⟩ →
    ((∀ m, ¬ IsMetadata version m) → ∀ c, Refuses (Raw.ibcChannelConnect api (.openAck (answered ch cpId version) version) w.raw) c ↔
      c = .says "unknown data type: cannot unmarshal ICS-27 interchain accounts metadata") ∧
    ∀ m, IsMetadata version m → ∀ c, Refuses (Raw.ibcChannelConnect api (.openAck (answered ch cpId version) version) w.raw) c ↔
      First (wrongMetadata api ch.connectionId m) c
  /-- a relayer closes a channel -/
  closing : ∀ ch c, Refuses (Raw.ibcChannelClose (.closeInit ch) w.raw) c ↔ c = .says "MsgChannelCloseInit is not allowed"
  /-- the host has closed a channel -/
  closed : ∀ ch c, Refuses (Raw.ibcChannelClose (.closeConfirm ch) w.raw) c ↔ First (wrongClose v ch) c
  /-- the same version again -/
  migration : ∀ text, Spells Api.Migrate text ⟨⟩ → ∀ c, Refuses (Raw.vmMigrate text w.raw) c ↔
    c = .says "invalid migration version: expected > 0.20.0, got 0.20.0"

end Ica.Spec
