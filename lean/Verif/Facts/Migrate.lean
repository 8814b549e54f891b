import Verif.Facts.RawKeep
import Verif.Facts.Semver
import Verif.Facts.Tx

/-!
# Migration: helper lemmas
-/
namespace Ica

theorem parse_current : Semver.parse CONTRACT_VERSION = some ⟨0, 20, 0, [], []⟩ := by decide +kernel

theorem current_valid : Semver.Valid ⟨0, 20, 0, [], []⟩ := (Semver.parse_iff.mp parse_current).1

theorem migrate_older {s : String} :
    (∃ p, Semver.parse s = some p ∧ Semver.cmp p ⟨0, 20, 0, [], []⟩ = .lt) ↔
      ∃ v, Semver.Valid v ∧ s.toList = Semver.text v ∧ Semver.Before v ⟨0, 20, 0, [], []⟩ := by
  constructor
  · rintro ⟨p, h1, h2⟩
    obtain ⟨h3, h4⟩ := Semver.parse_iff.mp h1
    exact ⟨p, h3, h4, (Semver.cmp_lt_release h3 current_valid rfl).mp h2⟩
  · rintro ⟨v, h1, h2, h3⟩
    exact ⟨v, Semver.parse_iff.mpr ⟨h1, h2⟩, (Semver.cmp_lt_release h1 current_valid rfl).mpr h3⟩

theorem checkSemver_eq_ok {prev : ContractVersion} {u : Unit} : Raw.checkSemver prev = .ok u ↔
    prev.contract = CONTRACT_NAME ∧ ∃ p, Semver.parse prev.version = some p ∧ Semver.cmp p ⟨0, 20, 0, [], []⟩ = .lt := by
  unfold Raw.checkSemver
  rw [parse_current]
  split
  · next h => exact ⟨(fun h' => by cases h'), fun h' => absurd h'.1 h⟩
  · next h =>
    dsimp only
    cases hp : Semver.parse prev.version with
    | none => exact ⟨(fun h' => by cases h'), fun ⟨_, p, h', _⟩ => by cases h'⟩
    | some p =>
      dsimp only
      unfold Semver.ge
      split
      · next hg =>
        refine ⟨(fun h' => by cases h'), ?_⟩
        rintro ⟨_, p', he, hlt⟩
        obtain rfl := Option.some.inj he
        rw [hlt] at hg
        cases hg
      · next hg =>
        refine ⟨fun _ => ⟨not_not.mp h, p, rfl, ?_⟩, fun _ => rfl⟩
        simpa using hg

theorem checkEncoding_eq_ok {st : ContractState} {u : Unit} : Raw.checkEncoding st = .ok u ↔
    ∀ i, st.icaInfo = some i → i.encoding = .protobuf := by
  unfold Raw.checkEncoding
  cases st.icaInfo with
  | none => exact ⟨fun _ _ h => (by cases h), fun _ => rfl⟩
  | some i =>
    dsimp only
    cases he : i.encoding with
    | protobuf =>
      refine ⟨?_, fun _ => rfl⟩
      rintro _ j ⟨⟩
      exact he
    | proto3Json =>
      refine ⟨(fun h => by cases h), ?_⟩
      intro h
      have := h i rfl
      rw [he] at this
      cases this

namespace Raw

theorem bind_ok {α β : Type} {m : RM α} {f : α → RM β} {raw raw' : RawStore} {b : β} :
    (m >>= f) raw = (.ok b, raw') ↔ ∃ a raw1, m raw = (.ok a, raw1) ∧ f a raw1 = (.ok b, raw') := by
  rw [bind_eq]
  cases h : m raw with
  | mk r raw1 =>
    cases r with
    | ok a =>
      constructor
      · intro h; exact ⟨a, raw1, rfl, h⟩
      · rintro ⟨a', raw1', h1, h2⟩
        obtain ⟨h3, rfl⟩ := Prod.mk.inj h1
        cases h3
        exact h2
    | err e =>
      constructor
      · intro h; cases h
      · rintro ⟨a', raw1', h1, h2⟩; cases h1
    | panic e =>
      constructor
      · intro h; cases h
      · rintro ⟨a', raw1', h1, h2⟩; cases h1

theorem load_ok {α : Type} {i : Item α} {raw raw' : RawStore} {x : α} :
    i.load raw = (.ok x, raw') ↔ (∃ b, raw (utf8 i.key) = some b ∧ i.jc.ofBytes b = some x) ∧ raw' = raw := by
  unfold Item.load
  cases hb : raw (utf8 i.key) with
  | none => simp
  | some b =>
    dsimp only
    cases hx : i.jc.ofBytes b with
    | none => simp [hx]
    | some y => simp [hx, eq_comm]

theorem lift_ok {α : Type} {r : Res α} {raw raw' : RawStore} {x : α} :
    lift r raw = (.ok x, raw') ↔ r = .ok x ∧ raw' = raw := by
  unfold lift
  simp [eq_comm]

theorem save_ok {α : Type} {i : Item α} {x : α} {raw raw' : RawStore} {u : Unit} :
    i.save x raw = (.ok u, raw') ↔ raw' = setKey raw (utf8 i.key) (some (i.jc.toBytes x)) := by
  unfold Item.save
  simp [eq_comm]

theorem pure_ok {α : Type} {a b : α} {raw raw' : RawStore} :
    (pure a : RM α) raw = (.ok b, raw') ↔ b = a ∧ raw' = raw := by
  rw [pure_eq]
  simp [eq_comm]

theorem mapMayLoad_snd {α : Type} (m : Map2 α) (c : String) (n : UInt64) (raw : RawStore) :
    (m.mayLoad c n raw).2 = raw := by
  unfold Map2.mayLoad
  cases mapKey m.ns c n with
  | ok k =>
    dsimp only
    cases raw k with
    | none => rfl
    | some b =>
      dsimp only
      cases m.jc.ofBytes b <;> rfl
  | err e => rfl
  | panic e => rfl

theorem migrate_ok {raw raw' : RawStore} {r : Response} : migrate raw = (.ok r, raw') ↔
    (∃ cb prev, raw (utf8 CONTRACT.key) = some cb ∧ ContractVersion.jc.ofBytes cb = some prev ∧
      prev.contract = CONTRACT_NAME ∧
      ∃ v, Semver.Valid v ∧ prev.version.toList = Semver.text v ∧ Semver.Before v ⟨0, 20, 0, [], []⟩) ∧
    (∃ sb st, raw (utf8 STATE.key) = some sb ∧ ContractState.jc.ofBytes sb = some st ∧
      ∀ i, st.icaInfo = some i → i.encoding = .protobuf) ∧
    raw' = setKey raw (utf8 CONTRACT.key) (some (ContractVersion.jc.toBytes ⟨CONTRACT_NAME, CONTRACT_VERSION⟩)) ∧
    r = .empty := by
  unfold migrate setContractVersion
  simp only [bind_ok, load_ok, lift_ok, save_ok, pure_ok]
  constructor
  · rintro ⟨prev, _, ⟨⟨cb, h1, h2⟩, rfl⟩, u, _, ⟨h3, rfl⟩, st, _, ⟨⟨sb, h4, h5⟩, rfl⟩, u', _, ⟨h6, rfl⟩, u'', _, rfl,
      rfl, rfl⟩
    rw [checkSemver_eq_ok] at h3
    rw [checkEncoding_eq_ok] at h6
    exact ⟨⟨cb, prev, h1, h2, h3.1, migrate_older.mp h3.2⟩, ⟨sb, st, h4, h5, h6⟩, rfl, rfl⟩
  · rintro ⟨⟨cb, prev, h1, h2, h3, h3'⟩, ⟨sb, st, h4, h5, h6⟩, rfl, rfl⟩
    exact ⟨prev, _, ⟨⟨cb, h1, h2⟩, rfl⟩, (), _, ⟨checkSemver_eq_ok.mpr ⟨h3, migrate_older.mpr h3'⟩, rfl⟩, st, _,
      ⟨⟨sb, h4, h5⟩, rfl⟩, (), _, ⟨checkEncoding_eq_ok.mpr h6, rfl⟩, (), _, rfl, rfl, rfl⟩

end Raw

theorem semver_irrefl (v : Semver.Version) : ¬ Semver.cmp v v = .lt := by
  rw [Semver.cmp_key]
  intro h
  rw [(Semver.lawful_cmpKey.eq_iff _ _).mpr rfl] at h
  cases h

/-- In any world, an operation leaves the stored version alone or sets it to the current one, and keeps the ICA's
encoding protobuf. -/
theorem apply_version_proto {api : Api} {w w' : World} {op : Op} {obs : List Obs} (h : apply api w op = some (w', obs)) :
    (w'.store.version = w.store.version ∨ w'.store.version = some ⟨CONTRACT_NAME, CONTRACT_VERSION⟩) ∧
    ((∀ st i, w.store.state = some st → st.icaInfo = some i → i.encoding = .protobuf) →
      ∀ st i, w'.store.state = some st → st.icaInfo = some i → i.encoding = .protobuf) := by
  cases op with
  | block a b => obtain ⟨_, _, rfl, _⟩ := apply_block.mp h; exact ⟨.inl rfl, _root_.id⟩
  | instantiate sender msg fresh core =>
    obtain ⟨_, _, _, _, _, _, _, rfl, _⟩ := apply_instantiate.mp h
    refine ⟨.inr rfl, fun _ st i hst hi => ?_⟩
    cases hst; cases hi
  | execute sender msg fresh core =>
    cases msg with
    | createChannel o => obtain ⟨_, _, _, _, _, _, _, _, rfl, _⟩ := apply_create.mp h; exact ⟨.inl rfl, _root_.id⟩
    | closeChannel => obtain ⟨_, _, _, _, _, _, _, _, _, rfl, _⟩ := apply_close.mp h; exact ⟨.inl rfl, _root_.id⟩
    | updateCallbackAddress a =>
      obtain ⟨_, _, _, st, hst, rfl, _⟩ := apply_callback.mp h
      refine ⟨.inl rfl, fun hp st' i hst' hi => ?_⟩
      cases hst'
      exact hp st i hst hi
    | sendCosmosMsgs ms qs memo t =>
      obtain ⟨_, _, _, st, info, anys, cqs, c, ts, p, _, _, _, _, _, _, _, _, _, _, rfl, _⟩ := apply_send.mp h
      unfold storeAfterSend
      dsimp only
      split
      · exact ⟨.inl rfl, _root_.id⟩
      · exact ⟨.inl rfl, _root_.id⟩
    | updateOwnership a =>
      cases a with
      | transferOwnership n e => obtain ⟨_, _, _, _, _, rfl, _⟩ := apply_transfer.mp h; exact ⟨.inl rfl, _root_.id⟩
      | acceptOwnership => obtain ⟨_, _, _, _, rfl, _⟩ := apply_accept.mp h; exact ⟨.inl rfl, _root_.id⟩
      | renounceOwnership => rw [apply_renounce] at h; cases h
  | migrate => obtain ⟨_, _, rfl, _⟩ := apply_migrate.mp h; exact ⟨.inr rfl, _root_.id⟩
  | relayOpenInit m fresh =>
    simp only [apply, applyWith] at h
    split at h
    · cases h
    · unfold coreOpenInit at h
      split at h
      · cases h
      · split at h
        · split at h
          · dsimp only at h
            split at h
            · next s v he =>
              obtain ⟨_, _, _, rfl, _⟩ := channelOpenInit_eq_ok.mp he
              obtain ⟨rfl, _⟩ := Prod.mk.inj (Option.some.inj h)
              exact ⟨.inl rfl, _root_.id⟩
            · cases h
            · cases h
          · cases h
        · cases h
  | relayOpenTry ch v => rw [apply_openTry] at h; cases h
  | relayOpenAck id cpId v =>
    obtain ⟨c, st, m, _, _, hst, _, _, hm, _, rfl, _⟩ := apply_openAck.mp h
    refine ⟨.inl rfl, fun hp st' i hst' hi => ?_⟩
    cases hst'; cases hi
    exact hm.encoding
  | relayOpenConfirm ch => rw [apply_openConfirm] at h; cases h
  | relayCloseInit id => obtain ⟨_, _, _, _, _, rfl, _⟩ := apply_relayCloseInit.mp h; exact ⟨.inl rfl, _root_.id⟩
  | relayCloseConfirm id => obtain ⟨_, _, _, _, rfl, _⟩ := apply_closeConfirm.mp h; exact ⟨.inl rfl, _root_.id⟩
  | relayRecv p => rw [apply_recv] at h; cases h
  | relayAck id seq ack relayer =>
    obtain ⟨_, _, _, _, _, _, _, ⟨_, _, _, _, rfl, _⟩ | ⟨_, _, rfl, _⟩⟩ := apply_ack.mp h
    · exact ⟨.inl rfl, _root_.id⟩
    · exact ⟨.inl rfl, _root_.id⟩
  | relayTimeout id seq relayer =>
    obtain ⟨_, _, _, _, _, _, _, _, rfl, _⟩ := apply_timeout.mp h; exact ⟨.inl rfl, _root_.id⟩

end Ica
