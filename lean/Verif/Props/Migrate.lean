import Verif.Facts.Migrate
import Verif.Props.Scenario
import Verif.Spec.Observe
import Mathlib.Logic.Relation

/-!
# Migration (C48-C50)
-/
namespace Ica
open Spec

/-- The storage, whatever else it holds, is that of a protobuf deployment of this contract at a version below 0.20.0. -/
def Spec.Migratable (raw : Raw.RawStore) : Prop :=
  (∃ cb prev v, raw (utf8 "contract_info") = some cb ∧ ContractVersion.jc.ofBytes cb = some prev ∧
    prev.contract = "crates.io:cw-ica-controller" ∧ Semver.Valid v ∧ prev.version.toList = Semver.text v ∧
    Semver.Before v ⟨0, 20, 0, [], []⟩) ∧
  ∃ sb st, raw (utf8 "state") = some sb ∧ ContractState.jc.ofBytes sb = some st ∧
    ∀ i, st.icaInfo = some i → i.encoding = .protobuf

/-- **C48.** On any storage, migrate succeeds exactly if the message is one, the stored contract name is this contract's,
the stored version is a semantic version that precedes 0.20.0, and the stored contract state is readable and has no ICA
info of another encoding than protobuf. Then the stored version is 0.20.0 and no other key changes. -/
theorem C48_migrate_iff (b : Bytes) (raw raw' : Raw.RawStore) (r : Response) :
    Raw.vmMigrate b raw = (.ok r, raw') ↔
      (∃ m, MigrateMsg.jc.ofBytes b = some m) ∧ Migratable raw ∧ r = ⟨[], []⟩ ∧
      raw' (utf8 "contract_info") =
        some (ContractVersion.jc.toBytes ⟨"crates.io:cw-ica-controller", "0.20.0"⟩) ∧
      ∀ k, k ≠ utf8 "contract_info" → raw' k = raw k := by
  have hkey : ∀ v : Bytes, raw' = Raw.setKey raw (utf8 "contract_info") (some v) ↔
      raw' (utf8 "contract_info") = some v ∧ ∀ k, k ≠ utf8 "contract_info" → raw' k = raw k := by
    intro v
    constructor
    · rintro rfl
      exact ⟨by simp [Raw.setKey], fun k hk => by simp [Raw.setKey, hk]⟩
    · rintro ⟨h1, h2⟩
      funext k
      by_cases hk : k = utf8 "contract_info"
      · subst hk; simp [Raw.setKey, h1]
      · simp [Raw.setKey, hk, h2 k hk]
  unfold Raw.vmMigrate Raw.withMsg
  cases hm : MigrateMsg.jc.ofBytes b with
  | none => simp [Raw.fail, Raw.lift]
  | some m =>
    dsimp only
    rw [Raw.migrate_ok]
    constructor
    · rintro ⟨⟨cb, prev, h1, h2, h3, v, h4, h5, h6⟩, h7, h8, rfl⟩
      have := (hkey _).mp h8
      exact ⟨⟨m, rfl⟩, ⟨⟨cb, prev, v, h1, h2, h3, h4, h5, h6⟩, h7⟩, rfl, this.1, this.2⟩
    · rintro ⟨-, ⟨⟨cb, prev, v, h1, h2, h3, h4, h5, h6⟩, h7⟩, rfl, h8, h9⟩
      exact ⟨⟨cb, prev, h1, h2, h3, v, h4, h5, h6⟩, h7, (hkey _).mpr ⟨h8, h9⟩, rfl⟩

/-- Storage of a 0.19.3-rc.1 deployment, with a key of somebody else in it. -/
def Ex.oldRaw : Raw.RawStore := fun k =>
  if k = utf8 "contract_info" then
    some (ContractVersion.jc.toBytes ⟨"crates.io:cw-ica-controller", "0.19.3-rc.1"⟩)
  else if k = utf8 "state" then some (ContractState.jc.toBytes (Ex.st "channel-0"))
  else if k = utf8 "ica_channel" then some (utf8 "not json")
  else none

theorem Ex.old_migratable : Migratable Ex.oldRaw := by
  refine ⟨⟨_, _, ⟨0, 19, 3, [['r', 'c'], ['1']], []⟩, if_pos rfl, JC.ofBytes_toBytes ContractVersion.jc_law _, rfl, ?_, ?_,
    .minor rfl (by decide)⟩, _, Ex.st "channel-0", ?_, JC.ofBytes_toBytes ContractState.jc_law _, ?_⟩
  · exact (Semver.parse_iff (s := "0.19.3-rc.1").mp (by decide +kernel)).1
  · exact (Semver.parse_iff (s := "0.19.3-rc.1").mp (by decide +kernel)).2
  · unfold Ex.oldRaw
    rw [if_neg (Raw.item_ne (by decide)), if_pos rfl]
  · rintro i ⟨⟩
    rfl

/-- It migrates, although its channel record is unreadable. -/
example : Raw.vmMigrate (MigrateMsg.jc.toBytes ⟨⟩) Ex.oldRaw = (.ok ⟨[], []⟩, Raw.setKey Ex.oldRaw (utf8 "contract_info")
    (some (ContractVersion.jc.toBytes ⟨"crates.io:cw-ica-controller", "0.20.0"⟩))) :=
  (C48_migrate_iff _ _ _ _).mpr ⟨⟨_, JC.ofBytes_toBytes MigrateMsg.jc_law _⟩, Ex.old_migratable, rfl,
    by simp [Raw.setKey], fun k hk => by simp [Raw.setKey, hk]⟩

/-- **C48**: after a migration, no further migration to this version succeeds. -/
theorem C48_second_fails {b b' : Bytes} {raw raw' : Raw.RawStore} {r : Response}
    (h : Raw.vmMigrate b raw = (.ok r, raw')) (r' : Response) (raw'' : Raw.RawStore) :
    Raw.vmMigrate b' raw' ≠ (.ok r', raw'') := by
  intro h'
  obtain ⟨-, -, -, h1, -⟩ := (C48_migrate_iff _ _ _ _).mp h
  obtain ⟨-, ⟨⟨cb, prev, v, h2, h3, h4, h5, h6, h7⟩, -⟩, -⟩ := (C48_migrate_iff _ _ _ _).mp h'
  rw [h1] at h2
  obtain rfl := Option.some.inj h2
  rw [JC.ofBytes_toBytes ContractVersion.jc_law] at h3
  obtain rfl := Option.some.inj h3
  have h8 := Semver.parse_iff.mpr ⟨h5, h6⟩
  have h9 : Semver.parse "0.20.0" = some ⟨0, 20, 0, [], []⟩ := parse_current
  rw [h9] at h8
  obtain rfl := Option.some.inj h8
  exact semver_irrefl _ ((Semver.cmp_lt_release h5 h5 rfl).mpr h7)

/-- **C48**, at any later time: once the contract was instantiated or migrated at this version, whatever happens, no
migration to this version succeeds again. -/
theorem C48_never_again {api : Api} {w0 w1 w : World} {op : Op} {obs : List Obs} {h : List (Op × List Obs)}
    (hop : op = .migrate ∨ ∃ sender msg fresh core, op = .instantiate sender msg fresh core)
    (hc : Commits api w0 op w1 obs) (he : TxExec api w1 h w) : Refused api w .migrate := by
  have h1 : w1.store.version = some ⟨CONTRACT_NAME, CONTRACT_VERSION⟩ := by
    unfold Commits at hc
    rcases hop with rfl | ⟨s, m, f, c, rfl⟩
    · obtain ⟨_, _, rfl, _⟩ := apply_migrate.mp hc; rfl
    · obtain ⟨_, _, _, _, _, _, _, rfl, _⟩ := apply_instantiate.mp hc; rfl
  have h2 : w.store.version = some ⟨CONTRACT_NAME, CONTRACT_VERSION⟩ := by
    have he' := he.exec
    clear he
    induction he' with
    | nil => exact h1
    | step _ ha ih => exact (apply_version_proto ha).1.elim (fun e => e.trans ih) id
  unfold Refused
  cases ha : apply api w .migrate with
  | none => rfl
  | some p =>
    obtain ⟨w', o⟩ := p
    obtain ⟨_, ⟨⟨s, r⟩, hr⟩, _⟩ := apply_migrate.mp ha
    obtain ⟨⟨prev, p, v, h3, -, h4, h5, h6⟩, -⟩ := migrate_eq_ok.mp hr
    rw [h2] at h3
    obtain rfl := Option.some.inj h3
    rw [h4] at h5
    obtain rfl := Option.some.inj h5
    exact absurd h6 (semver_irrefl _)

/-- The scenario's instantiation and a later world. -/
example : Commits Ex.api Ex.w0 (.instantiate "deployer" Ex.inst "channel-0" true) Ex.w1 [.channelCreated "channel-0"] ∧
    ∃ h, TxExec Ex.api Ex.w1 h Ex.w2 :=
  ⟨(apply_iff_step (inv_genesis Ex.api Ex.env)).2 Ex.s1,
    _, (Exec.step .nil ((apply_iff_step (inv_of_reachable Ex.r1)).2 Ex.s2)).txExec⟩

/-! ## C49 -/

/-- A version text. -/
def Spec.IsVersion (s : String) : Prop := ∃ v, Semver.Valid v ∧ s.toList = Semver.text v

/-- **C49.** The order migrate uses is total on version texts. -/
theorem C49_total {s t : String} (hs : IsVersion s) (ht : IsVersion t) :
    Semver.Older s t ∨ s = t ∨ Semver.Older t s := by
  obtain ⟨a, ha, hta⟩ := hs
  obtain ⟨b, hb, htb⟩ := ht
  have pa := Semver.parse_iff.mpr ⟨ha, hta⟩
  have pb := Semver.parse_iff.mpr ⟨hb, htb⟩
  cases hc : Semver.cmp a b with
  | lt => exact .inl ⟨a, b, pa, pb, hc⟩
  | eq =>
    rw [Semver.cmp_key, Semver.lawful_cmpKey.eq_iff] at hc
    have := Semver.sortKey_inj ha hb hc
    subst this
    exact .inr (.inl (String.ext (hta.trans htb.symm)))
  | gt =>
    rw [Semver.cmp_key, Semver.lawful_cmpKey.gt] at hc
    exact .inr (.inr ⟨b, a, pb, pa, hc⟩)

/-- **C49.** It is transitive. -/
theorem C49_trans {s t u : String} (h1 : Semver.Older s t) (h2 : Semver.Older t u) : Semver.Older s u := by
  obtain ⟨a, b, pa, pb, hab⟩ := h1
  obtain ⟨b', c, pb', pc, hbc⟩ := h2
  rw [pb] at pb'
  obtain rfl := Option.some.inj pb'
  rw [Semver.cmp_key] at hab hbc
  exact ⟨a, c, pa, pc, (Semver.cmp_key a c).trans (Semver.lawful_cmpKey.trans _ _ _ hab hbc)⟩

/-- **C49.** A chain of migrations never comes back to a version it has left. -/
theorem C49_no_cycle (s : String) : ¬ Relation.TransGen Semver.Older s s := by
  intro h
  have : Semver.Older s s := by
    have key : ∀ t, Relation.TransGen Semver.Older s t → Semver.Older s t := by
      intro t ht
      induction ht with
      | single h => exact h
      | tail _ h ih => exact C49_trans ih h
    exact key s h
  obtain ⟨a, b, pa, pb, hab⟩ := this
  rw [pa] at pb
  obtain rfl := Option.some.inj pb
  exact semver_irrefl _ hab

/-- **C49.** It is semver's precedence, refined among versions that differ only in build metadata: numbers compare as
numbers, a pre-release is below its release, pre-release identifiers compare one by one, numeric ones below others. -/
theorem C49_precedence {s t : String} : Semver.Older s t ↔
    ∃ a b, (Semver.Valid a ∧ s.toList = Semver.text a) ∧ (Semver.Valid b ∧ t.toList = Semver.text b) ∧
      (Semver.Before a b ∨ Semver.SamePrecedence a b ∧ Semver.cmpBuild a.build b.build = .lt) := by
  constructor
  · rintro ⟨a, b, pa, pb, h⟩
    have ha := Semver.parse_iff.mp pa
    have hb := Semver.parse_iff.mp pb
    exact ⟨a, b, ha, hb, (Semver.cmp_lt ha.1 hb.1).mp h⟩
  · rintro ⟨a, b, ha, hb, h⟩
    exact ⟨a, b, Semver.parse_iff.mpr ha, Semver.parse_iff.mpr hb, (Semver.cmp_lt ha.1 hb.1).mpr h⟩

/-- **C49.** Precedence alone decides when the newer version has no build metadata, as every published one. -/
theorem C49_precedence_release {s t : String} {b : Semver.Version} (hb : Semver.Valid b) (ht : t.toList = Semver.text b)
    (hn : b.build = []) : Semver.Older s t ↔ ∃ a, Semver.Valid a ∧ s.toList = Semver.text a ∧ Semver.Before a b := by
  constructor
  · rintro ⟨a, b', pa, pb, h⟩
    have ha := Semver.parse_iff.mp pa
    rw [Semver.parse_iff.mpr ⟨hb, ht⟩] at pb
    obtain rfl := Option.some.inj pb
    exact ⟨a, ha.1, ha.2, (Semver.cmp_lt_release ha.1 hb hn).mp h⟩
  · rintro ⟨a, ha, hta, h⟩
    exact ⟨a, b, Semver.parse_iff.mpr ⟨ha, hta⟩, Semver.parse_iff.mpr ⟨hb, ht⟩, (Semver.cmp_lt_release ha hb hn).mpr h⟩

/-- **C49.** A pre-release is below its release, and a numeric identifier below an alphanumeric one. -/
theorem C49_prerelease {a b : Semver.Version} (ha : Semver.Valid a) (hb : Semver.Valid b)
    (h1 : a.major = b.major) (h2 : a.minor = b.minor) (h3 : a.patch = b.patch) {i : List Char} {r : List (List Char)}
    (hpa : a.pre = i :: r) (hpb : b.pre = [] ∨ ∃ j q, b.pre = j :: q ∧ Semver.Numeric i ∧ ¬ Semver.Numeric j) :
    Semver.Older (String.ofList (Semver.text a)) (String.ofList (Semver.text b)) := by
  refine C49_precedence.mpr ⟨a, b, ⟨ha, String.toList_ofList⟩, ⟨hb, String.toList_ofList⟩, .inl ?_⟩
  rcases hpb with hpb | ⟨j, q, hpb, hi, hj⟩
  · exact .release h1 h2 h3 (by rw [hpa]; simp) hpb
  · refine .pre h1 h2 h3 (by rw [hpa]; simp) (by rw [hpb]; simp) ?_
    rw [hpa, hpb]
    refine List.Lex.rel ?_
    unfold Semver.ident
    rw [if_pos hi, if_neg hj]
    exact .mixed

/-- Versions in order, as in the text of semver.org. -/
example : Semver.Older "1.0.0-alpha" "1.0.0-alpha.1" ∧ Semver.Older "1.0.0-alpha.1" "1.0.0-alpha.beta" ∧
    Semver.Older "1.0.0-beta.2" "1.0.0-beta.11" ∧ Semver.Older "1.0.0-rc.1" "1.0.0" ∧ Semver.Older "0.9.10" "0.20.0" :=
  ⟨⟨⟨1, 0, 0, ["alpha".toList], []⟩, ⟨1, 0, 0, ["alpha".toList, ['1']], []⟩, by decide +kernel, by decide +kernel,
      by decide +kernel⟩,
    ⟨⟨1, 0, 0, ["alpha".toList, ['1']], []⟩, ⟨1, 0, 0, ["alpha".toList, "beta".toList], []⟩, by decide +kernel,
      by decide +kernel, by decide +kernel⟩,
    ⟨⟨1, 0, 0, ["beta".toList, ['2']], []⟩, ⟨1, 0, 0, ["beta".toList, ['1', '1']], []⟩, by decide +kernel,
      by decide +kernel, by decide +kernel⟩,
    ⟨⟨1, 0, 0, ["rc".toList, ['1']], []⟩, ⟨1, 0, 0, [], []⟩, by decide +kernel, by decide +kernel, by decide +kernel⟩,
    ⟨⟨0, 9, 10, [], []⟩, ⟨0, 20, 0, [], []⟩, by decide +kernel, by decide +kernel, by decide +kernel⟩⟩

/-! ## C50 -/

/-- **C50.** In any world, reachable or not, a committed send finds an ICA whose encoding is protobuf. -/
theorem C50_send_is_protobuf {api : Api} {w w' : World} {sender fresh : String} {ms : List CosmosMsg}
    {qs : List QueryRequest} {memo : Option String} {t : Option UInt64} {core : Bool} {obs : List Obs}
    (h : Commits api w (.execute sender (.sendCosmosMsgs ms qs memo t) fresh core) w' obs) :
    ∃ i, icaOf w = some i ∧ i.encoding = .protobuf := by
  obtain ⟨_, _, _, st, info, _, _, _, _, _, h1, h2, h3, _⟩ := apply_send.mp h
  exact ⟨info, by unfold icaOf; rw [h1]; exact h2, h3⟩

/-- **C50.** From the instantiation on, in every history, an ICA known to the contract uses protobuf. -/
theorem C50_from_instantiation {api : Api} {env : Env} {h : List (Op × List Obs)} {w : World}
    (he : TxExec api (World.genesis env) h w) {i : IcaInfo} (hi : icaOf w = some i) : i.encoding = .protobuf := by
  have key : ∀ st i, w.store.state = some st → st.icaInfo = some i → i.encoding = .protobuf := by
    have he' := he.exec
    clear he hi
    induction he' with
    | nil => intro st i hst; cases hst
    | step _ ha ih => exact (apply_version_proto ha).2 ih
  unfold icaOf at hi
  cases hst : w.store.state with
  | none => rw [hst] at hi; cases hi
  | some st => rw [hst] at hi; exact key st i hst hi

/-- **C50.** From the storage of an older version, whatever bytes it holds: after a successful migration, in every
history, an ICA that the contract can read from its storage uses protobuf. -/
theorem C50_from_migration {api : Api} {w0 w1 w : Raw.RWorld} {b : Bytes} {obs : List Obs} {h : List (Raw.ROp × List Obs)}
    (hm : Raw.apply api w0 (.migrate b) = some (w1, obs)) (he : Raw.RExec api w1 h w) {sb : Bytes} {st : ContractState}
    {i : IcaInfo} (hs : w.raw (utf8 "state") = some sb) (hst : ContractState.jc.ofBytes sb = some st)
    (hi : st.icaInfo = some i) : i.encoding = .protobuf := by
  refine Raw.exec_keeps Raw.proto_frame (?_ : Raw.ProtoState w1.raw) he sb st i hs hst hi
  unfold Raw.apply at hm
  dsimp only at hm
  split at hm
  · unfold Raw.finish at hm
    split at hm
    · next resp raw hr =>
      obtain ⟨-, ⟨-, sb0, st0, h1, h2, h3⟩, rfl, -, h5⟩ := (C48_migrate_iff _ _ _ _).mp hr
      simp only [Raw.dispatchList, List.map_nil, List.append_nil, Option.some.injEq, Prod.mk.injEq] at hm
      obtain ⟨rfl, -⟩ := hm
      intro sb' st' i' hs' hst' hi'
      dsimp only at hs'
      rw [h5 _ (Raw.item_ne (by decide)), h1] at hs'
      obtain rfl := Option.some.inj hs'
      rw [h2] at hst'
      obtain rfl := Option.some.inj hst'
      exact h3 i' hi'
    · cases hm
    · cases hm
  · cases hm

/-- The world of the old deployment. -/
def Ex.oldWorld : Raw.RWorld := ⟨Ex.oldRaw, true, Ex.env, fun _ => none, fun _ => 1, fun _ _ => none⟩

/-- The old deployment migrates, and its ICA is readable afterwards. -/
example : ∃ w1, Raw.apply Ex.api Ex.oldWorld (.migrate (MigrateMsg.jc.toBytes ⟨⟩)) = some (w1, []) ∧
    ∃ sb, w1.raw (utf8 "state") = some sb ∧ ContractState.jc.ofBytes sb = some (Ex.st "channel-0") := by
  have h : Raw.vmMigrate (MigrateMsg.jc.toBytes ⟨⟩) Ex.oldWorld.raw = (.ok ⟨[], []⟩, Raw.setKey Ex.oldRaw
      (utf8 "contract_info") (some (ContractVersion.jc.toBytes ⟨"crates.io:cw-ica-controller", "0.20.0"⟩))) :=
    (C48_migrate_iff _ _ _ _).mpr ⟨⟨_, JC.ofBytes_toBytes MigrateMsg.jc_law _⟩, Ex.old_migratable, rfl,
      by simp [Raw.setKey], fun k hk => by simp [Raw.setKey, hk]; rfl⟩
  refine ⟨{ Ex.oldWorld with
    raw := Raw.setKey Ex.oldRaw (utf8 "contract_info")
      (some (ContractVersion.jc.toBytes ⟨"crates.io:cw-ica-controller", "0.20.0"⟩)) }, ?_, ContractState.jc.toBytes (Ex.st "channel-0"), ?_,
    JC.ofBytes_toBytes ContractState.jc_law _⟩
  · unfold Raw.apply
    dsimp only
    rw [if_pos (show Ex.oldWorld.live = true from rfl)]
    unfold Raw.finish
    rw [h]
    rfl
  · dsimp only
    unfold Raw.setKey Ex.oldRaw
    rw [if_neg (Raw.item_ne (by decide)), if_neg (Raw.item_ne (by decide)), if_pos rfl]

end Ica
