import Verif.Facts.Upgrade
import Verif.Props.Scenario
import Verif.Props.Storage
import Mathlib.Data.List.Induction

/-!
# Upgrading a contract in the middle of its life (C122)
-/
namespace Ica
open Spec

/-- **C122.** Whatever state the contract has come to, if its storage says that an earlier version of this program has left it,
then the migration is accepted, calls nobody, and leaves exactly the state a contract of this version would have there; and
before the migration every other transaction is accepted, and has the effects, exactly as by a contract of this version. -/
theorem C122_upgrade {api : Api} {w : World} (hr : Reachable api w) (hl : w.live = true) {v : Option ContractVersion}
    (hv : Earlier v) :
    Commits api (dated v w) .migrate w [] ∧
    ∀ op w' obs, op ≠ .migrate → (Commits api (dated v w) op w' obs ↔ ∃ w1, Commits api w op w1 obs ∧ w' = dated v w1) :=
  ⟨migrate_dated (inv_of_reachable hr) hl hv,
    fun _ _ _ hm => apply_dated_iff hl (inv_of_reachable hr).noOpenFlag hm v⟩

/-- **C122**, histories: everything that can happen to such a contract, with the migration at any point or not at all, can happen
to a contract of this version without it, with the same observations and the same final state; the migration takes place at most
once. -/
theorem C122_histories {api : Api} {w w' : World} {h : List (Op × List Obs)} (hr : Reachable api w) (hl : w.live = true)
    {v : Option ContractVersion} (hv : Earlier v) (he : Exec api (dated v w) h w') :
    (NoMigration h ∧ ∃ w1, Exec api w h w1 ∧ w' = dated v w1) ∨
    ∃ h1 h2, h = h1 ++ (.migrate, []) :: h2 ∧ NoMigration h1 ∧ NoMigration h2 ∧ Exec api w (h1 ++ h2) w' := by
  suffices H : (NoMigration h ∧ ∃ w1, Exec api w h w1 ∧ w' = dated v w1 ∧ w1.live = true) ∨
      ∃ h1 h2, h = h1 ++ (.migrate, []) :: h2 ∧ NoMigration h1 ∧ NoMigration h2 ∧ Exec api w (h1 ++ h2) w' ∧ w'.live = true by
    rcases H with ⟨a, w1, b, c, _⟩ | ⟨h1, h2, a, b, c, d, _⟩
    · exact .inl ⟨a, w1, b, c⟩
    · exact .inr ⟨h1, h2, a, b, c, d⟩
  have hi := inv_of_reachable hr
  have snoc : ∀ {h : List (Op × List Obs)} {op : Op} {obs : List Obs}, NoMigration h → op ≠ .migrate →
      NoMigration (h ++ [(op, obs)]) := by
    intro h op obs hh ho x hx
    rcases List.mem_append.1 hx with hx | hx
    · exact hh x hx
    · rw [List.mem_singleton] at hx
      rw [hx]
      exact ho
  generalize hw0 : dated v w = w0 at he
  induction he with
  | nil =>
    subst hw0
    exact .inl ⟨nofun, w, .nil, rfl, hl⟩
  | @step h wa wb op obs _ ha ih =>
    rcases ih with ⟨hn, w1, e1, rfl, l1⟩ | ⟨h1, h2, rfl, n1, n2, e1, l1⟩
    · have i1 := inv_exec hi e1
      by_cases hm : op = .migrate
      · subst hm
        rw [migrate_dated i1 l1 hv] at ha
        cases ha
        exact .inr ⟨h, [], rfl, hn, nofun, by rw [List.append_nil]; exact e1, l1⟩
      · obtain ⟨w2, e2, rfl⟩ := (apply_dated_iff l1 i1.noOpenFlag hm v).1 ha
        exact .inl ⟨snoc hn hm, w2, e1.step e2, rfl, live_kept i1 l1 e2⟩
    · have i1 := inv_exec hi e1
      have hm : op ≠ .migrate := by
        rintro rfl
        obtain ⟨_, ⟨r, hr⟩, _⟩ := apply_migrate.1 ha
        exact migrate_current (i1.version l1) hr
      refine .inr ⟨h1, h2 ++ [(op, obs)], by simp, n1, snoc n2 hm, ?_, live_kept i1 l1 ha⟩
      rw [← List.append_assoc]
      exact e1.step ha

/-- **C122**, bytes: the same for the storage as bytes. However the earlier version has written its values, if this version reads
them as those of a state a contract of this version can come to, then what happens to the contract is the reading of what happens
to such a contract, with the migration left out. The chain's channel ids are at most 65535 bytes long. -/
theorem C122_bytes {api : Api} {w w' : Raw.RWorld} {s : Store} {h : List (Raw.ROp × List Obs)} (hr : Reachable api (w.typed s))
    (hl : w.live = true) {v : Option ContractVersion} (hv : Earlier v) (hrep : Raw.Rep w.raw { s with version := v })
    (hc : ∀ id c, w.chans id = some c → Raw.Short id) (he : Raw.RExec api w h w') (hs : ∀ x ∈ h, x.1.Short) :
    ∃ h' s', List.Forall₂ (fun x y => x.1.decode = some y.1 ∧ x.2 = y.2) h h' ∧ Raw.Rep w'.raw s' ∧
      ((NoMigration h' ∧ ∃ w1, Exec api (w.typed s) h' w1 ∧ w'.typed s' = dated v w1) ∨
      ∃ h1 h2, h' = h1 ++ (.migrate, []) :: h2 ∧ NoMigration h1 ∧ NoMigration h2 ∧
        Exec api (w.typed s) (h1 ++ h2) (w'.typed s')) := by
  obtain ⟨h', s', e1, e2, e3⟩ := Raw.exec_matches (rel_of_rep (inv_of_reachable hr) hrep hc) he hs
  exact ⟨h', s', e3, e2.rep, C122_histories hr hl hv e1⟩

/-- **C122**, the way back: whatever can happen to a contract of this version can happen to the one an earlier version has left,
the migration being made at any point of it. -/
theorem C122_any_time {api : Api} {w w' : World} {h1 h2 : List (Op × List Obs)} (hr : Reachable api w) (hl : w.live = true)
    {v : Option ContractVersion} (hv : Earlier v) (he : Exec api w (h1 ++ h2) w') :
    Exec api (dated v w) (h1 ++ (.migrate, []) :: h2) w' := by
  have hi := inv_of_reachable hr
  have first : ∀ {h : List (Op × List Obs)} {w1 : World}, Exec api w h w1 →
      Exec api (dated v w) h (dated v w1) ∧ w1.live = true := by
    intro h w1 e
    induction e with
    | nil => exact ⟨.nil, hl⟩
    | @step h wa wb op obs e ha ih =>
      have i1 := inv_exec hi e
      have hm : op ≠ .migrate := by
        rintro rfl
        obtain ⟨_, ⟨r, hr⟩, _⟩ := apply_migrate.1 ha
        exact migrate_current (i1.version ih.2) hr
      exact ⟨ih.1.step (apply_dated ih.2 i1.noOpenFlag hm ha v), live_kept i1 ih.2 ha⟩
  induction h2 using List.reverseRecOn generalizing w' with
  | nil =>
    rw [List.append_nil] at he
    obtain ⟨e, l⟩ := first he
    exact e.step (migrate_dated (inv_exec hi he) l hv)
  | append_singleton h2 x ih =>
    rw [← List.append_assoc] at he
    generalize hh : (h1 ++ h2) ++ [x] = hs at he
    cases he with
    | nil => simp at hh
    | step e ha =>
      obtain ⟨rfl, hx⟩ := List.append_inj' hh (by rfl)
      rw [List.cons.injEq] at hx
      obtain ⟨rfl, -⟩ := hx
      have := (ih e).step ha
      simpa using this

/-- **C122**, an older storage without an owner: if the record of the owner is not where this version looks for it (and no channel
opening is left half done), then nothing makes one: with or without the migration, no message of any user is ever accepted
again. -/
theorem C122_without_owner {api : Api} {w w' : World} {h : List (Op × List Obs)} (hl : w.live = true)
    (hn : w.store.ownership = none) (hf : w.store.allowOpenInit ≠ some true) (he : Exec api w h w') :
    NoExecute h ∧ (∀ sender msg fresh core, Refused api w' (.execute sender msg fresh core)) := by
  suffices H : NoExecute h ∧ w'.live = true ∧ w'.store.ownership = none ∧ w'.store.allowOpenInit ≠ some true by
    obtain ⟨a, b, c, d⟩ := H
    refine ⟨a, fun sender msg fresh core => ?_⟩
    unfold Refused
    cases hx : apply api w' (.execute sender msg fresh core) with
    | none => rfl
    | some p => exact absurd rfl ((apply_ownerless b c d hx).1 sender msg fresh core)
  induction he with
  | nil => exact ⟨nofun, hl, hn, hf⟩
  | @step h wa wb op obs _ ha ih =>
    obtain ⟨a, b, c, d⟩ := ih
    obtain ⟨e1, e2⟩ := apply_ownerless b c d ha
    refine ⟨fun x hx => ?_, e2⟩
    rcases List.mem_append.1 hx with hx | hx
    · exact a x hx
    · rw [List.mem_singleton] at hx
      rw [hx]
      exact e1

/-- A record of version 0.4.2 of this program. -/
theorem Ex.earlier : Earlier (some ⟨"crates.io:cw-ica-controller", "0.4.2"⟩) :=
  ⟨_, rfl, ⟨0, 4, 2, [], []⟩, ⟨0, 20, 0, [], []⟩, by decide +kernel, by decide +kernel, by decide +kernel⟩

/-- A packet is in flight when the contract is upgraded; after the upgrade it times out. The same without the upgrade. -/
example : Reachable Ex.api Ex.w2 ∧ Ex.w2.live = true ∧
    ∃ w' o1 o2, Exec Ex.api (dated (some ⟨"crates.io:cw-ica-controller", "0.4.2"⟩) Ex.w2)
      [(.execute "alice" (.sendCosmosMsgs Ex.msgs Ex.qs (some "hi") none) "" true, o1), (.migrate, []),
        (.relayTimeout "channel-0" 1 "relayer", o2)] w' ∧
      Exec Ex.api Ex.w2 [(.execute "alice" (.sendCosmosMsgs Ex.msgs Ex.qs (some "hi") none) "" true, o1),
        (.relayTimeout "channel-0" 1 "relayer", o2)] w' := by
  have e : Exec Ex.api Ex.w2 [(.execute "alice" (.sendCosmosMsgs Ex.msgs Ex.qs (some "hi") none) "" true, [.packetSent Ex.pkt]),
      (.relayTimeout "channel-0" 1 "relayer", _)] Ex.w4t :=
    (Exec.step .nil ((apply_iff_step (inv_of_reachable Ex.r2)).2 Ex.s3)).step
      ((apply_iff_step (inv_of_reachable Ex.r3)).2 Ex.s4t)
  exact ⟨Ex.r2, rfl, _, _, _, C122_any_time (h1 := [_]) (h2 := [_]) Ex.r2 rfl Ex.earlier e, e⟩

/-- The scenario's storage with the owner kept elsewhere: the contract upgrades and then obeys nobody. -/
example : ∃ w w', w.live = true ∧ w.store.ownership = none ∧ w.store.allowOpenInit ≠ some true ∧
    Exec Ex.api w [(.migrate, [])] w' ∧ ∀ sender msg fresh core, Refused Ex.api w' (.execute sender msg fresh core) := by
  let w : World := { Ex.w2 with
    store := { Ex.w2.store with
      version := some ⟨"crates.io:cw-ica-controller", "0.4.2"⟩
      ownership := none } }
  have hm : apply Ex.api w .migrate = some (_, []) := apply_migrate.2 ⟨rfl, ⟨_, migrate_eq_ok.2
    ⟨⟨_, ⟨0, 4, 2, [], []⟩, ⟨0, 20, 0, [], []⟩, rfl, rfl, by decide +kernel, by decide +kernel, by decide +kernel⟩,
      ⟨_, rfl, fun i h => by cases h; rfl⟩, rfl, rfl⟩⟩, rfl, rfl⟩
  have hf : w.store.allowOpenInit ≠ some true := by
    change Ex.w2.store.allowOpenInit ≠ some true
    exact (inv_of_reachable Ex.r2).noOpenFlag
  have e : Exec Ex.api w [(.migrate, [])] _ := Exec.step (h := []) .nil hm
  exact ⟨w, _, rfl, rfl, hf, e, (C122_without_owner rfl rfl hf e).2⟩

/-- The scenario's contract with an open channel, in bytes, as version 0.4.2 would have left it; it upgrades. -/
example : ∃ (w : Raw.RWorld) (w' : Raw.RWorld) (s : Store), Reachable Ex.api (w.typed s) ∧ w.live = true ∧
    Raw.Rep w.raw { s with version := some ⟨"crates.io:cw-ica-controller", "0.4.2"⟩ } ∧
    (∀ id c, w.chans id = some c → Raw.Short id) ∧
    Raw.RExec Ex.api w [(.migrate (MigrateMsg.jc.toBytes ⟨⟩), [])] w' := by
  have e : Exec Ex.api (World.genesis Ex.env) _ Ex.w2 :=
    (Exec.step .nil ((apply_iff_step (inv_genesis Ex.api Ex.env)).2 Ex.s1)).step
      ((apply_iff_step (inv_of_reachable Ex.r1)).2 Ex.s2)
  obtain ⟨w, h1, h2, h3⟩ := C58_every_history_in_bytes e (by
    intro x hx
    simp only [List.nil_append, List.cons_append, List.mem_cons, List.not_mem_nil, or_false] at hx
    rcases hx with rfl | rfl
    · show Raw.Short "channel-0"; decide +kernel
    · trivial)
  let raw : Raw.RawStore := Raw.setKey w.raw (utf8 Raw.CONTRACT.key)
    (some (Raw.CONTRACT.jc.toBytes ⟨"crates.io:cw-ica-controller", "0.4.2"⟩))
  let old : Raw.RWorld := { w with raw := raw }
  have hr : Reachable Ex.api (old.typed Ex.w2.store) := by
    change Reachable Ex.api (w.typed Ex.w2.store)
    rw [← h3]
    exact Ex.r2
  have hl : old.live = true := by
    have := congrArg World.live h3
    exact this.symm
  have hrep : Raw.Rep old.raw { Ex.w2.store with version := some ⟨"crates.io:cw-ica-controller", "0.4.2"⟩ } :=
    Raw.rep_version h2 _
  have hc : ∀ id c, old.chans id = some c → Raw.Short id := by
    intro id c h
    have hw : old.chans = Ex.w2.chans := (congrArg World.chans h3).symm
    rw [hw] at h
    by_cases hid : id = "channel-0"
    · rw [hid]; decide +kernel
    · simp [Ex.w2, Ex.eAck, Ex.w1, Ex.eInst, setChan, hid, Ex.w0, World.genesis] at h
  have hm := Raw.apply_matches (rel_of_rep (inv_of_reachable hr) hrep hc) Ex.api (.migrate (MigrateMsg.jc.toBytes ⟨⟩)) trivial
  have hd : (Raw.ROp.migrate (MigrateMsg.jc.toBytes ⟨⟩)).decode = some .migrate := asBytes_decode .migrate
  rw [hd, Option.bind_some] at hm
  have := migrate_dated (inv_of_reachable hr) hl Ex.earlier
  rw [show old.typed { Ex.w2.store with version := some ⟨"crates.io:cw-ica-controller", "0.4.2"⟩ } =
    dated (some ⟨"crates.io:cw-ica-controller", "0.4.2"⟩) (old.typed Ex.w2.store) from rfl, this] at hm
  obtain ⟨rw', e1, _, _⟩ := hm
  exact ⟨old, rw', Ex.w2.store, hr, hl, hrep, hc, Raw.RExec.step (h := []) .nil e1⟩

end Ica
