import Verif.Facts.RawWorld
import Verif.Facts.Tx
import Verif.Spec.Upgrade

/-!
# The recorded version matters for migration only
-/
namespace Ica
open Spec

theorem dated_dated (u v : Option ContractVersion) (w : World) : dated u (dated v w) = dated u w := rfl
theorem dated_self (w : World) : dated w.store.version w = w := rfl

theorem storeAfterSend_dated (v : Option ContractVersion) (s : Store) (id : String) (n : UInt64) (qs : List QueryRequest)
    (cqs : List (String × Bytes × Bool)) :
    storeAfterSend { s with version := v } id n qs cqs = { storeAfterSend s id n qs cqs with version := v } := by
  unfold storeAfterSend
  split <;> rfl

/-- A committed operation other than a migration is committed with the same effect whatever version is recorded. -/
theorem apply_dated {api : Api} {w w' : World} {op : Op} {obs : List Obs} (hl : w.live = true)
    (ho : w.store.allowOpenInit ≠ some true) (hm : op ≠ .migrate) (ha : apply api w op = some (w', obs))
    (v : Option ContractVersion) : apply api (dated v w) op = some (dated v w', obs) := by
  cases op with
  | block ht t => obtain ⟨a, b, rfl, rfl⟩ := apply_block.1 ha; exact apply_block.2 ⟨a, b, rfl, rfl⟩
  | instantiate sender msg fresh core =>
    obtain ⟨h, _⟩ := apply_instantiate.1 ha
    rw [hl] at h
    cases h
  | execute sender msg fresh core =>
    cases msg with
    | createChannel o =>
      obtain ⟨hl, ho, rfl, hf, hc, o', h1, hp, rfl, rfl⟩ := apply_create.1 ha
      exact apply_create.2 ⟨hl, ho, rfl, hf, hc, o', h1, hp, rfl, rfl⟩
    | closeChannel =>
      obtain ⟨hl, ho, rfl, ch, c, h1, h2, h3, h4, rfl, rfl⟩ := apply_close.1 ha
      exact apply_close.2 ⟨hl, ho, rfl, ch, c, h1, h2, h3, h4, rfl, rfl⟩
    | sendCosmosMsgs ms qs memo t =>
      obtain ⟨hl, ho, rfl, st, info, anys, cqs, c, ts, p, a1, a2, a3, a4, a5, a6, a7, a8, a9, hp, rfl, rfl⟩ :=
        apply_send.1 ha
      refine apply_send.2 ⟨hl, ho, rfl, st, info, anys, cqs, c, ts, p, a1, a2, a3, a4, a5, a6, a7, a8, a9, hp, ?_, rfl⟩
      have := storeAfterSend_dated v w.store info.channelId (UInt64.ofNat (w.nextSeq info.channelId)) qs cqs
      unfold dated
      dsimp only
      rw [this]
    | updateCallbackAddress a =>
      obtain ⟨hl, ho, hv, st, hst, rfl, rfl⟩ := apply_callback.1 ha
      exact apply_callback.2 ⟨hl, ho, hv, st, hst, rfl, rfl⟩
    | updateOwnership a =>
      cases a with
      | transferOwnership n e =>
        obtain ⟨hl, ow, a, b, c, rfl, rfl⟩ := apply_transfer.1 ha
        exact apply_transfer.2 ⟨hl, ow, a, b, c, rfl, rfl⟩
      | acceptOwnership =>
        obtain ⟨hl, ow, a, b, rfl, rfl⟩ := apply_accept.1 ha
        exact apply_accept.2 ⟨hl, ow, a, b, rfl, rfl⟩
      | renounceOwnership => rw [apply_renounce] at ha; cases ha
  | migrate => exact absurd rfl hm
  | relayOpenInit m fresh => exact absurd (apply_relayOpenInit_needs ha) ho
  | relayOpenTry ch v => rw [apply_openTry] at ha; cases ha
  | relayOpenAck id cpId v =>
    obtain ⟨c, st, m, hc, hi, hs, hn, hp, hm, hne, rfl, rfl⟩ := apply_openAck.1 ha
    exact apply_openAck.2 ⟨c, st, m, hc, hi, hs, hn, hp, hm, hne, rfl, rfl⟩
  | relayOpenConfirm ch => rw [apply_openConfirm] at ha; cases ha
  | relayCloseInit id =>
    obtain ⟨c, hc, hn, hf, ht, rfl, rfl⟩ := apply_relayCloseInit.1 ha
    exact apply_relayCloseInit.2 ⟨c, hc, hn, hf, ht, rfl, rfl⟩
  | relayCloseConfirm id =>
    obtain ⟨c, hc, hn, ht, rfl, rfl⟩ := apply_closeConfirm.1 ha
    exact apply_closeConfirm.2 ⟨c, hc, hn, ht, rfl, rfl⟩
  | relayRecv p => rw [apply_recv] at ha; cases ha
  | relayAck id seq ack relayer =>
    obtain ⟨p, c, st, hp, hc, ho, hs, h2⟩ := apply_ack.1 ha
    refine apply_ack.2 ⟨p, c, st, hp, hc, ho, hs, ?_⟩
    rcases h2 with ⟨res, q, b1, b2, rfl, rfl⟩ | ⟨e, b1, rfl, rfl⟩
    · exact .inl ⟨res, q, b1, b2, rfl, rfl⟩
    · exact .inr ⟨e, b1, rfl, rfl⟩
  | relayTimeout id seq relayer =>
    obtain ⟨p, c, st, cs, hp, hc, hs, hcs, rfl, rfl⟩ := apply_timeout.1 ha
    exact apply_timeout.2 ⟨p, c, st, cs, hp, hc, hs, hcs, rfl, rfl⟩

theorem apply_dated_iff {api : Api} {w w' : World} {op : Op} {obs : List Obs} (hl : w.live = true)
    (ho : w.store.allowOpenInit ≠ some true) (hm : op ≠ .migrate) (v : Option ContractVersion) :
    apply api (dated v w) op = some (w', obs) ↔ ∃ w1, apply api w op = some (w1, obs) ∧ w' = dated v w1 := by
  constructor
  · intro h
    have h1 := apply_dated (w := dated v w) hl ho hm h w.store.version
    have h2 := apply_dated (w := dated v w) hl ho hm h v
    rw [dated_dated] at h1 h2
    rw [h] at h2
    exact ⟨_, h1, (Prod.mk.inj (Option.some.inj h2)).1⟩
  · rintro ⟨w1, h, rfl⟩
    exact apply_dated hl ho hm h v

/-- Once the contract exists, it goes on existing. -/
theorem live_kept {api : Api} {w w' : World} {op : Op} {obs : List Obs} (hi : Inv api w) (hl : w.live = true)
    (ha : apply api w op = some (w', obs)) : w'.live = true := by
  cases step_of_apply hi ha <;> first | exact hl | rfl

theorem migrate_dated {api : Api} {w : World} (hi : Inv api w) (hl : w.live = true) {v : Option ContractVersion}
    (hv : Earlier v) : apply api (dated v w) .migrate = some (w, []) := by
  obtain ⟨s, rfl, a, b, ha, hb, hc⟩ := hv
  obtain ⟨st, hst⟩ := hi.state hl
  refine apply_migrate.2 ⟨hl, ⟨_, migrate_eq_ok.2 ⟨⟨_, a, b, rfl, rfl, hb, ha, hc⟩, ⟨st, hst, ?_⟩, rfl, rfl⟩⟩, ?_, rfl⟩
  · exact fun i h => (hi.icaInfo st i hst h).2.1
  · have := hi.version hl
    unfold dated
    dsimp only
    rw [← this]

/-- Without an owner record no message of a user is accepted, and none is ever made. -/
theorem apply_ownerless {api : Api} {w w' : World} {op : Op} {obs : List Obs} (hl : w.live = true)
    (hn : w.store.ownership = none) (hf : w.store.allowOpenInit ≠ some true) (ha : apply api w op = some (w', obs)) :
    (∀ sender msg fresh core, op ≠ .execute sender msg fresh core) ∧ w'.live = true ∧ w'.store.ownership = none ∧
      w'.store.allowOpenInit ≠ some true := by
  have no : ∀ {x : String}, ¬ IsOwner w.store x := by
    rintro x ⟨ow, h, _⟩
    rw [hn] at h
    cases h
  cases op with
  | block ht t => obtain ⟨a, b, rfl, rfl⟩ := apply_block.1 ha; exact ⟨fun _ _ _ _ => nofun, hl, hn, hf⟩
  | instantiate sender msg fresh core =>
    obtain ⟨h, _⟩ := apply_instantiate.1 ha
    rw [hl] at h
    cases h
  | execute sender msg fresh core =>
    exfalso
    cases msg with
    | createChannel o => exact no (apply_create.1 ha).2.1
    | closeChannel => exact no (apply_close.1 ha).2.1
    | sendCosmosMsgs ms qs memo t => exact no (apply_send.1 ha).2.1
    | updateCallbackAddress a => exact no (apply_callback.1 ha).2.1
    | updateOwnership a =>
      cases a with
      | transferOwnership n e => obtain ⟨_, ow, a, _⟩ := apply_transfer.1 ha; rw [hn] at a; cases a
      | acceptOwnership => obtain ⟨_, ow, a, _⟩ := apply_accept.1 ha; rw [hn] at a; cases a
      | renounceOwnership => rw [apply_renounce] at ha; cases ha
  | migrate => obtain ⟨_, _, rfl, rfl⟩ := apply_migrate.1 ha; exact ⟨fun _ _ _ _ => nofun, hl, hn, hf⟩
  | relayOpenInit m fresh => exact absurd (apply_relayOpenInit_needs ha) hf
  | relayOpenTry ch v => rw [apply_openTry] at ha; cases ha
  | relayOpenAck id cpId v =>
    obtain ⟨c, st, m, _, _, _, _, _, _, _, rfl, rfl⟩ := apply_openAck.1 ha
    exact ⟨fun _ _ _ _ => nofun, hl, hn, hf⟩
  | relayOpenConfirm ch => rw [apply_openConfirm] at ha; cases ha
  | relayCloseInit id =>
    obtain ⟨c, _, _, _, _, rfl, rfl⟩ := apply_relayCloseInit.1 ha
    exact ⟨fun _ _ _ _ => nofun, hl, hn, hf⟩
  | relayCloseConfirm id =>
    obtain ⟨c, _, _, _, rfl, rfl⟩ := apply_closeConfirm.1 ha
    exact ⟨fun _ _ _ _ => nofun, hl, hn, hf⟩
  | relayRecv p => rw [apply_recv] at ha; cases ha
  | relayAck id seq ack relayer =>
    obtain ⟨p, c, st, hp, hc, ho, hs, h2⟩ := apply_ack.1 ha
    rcases h2 with ⟨res, q, b1, b2, rfl, rfl⟩ | ⟨e, b1, rfl, rfl⟩ <;> exact ⟨fun _ _ _ _ => nofun, hl, hn, hf⟩
  | relayTimeout id seq relayer =>
    obtain ⟨p, c, st, cs, _, _, _, _, rfl, rfl⟩ := apply_timeout.1 ha
    exact ⟨fun _ _ _ _ => nofun, hl, hn, hf⟩

/-- Byte histories from a storage that stands for a typed one. -/
theorem Raw.exec_matches {api : Api} {w0 w : Raw.RWorld} {s0 : Store} {h : List (Raw.ROp × List Obs)} (hr : Raw.Rel w0 s0)
    (he : Raw.RExec api w0 h w) (hs : ∀ x ∈ h, x.1.Short) :
    ∃ h' s, Exec api (w0.typed s0) h' (w.typed s) ∧ Raw.Rel w s ∧
      List.Forall₂ (fun x y => x.1.decode = some y.1 ∧ x.2 = y.2) h h' := by
  induction he with
  | nil => exact ⟨[], _, .nil, hr, .nil⟩
  | @step h w w' op obs _ ha ih =>
    obtain ⟨h', s, h1, h2, h3⟩ := ih fun x hx => hs x (by simp [hx])
    have hm := Raw.apply_matches h2 api op (hs (op, obs) (by simp))
    rw [ha] at hm
    cases hd : op.decode with
    | none => rw [hd] at hm; cases hm
    | some o =>
      rw [hd, Option.bind_some] at hm
      cases ho : Ica.apply api (w.typed s) o with
      | none => rw [ho] at hm; cases hm
      | some q =>
        obtain ⟨w2, obs2⟩ := q
        rw [ho] at hm
        obtain ⟨rw', e1, e2, e3⟩ := hm
        obtain ⟨rfl, rfl⟩ := Prod.mk.inj (Option.some.inj e1)
        refine ⟨h' ++ [(o, obs)], w2.store, ?_, e3, ?_⟩
        · rw [← e2]; exact .step h1 ho
        · exact List.rel_append h3 (.cons ⟨hd, rfl⟩ .nil)

/-- The channel ids in the storage and in the packets are ids of the chain's channels. -/
theorem rel_of_rep {api : Api} {w : Raw.RWorld} {s : Store} {v : Option ContractVersion} (hi : Inv api (w.typed s))
    (hrep : Raw.Rep w.raw { s with version := v }) (hs : ∀ id c, w.chans id = some c → Raw.Short id) :
    Raw.Rel w { s with version := v } where
  rep := hrep
  ica := fun st i h1 h2 => by
    obtain ⟨_, _, h3⟩ := hi.icaInfo st i h1 h2
    have h4 : (w.typed s).store.channel ≠ none := fun e => by
      have := (hi.icaChannel st h1).2 e
      rw [h2] at this
      cases this
    obtain ⟨cs, hcs⟩ := Option.ne_none_iff_exists'.1 h4
    obtain ⟨_, c, hc, _⟩ := hi.tracked cs hcs
    rw [← h3 cs hcs]
    exact hs _ _ hc
  chans := fun id c hc => ⟨hs id c hc, by rw [(hi.chans id c hc).1]; exact hs id c hc⟩
  commits := fun id n p hp => by
    obtain ⟨h1, _, _, c, hc⟩ := hi.commits id n p hp
    rw [h1]
    exact hs id c hc

end Ica
