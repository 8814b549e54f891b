import Verif.Spec.OwnerApi
import Verif.Facts.Api
import Verif.Props.Api
import Verif.Props.Owner

/-! # The owner contract reads its interface (helper lemmas) -/
namespace Ica.Owner
open Format Api

theorem own_find (k : String) (v : Json) :
    decodeEnum execVariants (.obj [(k, v)]) =
      if k = "create_ica_contract" then
        (match getObj true ["salt", "channel_open_init_options"] v with
          | none => none
          | some fs => match optF jcStr "salt" fs with
            | none => none
            | some s => match reqF ChannelOpenInitOptions.jc "channel_open_init_options" fs with
              | none => none
              | some o => some (.createIcaContract s o) : Option OwnMsg).map .inl
      else if k = "send_predefined_action" then
        (match getObj true ["ica_id", "to_address"] v with
          | none => none
          | some fs => match reqF jcU64 "ica_id" fs with
            | none => none
            | some i => match reqF jcStr "to_address" fs with
              | none => none
              | some a => some (.sendPredefinedAction i a) : Option OwnMsg).map .inl
      else if k = "receive_ica_callback" then (CallbackMsg.decPlain v).map .inr
      else none := by
  have h1 : snakeCase "CreateIcaContract" = "create_ica_contract" := by decide +kernel
  have h2 : snakeCase "SendPredefinedAction" = "send_predefined_action" := by decide +kernel
  have h3 : snakeCase "ReceiveIcaCallback" = "receive_ica_callback" := by decide +kernel
  simp only [decodeEnum, execVariants, mergeVariants, ownVariants, Option.getD_some, List.map_cons, List.map_nil,
    List.cons_append, List.nil_append, List.find?_cons, List.find?_nil, h1, h2, h3]
  by_cases e1 : k = "create_ica_contract"
  · subst e1; simp; rfl
  by_cases e2 : k = "send_predefined_action"
  · subst e2; simp; rfl
  by_cases e3 : k = "receive_ica_callback"
  · subst e3; simp
  simp [e1, e2, e3, Ne.symm e1, Ne.symm e2, Ne.symm e3]

theorem own_reads (j : Json) (m : OwnMsg) : decodeEnum execVariants j = some (.inl m) ↔ OwnerCall j m := by
  constructor
  · intro h
    rcases j with _ | _ | _ | _ | _ | fs
    all_goals try (simp [decodeEnum] at h; done)
    rcases fs with _ | ⟨⟨k, v⟩, _ | ⟨_, _⟩⟩
    · simp [decodeEnum] at h
    swap
    · simp [decodeEnum] at h
    rw [own_find] at h
    split at h
    · next e =>
      subst e
      obtain ⟨m', h, e⟩ := Option.map_eq_some_iff.mp h
      cases e
      simp only [matchToBind] at h
      obtain ⟨fs, hg, g0⟩ := Option.bind_eq_some_iff.mp h
      obtain ⟨rfl, ho, hk⟩ := getObj_closed.mp hg
      obtain ⟨x0, h0, g1⟩ := Option.bind_eq_some_iff.mp g0
      obtain ⟨x1, h1, g2⟩ := Option.bind_eq_some_iff.mp g1
      cases g2
      exact ⟨_, rfl, fs, rfl, ho, (optF_iff reads_text (hk _ (by simp))).mp h0,
        (reqF_iff ChannelOpenInitOptions_reads (hk _ (by simp))).mp h1⟩
    split at h
    · next e =>
      subst e
      obtain ⟨m', h, e⟩ := Option.map_eq_some_iff.mp h
      cases e
      simp only [matchToBind] at h
      obtain ⟨fs, hg, g0⟩ := Option.bind_eq_some_iff.mp h
      obtain ⟨rfl, ho, hk⟩ := getObj_closed.mp hg
      obtain ⟨x0, h0, g1⟩ := Option.bind_eq_some_iff.mp g0
      obtain ⟨x1, h1, g2⟩ := Option.bind_eq_some_iff.mp g1
      cases g2
      exact ⟨_, rfl, fs, rfl, ho, (reqF_iff reads_num64 (hk _ (by simp))).mp h0, (reqF_iff reads_text (hk _ (by simp))).mp h1⟩
    split at h
    · obtain ⟨m', h, e⟩ := Option.map_eq_some_iff.mp h
      cases e
    · cases h
  · cases m with
    | createIcaContract salt o =>
      rintro ⟨_, rfl, fs, rfl, ho, h0, h1⟩
      have c0 := may_count h0
      replace h0 := (optF_iff reads_text c0).mpr h0
      have c1 := has_count h1
      replace h1 := (reqF_iff ChannelOpenInitOptions_reads c1).mpr h1
      have hg : getObj true ["salt", "channel_open_init_options"] (.obj fs) = some fs :=
        getObj_closed.mpr ⟨rfl, ho, by simp [c0, c1]⟩
      simp [own_find, hg, h0, h1]
    | sendPredefinedAction i a =>
      rintro ⟨_, rfl, fs, rfl, ho, h0, h1⟩
      have c0 := has_count h0
      replace h0 := (reqF_iff reads_num64 c0).mpr h0
      have c1 := has_count h1
      replace h1 := (reqF_iff reads_text c1).mpr h1
      have hg : getObj true ["ica_id", "to_address"] (.obj fs) = some fs :=
        getObj_closed.mpr ⟨rfl, ho, by simp [c0, c1]⟩
      simp [own_find, hg, h0, h1]

/-- A call other than a callback is read as the interface says. -/
theorem own_decodes {bytes : Bytes} {m : OwnMsg} :
    (jsonOfBytes bytes).bind (decodeEnum execVariants) = some (.inl m) ↔ Spells OwnerCall bytes m := by
  unfold jsonOfBytes Spells
  rw [Option.bind_eq_some_iff]
  constructor
  · rintro ⟨j, h1, h2⟩
    obtain ⟨t, h3, h4⟩ := Option.bind_eq_some_iff.mp h1
    exact ⟨t, j, (utf8_of_ofUtf8 h3).symm, C67_reads_json.mp h4, (own_reads _ _).mp h2⟩
  · rintro ⟨t, j, rfl, h1, h2⟩
    exact ⟨j, by rw [ofUtf8_utf8]; exact C67_reads_json.mpr h1, (own_reads _ _).mpr h2⟩

end Ica.Owner
