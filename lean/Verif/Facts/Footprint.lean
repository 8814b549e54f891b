import Verif.Spec.Footprint
import Verif.Facts.RawKeep
import Verif.Model.RawOwner

/-!
# Footprints of the storage operations
-/
namespace Ica.Footprint
open Ica.Raw Ica.Spec

variable {α β : Type} {R W : List Bytes} {raw : RawStore}

theorem sees_mono {R' W' : List Bytes} {m : RM α} (h : Sees R W m raw) (hR : ∀ k ∈ R, k ∈ R') (hW : ∀ k ∈ W, k ∈ W') :
    Sees R' W' m raw := fun raw' hr => by
  obtain ⟨h1, h2⟩ := h raw' fun k hk => hr k (hR k hk)
  exact ⟨h1, fun k => ⟨fun hk => (h2 k).1 fun h => hk (hW k h), (h2 k).2⟩⟩

theorem sees_lift (r : Res α) : Sees R W (lift r) raw := fun _ _ => ⟨rfl, fun _ => ⟨fun _ => rfl, .inr ⟨rfl, rfl⟩⟩⟩
theorem sees_pure (a : α) : Sees R W (pure a : RM α) raw := sees_lift (.ok a)
theorem sees_fail (e : Err) : Sees R W (fail e : RM α) raw := sees_lift (.err e)

theorem sees_bind {m : RM α} {f : α → RM β} (hm : Sees R W m raw)
    (hf : ∀ a, (m raw).1 = .ok a → Sees R W (f a) (m raw).2) : Sees R W (m >>= f) raw := by
  intro raw' hr
  obtain ⟨h1, h2⟩ := hm raw' hr
  rw [bind_eq, bind_eq]
  cases he : m raw with
  | mk r s =>
    cases he' : m raw' with
    | mk r' s' =>
      rw [he, he'] at h1 h2
      rw [he] at hf
      dsimp only at h1 h2 hf
      subst h1
      cases r' with
      | ok a =>
        dsimp only
        have hs : ∀ k ∈ R, s' k = s k := fun k hk => by
          rcases (h2 k).2 with h | ⟨h, h'⟩
          · exact h
          · rw [h, h', hr k hk]
        obtain ⟨g1, g2⟩ := hf a rfl s' hs
        refine ⟨g1, fun k => ⟨fun hk => by rw [(g2 k).1 hk, (h2 k).1 hk], ?_⟩⟩
        rcases (g2 k).2 with h | ⟨h, h'⟩
        · exact .inl h
        · rcases (h2 k).2 with g | ⟨g, g'⟩
          · exact .inl (by rw [h, h', g])
          · exact .inr ⟨by rw [h, g], by rw [h', g']⟩
      | err e => exact ⟨rfl, h2⟩
      | panic e => exact ⟨rfl, h2⟩

/-- A computation that leaves the storage alone and decides on one entry. -/
theorem sees_read {m : RM α} {k : Bytes} (hk : k ∈ R) (h2 : ∀ s, (m s).2 = s)
    (h1 : ∀ s s', s k = s' k → (m s).1 = (m s').1) : Sees R W m raw := by
  intro raw' hr
  refine ⟨h1 _ _ (hr k hk), fun j => ⟨fun _ => by rw [h2], .inr ⟨by rw [h2], by rw [h2]⟩⟩⟩

theorem sees_load (i : Item α) (hk : utf8 i.key ∈ R) : Sees R W i.load raw := by
  refine sees_read hk (load_snd i) fun s s' h => ?_
  unfold Item.load
  rw [h]
  split
  · rfl
  · split <;> rfl

theorem sees_attempt (i : Item α) (hk : utf8 i.key ∈ R) : Sees R W (attempt i.load) raw := by
  refine sees_read hk (fun s => ?_) fun s s' h => ?_
  · unfold attempt
    have := load_snd i s
    split <;> next h => rw [h] at this; exact this
  · have e : (i.load s).1 = (i.load s').1 := by
      unfold Item.load
      rw [h]
      split
      · rfl
      · split <;> rfl
    unfold attempt
    cases h1 : i.load s with
    | mk a x =>
      cases h2 : i.load s' with
      | mk a' x' =>
        rw [h1, h2] at e
        dsimp only at e
        subst e
        cases a <;> rfl

theorem attempt_snd (i : Item α) (s : RawStore) : (attempt i.load s).2 = s := by
  unfold attempt
  have := load_snd i s
  split <;> next h => rw [h] at this; exact this

theorem sees_mayLoad (i : Item α) (hk : utf8 i.key ∈ R) : Sees R W i.mayLoad raw := by
  refine sees_read hk (fun s => ?_) fun s s' h => ?_
  · unfold Item.mayLoad
    split
    · rfl
    · split <;> rfl
  · unfold Item.mayLoad
    rw [h]
    split
    · rfl
    · split <;> rfl

theorem sees_set {k : Bytes} (hk : k ∈ W) (v : Option Bytes) :
    Sees R W (fun s => (Res.ok (), setKey s k v)) raw := by
  intro raw' _
  refine ⟨rfl, fun j => ⟨fun hj => ?_, ?_⟩⟩
  · have : j ≠ k := fun e => hj (e ▸ hk)
    simp [setKey, this]
  · by_cases e : j = k <;> simp [setKey, e]

theorem sees_save (i : Item α) (hk : utf8 i.key ∈ W) (x : α) : Sees R W (i.save x) raw := sees_set hk _
theorem sees_remove (i : Item α) (hk : utf8 i.key ∈ W) : Sees R W i.remove raw := sees_set hk _

theorem sees_mapLoad (m : Map2 α) (c : String) (n : UInt64) (hk : ∀ k, mapKey m.ns c n = .ok k → k ∈ R) :
    Sees R W (m.mayLoad c n) raw := by
  cases h : mapKey m.ns c n with
  | ok k =>
    refine sees_read (hk k h) (fun s => ?_) fun s s' e => ?_
    · unfold Map2.mayLoad
      rw [h]; dsimp only
      split
      · rfl
      · split <;> rfl
    · unfold Map2.mayLoad
      rw [h]; dsimp only
      rw [e]
      split
      · rfl
      · split <;> rfl
  | err e =>
    have : m.mayLoad c n = lift (.err e) := by funext s; unfold Map2.mayLoad; rw [h]; rfl
    rw [this]; exact sees_lift _
  | panic e =>
    have : m.mayLoad c n = lift (.panic e) := by funext s; unfold Map2.mayLoad; rw [h]; rfl
    rw [this]; exact sees_lift _

theorem sees_put (m : Map2 α) (c : String) (n : UInt64) (v : Option α) (hk : ∀ k, mapKey m.ns c n = .ok k → k ∈ W) :
    Sees R W (m.put c n v) raw := by
  cases h : mapKey m.ns c n with
  | ok k =>
    have : m.put c n v = fun s => (Res.ok (), setKey s k (v.map m.jc.toBytes)) := by
      funext s; unfold Map2.put; rw [h]
    rw [this]; exact sees_set (hk k h) _
  | err e =>
    have : m.put c n v = lift (.err e) := by funext s; unfold Map2.put; rw [h]; rfl
    rw [this]; exact sees_lift _
  | panic e =>
    have : m.put c n v = lift (.panic e) := by funext s; unfold Map2.put; rw [h]; rfl
    rw [this]; exact sees_lift _

theorem load1_snd {κ : Type} (m : Map1 κ α) (x : κ) (s : RawStore) : (m.load x s).2 = s := by
  unfold Map1.load
  split
  · rfl
  · split <;> rfl

theorem sees_load1 {κ : Type} (m : Map1 κ α) (x : κ) (hk : m.rawKey x ∈ R) : Sees R W (m.load x) raw := by
  refine sees_read hk (load1_snd m x) fun s s' h => ?_
  unfold Map1.load
  rw [h]
  split
  · rfl
  · split <;> rfl

theorem sees_save1 {κ : Type} (m : Map1 κ α) (x : κ) (v : α) (hk : m.rawKey x ∈ W) : Sees R W (m.save x v) raw :=
  sees_set hk _

theorem sees_withMsg {jc : JC α} {bytes : Bytes} {f : α → RM β} (h : ∀ m, jc.ofBytes bytes = some m → Sees R W (f m) raw) :
    Sees R W (withMsg jc bytes f) raw := by
  unfold withMsg
  split
  · next m hm => exact h m hm
  · exact sees_fail _

/-- Closing a step of a footprint proof. -/
macro "see" : tactic => `(tactic| repeat' (first
  | exact sees_pure _
  | exact sees_fail _
  | exact sees_lift _
  | exact sees_load _ (by simp [STATE, CHANNEL_STATE, CHANNEL_OPEN_INIT_OPTIONS, ALLOW_CHANNEL_OPEN_INIT, ALLOW_CHANNEL_CLOSE_INIT, QUERY, CONTRACT, OWNERSHIP])
  | exact sees_mayLoad _ (by simp [STATE, CHANNEL_STATE, CHANNEL_OPEN_INIT_OPTIONS, ALLOW_CHANNEL_OPEN_INIT, ALLOW_CHANNEL_CLOSE_INIT, QUERY, CONTRACT, OWNERSHIP])
  | exact sees_attempt _ (by simp [STATE, CHANNEL_STATE, CHANNEL_OPEN_INIT_OPTIONS, ALLOW_CHANNEL_OPEN_INIT, ALLOW_CHANNEL_CLOSE_INIT, QUERY, CONTRACT, OWNERSHIP])
  | exact sees_save _ (by simp [STATE, CHANNEL_STATE, CHANNEL_OPEN_INIT_OPTIONS, ALLOW_CHANNEL_OPEN_INIT, ALLOW_CHANNEL_CLOSE_INIT, QUERY, CONTRACT, OWNERSHIP]) _
  | exact sees_remove _ (by simp [STATE, CHANNEL_STATE, CHANNEL_OPEN_INIT_OPTIONS, ALLOW_CHANNEL_OPEN_INIT, ALLOW_CHANNEL_CLOSE_INIT, QUERY, CONTRACT, OWNERSHIP])
  | refine sees_bind ?_ (fun _ _ => ?_)
  | split))

end Ica.Footprint
