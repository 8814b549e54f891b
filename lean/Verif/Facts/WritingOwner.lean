import Verif.Facts.Writing

/-!
# Running the owner contract on a storage that says the same in other words
-/
namespace Ica.RawOwner
open Raw Owner Spec

/-- The computation does the same on two storages that read alike. -/
def Sim {α : Type} (m : RM α) : Prop :=
  ∀ a b, OwnerReadAlike a b → (m b).1 = (m a).1 ∧ OwnerReadAlike (m a).2 (m b).2

theorem alike_symm {a b : RawStore} (h : OwnerReadAlike a b) : OwnerReadAlike b a :=
  ⟨h.state.symm, h.count.symm, fun n => (h.entries n).symm, fun c => (h.numbers c).symm⟩

theorem alike_put {a b : RawStore} (h : OwnerReadAlike a b) (k : Bytes) (x : Option Bytes) :
    OwnerReadAlike (setKey a k x) (setKey b k x) :=
  ⟨alike_set k x h.state, alike_set k x h.count, fun n => alike_set k x (h.entries n), fun c => alike_set k x (h.numbers c)⟩

theorem sim_pure {α : Type} (x : α) : Sim (pure x : RM α) := fun _ _ h => ⟨rfl, h⟩
theorem sim_lift {α : Type} (r : Res α) : Sim (lift r) := fun _ _ h => ⟨rfl, h⟩
theorem sim_fail {α : Type} (e : Err) : Sim (fail e : RM α) := sim_lift _

theorem sim_bind {α β : Type} {m : RM α} {f : α → RM β} (hm : Sim m) (hf : ∀ x, Sim (f x)) : Sim (m >>= f) := by
  intro a b h
  obtain ⟨h1, h2⟩ := hm a b h
  rw [bind_eq, bind_eq]
  rcases ha : m a with ⟨ra, a'⟩
  rcases hb : m b with ⟨rb, b'⟩
  rw [ha, hb] at h1 h2
  dsimp only at h1 h2
  subst h1
  cases rb with
  | ok x => exact hf x a' b' h2
  | err e => exact ⟨rfl, h2⟩
  | panic e => exact ⟨rfl, h2⟩

theorem sim_attempt {α : Type} {m : RM α} (hm : Sim m) : Sim (attempt m) := by
  intro a b h
  obtain ⟨h1, h2⟩ := hm a b h
  unfold attempt
  rcases ha : m a with ⟨ra, a'⟩
  rcases hb : m b with ⟨rb, b'⟩
  rw [ha, hb] at h1 h2
  dsimp only at h1 h2
  subst h1
  cases rb <;> exact ⟨rfl, h2⟩

theorem sim_load {α : Type} {i : Item α} (hi : ∀ a b, OwnerReadAlike a b → Alike i.jc (a (utf8 i.key)) (b (utf8 i.key))) :
    Sim i.load := by
  intro a b h
  have := hi a b h
  unfold Alike at this
  unfold Item.load
  revert this
  cases a (utf8 i.key) <;> cases b (utf8 i.key) <;> intro this
  · exact ⟨rfl, h⟩
  · simp at this
  · simp at this
  · next x y =>
    simp only [Option.map_some, Option.some.injEq] at this
    dsimp only
    rw [this]
    cases i.jc.ofBytes y <;> exact ⟨rfl, h⟩

theorem sim_mapLoad {κ α : Type} {m : Map1 κ α} {k : κ}
    (hi : ∀ a b, OwnerReadAlike a b → Alike m.jc (a (m.rawKey k)) (b (m.rawKey k))) : Sim (m.load k) := by
  intro a b h
  have := hi a b h
  unfold Alike at this
  unfold Map1.load
  revert this
  cases a (m.rawKey k) <;> cases b (m.rawKey k) <;> intro this
  · exact ⟨rfl, h⟩
  · simp at this
  · simp at this
  · next x y =>
    simp only [Option.map_some, Option.some.injEq] at this
    dsimp only
    rw [this]
    cases m.jc.ofBytes y <;> exact ⟨rfl, h⟩

theorem sim_save {α : Type} (i : Item α) (x : α) : Sim (i.save x) := fun _ _ h => ⟨rfl, alike_put h _ _⟩
theorem sim_mapSave {κ α : Type} (m : Map1 κ α) (k : κ) (x : α) : Sim (m.save k x) := fun _ _ h => ⟨rfl, alike_put h _ _⟩

theorem sim_STATE : Sim STATE.load := sim_load fun _ _ h => h.state
theorem sim_COUNT : Sim (attempt ICA_COUNT.load) := sim_attempt (sim_load fun _ _ h => h.count)
theorem sim_COUNT' : Sim ICA_COUNT.load := sim_load fun _ _ h => h.count
theorem sim_ENTRY (n : UInt64) : Sim (ICA_STATES.load n) := sim_mapLoad fun _ _ h => by
  rw [Footprint.key_entry]
  exact h.entries n
theorem sim_NUMBER (c : String) : Sim (CONTRACT_ADDR_TO_ICA_ID.load c) := sim_mapLoad fun _ _ h => by
  rw [Footprint.key_number]
  exact h.numbers c

/-- Take a computation apart. -/
macro "osim" : tactic => `(tactic|
  repeat first
    | exact sim_pure _ | exact sim_lift _ | exact sim_fail _ | exact sim_save _ _ | exact sim_mapSave _ _ _
    | exact sim_STATE | exact sim_COUNT | exact sim_COUNT' | exact sim_ENTRY _ | exact sim_NUMBER _
    | refine sim_bind ?_ fun _ => ?_
    | split)

theorem sim_instantiate (api : Api) (sender : String) (bytes : Bytes) : Sim (vmInstantiate api sender bytes) := by
  unfold vmInstantiate withMsg instantiate
  dsimp only
  osim

theorem sim_execute (env : Owner.Env) (sender : String) (bytes : Bytes) : Sim (vmExecute env sender bytes) := by
  unfold vmExecute createIcaContract sendPredefinedAction icaCallbackHandler
  dsimp only
  osim

theorem sim_query (m : Owner.QueryMsg) : Sim (query m) := by
  unfold query
  osim

theorem runMessages_twin : ∀ (ms : List SubMsg) {w v : ROWorld} {ok : Bool} {w' : ROWorld}, OwnerTwin w v →
    runMessages w ok ms = some w' → ∃ v', runMessages v ok ms = some v' ∧ OwnerTwin w' v'
  | [], w, v, ok, w', ht, h => by
    simp only [runMessages, Option.some.injEq] at h
    subst h
    exact ⟨v, rfl, ht⟩
  | m :: ms, w, v, ok, w', ht, h => by
    have e1 : v.addr = w.addr := by rw [ht.2]
    have e2 : v.codes = w.codes := by rw [ht.2]
    have e3 : v.taken = w.taken := by rw [ht.2]
    have e4 : v.self = w.self := by rw [ht.2]
    rw [runMessages.eq_2] at h ⊢
    split at h
    · next hok =>
      rw [if_pos hok]
      split at h
      · next hm =>
        try rw [hm] at h
        try rw [hm]
        try dsimp only at h
        try dsimp only
        rw [e1, e2, e3, e4]
        split at h
        · cases h
        · next c hc =>
          try rw [hc]
          try dsimp only
          refine runMessages_twin ms ?_ h
          exact ⟨ht.1, by rw [ht.2]⟩
      · next hm =>
        obtain ⟨v', h1, h2⟩ := runMessages_twin ms ht h
        exact ⟨v', h1, h2⟩
    · cases h

theorem apply_twin {api : Api} {w v w' : ROWorld} {op : ROOp} {ms : List CosmosMsg} (ht : OwnerTwin w v)
    (h : applyRO api w op = some (w', ms)) : ∃ v', applyRO api v op = some (v', ms) ∧ OwnerTwin w' v' := by
  have e1 : v.addr = w.addr := by rw [ht.2]
  have e2 : v.codes = w.codes := by rw [ht.2]
  have e3 : v.live = w.live := by rw [ht.2]
  have e4 : v.self = w.self := by rw [ht.2]
  have e5 : v.time = w.time := by rw [ht.2]
  cases op with
  | instantiate sender bytes =>
    unfold applyRO at h ⊢
    dsimp only at h ⊢
    rw [e3]
    split at h
    · cases h
    · next hl =>
      rw [if_neg hl]
      obtain ⟨s1, s2⟩ := sim_instantiate api sender bytes w.raw v.raw ht.1
      split at h
      · next r raw hx =>
        simp only [Option.some.injEq, Prod.mk.injEq] at h
        obtain ⟨rfl, rfl⟩ := h
        rw [hx] at s1 s2
        rcases hy : vmInstantiate api sender bytes v.raw with ⟨r', raw'⟩
        rw [hy] at s1 s2
        dsimp only at s1 s2
        subst s1
        exact ⟨_, rfl, s2, by rw [ht.2]⟩
      · cases h
  | execute sender bytes ok =>
    unfold applyRO at h ⊢
    dsimp only at h ⊢
    rw [e1, e2, e3, e4, e5]
    split at h
    · next hl =>
      rw [if_pos hl]
      obtain ⟨s1, s2⟩ := sim_execute ⟨w.self, w.time, w.addr, ⟨fun _ _ => none, w.codes⟩⟩ sender bytes w.raw v.raw ht.1
      split at h
      · next r raw hx =>
        rw [hx] at s1 s2
        rcases hy : vmExecute ⟨w.self, w.time, w.addr, ⟨fun _ _ => none, w.codes⟩⟩ sender bytes v.raw with ⟨r', raw'⟩
        rw [hy] at s1 s2
        dsimp only at s1 s2
        subst s1
        dsimp only
        rw [Option.map_eq_some_iff] at h
        obtain ⟨w1, h1, h2⟩ := h
        obtain ⟨rfl, rfl⟩ := Prod.mk.inj h2
        obtain ⟨v1, e, t⟩ := runMessages_twin _ (v := { v with raw := raw' }) ⟨s2, by rw [ht.2]⟩ h1
        rw [e1, e2, e3, e4, e5] at e
        rw [e]
        exact ⟨v1, rfl, t⟩
      · cases h
    · cases h
  | block t =>
    cases h
    exact ⟨_, rfl, ht.1, by rw [ht.2]⟩
  | elsewhere a =>
    cases h
    exact ⟨_, rfl, ht.1, by rw [ht.2]⟩
  | upload c k =>
    unfold applyRO at h ⊢
    dsimp only at h ⊢
    rw [e2]
    split at h
    · cases h
    · next hc =>
      try rw [hc]
      simp only [Option.some.injEq, Prod.mk.injEq] at h
      obtain ⟨rfl, rfl⟩ := h
      exact ⟨_, rfl, ht.1, by rw [ht.2]⟩

end Ica.RawOwner
