import Verif.Spec.OwnerStored
import Verif.Props.OwnerMachine
import Verif.Props.Stored

/-!
# What is in the storage of the owner contract: C116
-/
namespace Ica.OwnerStored
open Spec Format Api Owner RawOwner OwnerMachine

/-- Every entry of the storage was written by the contract. -/
def Canon (raw : Raw.RawStore) : Prop :=
  ∀ k b, raw k = some b →
    (k = utf8 STATE.key ∧ ∃ x, b = STATE.jc.toBytes x) ∨ (k = utf8 ICA_COUNT.key ∧ ∃ x, b = ICA_COUNT.jc.toBytes x) ∨
    (∃ i x, k = ICA_STATES.rawKey i ∧ b = ICA_STATES.jc.toBytes x) ∨
    ∃ a x, k = CONTRACT_ADDR_TO_ICA_ID.rawKey a ∧ b = CONTRACT_ADDR_TO_ICA_ID.jc.toBytes x

/-- The program writes nothing else. -/
def Keeps {α : Type} (m : Raw.RM α) : Prop := ∀ raw, Canon raw → Canon (m raw).2

theorem canon_set {raw : Raw.RawStore} (h : Canon raw) {k b : Bytes}
    (hk : (k = utf8 STATE.key ∧ ∃ x, b = STATE.jc.toBytes x) ∨ (k = utf8 ICA_COUNT.key ∧ ∃ x, b = ICA_COUNT.jc.toBytes x) ∨
      (∃ i x, k = ICA_STATES.rawKey i ∧ b = ICA_STATES.jc.toBytes x) ∨
      ∃ a x, k = CONTRACT_ADDR_TO_ICA_ID.rawKey a ∧ b = CONTRACT_ADDR_TO_ICA_ID.jc.toBytes x) :
    Canon (Raw.setKey raw k (some b)) := by
  intro k' b' hb
  unfold Raw.setKey at hb
  split at hb
  · next e => subst e; cases hb; exact hk
  · exact h k' b' hb

theorem keeps_pure {α : Type} (a : α) : Keeps (pure a : Raw.RM α) := fun _ h => h

theorem keeps_lift {α : Type} (r : Res α) : Keeps (Raw.lift r) := fun _ h => h

theorem keeps_bind {α β : Type} {m : Raw.RM α} {f : α → Raw.RM β} (hm : Keeps m) (hf : ∀ a, Keeps (f a)) :
    Keeps (m >>= f) := by
  intro raw h
  have h1 := hm raw h
  rw [Raw.bind_eq]
  cases hr : m raw with
  | mk x raw' =>
    rw [hr] at h1
    cases x with
    | ok a => exact hf a raw' h1
    | err e => exact h1
    | panic e => exact h1

theorem keeps_load {α : Type} (i : Raw.Item α) : Keeps i.load := by
  intro raw h
  unfold Raw.Item.load
  split
  · exact h
  · split <;> exact h

theorem keeps_mapLoad {κ α : Type} (m : Raw.Map1 κ α) (k : κ) : Keeps (m.load k) := by
  intro raw h
  unfold Raw.Map1.load
  split
  · exact h
  · split <;> exact h

theorem keeps_attempt {α : Type} {m : Raw.RM α} (hm : Keeps m) : Keeps (Raw.attempt m) := by
  intro raw h
  have h1 := hm raw h
  unfold Raw.attempt
  split <;> next e => rw [e] at h1; exact h1

theorem keeps_state (x : Owner.State) : Keeps (STATE.save x) := fun _ h => canon_set h (.inl ⟨rfl, x, rfl⟩)
theorem keeps_count (x : UInt64) : Keeps (ICA_COUNT.save x) := fun _ h => canon_set h (.inr (.inl ⟨rfl, x, rfl⟩))
theorem keeps_states (i : UInt64) (x : IcaContractState) : Keeps (ICA_STATES.save i x) :=
  fun _ h => canon_set h (.inr (.inr (.inl ⟨i, x, rfl, rfl⟩)))
theorem keeps_ids (a : String) (x : UInt64) : Keeps (CONTRACT_ADDR_TO_ICA_ID.save a x) :=
  fun _ h => canon_set h (.inr (.inr (.inr ⟨a, x, rfl, rfl⟩)))

theorem keeps_instantiate (api : Api) (sender : String) (m : Owner.InstantiateMsg) :
    Keeps (RawOwner.instantiate api sender m) := by
  unfold RawOwner.instantiate
  dsimp only
  split
  · exact keeps_bind (keeps_lift _) fun a => keeps_bind (keeps_state _) fun _ => keeps_pure _
  · exact keeps_bind (keeps_pure _) fun a => keeps_bind (keeps_state _) fun _ => keeps_pure _

theorem keeps_create (env : Owner.Env) (sender : String) (salt : Option String) (o : ChannelOpenInitOptions) :
    Keeps (RawOwner.createIcaContract env sender salt o) := by
  unfold RawOwner.createIcaContract
  refine keeps_bind (keeps_load _) fun st => ?_
  split
  · exact keeps_lift _
  · refine keeps_bind (keeps_attempt (keeps_load _)) fun c => ?_
    dsimp only
    split
    · exact keeps_lift _
    · refine keeps_bind (keeps_states _ _) fun _ => keeps_bind (keeps_ids _ _) fun _ => ?_
      split
      · exact keeps_bind (keeps_count _) fun _ => keeps_pure _
      · exact keeps_lift _

theorem keeps_send (sender : String) (i : UInt64) (a : String) : Keeps (RawOwner.sendPredefinedAction sender i a) := by
  unfold RawOwner.sendPredefinedAction
  refine keeps_bind (keeps_load _) fun st => ?_
  split
  · exact keeps_lift _
  · exact keeps_bind (keeps_mapLoad _ _) fun _ => keeps_pure _

theorem keeps_callback (sender : String) (m : CallbackMsg) : Keeps (RawOwner.icaCallbackHandler sender m) := by
  unfold RawOwner.icaCallbackHandler
  refine keeps_bind (keeps_mapLoad _ _) fun id => keeps_bind (keeps_mapLoad _ _) fun ica => ?_
  cases m with
  | onChannelOpenAckCallback ch a e => exact keeps_bind (keeps_states _ _) fun _ => keeps_pure _
  | _ => exact keeps_pure _

theorem keeps_vmInstantiate (api : Api) (sender : String) (b : Bytes) : Keeps (RawOwner.vmInstantiate api sender b) := by
  unfold RawOwner.vmInstantiate Raw.withMsg
  split
  · exact keeps_instantiate _ _ _
  · exact keeps_lift _

theorem keeps_vmExecute (env : Owner.Env) (sender : String) (b : Bytes) : Keeps (RawOwner.vmExecute env sender b) := by
  unfold RawOwner.vmExecute
  split
  · exact keeps_create _ _ _ _
  · exact keeps_send _ _ _
  · exact keeps_callback _ _
  · exact keeps_lift _

theorem run_raw {w w' : ROWorld} {ok : Bool} {l : List SubMsg} (h : RawOwner.runMessages w ok l = some w') :
    w'.raw = w.raw := by
  induction l generalizing w with
  | nil => cases h; rfl
  | cons m ms ih =>
    unfold RawOwner.runMessages at h
    split at h
    · split at h
      · split at h
        · cases h
        · have k := ih h
          exact k
      · exact ih h
    · cases h

theorem canon_step {api : Api} {w w' : ROWorld} {op : ROOp} {ms : List CosmosMsg} (h : Canon w.raw)
    (ha : applyRO api w op = some (w', ms)) : Canon w'.raw := by
  cases op with
  | instantiate sender bytes =>
    unfold applyRO at ha
    dsimp only at ha
    split at ha
    · cases ha
    · have hk := keeps_vmInstantiate api sender bytes _ h
      split at ha
      · next e => rw [e] at hk; cases ha; exact hk
      · cases ha
  | execute sender bytes ok =>
    unfold applyRO at ha
    dsimp only at ha
    split at ha
    · have hk := keeps_vmExecute ⟨w.self, w.time, w.addr, ⟨fun _ _ => none, w.codes⟩⟩ sender bytes _ h
      split at ha
      · next e =>
        rw [e] at hk
        obtain ⟨w1, h1, h2⟩ := Option.map_eq_some_iff.1 ha
        cases h2
        rw [run_raw h1]
        exact hk
      · cases ha
    · cases ha
  | block t => cases ha; exact h
  | elsewhere a => cases ha; exact h
  | upload c k =>
    unfold applyRO at ha
    dsimp only at ha
    split at ha
    · cases ha
    · cases ha; exact h

theorem canon_exec {api : Api} {w0 w : ROWorld} {h : List (ROOp × List CosmosMsg)} (h0 : Canon w0.raw)
    (he : ROExec api w0 h w) : Canon w.raw := by
  induction he with
  | nil => exact h0
  | step _ ha ih => exact canon_step ih ha

/-! ## Values -/

theorem item_value {α : Type} {i : Raw.Item α} (law : i.jc.Law) {raw : Raw.RawStore} {o : Option α} (h : i.Holds raw o)
    (hc : ∀ b, raw (utf8 i.key) = some b → ∃ x, b = i.jc.toBytes x) : raw (utf8 i.key) = o.map i.jc.toBytes := by
  unfold Raw.Item.Holds at h
  cases hr : raw (utf8 i.key) with
  | none => rw [hr] at h; cases o with
    | none => rfl
    | some x => exact h.elim
  | some b => rw [hr] at h; cases o with
    | none => exact h.elim
    | some x =>
      obtain ⟨y, rfl⟩ := hc b hr
      have h' : i.jc.ofBytes (i.jc.toBytes y) = some x := h
      rw [JC.ofBytes_toBytes law] at h'
      cases h'
      rfl

theorem map_value {κ α : Type} {m : Raw.Map1 κ α} (law : m.jc.Law) {raw : Raw.RawStore} {k : κ} {o : Option α}
    (h : MapHolds m raw k o) (hc : ∀ b, raw (m.rawKey k) = some b → ∃ x, b = m.jc.toBytes x) :
    raw (m.rawKey k) = o.map m.jc.toBytes := by
  unfold MapHolds at h
  cases hr : raw (m.rawKey k) with
  | none => rw [hr] at h; cases o with
    | none => rfl
    | some x => exact h.elim
  | some b => rw [hr] at h; cases o with
    | none => exact h.elim
    | some x =>
      obtain ⟨y, rfl⟩ := hc b hr
      have h' : m.jc.ofBytes (m.jc.toBytes y) = some x := h
      rw [JC.ofBytes_toBytes law] at h'
      cases h'
      rfl

theorem value_state {raw : Raw.RawStore} {s : Owner.Store} (h : Stands raw s) (hc : Canon raw) :
    raw (utf8 "state") = s.state.map STATE.jc.toBytes := by
  refine item_value (i := STATE) State.jc_law h.state fun b hb => ?_
  rcases hc _ b hb with ⟨_, h1⟩ | ⟨h1, _⟩ | ⟨i, x, h1, _⟩ | ⟨a, x, h1, _⟩
  · exact h1
  · exact absurd h1 (Raw.item_ne (by decide))
  · exact absurd h1.symm (states_ne_item state_head)
  · exact absurd h1.symm (ids_ne_item state_head)

theorem value_count {raw : Raw.RawStore} {s : Owner.Store} (h : Stands raw s) (hc : Canon raw) :
    raw (utf8 "ica_count") = s.icaCount.map ICA_COUNT.jc.toBytes := by
  refine item_value (i := ICA_COUNT) jcU64_law h.count fun b hb => ?_
  rcases hc _ b hb with ⟨h1, _⟩ | ⟨_, h1⟩ | ⟨i, x, h1, _⟩ | ⟨a, x, h1, _⟩
  · exact absurd h1 (Raw.item_ne (by decide))
  · exact h1
  · exact absurd h1.symm (states_ne_item count_head)
  · exact absurd h1.symm (ids_ne_item count_head)

theorem value_states {raw : Raw.RawStore} {s : Owner.Store} (h : Stands raw s) (hc : Canon raw) (i : UInt64) :
    raw (ICA_STATES.rawKey i) = (s.icaStates i).map ICA_STATES.jc.toBytes := by
  refine map_value (m := ICA_STATES) IcaContractState.jc_law (h.states i) fun b hb => ?_
  rcases hc _ b hb with ⟨h1, _⟩ | ⟨h1, _⟩ | ⟨_, x, _, h1⟩ | ⟨a, x, h1, _⟩
  · exact absurd h1 (states_ne_item state_head)
  · exact absurd h1 (states_ne_item count_head)
  · exact ⟨x, h1⟩
  · exact absurd h1 (key_states_ids _ _)

theorem value_ids {raw : Raw.RawStore} {s : Owner.Store} (h : Stands raw s) (hc : Canon raw) (a : String) :
    raw (CONTRACT_ADDR_TO_ICA_ID.rawKey a) = (s.addrToId a).map CONTRACT_ADDR_TO_ICA_ID.jc.toBytes := by
  refine map_value (m := CONTRACT_ADDR_TO_ICA_ID) jcU64_law (h.ids a) fun b hb => ?_
  rcases hc _ b hb with ⟨h1, _⟩ | ⟨h1, _⟩ | ⟨i, x, h1, _⟩ | ⟨_, x, _, h1⟩
  · exact absurd h1 (ids_ne_item state_head)
  · exact absurd h1 (ids_ne_item count_head)
  · exact absurd h1.symm (key_states_ids _ _)
  · exact ⟨x, h1⟩

theorem key_entry (i : UInt64) : ICA_STATES.rawKey i = keyPart (utf8 "ica_states") ++ bigEndian 8 i.toNat := by
  rw [Stored.bigEndian_eight]
  unfold Raw.Map1.rawKey Raw.prefixed keyPart
  rw [Stored.bigEndian_two]
  rfl

theorem key_number (a : String) :
    CONTRACT_ADDR_TO_ICA_ID.rawKey a = keyPart (utf8 "contract_addr_to_ica_id") ++ utf8 a := by
  unfold Raw.Map1.rawKey Raw.prefixed keyPart
  rw [Stored.bigEndian_two]
  rfl

/-! ## C116 -/

variable {api : Api} {self : String} {time : UInt64} {addr : Helpers.AddrApi} {codes : Wasmd.Codes}
  {taken : String → Bool} {h : List (ROOp × List CosmosMsg)} {w : ROWorld}

theorem written_entry (a : String) (i : UInt64) (t : Option (IbcChannel × String × TxEncoding)) :
    Written (· = registryJson a i t) (ICA_STATES.jc.toBytes ⟨a, t.map fun t => ⟨i, t.2.1, t.2.2, ⟨t.1, .opened⟩⟩⟩) := by
  refine written _ _ ?_
  obtain _ | ⟨ch, b, e⟩ := t
  · rfl
  · cases e <;> obtain ⟨_, _, o, _, _⟩ := ch <;> cases o <;> rfl

theorem ofNat_toNat {n : Nat} (h : n < 18446744073709551616) : (UInt64.ofNat n).toNat = n := Nat.mod_eq_of_lt h

/-- **C116.** Whatever texts users and controllers send, the storage of the owner contract is a function of what happened:
it holds the admin and the code, the number of controllers once there is one, for each controller what is known of it under
its number and its number under its address, each as the documented JSON, and nothing else. -/
theorem C116_owner_storage (he : ROExec api (ROWorld.genesis self time addr codes taken) h w) :
    ∃ r, Goes api (Register.start self time addr codes taken) h r ∧
      (∀ k b, w.raw k = some b → ∃ j, OwnerStored r k j ∧ Written (· = j) b) ∧
      ∀ k j, OwnerStored r k j → ∃ b, w.raw k = some b ∧ Written (· = j) b := by
  have hc : Canon w.raw := canon_exec (fun k b hb => by cases hb) he
  obtain ⟨o, r, hs, _, hg, s⟩ := sim_exec he
  refine ⟨r, hg, fun k b hb => ?_, fun k j hk => ?_⟩
  · rcases hc k b hb with ⟨rfl, _⟩ | ⟨rfl, _⟩ | ⟨i, x, rfl, _⟩ | ⟨a, x, rfl, _⟩
    · have hv := (value_state hs.store hc).symm.trans hb
      rw [s.admin] at hv
      cases ha : r.admin with
      | none => rw [ha] at hv; cases hv
      | some x =>
        rw [ha] at hv
        cases hv
        exact ⟨_, .state ha, written_ownerState _ _⟩
    · have hv := (value_count hs.store hc).symm.trans hb
      rw [s.count] at hv
      by_cases hn : r.entries = []
      · rw [if_pos hn] at hv; cases hv
      · rw [if_neg hn] at hv
        cases hv
        exact ⟨_, .count hn, written _ _ (congrArg Json.num (ofNat_toNat s.room))⟩
    · have hv := (value_states hs.store hc i).symm.trans hb
      rw [s.states] at hv
      cases hx : r.entries[i.toNat]? with
      | none => rw [hx] at hv; cases hv
      | some x =>
        rw [hx] at hv
        cases hv
        rw [key_entry]
        refine ⟨_, .entry (n := i.toNat) (a := x.1) (told := x.2) hx, ?_⟩
        rw [UInt64.ofNat_toNat]
        exact written_entry _ _ _
    · have hv := (value_ids hs.store hc a).symm.trans hb
      cases hi : o.store.addrToId a with
      | none => rw [hi] at hv; cases hv
      | some i =>
        rw [hi] at hv
        cases hv
        obtain ⟨t, ht⟩ := (s.ids a i).1 hi
        rw [key_number]
        exact ⟨_, .number ht, written _ _ rfl⟩
  · cases hk with
    | @state admin code ha =>
      refine ⟨_, (value_state hs.store hc).trans ?_, written_ownerState admin code⟩
      rw [s.admin, ha]
      rfl
    | count hn =>
      refine ⟨_, (value_count hs.store hc).trans ?_, written jcU64 (UInt64.ofNat r.entries.length) (congrArg Json.num (ofNat_toNat s.room))⟩
      rw [s.count, if_neg hn]
      rfl
    | @entry n a told hx =>
      have hlt : n < 18446744073709551616 := by
        obtain ⟨hn, _⟩ := List.getElem?_eq_some_iff.1 hx
        exact Nat.lt_trans hn s.room
      have hi : (UInt64.ofNat n).toNat = n := ofNat_toNat hlt
      refine ⟨_, ?_, written_entry a (UInt64.ofNat n) told⟩
      rw [← hi, ← key_entry, hi, value_states hs.store hc, s.states, hi, hx]
      rfl
    | @number n a told hx =>
      have hlt : n < 18446744073709551616 := by
        obtain ⟨hn, _⟩ := List.getElem?_eq_some_iff.1 hx
        exact Nat.lt_trans hn s.room
      have hi : (UInt64.ofNat n).toNat = n := ofNat_toNat hlt
      refine ⟨_, ?_, written jcU64 (UInt64.ofNat n) (congrArg Json.num hi)⟩
      rw [← key_number, value_ids hs.store hc, (s.ids a (UInt64.ofNat n)).2 ⟨told, by rw [hi]; exact hx⟩]
      rfl

/-- After a controller was made and told of its channel: four keys. -/
example (ch : IbcChannel) : ∃ h w r a, ROExec Ex.api (ROWorld.genesis "wasm1owner" 1700000000000000000 Ex.addrApi
      (fun n => if n = 7 then some (List.replicate 32 1) else none) (fun _ => false)) h w ∧
    r.entries = [(a, some (ch, "cosmos1ica", TxEncoding.protobuf))] ∧ r.admin = some ("boss", 7) ∧
    (∀ k b, w.raw k = some b → ∃ j, OwnerStored r k j ∧ Written (· = j) b) ∧
    w.raw (utf8 "state") ≠ none ∧ w.raw (utf8 "ica_count") ≠ none ∧
    w.raw (keyPart (utf8 "ica_states") ++ bigEndian 8 0) ≠ none ∧
    w.raw (keyPart (utf8 "contract_addr_to_ica_id") ++ utf8 a) ≠ none := by
  let r0 := Register.start "wasm1owner" 1700000000000000000 Ex.addrApi
      (fun n => if n = 7 then some (List.replicate 32 1) else none) (fun _ => false)
  let r1 : Register := { r0 with admin := some ("boss", 7) }
  obtain ⟨t1, hs1⟩ : ∃ text, Spells Api.OwnerInstantiate text ⟨none, 7⟩ := by
    obtain ⟨op, hm⟩ := means_exists (.instantiate "boss" ⟨none, 7⟩)
    cases hm with
    | instantiate h => exact ⟨_, h⟩
  have d1 : Does Ex.api r0 (.instantiate "boss" t1) r1 [] := .instantiate rfl hs1 (fun a h => by cases h)
  obtain ⟨a, ha⟩ : ∃ a, r1.Next 7 (some "salt") a := by
    have h1 : r1.addr.canonicalize r1.self = some (utf8 "wasm1owner") := rfl
    obtain ⟨b, hb⟩ : ∃ b, Wasmd.predictable r1.addr.sha256 (List.replicate 32 1) (utf8 "wasm1owner") (r1.salt (some "salt")) = some b := by
      unfold Wasmd.predictable
      exact ⟨_, if_pos (by refine ⟨by decide, ?_⟩; decide +kernel)⟩
    exact ⟨_, _, _, b, rfl, h1, hb, rfl⟩
  have d2 := Does.create (api := Ex.api) (r := r1) (sender := "boss") Ex.spellsMk rfl ha rfl (by decide) (spells_first _)
  have hs2 := Owner.callback_decodes.mp (Owner.decode_callback (.onChannelOpenAckCallback ch "cosmos1ica" .protobuf))
  have d3 := Does.account (api := Ex.api) (r := { r1 with entries := [(a, none)], taken := Function.update r1.taken a true })
    (n := 0) (sender := a) (told := none) (ok := true) hs2 rfl
  have hg : Goes Ex.api r0 _ _ := .step (.step (.step .nil d1) d2) d3
  obtain ⟨h', w, k1, k2, k3⟩ := C112_complete hg
  obtain ⟨r, e1, e2, e3⟩ := C116_owner_storage k1
  obtain rfl := C112_determined e1 hg k2
  have hne : ∀ k j, OwnerStored _ k j → w.raw k ≠ none := fun k j hk hn => by
    obtain ⟨b, hb, _⟩ := e3 k j hk
    rw [hn] at hb
    cases hb
  refine ⟨h', w, _, a, k1, rfl, rfl, e2, hne _ _ (.state rfl), hne _ _ (.count (by simp)), ?_, ?_⟩
  · exact hne _ _ (.entry (n := 0) rfl)
  · exact hne _ _ (.number (n := 0) rfl)

end Ica.OwnerStored
