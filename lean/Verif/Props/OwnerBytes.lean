import Verif.Facts.RawOwner

/-!
# The owner contract on bytes, its queries, and what receivers of callbacks read (C78-C80)
-/
namespace Ica
open Spec Format Api Owner RawOwner

/-! ## C78 -/

theorem forall₂_snoc {α β : Type} {R : α → β → Prop} {l : List α} {l' : List β} {x : α} {y : β} (h : List.Forall₂ R l l')
    (k : R x y) : List.Forall₂ R (l ++ [x]) (l' ++ [y]) := by
  induction h with
  | nil => exact .cons k .nil
  | cons a _ ih => exact .cons a ih

theorem of_forall₂_snoc {α β : Type} {R : α → β → Prop} {y : β} : ∀ {l' : List β} {l : List α},
    List.Forall₂ R l (l' ++ [y]) → ∃ l0 x, l = l0 ++ [x] ∧ List.Forall₂ R l0 l' ∧ R x y
  | [], _, h => by
    cases h with
    | cons a hn => cases hn; exact ⟨[], _, rfl, .nil, a⟩
  | _ :: _, _, h => by
    cases h with
    | cons a hn =>
      obtain ⟨l0, x, rfl, k, r⟩ := of_forall₂_snoc hn
      exact ⟨_ :: l0, x, rfl, .cons a k, r⟩

/-- **C78** (bytes to values). Every history of the owner contract on raw storage and text is one of `Spec/OwnerWorld`, with
the same messages sent, in which the raw storage stands for the typed one: what C64, C65 and C71-C77 say holds of it. -/
theorem C78_bytes_to_values {api : Api} {self : String} {time : UInt64} {addr : Helpers.AddrApi} {codes : Wasmd.Codes}
    {taken : String → Bool} {h : List (ROOp × List CosmosMsg)} {w : ROWorld}
    (he : ROExec api (ROWorld.genesis self time addr codes taken) h w) :
    ∃ h' o, OExec api (OWorld.genesis self time addr codes taken) h' o ∧
      List.Forall₂ (fun x y => Means x.1 y.1 ∧ x.2 = y.2) h h' ∧ Same w o := by
  induction he with
  | nil => exact ⟨_, _, .nil, .nil, genesis_same ..⟩
  | step _ ha ih =>
    obtain ⟨h', o, h1, h2, h3⟩ := ih
    obtain ⟨op', o', h4, h5, h6⟩ := forward h3 ha
    exact ⟨_, o', .step h1 h5, forall₂_snoc h2 ⟨h4, rfl⟩, h6⟩

/-- **C78** (values to bytes). And every history of `Spec/OwnerWorld` happens on bytes, whatever texts spell its messages. -/
theorem C78_values_to_bytes {api : Api} {self : String} {time : UInt64} {addr : Helpers.AddrApi} {codes : Wasmd.Codes}
    {taken : String → Bool} {h' : List (OOp × List CosmosMsg)} {o : OWorld}
    (he : OExec api (OWorld.genesis self time addr codes taken) h' o) {h : List (ROOp × List CosmosMsg)}
    (hh : List.Forall₂ (fun x y => Means x.1 y.1 ∧ x.2 = y.2) h h') :
    ∃ w, ROExec api (ROWorld.genesis self time addr codes taken) h w ∧ Same w o := by
  induction he generalizing h with
  | nil => cases hh; exact ⟨_, .nil, genesis_same ..⟩
  | @step h1 o o' op ms hx ha ih =>
    obtain ⟨l, ⟨op0, ms0⟩, rfl, hl, hm, rfl⟩ := of_forall₂_snoc hh
    obtain ⟨w, h2, h3⟩ := ih hl
    obtain ⟨w', h4, h5⟩ := backward h3 hm ha (by
      rintro sender bytes ok rfl
      cases hm
      rw [h3.live]
      exact live_of_exec (oinv_exec hx (oinv_genesis ..)) ha)
    exact ⟨w', .step h2 h4, h5⟩

/-! ## C79 -/

/-- In the history the controller at `a` made no call that is a callback about an open channel. -/
def ToldNothing (h : List (ROOp × List CosmosMsg)) (a : String) : Prop :=
  ∀ bytes ok ms ch x e, (ROOp.execute a bytes ok, ms) ∈ h → ¬ Spells OwnerCallback bytes (.onChannelOpenAckCallback ch x e)

/-- What the controller at `a` last told the owner contract in a history: what its last call that is a callback about an open
channel said, if there is one. -/
def LastTold (h : List (ROOp × List CosmosMsg)) (a : String) : Option (IbcChannel × String × TxEncoding) → Prop
  | none => ToldNothing h a
  | some (ch, x, e) => ∃ h1 bytes ok ms h2, h = h1 ++ (.execute a bytes ok, ms) :: h2 ∧
      Spells OwnerCallback bytes (.onChannelOpenAckCallback ch x e) ∧ ToldNothing h2 a

theorem toldNothing_append {h h' : List (ROOp × List CosmosMsg)} {a : String} :
    ToldNothing (h ++ h') a ↔ ToldNothing h a ∧ ToldNothing h' a := by
  simp only [ToldNothing, List.mem_append]
  constructor
  · intro k
    exact ⟨fun b ok ms ch x e hm => k b ok ms ch x e (.inl hm), fun b ok ms ch x e hm => k b ok ms ch x e (.inr hm)⟩
  · rintro ⟨k1, k2⟩ b ok ms ch x e (hm | hm)
    · exact k1 b ok ms ch x e hm
    · exact k2 b ok ms ch x e hm

theorem lastTold_append {h h' : List (ROOp × List CosmosMsg)} {a : String} {t : Option (IbcChannel × String × TxEncoding)}
    (k : LastTold h a t) (k' : ToldNothing h' a) : LastTold (h ++ h') a t := by
  cases t with
  | none => exact toldNothing_append.mpr ⟨k, k'⟩
  | some t =>
    obtain ⟨ch, x, e⟩ := t
    obtain ⟨h1, b, ok, ms, h2, rfl, hs, hn⟩ := k
    exact ⟨h1, b, ok, ms, h2 ++ h', by simp, hs, toldNothing_append.mpr ⟨hn, k'⟩⟩

/-- What is stored of what a controller told. -/
def toldOf (s : IcaContractState) : Option (IbcChannel × String × TxEncoding) :=
  s.icaState.map fun i => (i.channelState.channel, i.icaAddr, i.txEncoding)

theorem registry_told {api : Api} {self : String} {time : UInt64} {addr : Helpers.AddrApi} {codes : Wasmd.Codes}
    {taken : String → Bool} {h : List (ROOp × List CosmosMsg)} {w : ROWorld}
    (he : ROExec api (ROWorld.genesis self time addr codes taken) h w) :
    ∃ o, Same w o ∧ OInv o ∧ (∀ id s, o.store.icaStates id = some s → LastTold h s.contractAddr (toldOf s)) ∧
      (∀ a, o.store.addrToId a = none → ToldNothing h a) ∧
      ∀ st, o.store.state = some st → ∃ sender bytes msg ms, (ROOp.instantiate sender bytes, ms) ∈ h ∧
        Spells OwnerInstantiate bytes msg ∧ st = ⟨msg.admin.getD sender, msg.codeId⟩ := by
  induction he with
  | nil =>
    exact ⟨_, genesis_same .., oinv_genesis .., fun _ _ e => (by cases e), fun a _ _ _ _ _ _ _ hm => (by cases hm),
      fun _ e => (by cases e)⟩
  | @step h w w' op ms hx ha ih =>
    obtain ⟨o, h1, h2, h3, h4, h5⟩ := ih
    obtain ⟨op', o', h6, h7, h8⟩ := forward h1 ha
    refine ⟨o', h8, oinv_step h2 h7, ?_⟩
    have quiet : ∀ a, (∀ bytes ok, op ≠ .execute a bytes ok) → ToldNothing [(op, ms)] a := by
      intro a hne bytes ok ms' ch x e hm
      simp only [List.mem_singleton, Prod.mk.injEq] at hm
      exact absurd hm.1.symm (hne bytes ok)
    have keep : o'.store = o.store → (∀ a, ToldNothing [(op, ms)] a) →
        (∀ id s, o'.store.icaStates id = some s → LastTold (h ++ [(op, ms)]) s.contractAddr (toldOf s)) ∧
        (∀ a, o'.store.addrToId a = none → ToldNothing (h ++ [(op, ms)]) a) ∧
        ∀ st, o'.store.state = some st → ∃ sender bytes msg ms', (ROOp.instantiate sender bytes, ms') ∈ h ++ [(op, ms)] ∧
          Spells OwnerInstantiate bytes msg ∧ st = ⟨msg.admin.getD sender, msg.codeId⟩ := by
      intro e q
      rw [e]
      refine ⟨fun id s hs => lastTold_append (h3 id s hs) (q _), fun a hn => toldNothing_append.mpr ⟨h4 a hn, q _⟩, fun st hs => ?_⟩
      obtain ⟨sender, bytes, msg, ms', hm, k⟩ := h5 st hs
      exact ⟨sender, bytes, msg, ms', List.mem_append_left _ hm, k⟩
    cases h6 with
    | block t =>
      obtain ⟨rfl, rfl⟩ := Prod.mk.inj (Option.some.inj h7)
      exact keep rfl fun a => quiet a (fun _ _ e => by cases e)
    | elsewhere t =>
      obtain ⟨rfl, rfl⟩ := Prod.mk.inj (Option.some.inj h7)
      exact keep rfl fun a => quiet a (fun _ _ e => by cases e)
    | upload c k =>
      have hst : o'.store = o.store := by
        unfold applyO at h7
        dsimp only at h7
        split at h7
        · cases h7
        · obtain ⟨rfl, rfl⟩ := Prod.mk.inj (Option.some.inj h7); rfl
      exact keep hst fun a => quiet a (fun _ _ e => by cases e)
    | @instantiate sender bytes msg hsp =>
      have hst : o'.store = { o.store with state := some ⟨msg.admin.getD sender, msg.codeId⟩ } := by
        unfold applyO at h7
        dsimp only at h7
        split at h7
        · cases h7
        · unfold Owner.instantiate at h7
          cases hm : msg.admin with
          | none => rw [hm] at h7; obtain ⟨rfl, rfl⟩ := Prod.mk.inj (Option.some.inj h7); rfl
          | some a =>
            rw [hm] at h7
            dsimp only at h7
            unfold addrValidate at h7
            by_cases hb : api.validAddr a
            · simp only [hb, if_true] at h7
              obtain ⟨rfl, rfl⟩ := Prod.mk.inj (Option.some.inj h7); rfl
            · simp only [hb] at h7
              cases h7
      rw [hst]
      have q : ∀ a, ToldNothing [(ROOp.instantiate sender bytes, ms)] a := fun a => quiet a (fun _ _ e => by cases e)
      refine ⟨fun id s hs => lastTold_append (h3 id s hs) (q _), fun a hn => toldNothing_append.mpr ⟨h4 a hn, q _⟩, fun st hs => ?_⟩
      obtain rfl := Option.some.inj hs
      exact ⟨sender, bytes, msg, ms, List.mem_append_right _ (List.mem_singleton_self _), hsp, rfl⟩
    | execute sender bytes ok =>
      have hother : ∀ a, a ≠ sender → ToldNothing [(ROOp.execute sender bytes ok, ms)] a := fun a ha =>
        quiet a (fun _ _ e => by cases e; exact ha rfl)
      have hnot : (∀ ch x e, (jsonOfBytes bytes).bind (decodeEnum execVariants) ≠ some (.inr (.onChannelOpenAckCallback ch x e))) →
          ∀ a, ToldNothing [(ROOp.execute sender bytes ok, ms)] a := by
        intro hd a b' ok' ms' ch x e hm
        simp only [List.mem_singleton, Prod.mk.injEq, ROOp.execute.injEq] at hm
        obtain ⟨⟨_, rfl, _⟩, _⟩ := hm
        exact fun hs => hd ch x e (Owner.callback_decodes.mpr hs)
      have hinst : ∀ st, o.store.state = some st → ∃ sender' bytes' msg ms',
          (ROOp.instantiate sender' bytes', ms') ∈ h ++ [(ROOp.execute sender bytes ok, ms)] ∧
          Spells OwnerInstantiate bytes' msg ∧ st = ⟨msg.admin.getD sender', msg.codeId⟩ := by
        intro st hs
        obtain ⟨sender', bytes', msg, ms', hm, k⟩ := h5 st hs
        exact ⟨sender', bytes', msg, ms', List.mem_append_left _ hm, k⟩
      rcases exec_ok h7 with ⟨st, m, ad, op, label, salt, ⟨sl, hdec, _⟩, k1, k2, k3, kt, k4, rfl, rfl⟩ |
        ⟨st, ica, i, dst, hdec, k1, k2, k3, rfl, rfl⟩ | ⟨m, id, ica, hdec, k2, k3, rfl, k4⟩
      · have q := hnot (fun ch x e hh => by rw [hdec] at hh; cases hh)
        refine ⟨fun id s hs => ?_, fun a hn => ?_, hinst⟩
        · dsimp only at hs
          split at hs
          · obtain rfl := Option.some.inj hs
            have hfresh : o.store.addrToId ad = none := by
              cases hf : o.store.addrToId ad with
              | none => rfl
              | some j =>
                obtain ⟨c, hc, e⟩ := (h2.ids ad j).mp hf
                have := (h2.each c (List.mem_of_getElem? hc)).1
                rw [e, kt] at this
                cases this
            exact (toldNothing_append.mpr ⟨h4 ad hfresh, q _⟩ : LastTold _ _ none)
          · exact lastTold_append (h3 id s hs) (q _)
        · dsimp only at hn
          split at hn
          · cases hn
          · exact toldNothing_append.mpr ⟨h4 a hn, q _⟩
      · exact keep rfl (hnot (fun ch x e hh => by rw [hdec] at hh; cases hh))
      · have haddr : ica.contractAddr = sender := by
          obtain ⟨c, hc, e⟩ := (h2.ids sender id).mp k2
          have := h2.states id
          rw [k3, hc] at this
          rw [← e]
          exact Option.some.inj this
        rcases k4 with ⟨ch, a, e, rfl, rfl⟩ | ⟨k4, rfl⟩
        · refine ⟨fun j s hs => ?_, fun b hn => ?_, hinst⟩
          · dsimp only at hs
            split at hs
            · obtain rfl := Option.some.inj hs
              refine ⟨h, bytes, ok, [], [], ?_, ?_, ?_⟩
              · rw [← haddr]
              · exact Owner.callback_decodes.mp hdec
              · exact fun _ _ _ _ _ _ hm => by cases hm
            · next hne =>
              have hsa : s.contractAddr ≠ sender := by
                intro e2
                have e3 := h2.states j
                rw [hs] at e3
                obtain ⟨c, hc, e4⟩ := Option.map_eq_some_iff.mp e3.symm
                have := (h2.ids sender j).mpr ⟨c, hc, by rw [e4]; exact e2⟩
                rw [k2] at this
                exact hne (Option.some.inj this).symm
              exact lastTold_append (h3 j s hs) (hother _ hsa)
          · have hb : b ≠ sender := by
              rintro rfl
              dsimp only at hn
              rw [k2] at hn
              cases hn
            exact toldNothing_append.mpr ⟨h4 b hn, hother _ hb⟩
        · exact keep rfl (hnot (fun ch x e hh => by
            rw [hdec] at hh
            exact k4 ch x e (Sum.inr.inj (Option.some.inj hh))))

/-- The answer to a query from the typed store. -/
def typedQuery (s : Owner.Store) : Owner.QueryMsg → Res Bytes
  | .getContractState => (Ica.load s.state).bind fun x => .ok (Owner.State.jc.toBytes x)
  | .getIcaContractState id => (Ica.load (s.icaStates id)).bind fun x => .ok (IcaContractState.jc.toBytes x)
  | .getIcaCount => (Ica.load s.icaCount).bind fun x => .ok (jcU64.toBytes x)

theorem query_runs {w : ROWorld} {o : OWorld} (h : Same w o) {q : Bytes} {m : Owner.QueryMsg} (hq : Spells OwnerQuery q m) :
    vmQuery q w.raw = typedQuery o.store m := by
  unfold vmQuery
  rw [Owner.query_decodes.mpr hq]
  cases m with
  | getContractState =>
    simp only [RawOwner.query, Raw.bind_eq, Raw.Item.load_of_holds h.store.state]
    unfold typedQuery; dsimp only; cases o.store.state <;> rfl
  | getIcaContractState id =>
    simp only [RawOwner.query, Raw.bind_eq, load_of_holds (h.store.states id)]
    unfold typedQuery; dsimp only; cases o.store.icaStates id <;> rfl
  | getIcaCount =>
    simp only [RawOwner.query, Raw.bind_eq, Raw.Item.load_of_holds h.store.count]
    unfold typedQuery; dsimp only; cases o.store.icaCount <;> rfl

/-- **C79** (`get_contract_state`). After any history in which the contract was instantiated, every text of the query is
answered with the admin and the code given then. -/
theorem C79_contract_state {api : Api} {self : String} {time : UInt64} {addr : Helpers.AddrApi} {codes : Wasmd.Codes}
    {taken : String → Bool} {h : List (ROOp × List CosmosMsg)} {w : ROWorld}
    (he : ROExec api (ROWorld.genesis self time addr codes taken) h w) {q : Bytes}
    (hq : Spells OwnerQuery q .getContractState) :
    (∃ sender bytes msg ms b, (ROOp.instantiate sender bytes, ms) ∈ h ∧ Spells OwnerInstantiate bytes msg ∧
      vmQuery q w.raw = .ok b ∧ Written (· = ownerStateJson (msg.admin.getD sender) msg.codeId) b) ∨
    ((∀ sender bytes ms, (ROOp.instantiate sender bytes, ms) ∉ h) ∧ ∃ e, vmQuery q w.raw = .err e) := by
  obtain ⟨o, h1, h2, _, _, h5⟩ := registry_told he
  rw [query_runs h1 hq]
  unfold typedQuery
  dsimp only
  cases hs : o.store.state with
  | some st =>
    obtain ⟨sender, bytes, msg, ms, hm, hsp, rfl⟩ := h5 st hs
    exact .inl ⟨sender, bytes, msg, ms, _, hm, hsp, rfl, written _ _ rfl⟩
  | none =>
    refine .inr ⟨fun sender bytes ms hm => ?_, _, rfl⟩
    have hlive : w.live = false := by rw [h1.live, hs]; rfl
    have key : ∀ {h : List (ROOp × List CosmosMsg)} {w : ROWorld},
        ROExec api (ROWorld.genesis self time addr codes taken) h w → (ROOp.instantiate sender bytes, ms) ∈ h → w.live = true := by
      intro h w he hm
      induction he with
      | nil => cases hm
      | @step h w w' op ms' hx ha ih =>
        have mono : w.live = true → w'.live = true := by
          obtain ⟨o, g1, _⟩ := registry_told hx
          obtain ⟨op', o', g2, g3, g4⟩ := forward g1 ha
          rw [g1.live, g4.live]
          intro hs
          obtain ⟨st, hst⟩ := Option.isSome_iff_exists.mp hs
          rw [(C64_only_admin g3).2 st hst]
          rfl
        rcases List.mem_append.mp hm with hm | hm
        · exact mono (ih hm)
        · simp only [List.mem_singleton, Prod.mk.injEq] at hm
          obtain ⟨rfl, _⟩ := hm
          unfold applyRO at ha
          dsimp only at ha
          split at ha
          · cases ha
          · split at ha
            · obtain ⟨rfl, _⟩ := Prod.mk.inj (Option.some.inj ha); rfl
            · cases ha
    rw [key he hm] at hlive
    cases hlive

/-- **C79** (`get_ica_count`). The answer is the number of controllers created; before the first one the query fails. -/
theorem C79_ica_count {api : Api} {self : String} {time : UInt64} {addr : Helpers.AddrApi} {codes : Wasmd.Codes}
    {taken : String → Bool} {h : List (ROOp × List CosmosMsg)} {w : ROWorld}
    (he : ROExec api (ROWorld.genesis self time addr codes taken) h w) {q : Bytes}
    (hq : Spells OwnerQuery q .getIcaCount) :
    (w.created = [] → ∃ e, vmQuery q w.raw = .err e) ∧
    (w.created ≠ [] → ∃ b, vmQuery q w.raw = .ok b ∧ Written (· = .num w.created.length) b) := by
  obtain ⟨h', o, g1, _, g3⟩ := C78_bytes_to_values he
  have hv := oinv_exec g1 (oinv_genesis ..)
  have hc : o.created = w.created := by rw [g3.rest]
  have some_iff : ∀ {h' : List (OOp × List CosmosMsg)} {o : OWorld},
      OExec api (OWorld.genesis self time addr codes taken) h' o → (o.store.icaCount = none ↔ o.created = []) := by
    intro h' o he
    induction he with
    | nil => exact ⟨fun _ => rfl, fun _ => rfl⟩
    | @step h o o' op ms hx ha ih =>
      cases op with
      | block t => obtain ⟨rfl, _⟩ := Prod.mk.inj (Option.some.inj ha); exact ih
      | elsewhere t => obtain ⟨rfl, _⟩ := Prod.mk.inj (Option.some.inj ha); exact ih
      | upload c k =>
        unfold applyO at ha
        dsimp only at ha
        split at ha
        · cases ha
        · obtain ⟨rfl, _⟩ := Prod.mk.inj (Option.some.inj ha); exact ih
      | instantiate sender msg =>
        unfold applyO at ha
        dsimp only at ha
        split at ha
        · cases ha
        · split at ha
          · next s' _ hi =>
            obtain ⟨rfl, _⟩ := Prod.mk.inj (Option.some.inj ha)
            have : s'.icaCount = o.store.icaCount := by
              unfold Owner.instantiate at hi
              split at hi
              · cases hv : addrValidate api ‹_› with
                | ok b => rw [hv] at hi; cases hi; rfl
                | err e => rw [hv] at hi; cases hi
                | panic e => rw [hv] at hi; cases hi
              · cases hi; rfl
            dsimp only
            rw [this]
            exact ih
          · cases ha
      | execute sender bytes ok =>
        rcases exec_ok ha with ⟨st, m, ad, op, label, salt, hdec, k1, k2, k3, kt, k4, rfl, rfl⟩ |
          ⟨st, ica, i, dst, hdec, k1, k2, k3, rfl, rfl⟩ | ⟨m, id, ica, hdec, k2, k3, rfl, k4⟩
        · simp
        · exact ih
        · rcases k4 with ⟨ch, a, e, rfl, rfl⟩ | ⟨k4, rfl⟩ <;> exact ih
  have hiff := some_iff g1
  rw [hc] at hiff
  rw [query_runs g3 hq]
  unfold typedQuery
  dsimp only
  constructor
  · intro e
    rw [hiff.mpr e]
    exact ⟨_, rfl⟩
  · intro e
    cases hn : o.store.icaCount with
    | none => exact absurd (hiff.mp hn) e
    | some n =>
      refine ⟨_, rfl, written _ _ ?_⟩
      have := hv.len
      rw [hn, hc] at this
      rw [this]
      rfl

/-- **C79** (`get_ica_contract_state`). The answer for an id is the address of the controller created with it and what that
controller last told the owner contract about an open channel (`null` if nothing); there is no answer for other ids. -/
theorem C79_ica_contract_state {api : Api} {self : String} {time : UInt64} {addr : Helpers.AddrApi} {codes : Wasmd.Codes}
    {taken : String → Bool} {h : List (ROOp × List CosmosMsg)} {w : ROWorld}
    (he : ROExec api (ROWorld.genesis self time addr codes taken) h w) {q : Bytes} {id : UInt64}
    (hq : Spells OwnerQuery q (.getIcaContractState id)) :
    match w.created[id.toNat]? with
    | some c => ∃ b told, LastTold h c.addr told ∧ vmQuery q w.raw = .ok b ∧ Written (· = registryJson c.addr id told) b
    | none => ∃ e, vmQuery q w.raw = .err e := by
  obtain ⟨o, h1, h2, h3, _, _⟩ := registry_told he
  have hc : o.created = w.created := by rw [h1.rest]
  have hst := h2.states id
  rw [hc] at hst
  rw [query_runs h1 hq]
  unfold typedQuery
  dsimp only
  cases hg : w.created[id.toNat]? with
  | none =>
    rw [hg] at hst
    cases hs : o.store.icaStates id with
    | none => exact ⟨_, rfl⟩
    | some s => rw [hs] at hst; cases hst
  | some c =>
    rw [hg] at hst
    cases hs : o.store.icaStates id with
    | none => rw [hs] at hst; cases hst
    | some s =>
      rw [hs] at hst
      have ha : s.contractAddr = c.addr := Option.some.inj hst
      refine ⟨_, toldOf s, ha ▸ h3 id s hs, rfl, written _ _ ?_⟩
      obtain ⟨a, i⟩ := s
      cases i with
      | none => rw [← ha]; rfl
      | some i =>
        obtain ⟨e1, e2⟩ := h2.own id _ i hs rfl
        obtain ⟨iid, iad, ienc, ⟨ich, ist⟩⟩ := i
        dsimp only at e1 e2
        subst e1 e2
        rw [← ha]
        cases ienc <;> obtain ⟨_, _, o, _, _⟩ := ich <;> cases o <;> rfl

/-- **C79.** What is not the text of a query is refused. -/
theorem C79_refuses {q : Bytes} (hq : ∀ m, ¬ Spells OwnerQuery q m) (raw : Raw.RawStore) : ∃ e, vmQuery q raw = .err e := by
  unfold vmQuery
  cases hd : (jsonOfBytes q).bind Owner.QueryMsg.dec with
  | none => exact ⟨_, rfl⟩
  | some m => exact absurd (Owner.query_decodes.mp hd) (hq m)

/-! ## C80 -/

theorem bytes_decode {α : Type} {dec : Json → Option α} {r : Json → Prop} {x : α} (h : ∀ j, dec j = some x ↔ r j) {bytes : Bytes} :
    (jsonOfBytes bytes).bind dec = some x ↔ Written r bytes := by
  unfold jsonOfBytes Written
  rw [Option.bind_eq_some_iff]
  constructor
  · rintro ⟨j, h1, h2⟩
    obtain ⟨t, h3, h4⟩ := Option.bind_eq_some_iff.mp h1
    exact ⟨t, j, (utf8_of_ofUtf8 h3).symm, C67_reads_json.mp h4, (h j).mp h2⟩
  · rintro ⟨t, j, rfl, h1, h2⟩
    exact ⟨j, by rw [ofUtf8_utf8]; exact C67_reads_json.mpr h1, (h j).mpr h2⟩

/-- **C80** (the macro). A contract whose message enum is extended by the macro, on an enum without a variant that would
clash, reads as a callback exactly the texts that are documented callbacks, and as that callback. -/
theorem C80_macro_reads {ρ : Type} {vs : List (Variant ρ)} {new : List (Variant (ρ ⊕ CallbackMsg))}
    (h : icaCallbackExecute [] (.enum vs) = some new) (hn : ∀ x ∈ vs, snakeCase x.ident ≠ "receive_ica_callback")
    {bytes : Bytes} {m : CallbackMsg} :
    (jsonOfBytes bytes).bind (decodeEnum new) = some (.inr m) ↔ Spells CallbackCall bytes (.receiveIcaCallback m) := by
  refine bytes_decode (r := (CallbackCall · (.receiveIcaCallback m))) fun j => ?_
  constructor
  · intro hd
    by_cases hj : ∃ v, j = .obj [("receive_ica_callback", v)]
    · obtain ⟨v, rfl⟩ := hj
      rw [(merge_find h _).1 v rfl hn] at hd
      obtain ⟨m', h1, h2⟩ := Option.map_eq_some_iff.mp hd
      cases h2
      exact ⟨v, rfl, (CallbackMsg_reads _ _).mp h1⟩
    · rw [(merge_find h _).2 (fun v e => hj ⟨v, e⟩)] at hd
      obtain ⟨m', h1, h2⟩ := Option.map_eq_some_iff.mp hd
      cases h2
  · rintro ⟨v, rfl, hv⟩
    rw [(merge_find h _).1 v rfl hn, (CallbackMsg_reads _ _).mpr hv]
    rfl

/-- **C80** (without the `query` feature). The owner contract reads as a callback exactly the texts that are documented
callbacks, whatever their query result. -/
theorem C80_owner_reads {bytes : Bytes} {m : CallbackMsg} :
    (jsonOfBytes bytes).bind (decodeEnum Owner.execVariants) = some (.inr m) ↔ Spells OwnerCallback bytes m :=
  Owner.callback_decodes

/-- The callback counter called with texts, by whomever: calls that fail change nothing. -/
def callAll : List Bytes → Raw.RawStore → Raw.RawStore
  | [], raw => raw
  | b :: bs, raw => callAll bs (match Counter.execute b raw with
    | (.ok _, raw') => raw'
    | _ => raw)

/-- What a text is as a callback. -/
def MeansCallback (b : Bytes) : Option CallbackMsg → Prop
  | some m => Spells CallbackCall b (.receiveIcaCallback m)
  | none => ∀ m, ¬ Spells CallbackCall b (.receiveIcaCallback m)

theorem counter_step {raw : Raw.RawStore} {c : CallbackCounter} (h : Counter.CALLBACK_COUNTER.Holds raw (some c)) {b : Bytes}
    {o : Option CallbackMsg} (hb : MeansCallback b o) : Counter.CALLBACK_COUNTER.Holds (match Counter.execute b raw with
      | (.ok _, raw') => raw'
      | _ => raw) (some (c.told o.toList)) := by
  cases o with
  | some m =>
    obtain ⟨raw', h1, h2⟩ := Counter.exec_one h m
    have e : Counter.execute b raw = Counter.execute m.intoJsonBinary raw := by
      have h3 : (jsonOfBytes b).bind (decodeEnum Counter.execVariants) = some (.inr m) :=
        (C80_macro_reads (vs := []) rfl (fun _ hx => by cases hx)).mpr hb
      have h4 : (jsonOfBytes m.intoJsonBinary).bind (decodeEnum Counter.execVariants) = some (.inr m) :=
        C61_reads_callbacks (vs := []) rfl (fun x hx => by cases hx) m
      unfold Counter.execute
      rw [h3, h4]
    rw [e, h1]
    exact h2
  | none =>
    have hd : ∀ m, (jsonOfBytes b).bind (decodeEnum Counter.execVariants) ≠ some (.inr m) := fun m e =>
      hb m ((C80_macro_reads (vs := []) rfl (fun _ hx => by cases hx)).mp e)
    have he : ∃ e, Counter.execute b raw = (.err e, raw) := by
      unfold Counter.execute
      cases hx : (jsonOfBytes b).bind (decodeEnum Counter.execVariants) with
      | none => exact ⟨_, rfl⟩
      | some y =>
        cases y with
        | inl y => cases y
        | inr m => exact absurd hx (hd m)
    obtain ⟨e, he⟩ := he
    rw [he]
    simpa [CallbackCounter.told] using h

theorem counter_all : ∀ {bs : List Bytes} {os : List (Option CallbackMsg)} {raw : Raw.RawStore} {c : CallbackCounter},
    Counter.CALLBACK_COUNTER.Holds raw (some c) → List.Forall₂ MeansCallback bs os →
    Counter.CALLBACK_COUNTER.Holds (callAll bs raw) (some (c.told (os.filterMap fun x => x)))
  | [], [], raw, c, h, _ => by simpa [CallbackCounter.told, callAll] using h
  | b :: bs, o :: os, raw, c, h, hf => by
    cases hf with
    | cons h1 h2 =>
      have k := counter_all (counter_step h h1) h2
      rw [callAll]
      have e : (c.told o.toList).told (os.filterMap fun x => x) = c.told ((o :: os).filterMap fun x => x) := by
        cases o <;> simp [CallbackCounter.told, List.filter_cons]
        refine ⟨?_, ?_, ?_⟩ <;> split <;> simp
      rwa [e] at k

theorem counter_query_decodes {q : Bytes} : (jsonOfBytes q).bind Counter.queryDec = some () ↔ Spells CounterQuery q ⟨⟩ := by
  refine bytes_decode (r := (CounterQuery · ⟨⟩)) fun j => ?_
  constructor
  · intro h
    unfold Counter.queryDec at h
    split at h
    · split at h
      · next e =>
        subst e
        obtain ⟨fs, hg, -⟩ := Option.map_eq_some_iff.mp h
        obtain ⟨rfl, ho, -⟩ := getObj_closed.mp hg
        exact ⟨_, rfl, fs, rfl, ho, trivial⟩
      · cases h
    · cases h
  · rintro ⟨_, rfl, fs, rfl, ho, -⟩
    have hg : getObj true [] (.obj fs) = some fs := getObj_closed.mpr ⟨rfl, ho, by simp⟩
    simp [Counter.queryDec, hg]

/-- **C80** (the callback counter). Whatever texts it is called with, by anybody, after it was instantiated: every text of its
query is answered with exactly the callbacks among them, under their outcome and in order. -/
theorem C80_counter {i : Bytes} {raw0 raw1 : Raw.RawStore} {r : Response} (hi : Counter.vmInstantiate i raw0 = (.ok r, raw1))
    {bs : List Bytes} {os : List (Option CallbackMsg)} (hb : List.Forall₂ MeansCallback bs os) {q : Bytes}
    (hq : Spells CounterQuery q ⟨⟩) :
    let ms := os.filterMap fun x => x
    ∃ b, Counter.vmQuery q (callAll bs raw1) = (.ok b, callAll bs raw1) ∧
      Written (WritesCounter (ms.filter isSuccess) (ms.filter isError) (ms.filter isTimeout)) b := by
  have h1 : Counter.CALLBACK_COUNTER.Holds raw1 (some ⟨[], [], []⟩) := by
    unfold Counter.vmInstantiate at hi
    cases hx : (jsonOfBytes i).bind (getObj true []) with
    | none => rw [hx] at hi; cases hi
    | some y =>
      rw [hx] at hi
      dsimp only at hi
      unfold Counter.instantiate at hi
      rw [Raw.bind_eq] at hi
      obtain ⟨_, rfl⟩ := Prod.mk.inj hi
      exact Raw.Item.holds_set (i := Counter.CALLBACK_COUNTER) CallbackCounter.jc_law raw0 _
  have h2 := counter_all h1 hb
  have hd := counter_query_decodes.mpr hq
  refine ⟨_, ?_, written CallbackCounter.jc (CallbackCounter.told ⟨[], [], []⟩ (os.filterMap fun x => x)) ?_⟩
  · unfold Counter.vmQuery
    rw [hd]
    unfold Counter.query
    dsimp only
    rw [Raw.bind_eq, Raw.Item.load_of_holds h2]
    rfl
  · have one : ∀ l : List CallbackMsg, List.Forall₂ (fun m x => WritesCallback m (.obj [("receive_ica_callback", x)])) l
        (l.map CallbackMsg.jc.enc) := by
      intro l
      induction l with
      | nil => exact .nil
      | cons m l ih => exact .cons (writes_callback m) ih
    refine ⟨_, _, _, rfl, ?_, ?_, ?_⟩
    all_goals exact one _

/-- Every list of texts is covered. -/
theorem C80_counter_all (bs : List Bytes) : ∃ os, List.Forall₂ MeansCallback bs os := by
  induction bs with
  | nil => exact ⟨[], .nil⟩
  | cons b bs ih =>
    obtain ⟨os, h⟩ := ih
    by_cases hb : ∃ m, Spells CallbackCall b (.receiveIcaCallback m)
    · obtain ⟨m, hm⟩ := hb
      exact ⟨some m :: os, .cons hm h⟩
    · exact ⟨none :: os, .cons (fun m hm => hb ⟨m, hm⟩) h⟩

/-! ## Examples -/

theorem spells_of {α : Type} {c : JC α} {r : Api.Shape α} (hr : Reads c r) (hl : c.Law) (x : α) : Spells r (c.toBytes x) x :=
  ofBytes_iff hr |>.mp (JC.ofBytes_toBytes hl x)

/-- The texts of a history of typed messages, each spelled as the codec would. -/
theorem means_exists (op : OOp) : ∃ op', Means op' op := by
  cases op with
  | block t => exact ⟨_, .block t⟩
  | elsewhere t => exact ⟨_, .elsewhere t⟩
  | upload c k => exact ⟨_, .upload c k⟩
  | execute s b ok => exact ⟨_, .execute s b ok⟩
  | instantiate s m =>
    refine ⟨_, .instantiate (bytes := Owner.InstantiateMsg.jc.toBytes m) (spells_of OwnerInstantiate_reads ?_ m)⟩
    rintro ⟨a, c⟩
    simp [Owner.InstantiateMsg.jc, getObj, countKey, lookupKey, reqF, optF, jcU64_law _, jcOpt_law jcStr_law jcStr_nn _]

theorem means_all (h : List (OOp × List CosmosMsg)) : ∃ h' : List (ROOp × List CosmosMsg), List.Forall₂ (fun x y => Means x.1 y.1 ∧ x.2 = y.2) h' h := by
  induction h with
  | nil => exact ⟨[], .nil⟩
  | cons x h ih =>
    obtain ⟨h', k⟩ := ih
    obtain ⟨op, hm⟩ := means_exists x.1
    exact ⟨(op, x.2) :: h', .cons ⟨hm, rfl⟩ k⟩

/-- A history on bytes in which the owner contract is instantiated, creates a controller and is told by it of an open
channel; and texts of the three queries. -/
example : ∃ h w c, ROExec Ex.api (ROWorld.genesis "wasm1owner" 1700000000000000000 Ex.addrApi
      (fun n => if n = 7 then some (List.replicate 32 1) else none) (fun _ => false)) h w ∧ c ∈ w.created ∧
    (∃ ch x e, LastTold h c.addr (some (ch, x, e))) ∧
    Spells OwnerQuery (utf8 "{\"get_contract_state\":{}}") .getContractState ∧
    Spells OwnerQuery (utf8 "{ \"get_ica_contract_state\": {\"ica_id\":0}}") (.getIcaContractState 0) ∧
    Spells OwnerQuery (utf8 "{\"get_ica_count\":{}}") .getIcaCount := by
  obtain ⟨h0, w0, c, he, hc1⟩ := Ex.owner_creates
  have hc : c ∈ w0.created := by simp [hc1]
  obtain ⟨obs, bytes, hcm, hx⟩ : ∃ obs bytes, Commits Ex.api Ex.w1 (.relayOpenAck "channel-0" "channel-5" Ex.ver) Ex.w2 obs ∧
      ("cb", bytes, []) ∈ callsOf obs :=
    ⟨_, _, (apply_iff_step (inv_of_reachable Ex.r1)).2 Ex.s2, by simp [callsOf, callObs]; rfl⟩
  obtain ⟨w1, ha⟩ := C65_accepts_every_callback he hc hcm hx true
  have hm : ∃ ch x e, bytes = (CallbackMsg.onChannelOpenAckCallback ch x e).intoJsonBinary := by
    obtain ⟨ch, ica, _, _, _, b, hb, hd⟩ := C44_open_ack hcm (cb := "cb") rfl
    obtain ⟨m, e⟩ := notify_calls hcm rfl
    rw [callsOf_callObs, show callbackOf Ex.w1 = some "cb" from rfl] at e
    rw [hb] at e hx
    simp only [List.cons.injEq, Prod.mk.injEq, true_and, and_true] at e
    obtain rfl : bytes = b := by simpa using hx
    subst e
    rw [show ReceiverExecuteMsg.jc.ofBytes m.intoJsonBinary = some (.receiveIcaCallback m) from
      JC.ofBytes_toBytes ReceiverExecuteMsg.jc_law _] at hd
    obtain rfl : m = .onChannelOpenAckCallback ch ica.icaAddress ica.encoding := by simpa using hd
    exact ⟨_, _, _, rfl⟩
  obtain ⟨ch, x, e, rfl⟩ := hm
  obtain ⟨h', hh⟩ := means_all (h0 ++ [(.execute c.addr (CallbackMsg.onChannelOpenAckCallback ch x e).intoJsonBinary true, [])])
  obtain ⟨w, h1, h2⟩ := C78_values_to_bytes (.step he ha) hh
  obtain ⟨l, ⟨op0, ms0⟩, rfl, _, hm, rfl⟩ := of_forall₂_snoc hh
  cases hm
  have hcr : w.created = w0.created := by
    have : w1.created = w0.created := by
      rcases exec_ok ha with ⟨st, m, addr, o, label, salt, hdec, h1, h2, h3, ht, h4, hm, _⟩ |
        ⟨st, ica, i, dst, hdec, h1, h2, h3, _, hm⟩ | ⟨m, n, s, h1, h2, h3, _, h4⟩
      · cases hm
      · cases hm
      · rcases h4 with ⟨_, _, _, _, rfl⟩ | ⟨_, rfl⟩ <;> rfl
    rw [← this, h2.rest]
  refine ⟨_, w, c, h1, hcr ▸ hc, ⟨ch, x, e, l, _, true, [], [], rfl, ?_, ?_⟩, ?_, ?_, ?_⟩
  · exact Owner.callback_decodes.mp (decode_callback (.onChannelOpenAckCallback ch x e))
  · exact fun _ _ _ _ _ _ hm => by cases hm
  all_goals exact Owner.query_decodes.mp (by decide +kernel)

/-- A text that is no query. -/
example : ∀ m, ¬ Spells OwnerQuery (utf8 "{\"get_ica_count\":{\"x\":1}}") m := by
  intro m hm
  have := Owner.query_decodes.mpr hm
  rw [show (jsonOfBytes (utf8 "{\"get_ica_count\":{\"x\":1}}")).bind Owner.QueryMsg.dec = none from by decide +kernel] at this
  cases this

/-- The callback counter is instantiated and queried. -/
example : (∃ r raw, Counter.vmInstantiate (utf8 "{}") (fun _ => none) = (.ok r, raw)) ∧
    Spells CounterQuery (utf8 "{\"get_callback_counter\":{}}") ⟨⟩ := by
  refine ⟨?_, _, .obj [("get_callback_counter", .obj [])], rfl, C67_writes_json _, _, rfl, [], rfl, by simp, trivial⟩
  obtain ⟨x, hx⟩ : ∃ x, (jsonOfBytes (utf8 "{}")).bind (getObj true []) = some x :=
    Option.isSome_iff_exists.mp (by decide +kernel)
  unfold Counter.vmInstantiate
  rw [hx]
  exact ⟨_, _, rfl⟩

end Ica
