import Verif.Spec.RawStore
import Verif.Facts.Handlers

/-!
# The handlers on raw storage do what the typed handlers do

Helper lemmas: raw keys are distinct, and every entry point of `Model/RawStore.lean` agrees with the one of
`Model/Contract.lean`.
-/
namespace Ica.Raw

/-! ## Keys -/

theorem ofNat8_eq {a b : Nat} (h : UInt8.ofNat a = UInt8.ofNat b) : a % 256 = b % 256 := by
  have := congrArg UInt8.toNat h
  simpa [UInt8.toNat_ofNat'] using this

theorem be16_inj {a b : Nat} (ha : a ≤ 65535) (hb : b ≤ 65535) (h : be16 a = be16 b) : a = b := by
  simp only [be16, List.cons.injEq, and_true] at h
  have h1 := ofNat8_eq h.1
  have h2 := ofNat8_eq h.2
  omega

theorem be64_inj {a b : UInt64} (h : be64 a = be64 b) : a = b := by
  simp only [be64, List.cons.injEq, and_true] at h
  obtain ⟨h1, h2, h3, h4, h5, h6, h7, h8⟩ := h
  have h1 := ofNat8_eq h1
  have h2 := ofNat8_eq h2
  have h3 := ofNat8_eq h3
  have h4 := ofNat8_eq h4
  have h5 := ofNat8_eq h5
  have h6 := ofNat8_eq h6
  have h7 := ofNat8_eq h7
  have h8 := ofNat8_eq h8
  have ha := a.toNat_lt
  have hb := b.toNat_lt
  apply UInt64.toNat_inj.1
  omega

theorem be64_length (n : UInt64) : (be64 n).length = 8 := rfl

theorem mapKey_ok {ns c : String} {n : UInt64} {k : Bytes} (h : mapKey ns c n = .ok k) :
    (utf8 ns).length ≤ 65535 ∧ Short c ∧ k = prefixed (utf8 ns) ++ prefixed (utf8 c) ++ be64 n := by
  unfold mapKey at h
  split at h
  · cases h
  · rename_i hc
    cases h
    exact ⟨by omega, by unfold Short; omega, rfl⟩

theorem mapKey_short {ns c : String} {n : UInt64} (hn : (utf8 ns).length ≤ 65535) (h : Short c) :
    mapKey ns c n = .ok (prefixed (utf8 ns) ++ prefixed (utf8 c) ++ be64 n) := by
  unfold mapKey
  rw [if_neg]
  unfold Short at h
  omega

/-- Different (channel, sequence) pairs have different raw keys. -/
theorem mapKey_inj {ns c c' : String} {n n' : UInt64} {k : Bytes} (h : mapKey ns c n = .ok k)
    (h' : mapKey ns c' n' = .ok k) : c = c' ∧ n = n' := by
  obtain ⟨h1, h2, h3⟩ := mapKey_ok h
  obtain ⟨_, h5, h6⟩ := mapKey_ok h'
  rw [h3] at h6
  simp only [prefixed, be16, List.append_assoc, List.cons_append, List.nil_append, List.cons.injEq] at h6
  obtain ⟨-, -, h6⟩ := h6
  have h6 := List.append_cancel_left h6
  simp only [List.cons.injEq] at h6
  obtain ⟨h7, h8, h9⟩ := h6
  have hl : (utf8 c).length = (utf8 c').length :=
    be16_inj h2 h5 (by simp only [be16, List.cons.injEq, and_true]; exact ⟨h7, h8⟩)
  have := List.append_inj h9 hl
  exact ⟨utf8_inj this.1, be64_inj this.2⟩

theorem ns_short : (utf8 PENDING_QUERIES.ns).length ≤ 65535 := by decide +kernel

theorem mapKey_head {c : String} {n : UInt64} {k : Bytes} (h : mapKey PENDING_QUERIES.ns c n = .ok k) :
    k.head? = some 0 := by
  obtain ⟨_, _, rfl⟩ := mapKey_ok h
  have : (utf8 PENDING_QUERIES.ns).length = 15 := by decide +kernel
  simp [prefixed, be16, this]

/-! ## Reading and writing -/

theorem Item.holds_iff {α : Type} {i : Item α} {raw : RawStore} {o : Option α} :
    i.Holds raw o ↔ i.mayLoad raw = (.ok o, raw) := by
  unfold Item.Holds Item.mayLoad
  cases raw (utf8 i.key) with
  | none => cases o <;> simp
  | some b =>
    cases o with
    | none => simp only [false_iff]; cases i.jc.ofBytes b <;> simp
    | some x => simp only; cases i.jc.ofBytes b <;> simp

theorem Item.load_of_holds {α : Type} {i : Item α} {raw : RawStore} {o : Option α} (h : i.Holds raw o) :
    i.load raw = (Ica.load o, raw) := by
  unfold Item.Holds at h
  unfold Item.load Ica.load
  cases hr : raw (utf8 i.key) with
  | none => cases o <;> simp_all
  | some b => cases o <;> simp_all

theorem Item.holds_set {α : Type} {i : Item α} (law : i.jc.Law) (raw : RawStore) (x : α) :
    i.Holds (setKey raw (utf8 i.key) (some (i.jc.toBytes x))) (some x) := by
  simp [Item.Holds, setKey, JC.ofBytes_toBytes law]

theorem Item.holds_unset {α : Type} {i : Item α} (raw : RawStore) : i.Holds (setKey raw (utf8 i.key) none) none := by
  simp [Item.Holds, setKey]

theorem Item.holds_ne {α : Type} {i : Item α} {raw : RawStore} {o : Option α} (h : i.Holds raw o) {k : Bytes}
    {v : Option Bytes} (hk : utf8 i.key ≠ k) : i.Holds (setKey raw k v) o := by
  unfold Item.Holds at h ⊢
  simpa [setKey, hk] using h

theorem Map2.holds_ne {α : Type} {m : Map2 α} {raw : RawStore} {c : String} {n : UInt64} {o : Option α}
    (h : m.Holds raw c n o) {k : Bytes} {v : Option Bytes} (hk : ∀ k', mapKey m.ns c n = .ok k' → k' ≠ k) :
    m.Holds (setKey raw k v) c n o := by
  intro k' hk'
  have := h k' hk'
  simpa [setKey, hk k' hk'] using this

theorem Map2.mayLoad_of_holds {raw : RawStore} {c : String} {n : UInt64} {o : Option QueryPaths} (hs : Short c)
    (h : PENDING_QUERIES.Holds raw c n o) : PENDING_QUERIES.mayLoad c n raw = (.ok o, raw) := by
  have := h _ (mapKey_short ns_short hs)
  unfold Map2.mayLoad
  rw [mapKey_short ns_short hs]
  dsimp only
  revert this
  cases raw (prefixed (utf8 PENDING_QUERIES.ns) ++ prefixed (utf8 c) ++ be64 n) with
  | none => cases o <;> simp
  | some b => cases o <;> simp_all

theorem paths_law : QueryPaths.jc.Law := jcList_law (jcPair_law jcStr_law jcBool_law)

/-- Keys of items, as literals. -/
theorem item_ne {a b : String} (h : a ≠ b) : utf8 a ≠ utf8 b := fun e => h (utf8_inj e)

theorem item_head_ne {a : String} (h : (utf8 a).head? ≠ some 0) {c : String} {n : UInt64} {k : Bytes}
    (hk : mapKey PENDING_QUERIES.ns c n = .ok k) : k ≠ utf8 a := by
  rintro rfl
  exact h (mapKey_head hk)

section
set_option hygiene false in
/-- All other items keep their value, and so does the map. -/
local macro "keep" : tactic => `(tactic| (
  constructor
  all_goals first
    | exact Item.holds_ne h.version (item_ne (by decide))
    | exact Item.holds_ne h.ownership (item_ne (by decide))
    | exact Item.holds_ne h.state (item_ne (by decide))
    | exact Item.holds_ne h.channel (item_ne (by decide))
    | exact Item.holds_ne h.options (item_ne (by decide))
    | exact Item.holds_ne h.allowOpenInit (item_ne (by decide))
    | exact Item.holds_ne h.allowCloseInit (item_ne (by decide))
    | exact Item.holds_ne h.query (item_ne (by decide))
    | exact Item.holds_set ContractVersion.jc_law raw _
    | exact Item.holds_set Ownership.jc_law raw _
    | exact Item.holds_set ContractState.jc_law raw _
    | exact Item.holds_set ChannelState.jc_law raw _
    | exact Item.holds_set ChannelOpenInitOptions.jc_law raw _
    | exact Item.holds_set jcBool_law raw _
    | exact Item.holds_set paths_law raw _
    | exact Item.holds_unset raw
    | exact fun id n hs => Map2.holds_ne (h.pending id n hs) (fun k' hk => item_head_ne (by decide +kernel) hk)
    | exact h.long))

variable {raw : RawStore} {s : Store} (h : Rep raw s)
include h

theorem rep_version (x : ContractVersion) :
    Rep (setKey raw (utf8 CONTRACT.key) (some (CONTRACT.jc.toBytes x))) { s with version := some x } := by keep
theorem rep_ownership (x : Ownership) :
    Rep (setKey raw (utf8 OWNERSHIP.key) (some (OWNERSHIP.jc.toBytes x))) { s with ownership := some x } := by keep
theorem rep_state (x : ContractState) :
    Rep (setKey raw (utf8 STATE.key) (some (STATE.jc.toBytes x))) { s with state := some x } := by keep
theorem rep_channel (x : ChannelState) :
    Rep (setKey raw (utf8 CHANNEL_STATE.key) (some (CHANNEL_STATE.jc.toBytes x))) { s with channel := some x } := by
  keep
theorem rep_options (x : ChannelOpenInitOptions) :
    Rep (setKey raw (utf8 CHANNEL_OPEN_INIT_OPTIONS.key) (some (CHANNEL_OPEN_INIT_OPTIONS.jc.toBytes x)))
      { s with options := some x } := by keep
theorem rep_allowOpenInit (x : Bool) :
    Rep (setKey raw (utf8 ALLOW_CHANNEL_OPEN_INIT.key) (some (ALLOW_CHANNEL_OPEN_INIT.jc.toBytes x)))
      { s with allowOpenInit := some x } := by keep
theorem rep_allowCloseInit (x : Bool) :
    Rep (setKey raw (utf8 ALLOW_CHANNEL_CLOSE_INIT.key) (some (ALLOW_CHANNEL_CLOSE_INIT.jc.toBytes x)))
      { s with allowCloseInit := some x } := by keep
theorem rep_query (x : QueryPaths) :
    Rep (setKey raw (utf8 QUERY.key) (some (QUERY.jc.toBytes x))) { s with query := some x } := by keep
theorem rep_query_none : Rep (setKey raw (utf8 QUERY.key) none) { s with query := none } := by keep

theorem rep_pending {c : String} (hc : Short c) (n : UInt64) (v : Option QueryPaths) {k : Bytes}
    (hk : mapKey PENDING_QUERIES.ns c n = .ok k) :
    Rep (setKey raw k (v.map PENDING_QUERIES.jc.toBytes)) { s with pending := setPending s.pending c n v } := by
  constructor
  · exact Item.holds_ne h.version (item_head_ne (by decide +kernel) hk).symm
  · exact Item.holds_ne h.ownership (item_head_ne (by decide +kernel) hk).symm
  · exact Item.holds_ne h.state (item_head_ne (by decide +kernel) hk).symm
  · exact Item.holds_ne h.channel (item_head_ne (by decide +kernel) hk).symm
  · exact Item.holds_ne h.options (item_head_ne (by decide +kernel) hk).symm
  · exact Item.holds_ne h.allowOpenInit (item_head_ne (by decide +kernel) hk).symm
  · exact Item.holds_ne h.allowCloseInit (item_head_ne (by decide +kernel) hk).symm
  · exact Item.holds_ne h.query (item_head_ne (by decide +kernel) hk).symm
  · intro id m hs
    by_cases e : id = c ∧ m = n
    · obtain ⟨rfl, rfl⟩ := e
      intro k' hk'
      rw [hk] at hk'
      cases hk'
      have : setPending s.pending id m v id m = v := by simp [setPending]
      dsimp only
      rw [this]
      cases v with
      | none => simp [setKey]
      | some x => simp only [setKey, Option.map_some, if_true]; exact JC.ofBytes_toBytes paths_law x
    · have : setPending s.pending c n v id m = s.pending id m := by simp [setPending, e]
      dsimp only
      rw [this]
      refine Map2.holds_ne (h.pending id m hs) (fun k' hk' => ?_)
      rintro rfl
      exact e (mapKey_inj hk' hk)
  · intro id m hl
    have : id ≠ c := fun e => hl (e ▸ hc)
    simp [setPending, this, h.long id m hl]

end

/-! ## Putting steps together -/

theorem pure_eq {α : Type} (a : α) (raw : RawStore) : (pure a : RM α) raw = (.ok a, raw) := rfl
theorem bind_eq {α β : Type} (m : RM α) (f : α → RM β) (raw : RawStore) :
    (m >>= f) raw = match m raw with
      | (.ok a, raw') => f a raw'
      | (.err e, raw') => (.err e, raw')
      | (.panic w, raw') => (.panic w, raw') := rfl

variable {raw : RawStore} {s : Store} {α β : Type}

theorem ag_pure (h : Rep raw s) (a : α) : Agrees ((pure a : RM α) raw) (.ok (s, a)) := ⟨rfl, h⟩
theorem ag_fail (e : Err) (raw : RawStore) : Agrees ((fail e : RM α) raw) (.err e) := rfl
theorem ag_panic (e : String) (raw : RawStore) : Agrees ((lift (.panic e) : RM α) raw) (.panic e) := rfl

/-- A step that leaves storage alone and gives `r`. -/
theorem ag_step {m : RM α} {f : α → RM β} {r : Res α} {g : α → Res (Store × β)} (hm : m raw = (r, raw))
    (hf : ∀ a, r = .ok a → Agrees (f a raw) (g a)) : Agrees ((m >>= f) raw) (r.bind g) := by
  rw [bind_eq, hm]
  cases r with
  | ok a => exact hf a rfl
  | err e => rfl
  | panic w => rfl

theorem ag_lift {f : α → RM β} {r : Res α} {g : α → Res (Store × β)}
    (hf : ∀ a, r = .ok a → Agrees (f a raw) (g a)) : Agrees ((lift r >>= f) raw) (r.bind g) := ag_step rfl hf

/-- A step that changes storage and succeeds. -/
theorem ag_write {m : RM α} {f : α → RM β} {raw' : RawStore} {a : α} {t : Res (Store × β)}
    (hm : m raw = (.ok a, raw')) (hf : Agrees (f a raw') t) : Agrees ((m >>= f) raw) t := by
  rw [bind_eq, hm]; exact hf

/-- Sequencing of two agreeing computations. -/
theorem ag_bind {m : RM α} {f : α → RM β} {t : Res (Store × α)} {g : Store × α → Res (Store × β)}
    (hm : Agrees (m raw) t) (hf : ∀ raw' s' a, Rep raw' s' → t = .ok (s', a) → Agrees (f a raw') (g (s', a))) :
    Agrees ((m >>= f) raw) (t.bind g) := by
  rw [bind_eq]
  revert hm
  cases hr : m raw with
  | mk r raw' =>
    cases t with
    | ok p =>
      obtain ⟨s', a⟩ := p
      rintro ⟨h1, h2⟩
      cases h1
      exact hf raw' s' a h2 rfl
    | err e => intro h1; cases h1; rfl
    | panic e => intro h1; cases h1; rfl

theorem attempt_load {i : Item α} {o : Option α} (h : i.Holds raw o) : attempt i.load raw = (.ok o, raw) := by
  unfold attempt
  rw [Item.load_of_holds h]
  cases o <;> rfl

theorem put_ok {c : String} (hc : Short c) (n : UInt64) (v : Option QueryPaths) (raw : RawStore) :
    ∃ k, mapKey PENDING_QUERIES.ns c n = .ok k ∧
      PENDING_QUERIES.put c n v raw = (.ok (), setKey raw k (v.map PENDING_QUERIES.jc.toBytes)) := by
  refine ⟨_, mapKey_short ns_short hc, ?_⟩
  unfold Map2.put
  rw [mapKey_short ns_short hc]

/-! ## Every entry point -/

theorem assertOwner_ag (h : Rep raw s) (sender : String) :
    assertOwner sender raw = (Ica.assertOwner s sender, raw) := by
  unfold assertOwner Ica.assertOwner
  rw [bind_eq, Item.load_of_holds h.ownership]
  cases Ica.load s.ownership <;> rfl

theorem instantiate_ag (h : Rep raw s) (api : Api) (env : Env) (sender : String) (msg : InstantiateMsg) :
    Agrees (instantiate api env sender msg raw) (Ica.instantiate api env s sender msg) := by
  unfold instantiate Ica.instantiate setContractVersion initializeOwner Ica.initializeOwner Ica.setContractVersion
  refine ag_write rfl ?_
  have h1 := rep_version h ⟨CONTRACT_NAME, CONTRACT_VERSION⟩
  dsimp only
  cases hv : addrValidate api (msg.owner.getD sender) with
  | err e => rw [bind_eq, bind_eq]; rfl
  | panic e => rw [bind_eq, bind_eq]; rfl
  | ok o =>
    refine ag_write rfl ?_
    simp only [Res.bind_ok']
    refine ag_lift fun cb _ => ?_
    refine ag_write rfl ?_
    refine ag_write rfl ?_
    refine ag_write rfl ?_
    exact ag_pure (rep_allowOpenInit (rep_options (rep_state (rep_ownership h1 _) _) _) _) _

theorem createChannel_ag (h : Rep raw s) (env : Env) (sender : String) (o : Option ChannelOpenInitOptions) :
    Agrees (createChannel env sender o raw) (Ica.createChannel env s sender o) := by
  unfold createChannel Ica.createChannel
  refine ag_step (assertOwner_ag h sender) fun _ _ => ?_
  refine ag_bind ?_ fun raw' s' x h' _ => ?_
  · unfold chooseOptions
    cases o with
    | some o => exact ag_write rfl (ag_pure (rep_options h o) o)
    | none =>
      dsimp only
      refine ag_write (Item.holds_iff.1 h.options) ?_
      cases s.options with
      | some o => exact ag_pure h o
      | none => exact ag_fail _ _
  · exact ag_write rfl (ag_pure (rep_allowOpenInit h' true) _)

theorem closeChannel_ag (h : Rep raw s) (sender : String) :
    Agrees (closeChannel sender raw) (Ica.closeChannel s sender) := by
  unfold closeChannel Ica.closeChannel
  refine ag_step (assertOwner_ag h sender) fun _ _ => ?_
  refine ag_step (Item.load_of_holds h.channel) fun c _ => ?_
  split
  · exact ag_fail _ _
  · exact ag_write rfl (ag_pure (rep_allowCloseInit h true) _)

theorem fromCosmosMsgs_ag (h : Rep raw s) (ms : List CosmosMsg) (qs : List QueryRequest) (e : TxEncoding)
    (memo : Option String) (a : String) :
    Agrees (fromCosmosMsgs ms qs e memo a raw) (Ica.fromCosmosMsgs s ms qs e memo a) := by
  unfold fromCosmosMsgs Ica.fromCosmosMsgs
  cases e with
  | proto3Json => exact ag_fail _ _
  | protobuf =>
    refine ag_lift fun anys _ => ?_
    split
    · exact ag_pure h _
    · refine ag_lift fun qs' _ => ?_
      refine ag_write rfl ?_
      refine ag_lift fun x _ => ?_
      exact ag_pure (rep_query h _) _

theorem sendCosmosMsgs_ag (h : Rep raw s) (env : Env) (sender : String) (ms : List CosmosMsg) (qs : List QueryRequest)
    (memo : Option String) (t : Option UInt64) :
    Agrees (sendCosmosMsgs env sender ms qs memo t raw) (Ica.sendCosmosMsgs env s sender ms qs memo t) := by
  unfold sendCosmosMsgs Ica.sendCosmosMsgs
  refine ag_step (assertOwner_ag h sender) fun _ _ => ?_
  refine ag_step (Item.load_of_holds h.state) fun cs _ => ?_
  refine ag_lift fun info _ => ?_
  refine ag_bind (fromCosmosMsgs_ag h _ _ _ _ _) fun raw' s' p h' _ => ?_
  refine ag_lift fun m _ => ?_
  exact ag_pure h' _

theorem cwUpdateOwnership_ag (h : Rep raw s) (api : Api) (env : Env) (sender : String) (a : Action) :
    Agrees (cwUpdateOwnership api env sender a raw)
      ((Ica.cwUpdateOwnership api env s sender a).bind fun s => .ok (s, ())) := by
  cases a with
  | transferOwnership n e =>
    unfold cwUpdateOwnership Ica.cwUpdateOwnership
    dsimp only
    cases ho : s.ownership with
    | none => rw [bind_eq, Item.load_of_holds h.ownership, ho]; rfl
    | some ow =>
      have hl : OWNERSHIP.load raw = (.ok ow, raw) := by rw [Item.load_of_holds h.ownership, ho]; rfl
      refine ag_write hl ?_
      simp only [load_some, Res.bind_ok']
      cases checkOwner ow sender with
      | err e => rfl
      | panic e => rfl
      | ok u =>
        refine ag_write rfl ?_
        simp only [Res.bind_ok']
        cases addrValidate api n with
        | err e => rfl
        | panic e => rfl
        | ok p => exact ⟨rfl, rep_ownership h _⟩
  | acceptOwnership =>
    unfold cwUpdateOwnership Ica.cwUpdateOwnership
    dsimp only
    cases ho : s.ownership with
    | none => rw [bind_eq, Item.load_of_holds h.ownership, ho]; rfl
    | some ow =>
      have hl : OWNERSHIP.load raw = (.ok ow, raw) := by rw [Item.load_of_holds h.ownership, ho]; rfl
      refine ag_write hl ?_
      simp only [load_some, Res.bind_ok', acceptStep]
      cases ow.pendingOwner with
      | none => rfl
      | some p =>
        dsimp only
        split
        · cases ow.pendingExpiry with
          | none => exact ⟨rfl, rep_ownership h _⟩
          | some e =>
            dsimp only
            split
            · rfl
            · exact ⟨rfl, rep_ownership h _⟩
        · rfl
  | renounceOwnership =>
    unfold cwUpdateOwnership Ica.cwUpdateOwnership
    dsimp only
    cases ho : s.ownership with
    | none => rw [bind_eq, Item.load_of_holds h.ownership, ho]; rfl
    | some ow =>
      have hl : OWNERSHIP.load raw = (.ok ow, raw) := by rw [Item.load_of_holds h.ownership, ho]; rfl
      refine ag_write hl ?_
      simp only [load_some, Res.bind_ok']
      cases checkOwner ow sender with
      | err e => rfl
      | panic e => rfl
      | ok u => exact ⟨rfl, rep_ownership h _⟩

theorem updateOwnership_ag (h : Rep raw s) (api : Api) (env : Env) (sender : String) (a : Action) :
    Agrees (updateOwnership api env sender a raw) (Ica.updateOwnership api env s sender a) := by
  unfold updateOwnership Ica.updateOwnership
  split
  · exact ag_fail _ _
  · have := cwUpdateOwnership_ag h api env sender a
    revert this
    cases Ica.cwUpdateOwnership api env s sender a with
    | ok s' =>
      intro this
      have := ag_bind (f := fun _ => pure Response.empty) (g := fun p => .ok (p.1, Response.empty)) this
        fun raw' s' a h' _ => ag_pure h' _
      exact this
    | err e => intro this; rw [bind_eq]; revert this; cases cwUpdateOwnership api env sender a raw with
      | mk r raw' => intro this; cases this; rfl
    | panic e => intro this; rw [bind_eq]; revert this; cases cwUpdateOwnership api env sender a raw with
      | mk r raw' => intro this; cases this; rfl

theorem updateCallbackAddress_ag (h : Rep raw s) (api : Api) (sender : String) (a : Option String) :
    Agrees (updateCallbackAddress api sender a raw) (Ica.updateCallbackAddress api s sender a) := by
  unfold updateCallbackAddress Ica.updateCallbackAddress
  refine ag_step (assertOwner_ag h sender) fun _ _ => ?_
  refine ag_step (Item.load_of_holds h.state) fun cs _ => ?_
  refine ag_lift fun x _ => ?_
  exact ag_write rfl (ag_pure (rep_state h _) _)

theorem execute_ag (h : Rep raw s) (api : Api) (env : Env) (sender : String) (msg : ExecuteMsg) :
    Agrees (execute api env sender msg raw) (Ica.execute api env s sender msg) := by
  cases msg with
  | createChannel o => exact createChannel_ag h env sender o
  | closeChannel => exact closeChannel_ag h sender
  | updateCallbackAddress a => exact updateCallbackAddress_ag h api sender a
  | sendCosmosMsgs ms qs memo t => exact sendCosmosMsgs_ag h env sender ms qs memo t
  | updateOwnership a => exact updateOwnership_ag h api env sender a

theorem reply_ag (h : Rep raw s) (id : UInt64) (r : SubMsgResult)
    (hs : ∀ cs i, s.state = some cs → cs.icaInfo = some i → Short i.channelId) :
    Agrees (reply id r raw) (Ica.reply s id r) := by
  unfold reply Ica.reply
  split
  · unfold replySendQueryPacket Ica.replySendQueryPacket
    cases r with
    | err e => exact ag_panic _ _
    | ok data =>
      refine ag_lift fun n _ => ?_
      refine ag_step (Item.load_of_holds h.state) fun cs hcs => ?_
      refine ag_lift fun info hi => ?_
      refine ag_step (Item.load_of_holds h.query) fun paths _ => ?_
      refine ag_write rfl ?_
      have hsh := hs cs info (load_eq_ok.1 hcs) (getIcaInfo_eq_ok.1 hi)
      obtain ⟨k, hk, hp⟩ := put_ok hsh n (some paths) (setKey raw (utf8 QUERY.key) none)
      refine ag_write hp ?_
      exact ag_pure (rep_pending (rep_query_none h) hsh n (some paths) hk) _
  · exact ag_fail _ _

theorem query_ag (h : Rep raw s) (msg : QueryMsg) : query msg raw = (Ica.query s msg, raw) := by
  cases msg with
  | getContractState =>
    unfold query Ica.query
    dsimp only
    rw [bind_eq, Item.load_of_holds h.state]
    cases Ica.load s.state <;> rfl
  | getChannel =>
    unfold query Ica.query
    dsimp only
    rw [bind_eq, Item.load_of_holds h.channel]
    cases Ica.load s.channel <;> rfl
  | ownership =>
    unfold query Ica.query
    dsimp only
    rw [bind_eq, Item.load_of_holds h.ownership]
    cases Ica.load s.ownership <;> rfl

theorem migrate_ag (h : Rep raw s) : Agrees (migrate raw) (Ica.migrate s) := by
  have e : Ica.migrate s = (Ica.load s.version).bind fun prev => (checkSemver prev).bind fun _ =>
      (Ica.load s.state).bind fun cs => (checkEncoding cs).bind fun _ =>
      .ok (Ica.setContractVersion s, .empty) := by
    unfold Ica.migrate validateSemver validateChannelEncoding
    cases Ica.load s.version with
    | err e => rfl
    | panic e => rfl
    | ok prev =>
      simp only [Res.bind_ok']
      change (checkSemver prev).bind _ = _
      cases checkSemver prev with
      | err e => rfl
      | panic e => rfl
      | ok u =>
        simp only [Res.bind_ok']
        cases Ica.load s.state <;> rfl
  rw [e]
  unfold migrate
  refine ag_step (Item.load_of_holds h.version) fun prev _ => ?_
  refine ag_lift fun _ _ => ?_
  refine ag_step (Item.load_of_holds h.state) fun cs _ => ?_
  refine ag_lift fun _ _ => ?_
  exact ag_write rfl (ag_pure (rep_version h _) _)

/-- A step that reads storage only. -/
theorem fromChannel_ag (h : Rep raw s) (ch : IbcChannel) :
    fromChannel ch raw = (IcaMetadata.fromChannel s ch, raw) := by
  unfold fromChannel IcaMetadata.fromChannel
  rw [bind_eq, attempt_load h.channel]
  dsimp only
  cases s.channel.bind fun cs => IcaMetadata.parse cs.channel.version with
  | some m => rfl
  | none =>
    dsimp only
    rw [bind_eq, Item.load_of_holds h.options]
    cases Ica.load s.options with
    | err e => rfl
    | panic e => rfl
    | ok o =>
      dsimp only [Res.bind]
      split <;> rfl

theorem channelOpenInit_ag (h : Rep raw s) (api : Api) (ch : IbcChannel) :
    Agrees (channelOpenInit api ch raw) (Ica.channelOpenInit api s ch) := by
  unfold channelOpenInit Ica.channelOpenInit
  refine ag_write (attempt_load h.allowOpenInit) ?_
  split
  · exact ag_fail _ _
  · refine ag_write rfl ?_
    have h1 := rep_allowOpenInit h false
    dsimp only
    split
    · exact ag_fail _ _
    · refine ag_step ?_ fun m _ => ?_
      · unfold openInitMetadata
        split
        · exact fromChannel_ag h1 ch
        · cases IcaMetadata.parse ch.version <;> rfl
      · refine ag_lift fun _ _ => ?_
        refine ag_write (Item.holds_iff.1 h1.channel) ?_
        dsimp only
        clear h
        revert h1
        cases s.channel with
        | none => exact fun h1 => ag_pure h1 _
        | some cs =>
          intro h1
          dsimp only
          split
          · exact ag_fail _ _
          · exact ag_pure h1 _

theorem channelOpenAck_ag (h : Rep raw s) (api : Api) (ch : IbcChannel) (v : String) :
    Agrees (channelOpenAck api ch v raw) (Ica.channelOpenAck api s ch v) := by
  unfold channelOpenAck Ica.channelOpenAck
  refine ag_step (Item.load_of_holds h.state) fun st _ => ?_
  split
  · exact ag_fail _ _
  · cases IcaMetadata.parse v with
    | none => exact ag_fail _ _
    | some m =>
      refine ag_lift fun _ _ => ?_
      split
      · exact ag_fail _ _
      · refine ag_write rfl (ag_write rfl ?_)
        have := rep_channel (rep_state h { st with icaInfo := some ⟨m.address, ch.endpoint.channelId, m.encoding⟩ })
          ⟨{ ch with version := v }, .opened⟩
        clear h
        revert this
        obtain ⟨i, cb⟩ := st
        cases cb with
        | none => exact fun this => ag_pure this _
        | some cb => exact fun this => ag_pure this _

theorem channelCloseConfirm_ag (h : Rep raw s) (ch : IbcChannel) :
    Agrees (channelCloseConfirm ch raw) (Ica.channelCloseConfirm s ch) := by
  unfold channelCloseConfirm Ica.channelCloseConfirm
  refine ag_step (Item.load_of_holds h.channel) fun c _ => ?_
  split
  · exact ag_fail _ _
  · split
    · exact ag_fail _ _
    · exact ag_write rfl (ag_pure (rep_channel h _) _)

theorem channelCloseInit_ag (h : Rep raw s) (ch : IbcChannel) :
    Agrees (channelCloseInit ch raw) (Ica.channelCloseInit s ch) := by
  unfold channelCloseInit Ica.channelCloseInit
  refine ag_write (attempt_load h.allowCloseInit) ?_
  split
  · exact ag_fail _ _
  · refine ag_write rfl ?_
    exact channelCloseConfirm_ag (rep_allowCloseInit h false) ch

theorem ibcChannelOpen_ag (h : Rep raw s) (api : Api) (m : OpenMsg) :
    Agrees (ibcChannelOpen api m raw) (Ica.ibcChannelOpen api s m) := by
  cases m with
  | openInit ch => exact channelOpenInit_ag h api ch
  | openTry ch v => exact ag_panic _ _

theorem ibcChannelConnect_ag (h : Rep raw s) (api : Api) (m : ConnectMsg) :
    Agrees (ibcChannelConnect api m raw) (Ica.ibcChannelConnect api s m) := by
  cases m with
  | openAck ch v => exact channelOpenAck_ag h api ch v
  | openConfirm ch => exact ag_panic _ _

theorem ibcChannelClose_ag (h : Rep raw s) (m : CloseMsg) :
    Agrees (ibcChannelClose m raw) (Ica.ibcChannelClose s m) := by
  cases m with
  | closeInit ch => exact channelCloseInit_ag h ch
  | closeConfirm ch => exact channelCloseConfirm_ag h ch

theorem ibcPacketAck_ag (h : Rep raw s) (ack : Bytes) (p : IbcPacket) (relayer : String) (hs : Short p.src.channelId) :
    Agrees (ibcPacketAck ack p relayer raw) (Ica.ibcPacketAck s ack p relayer) := by
  unfold ibcPacketAck Ica.ibcPacketAck
  cases AckData.jc.ofBytes ack with
  | none => exact ag_fail _ _
  | some a =>
    cases a with
    | error e =>
      dsimp only
      unfold ackError Ica.ackError
      refine ag_step (Item.load_of_holds h.state) fun st _ => ?_
      exact ag_pure h _
    | result res =>
      dsimp only
      unfold ackSuccess Ica.ackSuccess
      refine ag_write (Map2.mayLoad_of_holds hs (h.pending _ _ hs)) ?_
      refine ag_lift fun q _ => ?_
      obtain ⟨k, hk, hp⟩ := put_ok hs p.sequence none raw
      refine ag_write hp ?_
      have h1 := rep_pending h hs p.sequence none hk
      refine ag_step (Item.load_of_holds h1.state) fun st _ => ?_
      exact ag_pure h1 _

theorem timeoutCallback_ag (h : Rep raw s) (p : IbcPacket) (relayer : String) (hs : Short p.src.channelId) :
    Agrees (timeoutCallback p relayer raw) (Ica.timeoutCallback s p relayer) := by
  unfold timeoutCallback Ica.timeoutCallback
  refine ag_step (Item.load_of_holds h.state) fun st _ => ?_
  obtain ⟨k, hk, hp⟩ := put_ok hs p.sequence none raw
  refine ag_write hp ?_
  have h1 := rep_pending h hs p.sequence none hk
  unfold timeoutResponse
  cases st.callbackAddress with
  | none => exact ag_pure h1 _
  | some a => exact ag_pure h1 _

theorem ibcPacketTimeout_ag (h : Rep raw s) (p : IbcPacket) (relayer : String) (hs : Short p.src.channelId) :
    Agrees (ibcPacketTimeout p relayer raw) (Ica.ibcPacketTimeout s p relayer) := by
  unfold ibcPacketTimeout Ica.ibcPacketTimeout
  refine ag_step (Item.load_of_holds h.channel) fun c _ => ?_
  split
  · exact ag_write rfl (timeoutCallback_ag (rep_channel h _) p relayer hs)
  · exact timeoutCallback_ag h p relayer hs

theorem ibcPacketReceive_ag (s : Store) (raw : RawStore) (p : IbcPacket) :
    Agrees (ibcPacketReceive p raw) (Ica.ibcPacketReceive s p) := ag_panic _ _

/-- Storage of a contract that has not run stands for the empty typed storage. -/
theorem rep_empty : Rep .empty Store.empty := by
  constructor <;> first | exact trivial | (intro id n _; first | rfl | (intro k _; exact trivial))

/-- Every typed storage whose records have keys is represented: what is in raw storage is determined by the typed one up
to the JSON text. -/
theorem rep_unique {s' : Store} (h : Rep raw s) (h' : Rep raw s') : s = s' := by
  have key : ∀ {α : Type} (i : Item α) (o o' : Option α), i.Holds raw o → i.Holds raw o' → o = o' := by
    intro α i o o' h1 h2
    have e1 := Item.holds_iff.1 h1
    have e2 := Item.holds_iff.1 h2
    rw [e1] at e2
    simpa using e2
  cases s with
  | mk a b c d e f g q p =>
    cases s' with
    | mk a' b' c' d' e' f' g' q' p' =>
      have h1 := key _ _ _ h.version h'.version
      have h2 := key _ _ _ h.ownership h'.ownership
      have h3 := key _ _ _ h.state h'.state
      have h4 := key _ _ _ h.channel h'.channel
      have h5 := key _ _ _ h.options h'.options
      have h6 := key _ _ _ h.allowOpenInit h'.allowOpenInit
      have h7 := key _ _ _ h.allowCloseInit h'.allowCloseInit
      have h8 := key _ _ _ h.query h'.query
      dsimp only at h1 h2 h3 h4 h5 h6 h7 h8
      subst h1 h2 h3 h4 h5 h6 h7 h8
      congr 1
      funext id n
      by_cases hs : Short id
      · have e1 := Map2.mayLoad_of_holds hs (h.pending id n hs)
        have e2 := Map2.mayLoad_of_holds hs (h'.pending id n hs)
        rw [e1] at e2
        simpa using e2
      · have e1 := h.long id n hs
        have e2 := h'.long id n hs
        dsimp only at e1 e2
        rw [e1, e2]

end Ica.Raw
