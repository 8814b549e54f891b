import Verif.Facts.RawWorld

/-!
# What every entry point keeps, on arbitrary raw storage

A frame `P` on raw storage, with a condition `G` on the contract state, that survives every write the contract makes. Then
every entry point and every operation keeps it, whatever the storage holds.
-/
namespace Ica.Raw

/-- Keys of the items other than the contract state. -/
def itemKeys : List String :=
  ["ica_channel", "channel_open_init_options", "allow_channel_open_init", "allow_channel_close_init", "pending_query",
   "contract_info", "ownership"]

/-- A condition on storage that survives the writes of the contract. -/
structure Frame (P : RawStore → Prop) (G : ContractState → Prop) : Prop where
  load : ∀ raw b st, P raw → raw (utf8 "state") = some b → ContractState.jc.ofBytes b = some st → G st
  state : ∀ raw st, P raw → G st → P (setKey raw (utf8 "state") (some (ContractState.jc.toBytes st)))
  item : ∀ raw key v, key ∈ itemKeys → P raw → P (setKey raw (utf8 key) v)
  map : ∀ raw c n k v, mapKey PENDING_QUERIES.ns c n = .ok k → P raw → P (setKey raw k v)
  fresh : ∀ cb, G ⟨none, cb⟩
  callback : ∀ st cb, G st → G { st with callbackAddress := cb }
  ica : ∀ st a c, G st → G { st with icaInfo := some ⟨a, c, .protobuf⟩ }

/-- The computation keeps `P`, and its value satisfies `Q`. -/
def Keeps (P : RawStore → Prop) {α : Type} (m : RM α) (Q : α → Prop) : Prop :=
  ∀ raw, P raw → P (m raw).2 ∧ ∀ a, (m raw).1 = .ok a → Q a

section
variable {P : RawStore → Prop} {G : ContractState → Prop} {α β : Type}

theorem Keeps.weaken {m : RM α} {Q : α → Prop} (h : Keeps P m Q) : Keeps P m (fun _ => True) :=
  fun raw hp => ⟨(h raw hp).1, fun _ _ => trivial⟩

theorem keeps_pure (a : α) : Keeps P (pure a : RM α) (fun _ => True) := fun _ hp => ⟨hp, fun _ _ => trivial⟩
theorem keeps_lift (r : Res α) : Keeps P (lift r) (fun a => r = .ok a) := fun _ hp => ⟨hp, fun _ h => h⟩
theorem keeps_fail (e : Err) {Q : α → Prop} : Keeps P (fail e : RM α) Q := fun _ hp => ⟨hp, fun _ h => by cases h⟩
theorem keeps_panic (e : String) {Q : α → Prop} : Keeps P (lift (.panic e) : RM α) Q :=
  fun _ hp => ⟨hp, fun _ h => by cases h⟩

theorem keeps_bind {m : RM α} {f : α → RM β} {Q : α → Prop} {R : β → Prop} (hm : Keeps P m Q)
    (hf : ∀ a, Q a → Keeps P (f a) R) : Keeps P (m >>= f) R := by
  intro raw hp
  obtain ⟨h1, h2⟩ := hm raw hp
  rw [bind_eq]
  cases he : m raw with
  | mk r raw' =>
    rw [he] at h1 h2
    cases r with
    | ok a => exact hf a (h2 a rfl) raw' h1
    | err e => exact ⟨h1, fun _ h => by cases h⟩
    | panic e => exact ⟨h1, fun _ h => by cases h⟩

theorem load_snd (i : Item α) (raw : RawStore) : (i.load raw).2 = raw := by
  unfold Item.load
  split
  · rfl
  · split <;> rfl

theorem keeps_load (i : Item α) : Keeps P i.load (fun _ => True) := by
  intro raw hp
  rw [load_snd]
  exact ⟨hp, fun _ _ => trivial⟩

theorem keeps_mayLoad (i : Item α) : Keeps P i.mayLoad (fun _ => True) := by
  intro raw hp
  refine ⟨?_, fun _ _ => trivial⟩
  unfold Item.mayLoad
  split
  · exact hp
  · split <;> exact hp

theorem keeps_attempt (i : Item α) : Keeps P (attempt i.load) (fun _ => True) := by
  intro raw hp
  refine ⟨?_, fun _ _ => trivial⟩
  unfold attempt
  have := load_snd i raw
  split <;> next h => rw [h] at this; dsimp only at this ⊢; rw [this]; exact hp

theorem keeps_mapLoad (m : Map2 α) (c : String) (n : UInt64) : Keeps P (m.mayLoad c n) (fun _ => True) := by
  intro raw hp
  refine ⟨?_, fun _ _ => trivial⟩
  unfold Map2.mayLoad
  split
  · split
    · exact hp
    · split <;> exact hp
  · exact hp
  · exact hp

variable (F : Frame P G)
include F

theorem keeps_save (i : Item α) (hk : i.key ∈ itemKeys) (x : α) : Keeps P (i.save x) (fun _ => True) :=
  fun raw hp => ⟨F.item raw i.key _ hk hp, fun _ _ => trivial⟩

theorem keeps_remove (i : Item α) (hk : i.key ∈ itemKeys) : Keeps P i.remove (fun _ => True) :=
  fun raw hp => ⟨F.item raw i.key _ hk hp, fun _ _ => trivial⟩

theorem keeps_loadState : Keeps P STATE.load G := by
  intro raw hp
  rw [load_snd]
  refine ⟨hp, fun st h => ?_⟩
  unfold Item.load at h
  split at h
  · cases h
  · next b hb =>
    split at h
    · cases h
    · next x hx =>
      simp only [Res.ok.injEq] at h
      subst h
      exact F.load raw b x hp hb hx

theorem keeps_saveState (st : ContractState) (h : G st) : Keeps P (STATE.save st) (fun _ => True) :=
  fun raw hp => ⟨F.state raw st hp h, fun _ _ => trivial⟩

theorem keeps_put (c : String) (n : UInt64) (v : Option QueryPaths) : Keeps P (PENDING_QUERIES.put c n v) (fun _ => True) := by
  intro raw hp
  refine ⟨?_, fun _ _ => trivial⟩
  unfold Map2.put
  split
  · next k hk => exact F.map raw c n k _ hk hp
  · exact hp
  · exact hp

end

/-- One step of a `Keeps` proof. -/
macro "keep" F:ident : tactic => `(tactic| repeat' (first
  | exact keeps_pure _
  | exact keeps_fail _
  | exact keeps_panic _
  | exact (keeps_lift _).weaken
  | exact keeps_save $F _ (by decide) _
  | exact keeps_put $F _ _ _
  | refine keeps_bind (keeps_loadState $F) (fun _ _ => ?_)
  | refine keeps_bind (keeps_load _) (fun _ _ => ?_)
  | refine keeps_bind (keeps_mayLoad _) (fun _ _ => ?_)
  | refine keeps_bind (keeps_attempt _) (fun _ _ => ?_)
  | refine keeps_bind (keeps_mapLoad _ _ _) (fun _ _ => ?_)
  | refine keeps_bind (keeps_lift _) (fun _ _ => ?_)
  | refine keeps_bind (keeps_save $F _ (by decide) _) (fun _ _ => ?_)
  | refine keeps_bind (keeps_remove $F _ (by decide)) (fun _ _ => ?_)
  | refine keeps_bind (keeps_put $F _ _ _) (fun _ _ => ?_)
  | refine keeps_bind (keeps_saveState $F _ ?_) (fun _ _ => ?_)
  | split))

section
variable {P : RawStore → Prop} {G : ContractState → Prop} (F : Frame P G)
include F

set_option linter.unusedSectionVars false in
theorem assertOwner_keeps (sender : String) : Keeps P (assertOwner sender) (fun _ => True) := by
  unfold assertOwner
  keep F

theorem instantiate_keeps (api : Api) (env : Env) (sender : String) (msg : InstantiateMsg) :
    Keeps P (instantiate api env sender msg) (fun _ => True) := by
  unfold instantiate setContractVersion initializeOwner
  refine keeps_bind (keeps_save F _ (by decide) _) (fun _ _ => ?_)
  refine keeps_bind (Q := fun _ => True) ?_ (fun _ _ => ?_)
  · keep F
  · keep F
    exact F.fresh _

theorem createChannel_keeps (env : Env) (sender : String) (o : Option ChannelOpenInitOptions) :
    Keeps P (createChannel env sender o) (fun _ => True) := by
  unfold createChannel
  refine keeps_bind (assertOwner_keeps F sender) (fun _ _ => ?_)
  refine keeps_bind (Q := fun _ => True) ?_ (fun _ _ => ?_)
  · unfold chooseOptions
    keep F
  · keep F

theorem closeChannel_keeps (sender : String) : Keeps P (closeChannel sender) (fun _ => True) := by
  unfold closeChannel
  refine keeps_bind (assertOwner_keeps F sender) (fun _ _ => ?_)
  keep F

theorem sendCosmosMsgs_keeps (env : Env) (sender : String) (ms : List CosmosMsg) (qs : List QueryRequest)
    (memo : Option String) (t : Option UInt64) : Keeps P (sendCosmosMsgs env sender ms qs memo t) (fun _ => True) := by
  unfold sendCosmosMsgs
  refine keeps_bind (assertOwner_keeps F sender) (fun _ _ => ?_)
  refine keeps_bind (keeps_loadState F) (fun _ _ => ?_)
  refine keeps_bind (keeps_lift _) (fun _ _ => ?_)
  refine keeps_bind (Q := fun _ => True) ?_ (fun _ _ => ?_)
  · unfold fromCosmosMsgs
    keep F
  · keep F

theorem updateOwnership_keeps (api : Api) (env : Env) (sender : String) (a : Action) :
    Keeps P (updateOwnership api env sender a) (fun _ => True) := by
  unfold updateOwnership
  split
  · exact keeps_fail _
  · refine keeps_bind (Q := fun _ => True) ?_ (fun _ _ => keeps_pure _)
    unfold cwUpdateOwnership
    keep F

theorem updateCallbackAddress_keeps (api : Api) (sender : String) (a : Option String) :
    Keeps P (updateCallbackAddress api sender a) (fun _ => True) := by
  unfold updateCallbackAddress
  refine keeps_bind (assertOwner_keeps F sender) (fun _ _ => ?_)
  refine keeps_bind (keeps_loadState F) (fun st hst => ?_)
  keep F
  exact F.callback st _ hst

theorem execute_keeps (api : Api) (env : Env) (sender : String) (msg : ExecuteMsg) :
    Keeps P (execute api env sender msg) (fun _ => True) := by
  cases msg with
  | createChannel o => exact createChannel_keeps F env sender o
  | closeChannel => exact closeChannel_keeps F sender
  | updateCallbackAddress a => exact updateCallbackAddress_keeps F api sender a
  | sendCosmosMsgs ms qs memo t => exact sendCosmosMsgs_keeps F env sender ms qs memo t
  | updateOwnership a => exact updateOwnership_keeps F api env sender a

theorem reply_keeps (id : UInt64) (r : SubMsgResult) : Keeps P (reply id r) (fun _ => True) := by
  unfold reply replySendQueryPacket
  split
  · split
    · refine keeps_bind (keeps_lift _) (fun _ _ => ?_)
      refine keeps_bind (keeps_loadState F) (fun _ _ => ?_)
      refine keeps_bind (keeps_lift _) (fun _ _ => ?_)
      refine keeps_bind (keeps_load _) (fun _ _ => ?_)
      refine keeps_bind (keeps_remove F _ (by decide)) (fun _ _ => ?_)
      exact keeps_bind (keeps_put F _ _ _) (fun _ _ => keeps_pure _)
    · exact keeps_panic _
  · exact keeps_fail _

theorem migrate_keeps : Keeps P migrate (fun _ => True) := by
  unfold migrate setContractVersion
  keep F

set_option linter.unusedSectionVars false in
theorem fromChannel_keeps (ch : IbcChannel) : Keeps P (fromChannel ch) (fun _ => True) := by
  unfold fromChannel
  keep F

theorem ibcChannelOpen_keeps (api : Api) (m : OpenMsg) : Keeps P (ibcChannelOpen api m) (fun _ => True) := by
  unfold ibcChannelOpen
  split
  · unfold channelOpenInit
    refine keeps_bind (keeps_attempt _) (fun _ _ => ?_)
    split
    · exact keeps_fail _
    · refine keeps_bind (keeps_save F _ (by decide) _) (fun _ _ => ?_)
      split
      · exact keeps_fail _
      · refine keeps_bind (Q := fun _ => True) ?_ (fun _ _ => ?_)
        · unfold openInitMetadata
          split
          · exact fromChannel_keeps F _
          · keep F
        · keep F
  · exact keeps_panic _

theorem ibcChannelConnect_keeps (api : Api) (m : ConnectMsg) : Keeps P (ibcChannelConnect api m) (fun _ => True) := by
  unfold ibcChannelConnect
  split
  · unfold channelOpenAck
    refine keeps_bind (keeps_loadState F) (fun st hst => ?_)
    split
    · exact keeps_fail _
    · split
      · exact keeps_fail _
      · refine keeps_bind (keeps_lift _) (fun u hu => ?_)
        have henc := (validate_eq_ok.1 hu).encoding
        split
        · exact keeps_fail _
        · refine keeps_bind (keeps_saveState F _ ?_) (fun _ _ => ?_)
          · rw [henc]; exact F.ica _ _ _ hst
          · keep F
  · exact keeps_panic _

theorem channelCloseConfirm_keeps (ch : IbcChannel) : Keeps P (channelCloseConfirm ch) (fun _ => True) := by
  unfold channelCloseConfirm
  keep F

theorem ibcChannelClose_keeps (m : CloseMsg) : Keeps P (ibcChannelClose m) (fun _ => True) := by
  unfold ibcChannelClose
  split
  · unfold channelCloseInit
    refine keeps_bind (keeps_attempt _) (fun _ _ => ?_)
    split
    · exact keeps_fail _
    · exact keeps_bind (keeps_save F _ (by decide) _) (fun _ _ => channelCloseConfirm_keeps F _)
  · exact channelCloseConfirm_keeps F _

theorem ibcPacketAck_keeps (ack : Bytes) (p : IbcPacket) (relayer : String) :
    Keeps P (ibcPacketAck ack p relayer) (fun _ => True) := by
  unfold ibcPacketAck
  split
  · exact keeps_fail _
  · unfold ackSuccess
    refine keeps_bind (keeps_mapLoad _ _ _) (fun _ _ => ?_)
    refine keeps_bind (keeps_lift _) (fun _ _ => ?_)
    refine keeps_bind (keeps_put F _ _ _) (fun _ _ => ?_)
    keep F
  · unfold ackError
    keep F

theorem ibcPacketTimeout_keeps (p : IbcPacket) (relayer : String) : Keeps P (ibcPacketTimeout p relayer) (fun _ => True) := by
  have h : Keeps P (timeoutCallback p relayer) (fun _ => True) := by
    unfold timeoutCallback
    refine keeps_bind (keeps_loadState F) (fun _ _ => ?_)
    exact keeps_bind (keeps_put F _ _ _) (fun _ _ => keeps_pure _)
  unfold ibcPacketTimeout
  refine keeps_bind (keeps_load _) (fun _ _ => ?_)
  split
  · exact keeps_bind (keeps_save F _ (by decide) _) (fun _ _ => h)
  · exact h

/-! ## Operations -/

/-- A way to run messages that keeps `P`. -/
def OneKeeps (P : RawStore → Prop) (one : RWorld → SubMsg → Option (RWorld × List Obs)) : Prop :=
  ∀ w m w' obs, P w.raw → one w m = some (w', obs) → P w'.raw

omit F in
theorem dispatchList_keeps {one : RWorld → SubMsg → Option (RWorld × List Obs)} (ho : OneKeeps P one) :
    ∀ {ms : List SubMsg} {w w' : RWorld} {obs : List Obs}, P w.raw → dispatchList one w ms = some (w', obs) → P w'.raw
  | [], w, w', obs, hp, h => by
    simp only [dispatchList, Option.some.injEq, Prod.mk.injEq] at h
    rw [← h.1]; exact hp
  | m :: ms, w, w', obs, hp, h => by
    unfold dispatchList at h
    split at h
    · cases h
    · next w1 o1 h1 =>
      split at h
      · cases h
      · next w2 o2 h2 =>
        simp only [Option.some.injEq, Prod.mk.injEq] at h
        rw [← h.1]
        exact dispatchList_keeps ho (ho _ _ _ _ hp h1) h2

omit F in
theorem finish_keeps {one : RWorld → SubMsg → Option (RWorld × List Obs)} (ho : OneKeeps P one) {m : RM Response}
    (hm : Keeps P m (fun _ => True)) {w w' : RWorld} {obs : List Obs} (hp : P w.raw) (h : finish one w m = some (w', obs)) :
    P w'.raw := by
  have h1 := (hm w.raw hp).1
  unfold finish at h
  split at h
  · next resp raw he =>
    rw [he] at h1
    split at h
    · next w2 o2 h2 =>
      simp only [Option.some.injEq, Prod.mk.injEq] at h
      rw [← h.1]
      exact dispatchList_keeps ho (w := { w with raw := raw }) h1 h2
    · cases h
  · cases h
  · cases h

theorem coreOpenInit_keeps {api : Api} {w w' : RWorld} {m : Ica.P.MsgChannelOpenInit} {fresh : String} {core : Bool}
    {obs : List Obs} (hp : P w.raw) (h : coreOpenInit api w m fresh core = some (w', obs)) : P w'.raw := by
  unfold coreOpenInit at h
  split at h
  · cases h
  · split at h
    · split at h
      · dsimp only at h
        split at h
        · next v raw he =>
          simp only [Option.some.injEq, Prod.mk.injEq] at h
          rw [← h.1]
          have hk : ∀ o, P (ibcChannelOpen api o w.raw).2 := fun o => (ibcChannelOpen_keeps F api o w.raw hp).1
          have := congrArg Prod.snd he
          dsimp only at this ⊢
          rw [← this]
          exact hk _
        · cases h
        · cases h
      · cases h
    · cases h

theorem coreCloseInit_keeps {one : RWorld → SubMsg → Option (RWorld × List Obs)} (ho : OneKeeps P one) {w w' : RWorld}
    {id : String} {core : Bool} {obs : List Obs} (hp : P w.raw) (h : coreCloseInit one w id core = some (w', obs)) :
    P w'.raw := by
  unfold coreCloseInit at h
  split at h
  · cases h
  · split at h
    · split at h
      · next w2 o2 h2 =>
        simp only [Option.some.injEq, Prod.mk.injEq] at h
        rw [← h.1]
        have := finish_keeps ho (ibcChannelClose_keeps F _) hp h2
        exact this
      · cases h
    · cases h

theorem execMsg_keeps {api : Api} {one : RWorld → SubMsg → Option (RWorld × List Obs)} (ho : OneKeeps P one)
    {fresh : String} {core : Bool} {w w' : RWorld} {m : CosmosMsg} {d : Option Bytes} {obs : List Obs} (hp : P w.raw)
    (h : execMsg api one fresh core w m = some (w', d, obs)) : P w'.raw := by
  unfold execMsg at h
  split at h
  · split at h
    · split at h
      · split at h
        · split at h
          · next h2 =>
            simp only [Option.some.injEq, Prod.mk.injEq] at h
            rw [← h.1]
            exact coreOpenInit_keeps F hp h2
          · cases h
        · cases h
      · cases h
    · simp only [Option.some.injEq, Prod.mk.injEq] at h
      rw [← h.1]; exact hp
  · split at h
    · next h2 =>
      simp only [Option.some.injEq, Prod.mk.injEq] at h
      rw [← h.1]
      exact coreCloseInit_keeps F ho hp h2
    · cases h
  · split at h
    · next h2 =>
      simp only [Option.some.injEq, Prod.mk.injEq] at h
      rw [← h.1]
      unfold coreSendPacket at h2
      split at h2
      · cases h2
      · split at h2
        · simp only [Option.some.injEq, Prod.mk.injEq] at h2
          rw [← h2.1]; exact hp
        · cases h2
    · cases h
  · simp only [Option.some.injEq, Prod.mk.injEq] at h
    rw [← h.1]; exact hp
  · simp only [Option.some.injEq, Prod.mk.injEq] at h
    rw [← h.1]; exact hp

theorem dispatch_keeps (api : Api) (fresh : String) (core : Bool) : ∀ n, OneKeeps P (dispatch api fresh core n)
  | 0 => fun _ _ _ _ _ h => by cases h
  | n + 1 => by
    intro w m w' obs hp h
    have ih := dispatch_keeps api fresh core n
    rw [dispatch.eq_2] at h
    split at h
    · next w1 d o1 h1 =>
      have hp1 := execMsg_keeps F ih hp h1
      split at h
      · split at h
        · next h2 =>
          simp only [Option.some.injEq, Prod.mk.injEq] at h
          rw [← h.1]
          exact finish_keeps ih (reply_keeps F _ _) hp1 h2
        · cases h
      · simp only [Option.some.injEq, Prod.mk.injEq] at h
        rw [← h.1]; exact hp1
    · split at h
      · exact finish_keeps ih (reply_keeps F _ _) hp h
      · cases h

omit F in
theorem withMsg_keeps {α : Type} {jc : JC α} {b : Bytes} {f : α → RM Response} (h : ∀ a, Keeps P (f a) (fun _ => True)) :
    Keeps P (withMsg jc b f) (fun _ => True) := by
  unfold withMsg
  split
  · exact h _
  · exact keeps_fail _

attribute [local irreducible] dispatch

/-- Every committed operation keeps the frame. -/
theorem apply_keeps {api : Api} {w w' : RWorld} {op : ROp} {obs : List Obs} (hp : P w.raw)
    (h : apply api w op = some (w', obs)) : P w'.raw := by
  have hd := fun fresh core => dispatch_keeps F api fresh core maxDepth
  unfold apply at h
  split at h
  · split at h
    · cases h
    · exact finish_keeps (w := { w with live := true }) (hd _ _) (withMsg_keeps fun _ => instantiate_keeps F _ _ _ _) hp h
  · split at h
    · exact finish_keeps (hd _ _) (withMsg_keeps fun _ => execute_keeps F _ _ _ _) hp h
    · cases h
  · split at h
    · exact finish_keeps (hd _ _) (withMsg_keeps fun _ => migrate_keeps F) hp h
    · cases h
  · split at h
    · simp only [Option.some.injEq, Prod.mk.injEq] at h
      rw [← h.1]; exact hp
    · cases h
  · split at h
    · cases h
    · exact coreOpenInit_keeps F hp h
  · split at h
    · next he => unfold ibcChannelOpen lift at he; cases he
    · cases h
    · cases h
  · split at h
    · cases h
    · split at h
      · refine finish_keeps (hd _ _) (ibcChannelConnect_keeps F _ _) ?_ h
        exact hp
      · cases h
  · exact finish_keeps (hd _ _) (ibcChannelConnect_keeps F _ _) hp h
  · exact coreCloseInit_keeps F (hd _ _) hp h
  · split at h
    · cases h
    · split at h
      · split at h
        · next h2 =>
          simp only [Option.some.injEq, Prod.mk.injEq] at h
          rw [← h.1]
          have := finish_keeps (hd _ _) (ibcChannelClose_keeps F _) hp h2
          exact this
        · cases h
      · cases h
  · exact finish_keeps (hd _ _) (keeps_panic _) hp h
  · split at h
    · split at h
      · refine finish_keeps (hd _ _) (ibcPacketAck_keeps F _ _ _) ?_ h
        exact hp
      · cases h
    · cases h
  · split at h
    · refine finish_keeps (hd _ _) (ibcPacketTimeout_keeps F _ _) ?_ h
      exact hp
    · cases h
  · cases h
  · cases h
  · cases h

/-- Every history keeps the frame. -/
theorem exec_keeps {api : Api} {w w' : RWorld} {h : List (ROp × List Obs)} (hp : P w.raw) (he : RExec api w h w') :
    P w'.raw := by
  induction he with
  | nil => exact hp
  | step _ ha ih => exact apply_keeps F ih ha

end

/-! ## Two frames -/

/-- The contract state, if readable, has no ICA info with an encoding other than protobuf. -/
def ProtoState (raw : RawStore) : Prop :=
  ∀ b st i, raw (utf8 "state") = some b → ContractState.jc.ofBytes b = some st → st.icaInfo = some i → i.encoding = .protobuf

theorem state_head : (utf8 "state").head? ≠ some 0 := by decide +kernel

theorem itemKeys_ne_state {key : String} (h : key ∈ itemKeys) : utf8 key ≠ utf8 "state" := by
  apply item_ne
  rintro rfl
  revert h
  decide

theorem proto_frame : Frame ProtoState (fun st => ∀ i, st.icaInfo = some i → i.encoding = .protobuf) where
  load raw b st hp hb hx i hi := hp b st i hb hx hi
  state raw st _ hg b st' i hb hx hi := by
    simp only [setKey, if_pos, Option.some.injEq] at hb
    subst hb
    rw [JC.ofBytes_toBytes ContractState.jc_law] at hx
    rw [← Option.some.inj hx] at hi
    exact hg i hi
  item raw key v hk hp b st i hb hx hi := by
    simp only [setKey, if_neg (itemKeys_ne_state hk).symm] at hb
    exact hp b st i hb hx hi
  map raw c n k v hk hp b st i hb hx hi := by
    have : utf8 "state" ≠ k := fun e => item_head_ne state_head hk e.symm
    simp only [setKey, if_neg this] at hb
    exact hp b st i hb hx hi
  fresh cb i hi := by cases hi
  callback st cb h i hi := h i hi
  ica st a c h i hi := by rw [← Option.some.inj hi]

/-- The keys of the contract: the eight items and the entries of `pending_queries`. -/
def OwnKey (k : Bytes) : Prop :=
  k = utf8 "state" ∨ (∃ key ∈ itemKeys, k = utf8 key) ∨ ∃ c n, mapKey PENDING_QUERIES.ns c n = .ok k

theorem own_frame (raw0 : RawStore) : Frame (fun raw => ∀ k, ¬ OwnKey k → raw k = raw0 k) (fun _ => True) where
  load _ _ _ _ _ _ := trivial
  state raw st hp _ k hk := by
    have : k ≠ utf8 "state" := fun e => hk (.inl e)
    simp only [setKey, if_neg this]; exact hp k hk
  item raw key v hkey hp k hk := by
    have : k ≠ utf8 key := fun e => hk (.inr (.inl ⟨key, hkey, e⟩))
    simp only [setKey, if_neg this]; exact hp k hk
  map raw c n k' v hk' hp k hk := by
    have : k ≠ k' := fun e => hk (.inr (.inr ⟨c, n, e ▸ hk'⟩))
    simp only [setKey, if_neg this]; exact hp k hk
  fresh _ := trivial
  callback _ _ _ := trivial
  ica _ _ _ _ := trivial

end Ica.Raw
