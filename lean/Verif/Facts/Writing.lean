import Verif.Spec.Writing
import Verif.Props.Footprint

/-!
# Running on a storage that says the same in other words
-/
namespace Ica.Raw
open Spec

/-- The computation does the same on two storages that read alike. -/
def Sim {α : Type} (m : RM α) : Prop :=
  ∀ a b, ReadAlike a b → (m b).1 = (m a).1 ∧ ReadAlike (m a).2 (m b).2

theorem Alike.refl' {α : Type} (c : JC α) (x : Option Bytes) : Alike c x x := rfl

theorem ReadAlike.refl' (a : RawStore) : ReadAlike a a := ⟨rfl, rfl, rfl, rfl, rfl, rfl, rfl, rfl, fun _ _ => rfl⟩

theorem ReadAlike.symm' {a b : RawStore} (h : ReadAlike a b) : ReadAlike b a :=
  ⟨h.version.symm, h.ownership.symm, h.state.symm, h.channel.symm, h.options.symm, h.opening.symm, h.closing.symm,
    h.sending.symm, fun c n => (h.records c n).symm⟩

theorem alike_set {α : Type} {c : JC α} {a b : RawStore} {k' : Bytes} (k : Bytes) (x : Option Bytes)
    (h : Alike c (a k') (b k')) : Alike c (setKey a k x k') (setKey b k x k') := by
  unfold setKey
  split
  · rfl
  · exact h

theorem readAlike_set {a b : RawStore} (h : ReadAlike a b) (k : Bytes) (x : Option Bytes) :
    ReadAlike (setKey a k x) (setKey b k x) :=
  ⟨alike_set k x h.version, alike_set k x h.ownership, alike_set k x h.state, alike_set k x h.channel,
    alike_set k x h.options, alike_set k x h.opening, alike_set k x h.closing, alike_set k x h.sending,
    fun c n => alike_set k x (h.records c n)⟩

theorem sim_pure {α : Type} (x : α) : Sim (pure x : RM α) := fun _ _ h => ⟨rfl, h⟩
theorem sim_lift {α : Type} (r : Res α) : Sim (lift r) := fun _ _ h => ⟨rfl, h⟩
theorem sim_fail {α : Type} (e : Err) : Sim (fail e : RM α) := sim_lift _

theorem sim_bind {α β : Type} {m : RM α} {f : α → RM β} (hm : Sim m) (hf : ∀ x, Sim (f x)) : Sim (m >>= f) := by
  intro a b h
  obtain ⟨h1, h2⟩ := hm a b h
  rw [bind_eq, bind_eq]
  rcases ha : m a with ⟨ra, a'⟩
  rcases hb : m b with ⟨rb, b'⟩
  rw [ha, hb] at h1 h2
  dsimp only at h1 h2
  subst h1
  cases rb with
  | ok x => exact hf x a' b' h2
  | err e => exact ⟨rfl, h2⟩
  | panic e => exact ⟨rfl, h2⟩

theorem sim_attempt {α : Type} {m : RM α} (hm : Sim m) : Sim (attempt m) := by
  intro a b h
  obtain ⟨h1, h2⟩ := hm a b h
  unfold attempt
  rcases ha : m a with ⟨ra, a'⟩
  rcases hb : m b with ⟨rb, b'⟩
  rw [ha, hb] at h1 h2
  dsimp only at h1 h2
  subst h1
  cases rb <;> exact ⟨rfl, h2⟩

theorem sim_load {α : Type} {i : Item α} (hi : ∀ a b, ReadAlike a b → Alike i.jc (a (utf8 i.key)) (b (utf8 i.key))) :
    Sim i.load := by
  intro a b h
  have := hi a b h
  unfold Alike at this
  unfold Item.load
  revert this
  cases a (utf8 i.key) <;> cases b (utf8 i.key) <;> intro this
  · exact ⟨rfl, h⟩
  · simp at this
  · simp at this
  · next x y =>
    simp only [Option.map_some, Option.some.injEq] at this
    dsimp only
    rw [this]
    cases i.jc.ofBytes y <;> exact ⟨rfl, h⟩

theorem sim_mayLoad {α : Type} {i : Item α} (hi : ∀ a b, ReadAlike a b → Alike i.jc (a (utf8 i.key)) (b (utf8 i.key))) :
    Sim i.mayLoad := by
  intro a b h
  have := hi a b h
  unfold Alike at this
  unfold Item.mayLoad
  revert this
  cases a (utf8 i.key) <;> cases b (utf8 i.key) <;> intro this
  · exact ⟨rfl, h⟩
  · simp at this
  · simp at this
  · next x y =>
    simp only [Option.map_some, Option.some.injEq] at this
    dsimp only
    rw [this]
    cases i.jc.ofBytes y <;> exact ⟨rfl, h⟩

theorem sim_save {α : Type} (i : Item α) (x : α) : Sim (i.save x) := fun _ _ h => ⟨rfl, readAlike_set h _ _⟩
theorem sim_remove {α : Type} (i : Item α) : Sim i.remove := fun _ _ h => ⟨rfl, readAlike_set h _ _⟩

theorem sim_put (c : String) (n : UInt64) (v : Option QueryPaths) : Sim (PENDING_QUERIES.put c n v) := by
  intro a b h
  unfold Map2.put
  cases mapKey PENDING_QUERIES.ns c n with
  | ok k => exact ⟨rfl, readAlike_set h _ _⟩
  | err e => exact ⟨rfl, h⟩
  | panic e => exact ⟨rfl, h⟩

theorem sim_records (c : String) (n : UInt64) : Sim (PENDING_QUERIES.mayLoad c n) := by
  intro a b h
  unfold Map2.mayLoad
  cases hk : mapKey PENDING_QUERIES.ns c n with
  | err e => exact ⟨rfl, h⟩
  | panic e => exact ⟨rfl, h⟩
  | ok k =>
    have := h.records c n
    rw [← Footprint.map_key hk] at this
    unfold Alike at this
    dsimp only
    revert this
    cases a k <;> cases b k <;> intro this
    · exact ⟨rfl, h⟩
    · simp at this
    · simp at this
    · next x y =>
      simp only [Option.map_some, Option.some.injEq] at this
      change PENDING_QUERIES.jc.ofBytes x = PENDING_QUERIES.jc.ofBytes y at this
      dsimp only
      rw [this]
      cases PENDING_QUERIES.jc.ofBytes y <;> exact ⟨rfl, h⟩

theorem sim_STATE : Sim STATE.load := sim_load fun _ _ h => h.state
theorem sim_OWNERSHIP : Sim OWNERSHIP.load := sim_load fun _ _ h => h.ownership
theorem sim_CONTRACT : Sim CONTRACT.load := sim_load fun _ _ h => h.version
theorem sim_CHANNEL : Sim CHANNEL_STATE.load := sim_load fun _ _ h => h.channel
theorem sim_CHANNEL' : Sim CHANNEL_STATE.mayLoad := sim_mayLoad fun _ _ h => h.channel
theorem sim_OPTIONS : Sim CHANNEL_OPEN_INIT_OPTIONS.load := sim_load fun _ _ h => h.options
theorem sim_OPTIONS' : Sim CHANNEL_OPEN_INIT_OPTIONS.mayLoad := sim_mayLoad fun _ _ h => h.options
theorem sim_OPENING : Sim ALLOW_CHANNEL_OPEN_INIT.load := sim_load fun _ _ h => h.opening
theorem sim_CLOSING : Sim ALLOW_CHANNEL_CLOSE_INIT.load := sim_load fun _ _ h => h.closing
theorem sim_QUERY : Sim QUERY.load := sim_load fun _ _ h => h.sending

theorem sim_withMsg {α β : Type} {jc : JC α} {b : Bytes} {f : α → RM β} (h : ∀ m, Sim (f m)) : Sim (withMsg jc b f) := by
  unfold withMsg
  split
  · exact h _
  · exact sim_fail _

/-- Take a computation apart. -/
macro "sim" : tactic => `(tactic|
  repeat first
    | exact sim_pure _ | exact sim_lift _ | exact sim_fail _ | exact sim_save _ _ | exact sim_remove _
    | exact sim_put _ _ _ | exact sim_records _ _
    | exact sim_STATE | exact sim_OWNERSHIP | exact sim_CONTRACT | exact sim_CHANNEL | exact sim_CHANNEL'
    | exact sim_OPTIONS | exact sim_OPTIONS' | exact sim_attempt sim_OPENING | exact sim_attempt sim_CLOSING
    | exact sim_attempt sim_CHANNEL | exact sim_QUERY
    | refine sim_bind ?_ fun _ => ?_
    | split)

/-! ## The entry points -/

theorem sim_assertOwner (sender : String) : Sim (assertOwner sender) := by
  unfold assertOwner
  sim

theorem sim_instantiate (api : Api) (env : Env) (sender : String) (m : InstantiateMsg) : Sim (instantiate api env sender m) := by
  unfold instantiate setContractVersion initializeOwner
  sim

theorem sim_execute (api : Api) (env : Env) (sender : String) (m : ExecuteMsg) : Sim (execute api env sender m) := by
  cases m with
  | createChannel o =>
    change Sim (createChannel env sender o)
    unfold createChannel
    refine sim_bind (sim_assertOwner _) fun _ => ?_
    refine sim_bind ?_ fun _ => ?_
    · unfold chooseOptions
      sim
    · sim
  | closeChannel =>
    change Sim (closeChannel sender)
    unfold closeChannel
    refine sim_bind (sim_assertOwner _) fun _ => ?_
    sim
  | updateCallbackAddress a =>
    change Sim (updateCallbackAddress api sender a)
    unfold updateCallbackAddress
    refine sim_bind (sim_assertOwner _) fun _ => ?_
    sim
  | sendCosmosMsgs ms qs memo t =>
    change Sim (sendCosmosMsgs env sender ms qs memo t)
    unfold sendCosmosMsgs
    refine sim_bind (sim_assertOwner _) fun _ => ?_
    refine sim_bind sim_STATE fun _ => ?_
    refine sim_bind (sim_lift _) fun _ => ?_
    refine sim_bind ?_ fun _ => ?_
    · unfold fromCosmosMsgs
      sim
    · refine sim_bind (sim_lift _) fun _ => ?_
      exact sim_pure _
  | updateOwnership a =>
    change Sim (updateOwnership api env sender a)
    unfold updateOwnership cwUpdateOwnership
    sim

theorem sim_reply (id : UInt64) (r : SubMsgResult) : Sim (reply id r) := by
  unfold reply replySendQueryPacket Map2.save
  sim

theorem sim_migrate : Sim migrate := by
  unfold migrate setContractVersion
  sim

theorem sim_query (m : QueryMsg) : Sim (query m) := by
  unfold query
  sim

theorem sim_open (api : Api) (m : OpenMsg) : Sim (ibcChannelOpen api m) := by
  unfold ibcChannelOpen channelOpenInit openInitMetadata fromChannel
  sim

theorem sim_connect (api : Api) (m : ConnectMsg) : Sim (ibcChannelConnect api m) := by
  unfold ibcChannelConnect channelOpenAck
  sim

theorem sim_close (m : CloseMsg) : Sim (ibcChannelClose m) := by
  unfold ibcChannelClose channelCloseInit channelCloseConfirm
  sim

theorem sim_ack (ack : Bytes) (p : IbcPacket) (relayer : String) : Sim (ibcPacketAck ack p relayer) := by
  unfold ibcPacketAck ackSuccess ackError Map2.remove
  sim

theorem sim_timeout (p : IbcPacket) (relayer : String) : Sim (ibcPacketTimeout p relayer) := by
  unfold ibcPacketTimeout timeoutCallback Map2.remove
  sim

/-! ## Operations -/

theorem Twin.symm' {w v : RWorld} (h : Twin w v) : Twin v w := by
  obtain ⟨h1, h2⟩ := h
  refine ⟨ReadAlike.symm' h1, ?_⟩
  rw [h2]

/-- A way to run messages that does the same in twins. -/
def OneSim (one : RWorld → SubMsg → Option (RWorld × List Obs)) : Prop :=
  ∀ w v m w' obs, Twin w v → one w m = some (w', obs) → ∃ v', one v m = some (v', obs) ∧ Twin w' v'

theorem OneSim.none {one : RWorld → SubMsg → Option (RWorld × List Obs)} (ho : OneSim one) {w v : RWorld} {m : SubMsg}
    (h : Twin w v) (hn : one w m = none) : one v m = none := by
  cases hv : one v m with
  | none => rfl
  | some p =>
    obtain ⟨w', h1, _⟩ := ho _ _ _ _ _ (Twin.symm' h) hv
    rw [hn] at h1
    cases h1

theorem dispatchList_sim {one : RWorld → SubMsg → Option (RWorld × List Obs)} (ho : OneSim one) :
    ∀ {ms : List SubMsg} {w v w' : RWorld} {obs : List Obs}, Twin w v → dispatchList one w ms = some (w', obs) →
      ∃ v', dispatchList one v ms = some (v', obs) ∧ Twin w' v'
  | [], w, v, w', obs, ht, h => by
    simp only [dispatchList, Option.some.injEq, Prod.mk.injEq] at h
    obtain ⟨rfl, rfl⟩ := h
    exact ⟨v, rfl, ht⟩
  | m :: ms, w, v, w', obs, ht, h => by
    unfold dispatchList at h
    split at h
    · cases h
    · next w1 o1 h1 =>
      split at h
      · cases h
      · next w2 o2 h2 =>
        simp only [Option.some.injEq, Prod.mk.injEq] at h
        obtain ⟨rfl, rfl⟩ := h
        obtain ⟨v1, e1, t1⟩ := ho _ _ _ _ _ ht h1
        obtain ⟨v2, e2, t2⟩ := dispatchList_sim ho t1 h2
        exact ⟨v2, by simp only [dispatchList, e1, e2], t2⟩

theorem finish_sim {one : RWorld → SubMsg → Option (RWorld × List Obs)} (ho : OneSim one) {m : RM Response} (hm : Sim m)
    {w v w' : RWorld} {obs : List Obs} (ht : Twin w v) (h : finish one w m = some (w', obs)) :
    ∃ v', finish one v m = some (v', obs) ∧ Twin w' v' := by
  obtain ⟨ha, hv⟩ := ht
  obtain ⟨h1, h2⟩ := hm w.raw v.raw ha
  unfold finish at h
  split at h
  · next resp raw he =>
    rw [he] at h1 h2
    split at h
    · next w2 o2 hd =>
      simp only [Option.some.injEq, Prod.mk.injEq] at h
      obtain ⟨rfl, rfl⟩ := h
      have t : Twin { w with raw := raw } { v with raw := (m v.raw).2 } := ⟨h2, by rw [hv]⟩
      obtain ⟨v', e, t'⟩ := dispatchList_sim ho t hd
      refine ⟨v', ?_, t'⟩
      unfold finish
      rcases hx : m v.raw with ⟨r, raw'⟩
      rw [hx] at h1 e
      dsimp only at h1 e
      subst h1
      dsimp only
      rw [e]
    · cases h
  · cases h
  · cases h

theorem coreOpenInit_sim {api : Api} {w v w' : RWorld} {m : Ica.P.MsgChannelOpenInit} {fresh : String} {core : Bool}
    {obs : List Obs} (ht : Twin w v) (h : coreOpenInit api w m fresh core = some (w', obs)) :
    ∃ v', coreOpenInit api v m fresh core = some (v', obs) ∧ Twin w' v' := by
  obtain ⟨ha, hv⟩ := ht
  have hl : v.live = w.live := by rw [hv]
  have he : v.env = w.env := by rw [hv]
  have hc : v.chans = w.chans := by rw [hv]
  unfold coreOpenInit at h ⊢
  split at h
  · cases h
  · next c hcn =>
    try rw [hcn]
    try dsimp only
    split at h
    · next cp conn order x1 x2 x3 =>
      try rw [x1, x2, x3]
      try dsimp only
      rw [hl, he, hc]
      split at h
      · next hif =>
        rw [if_pos hif]
        obtain ⟨s1, s2⟩ := sim_open api (.openInit ⟨⟨m.portId, fresh⟩, ⟨cp.portId, ""⟩, order, c.version, conn⟩) w.raw v.raw ha
        dsimp only at h
        split at h
        · next x raw hx =>
          simp only [Option.some.injEq, Prod.mk.injEq] at h
          obtain ⟨rfl, rfl⟩ := h
          rw [hx] at s1 s2
          rcases hy : ibcChannelOpen api (.openInit ⟨⟨m.portId, fresh⟩, ⟨cp.portId, ""⟩, order, c.version, conn⟩) v.raw with ⟨r, raw'⟩
          rw [hy] at s1 s2
          dsimp only at s1 s2
          subst s1
          exact ⟨_, rfl, s2, by rw [hv]⟩
        · cases h
        · cases h
      · cases h
    · cases h

theorem coreCloseInit_sim {one : RWorld → SubMsg → Option (RWorld × List Obs)} (ho : OneSim one) {w v w' : RWorld}
    {id : String} {core : Bool} {obs : List Obs} (ht : Twin w v) (h : coreCloseInit one w id core = some (w', obs)) :
    ∃ v', coreCloseInit one v id core = some (v', obs) ∧ Twin w' v' := by
  have hc : v.chans = w.chans := by rw [ht.2]
  unfold coreCloseInit at h ⊢
  rw [hc]
  split at h
  · cases h
  · next c hcn =>
    try rw [hcn]
    try dsimp only
    split at h
    · next hif =>
      rw [if_pos hif]
      split at h
      · next w2 o2 h2 =>
        simp only [Option.some.injEq, Prod.mk.injEq] at h
        obtain ⟨rfl, rfl⟩ := h
        obtain ⟨v2, e2, t2⟩ := finish_sim ho (sim_close _) ht h2
        rw [e2]
        exact ⟨_, rfl, t2.1, by rw [t2.2]⟩
      · cases h
    · cases h

theorem coreSendPacket_sim {w v w' : RWorld} {id : String} {data : Bytes} {t : IbcTimeout} {core : Bool} {d : Bytes}
    {obs : List Obs} (ht : Twin w v) (h : coreSendPacket w id data t core = some (w', d, obs)) :
    ∃ v', coreSendPacket v id data t core = some (v', d, obs) ∧ Twin w' v' := by
  have hc : v.chans = w.chans := by rw [ht.2]
  have hn : v.nextSeq = w.nextSeq := by rw [ht.2]
  unfold coreSendPacket at h ⊢
  rw [hc, hn]
  split at h
  · cases h
  · next c hcn =>
    try rw [hcn]
    try dsimp only
    split at h
    · next hif =>
      rw [if_pos hif]
      simp only [Option.some.injEq, Prod.mk.injEq] at h
      obtain ⟨rfl, rfl, rfl⟩ := h
      exact ⟨_, rfl, ht.1, by rw [ht.2]⟩
    · cases h

theorem execMsg_sim {api : Api} {one : RWorld → SubMsg → Option (RWorld × List Obs)} (ho : OneSim one) {fresh : String}
    {core : Bool} {w v w' : RWorld} {m : CosmosMsg} {d : Option Bytes} {obs : List Obs} (ht : Twin w v)
    (h : execMsg api one fresh core w m = some (w', d, obs)) :
    ∃ v', execMsg api one fresh core v m = some (v', d, obs) ∧ Twin w' v' := by
  have he : v.env = w.env := by rw [ht.2]
  unfold execMsg at h ⊢
  split at h
  · next url value =>
    try dsimp only
    rw [he]
    split at h
    · next hu =>
      rw [if_pos hu]
      split at h
      · next om hm =>
        try rw [hm]
        try dsimp only
        split at h
        · next hs =>
          rw [if_pos hs]
          split at h
          · next h2 =>
            simp only [Option.some.injEq, Prod.mk.injEq] at h
            obtain ⟨rfl, rfl, rfl⟩ := h
            obtain ⟨v2, e2, t2⟩ := coreOpenInit_sim ht h2
            rw [e2]
            exact ⟨v2, rfl, t2⟩
          · cases h
        · cases h
      · cases h
    · next hu =>
      rw [if_neg hu]
      simp only [Option.some.injEq, Prod.mk.injEq] at h
      obtain ⟨rfl, rfl, rfl⟩ := h
      exact ⟨v, rfl, ht⟩
  · try dsimp only
    split at h
    · next h2 =>
      simp only [Option.some.injEq, Prod.mk.injEq] at h
      obtain ⟨rfl, rfl, rfl⟩ := h
      obtain ⟨v2, e2, t2⟩ := coreCloseInit_sim ho ht h2
      rw [e2]
      exact ⟨v2, rfl, t2⟩
    · cases h
  · try dsimp only
    split at h
    · next h2 =>
      simp only [Option.some.injEq, Prod.mk.injEq] at h
      obtain ⟨rfl, rfl, rfl⟩ := h
      obtain ⟨v2, e2, t2⟩ := coreSendPacket_sim ht h2
      rw [e2]
      exact ⟨v2, rfl, t2⟩
    · cases h
  · simp only [Option.some.injEq, Prod.mk.injEq] at h
    obtain ⟨rfl, rfl, rfl⟩ := h
    exact ⟨v, rfl, ht⟩
  · simp only [Option.some.injEq, Prod.mk.injEq] at h
    obtain ⟨rfl, rfl, rfl⟩ := h
    exact ⟨v, rfl, ht⟩

theorem dispatch_sim (api : Api) (fresh : String) (core : Bool) : ∀ n, OneSim (dispatch api fresh core n)
  | 0 => fun _ _ _ _ _ _ h => by cases h
  | n + 1 => by
    intro w v m w' obs ht h
    have ih := dispatch_sim api fresh core n
    rw [dispatch.eq_2] at h ⊢
    split at h
    · next w1 d o1 h1 =>
      obtain ⟨v1, e1, t1⟩ := execMsg_sim ih ht h1
      rw [e1]
      dsimp only
      split at h
      · next hif =>
        rw [if_pos hif]
        split at h
        · next h2 =>
          simp only [Option.some.injEq, Prod.mk.injEq] at h
          obtain ⟨rfl, rfl⟩ := h
          obtain ⟨v2, e2, t2⟩ := finish_sim ih (sim_reply _ _) t1 h2
          rw [e2]
          exact ⟨v2, rfl, t2⟩
        · cases h
      · next hif =>
        rw [if_neg hif]
        simp only [Option.some.injEq, Prod.mk.injEq] at h
        obtain ⟨rfl, rfl⟩ := h
        exact ⟨v1, rfl, t1⟩
    · next h1 =>
      have e1 : execMsg api (dispatch api fresh core n) fresh core v m.msg = none := by
        cases hv : execMsg api (dispatch api fresh core n) fresh core v m.msg with
        | none => rfl
        | some p =>
          obtain ⟨x, e, _⟩ := execMsg_sim ih (Twin.symm' ht) hv
          rw [h1] at e
          cases e
      rw [e1]
      dsimp only
      split at h
      · next hif =>
        rw [if_pos hif]
        exact finish_sim ih (sim_reply _ _) ht h
      · cases h

attribute [local irreducible] dispatch

theorem apply_sim {api : Api} {w v w' : RWorld} {op : ROp} {obs : List Obs} (ht : Twin w v)
    (h : apply api w op = some (w', obs)) : ∃ v', apply api v op = some (v', obs) ∧ Twin w' v' := by
  have hd := fun fresh core => dispatch_sim api fresh core maxDepth
  have hl : v.live = w.live := by rw [ht.2]
  have he : v.env = w.env := by rw [ht.2]
  have hc : v.chans = w.chans := by rw [ht.2]
  have hk : v.commits = w.commits := by rw [ht.2]
  unfold apply at h ⊢
  split at h <;> try dsimp only
  · split at h
    · cases h
    · next hn =>
      rw [hl, he, if_neg hn]
      refine finish_sim (hd _ _) (sim_withMsg fun _ => sim_instantiate _ _ _ _) ?_ h
      exact ⟨ht.1, by rw [ht.2]⟩
  · split at h
    · next hn =>
      rw [hl, he, if_pos hn]
      exact finish_sim (hd _ _) (sim_withMsg fun _ => sim_execute _ _ _ _) ht h
    · cases h
  · split at h
    · next hn =>
      rw [hl, if_pos hn]
      exact finish_sim (hd _ _) (sim_withMsg fun _ => sim_migrate) ht h
    · cases h
  · rw [he]
    split at h
    · next hn =>
      rw [if_pos hn]
      simp only [Option.some.injEq, Prod.mk.injEq] at h
      obtain ⟨rfl, rfl⟩ := h
      exact ⟨_, rfl, ht.1, by rw [ht.2]⟩
    · cases h
  · rw [he]
    split at h
    · cases h
    · next hn =>
      rw [if_neg hn]
      exact coreOpenInit_sim ht h
  · split at h
    · next hx => unfold ibcChannelOpen lift at hx; cases hx
    · cases h
    · cases h
  · rw [hc]
    split at h
    · cases h
    · next c hcn =>
      try rw [hcn]
      try dsimp only
      split at h
      · next hif =>
        rw [if_pos hif]
        refine finish_sim (hd _ _) (sim_connect _ _) ?_ h
        exact ⟨ht.1, by rw [ht.2]⟩
      · cases h
  · exact finish_sim (hd _ _) (sim_connect _ _) ht h
  · exact coreCloseInit_sim (hd _ _) ht h
  · rw [hc]
    split at h
    · cases h
    · next c hcn =>
      try rw [hcn]
      try dsimp only
      split at h
      · next hif =>
        rw [if_pos hif]
        split at h
        · next h2 =>
          simp only [Option.some.injEq, Prod.mk.injEq] at h
          obtain ⟨rfl, rfl⟩ := h
          obtain ⟨v2, e2, t2⟩ := finish_sim (hd _ _) (sim_close _) ht h2
          rw [e2]
          exact ⟨_, rfl, t2.1, by rw [t2.2]⟩
        · cases h
      · cases h
  · exact finish_sim (hd _ _) (sim_lift _) ht h
  · rw [hk, hc]
    split at h
    · next p c hp hcn =>
      try rw [hp, hcn]
      try dsimp only
      split at h
      · next hif =>
        rw [if_pos hif]
        refine finish_sim (hd _ _) (sim_ack _ _ _) ?_ h
        exact ⟨ht.1, by rw [ht.2]⟩
      · cases h
    · cases h
  · rw [hk, hc]
    split at h
    · next p c hp hcn =>
      try rw [hp, hcn]
      try dsimp only
      refine finish_sim (hd _ _) (sim_timeout _ _) ?_ h
      exact ⟨ht.1, by rw [ht.2]⟩
    · cases h
  · cases h
  · cases h
  · cases h

/-! ## Members -/

theorem countKey_filter {names : List String} {k : String} (hk : k ∈ names) (fs : List (String × Json)) :
    countKey k (fs.filter fun f => f.1 ∈ names) = countKey k fs := by
  induction fs with
  | nil => rfl
  | cons p fs ih =>
    obtain ⟨k', x⟩ := p
    by_cases hp : k' ∈ names
    · simp [hp, countKey, ih]
    · have : k' ≠ k := by rintro rfl; exact hp hk
      simp [hp, countKey, ih, this]

theorem lookupKey_filter {names : List String} {k : String} (hk : k ∈ names) (fs : List (String × Json)) :
    lookupKey k (fs.filter fun f => f.1 ∈ names) = lookupKey k fs := by
  induction fs with
  | nil => rfl
  | cons p fs ih =>
    obtain ⟨k', x⟩ := p
    by_cases hp : k' ∈ names
    · simp [hp, lookupKey, ih]
    · have : k' ≠ k := by rintro rfl; exact hp hk
      simp [hp, lookupKey, ih, this]

theorem countKey_perm {k : String} {fs gs : List (String × Json)} (h : List.Perm fs gs) : countKey k fs = countKey k gs := by
  induction h with
  | nil => rfl
  | cons x _ ih => obtain ⟨k', y⟩ := x; simp [countKey, ih]
  | swap x y l => obtain ⟨k1, x⟩ := x; obtain ⟨k2, y⟩ := y; simp only [countKey]; omega
  | trans _ _ h1 h2 => rw [h1, h2]

theorem lookupKey_zero {k : String} {fs : List (String × Json)} (h : countKey k fs = 0) : lookupKey k fs = none := by
  induction fs with
  | nil => rfl
  | cons p fs ih =>
    obtain ⟨k', x⟩ := p
    by_cases hp : k' = k
    · simp [countKey, hp] at h
    · simp only [countKey, hp, if_false, Nat.zero_add] at h
      simp [lookupKey, hp, ih h]

theorem lookupKey_perm {k : String} {fs gs : List (String × Json)} (h : List.Perm fs gs) (h1 : countKey k fs ≤ 1) :
    lookupKey k fs = lookupKey k gs := by
  induction h with
  | nil => rfl
  | cons x hp ih =>
    obtain ⟨k', y⟩ := x
    by_cases e : k' = k
    · simp [lookupKey, e]
    · simp only [countKey, e, if_false, Nat.zero_add] at h1
      simp [lookupKey, e, ih h1]
  | swap x y l =>
    obtain ⟨k1, x⟩ := x
    obtain ⟨k2, y⟩ := y
    by_cases e1 : k1 = k <;> by_cases e2 : k2 = k
    · simp only [countKey, e1, e2, if_true] at h1; omega
    all_goals simp [lookupKey, e1, e2]
  | trans ha _ h2 h3 => rw [h2 h1, h3 (by rw [← countKey_perm ha]; exact h1)]

/-- A tolerant reader sees of an object no more than the members it knows. -/
theorem same_members {names : List String} {fs gs : List (String × Json)} (h : SameMembers names fs gs) :
    (getObj false names (.obj fs) = none ↔ getObj false names (.obj gs) = none) ∧
    (∀ xs, getObj false names (.obj fs) = some xs → getObj false names (.obj gs) = some gs ∧ xs = fs ∧
      ∀ k ∈ names, lookupKey k fs = lookupKey k gs) := by
  have hc : ∀ k ∈ names, countKey k fs = countKey k gs := fun k hk => by
    rw [← countKey_filter hk fs, ← countKey_filter hk gs, countKey_perm h]
  have e : (names.all fun k => decide (countKey k fs ≤ 1)) = names.all fun k => decide (countKey k gs ≤ 1) := by
    rw [Bool.eq_iff_iff]
    simp only [List.all_eq_true, decide_eq_true_eq]
    exact ⟨fun H k hk => by rw [← hc k hk]; exact H k hk, fun H k hk => by rw [hc k hk]; exact H k hk⟩
  unfold getObj
  simp only [Bool.not_false, Bool.true_or, Bool.and_true]
  rw [e]
  refine ⟨by split <;> simp, fun xs hx => ?_⟩
  split at hx
  · next hif =>
    rw [if_pos hif]
    refine ⟨rfl, (Option.some.inj hx).symm, fun k hk => ?_⟩
    rw [← lookupKey_filter hk fs, ← lookupKey_filter hk gs]
    refine lookupKey_perm h ?_
    rw [countKey_filter hk, hc k hk]
    simp only [List.all_eq_true, decide_eq_true_eq] at hif
    exact hif k hk
  · cases hx

end Ica.Raw
