import Verif.Facts.Migrate
import Verif.Props.Scenario
import Verif.Model.Helpers
import Verif.Spec.Observe
import Mathlib.Data.List.Nodup

/-!
# Storage: C36 (raw half), C52, C58-C60
-/
namespace Ica
open Spec

/-- The names of the contract's single values in storage. -/
def Spec.itemNames : List String :=
  ["state", "ica_channel", "channel_open_init_options", "allow_channel_open_init", "allow_channel_close_init",
   "pending_query", "contract_info", "ownership"]

/-! ## C36 -/

/-- **C36.** Records of pending queries of different packets are under different keys. -/
theorem C36_distinct_keys {c c' : String} {n n' : UInt64} {k k' : Bytes}
    (h : Raw.mapKey "pending_queries" c n = .ok k) (h' : Raw.mapKey "pending_queries" c' n' = .ok k')
    (hne : (c, n) ≠ (c', n')) : k ≠ k' := by
  rintro rfl
  obtain ⟨rfl, rfl⟩ := Raw.mapKey_inj h h'
  exact hne rfl

theorem heads_ne : ∀ a ∈ itemNames, (utf8 a).head? ≠ some 0 := by decide +kernel

/-- **C36.** None of them is the key of one of the contract's single values, whatever the channel id, and these have
different keys too. -/
theorem C36_not_an_item {c : String} {n : UInt64} {k : Bytes} (h : Raw.mapKey "pending_queries" c n = .ok k) :
    ∀ a ∈ itemNames, k ≠ utf8 a := fun a ha => Raw.item_head_ne (heads_ne a ha) h

theorem C36_items_distinct : (itemNames.map utf8).Nodup := by
  refine List.Nodup.map (fun a b h => utf8_inj h) ?_
  decide

/-- **C36.** On any storage, an acknowledgement changes no key other than that of the packet's own record. -/
theorem C36_ack_touches_one_key {ack : Bytes} {p : IbcPacket} {relayer : String} {raw raw' : Raw.RawStore} {r : Response}
    (h : Raw.ibcPacketAck ack p relayer raw = (.ok r, raw')) {k : Bytes}
    (hk : Raw.mapKey "pending_queries" p.src.channelId p.sequence ≠ .ok k) : raw' k = raw k := by
  unfold Raw.ibcPacketAck at h
  cases hd : AckData.jc.ofBytes ack with
  | none => rw [hd] at h; cases h
  | some d =>
  rw [hd] at h
  cases d with
  | result res =>
    unfold Raw.ackSuccess Raw.Map2.remove at h
    simp only [Raw.bind_ok, Raw.lift_ok, Raw.load_ok, Raw.pure_ok] at h
    obtain ⟨o, r1, h1, q, r2, ⟨_, rfl⟩, _, r3, h3, st, r4, ⟨_, rfl⟩, _, rfl⟩ := h
    have e1 : r2 = raw := by
      have := Raw.mapMayLoad_snd Raw.PENDING_QUERIES p.src.channelId p.sequence raw
      rw [h1] at this; exact this
    subst e1
    unfold Raw.Map2.put at h3
    split at h3
    · next k' hk' =>
      cases h3
      have : k ≠ k' := fun e => hk (e ▸ hk')
      simp [Raw.setKey, this]
    · cases h3
    · cases h3
  | error e =>
    unfold Raw.ackError at h
    simp only [Raw.bind_ok, Raw.load_ok, Raw.pure_ok] at h
    obtain ⟨st, r4, ⟨_, rfl⟩, _, rfl⟩ := h
    rfl

/-- **C36.** On any storage, a timeout changes no key other than that of the packet's own record and the channel. -/
theorem C36_timeout_touches {p : IbcPacket} {relayer : String} {raw raw' : Raw.RawStore} {r : Response}
    (h : Raw.ibcPacketTimeout p relayer raw = (.ok r, raw')) {k : Bytes} (hc : k ≠ utf8 "ica_channel")
    (hk : Raw.mapKey "pending_queries" p.src.channelId p.sequence ≠ .ok k) : raw' k = raw k := by
  have tail : ∀ {a b : Raw.RawStore}, Raw.timeoutCallback p relayer a = (.ok r, b) → b k = a k := by
    intro a b h
    unfold Raw.timeoutCallback Raw.Map2.remove at h
    simp only [Raw.bind_ok, Raw.load_ok, Raw.pure_ok] at h
    obtain ⟨st, r1, ⟨_, rfl⟩, _, r2, h3, _, rfl⟩ := h
    unfold Raw.Map2.put at h3
    split at h3
    · next k' hk' =>
      cases h3
      have : k ≠ k' := fun e => hk (e ▸ hk')
      simp [Raw.setKey, this]
    · cases h3
    · cases h3
  unfold Raw.ibcPacketTimeout at h
  rw [Raw.bind_ok] at h
  obtain ⟨c, r1, h1, h⟩ := h
  obtain ⟨_, rfl⟩ := Raw.load_ok.mp h1
  split at h
  · rw [Raw.bind_ok] at h
    obtain ⟨_, r2, h2, h⟩ := h
    rw [Raw.save_ok] at h2
    subst h2
    rw [tail h]
    simp [Raw.setKey, Raw.CHANNEL_STATE, hc]
  · exact tail h

/-- The acknowledgement of a packet on a storage that holds little else. -/
example : ∃ k raw', Raw.mapKey "pending_queries" "channel-0" 1 = .ok k ∧
    Raw.ibcPacketAck (AckData.jc.toBytes (.error "abci")) Ex.pkt "relayer"
      (Raw.setKey (Raw.setKey .empty k (some [1])) (utf8 "state") (some (ContractState.jc.toBytes (Ex.st "channel-0")))) =
      (.ok (ackResponse (some "cb") (.onAcknowledgementPacketCallback (.error "abci") Ex.pkt "relayer"
        (some (.error "abci"))) (ackErrorEvent Ex.pkt "abci")), raw') := by
  refine ⟨_, Raw.setKey (Raw.setKey .empty (Raw.prefixed (utf8 "pending_queries") ++ Raw.prefixed (utf8 "channel-0") ++
    Raw.be64 1) (some [1])) (utf8 "state") (some (ContractState.jc.toBytes (Ex.st "channel-0"))), rfl, ?_⟩
  · unfold Raw.ibcPacketAck
    rw [JC.ofBytes_toBytes AckData.jc_law]
    dsimp only
    unfold Raw.ackError
    refine Raw.bind_ok.mpr ⟨Ex.st "channel-0", _, Raw.load_ok.mpr ⟨⟨_, ?_, JC.ofBytes_toBytes ContractState.jc_law _⟩, rfl⟩,
      Raw.pure_ok.mpr ⟨rfl, rfl⟩⟩
    simp [Raw.setKey, Raw.STATE]

/-! ## C58 -/

/-- **C58.** Whatever bytes users send as messages, and whatever relayers do: every history of the contract on raw storage
is a history of the messages these bytes stand for, with the same effects; and the storage stands for the typed one, so
every value the contract has stored can be read. -/
theorem C58_bytes_histories {api : Api} {env : Env} {h : List (Raw.ROp × List Obs)} {w : Raw.RWorld}
    (he : Raw.RExec api (.genesis env) h w) (hs : ∀ x ∈ h, x.1.Short) :
    ∃ h' s, Exec api (World.genesis env) h' (w.typed s) ∧ Raw.Rep w.raw s ∧
      List.Forall₂ (fun x y => x.1.decode = some y.1 ∧ x.2 = y.2) h h' := by
  suffices h' : ∃ h' s, Exec api (World.genesis env) h' (w.typed s) ∧ Raw.Rel w s ∧
      List.Forall₂ (fun x y => x.1.decode = some y.1 ∧ x.2 = y.2) h h' from
    let ⟨h', s, a, b, c⟩ := h'; ⟨h', s, a, b.rep, c⟩
  induction he with
  | nil => exact ⟨[], _, .nil, Raw.rel_genesis env, .nil⟩
  | @step h w w' op obs _ ha ih =>
    obtain ⟨h', s, h1, h2, h3⟩ := ih fun x hx => hs x (by simp [hx])
    have hm := Raw.apply_matches h2 api op (hs (op, obs) (by simp))
    rw [ha] at hm
    cases hd : op.decode with
    | none => rw [hd] at hm; cases hm
    | some o =>
      rw [hd, Option.bind_some] at hm
      cases ho : Ica.apply api (w.typed s) o with
      | none => rw [ho] at hm; cases hm
      | some q =>
        obtain ⟨w2, obs2⟩ := q
        rw [ho] at hm
        obtain ⟨rw', e1, e2, e3⟩ := hm
        obtain ⟨rfl, rfl⟩ := Prod.mk.inj (Option.some.inj e1)
        refine ⟨h' ++ [(o, obs)], w2.store, ?_, e3, ?_⟩
        · rw [← e2]; exact .step h1 ho
        · exact List.rel_append h3 (.cons ⟨hd, rfl⟩ .nil)

/-- Send an operation as bytes. -/
def Spec.asBytes : Op → Raw.ROp
  | .instantiate sender msg fresh core => .instantiate sender (InstantiateMsg.jc.toBytes msg) fresh core
  | .execute sender msg fresh core => .execute sender (ExecuteMsg.jc.toBytes msg) fresh core
  | .migrate => .migrate (MigrateMsg.jc.toBytes ⟨⟩)
  | op => .chain op

theorem asBytes_decode (op : Op) : (asBytes op).decode = some op := by
  cases op with
  | instantiate a m b c =>
    simp only [asBytes, Raw.ROp.decode, JC.ofBytes_toBytes InstantiateMsg.jc_law, Option.map_some]
  | execute a m b c => simp only [asBytes, Raw.ROp.decode, JC.ofBytes_toBytes ExecuteMsg.jc_law, Option.map_some]
  | migrate => simp only [asBytes, Raw.ROp.decode, JC.ofBytes_toBytes MigrateMsg.jc_law, Option.map_some]
  | _ => rfl

/-- **C58.** And the other way round: every history of messages happens on raw storage when the messages are sent as the
JSON the crate itself writes. -/
theorem C58_every_history_in_bytes {api : Api} {env : Env} {h : List (Op × List Obs)} {w : World}
    (he : Exec api (World.genesis env) h w) (hs : ∀ x ∈ h, (asBytes x.1).Short) :
    ∃ w' : Raw.RWorld, Raw.RExec api (.genesis env) (h.map fun x => (asBytes x.1, x.2)) w' ∧ Raw.Rep w'.raw w.store ∧
      w = w'.typed w.store := by
  suffices h' : ∃ w' : Raw.RWorld, Raw.RExec api (.genesis env) (h.map fun x => (asBytes x.1, x.2)) w' ∧
      Raw.Rel w' w.store ∧ w = w'.typed w.store from
    let ⟨w', a, b, c⟩ := h'; ⟨w', a, b.rep, c⟩
  induction he with
  | nil => exact ⟨.genesis env, .nil, Raw.rel_genesis env, rfl⟩
  | @step h w w2 op obs _ ha ih =>
    obtain ⟨w', h1, h2, h3⟩ := ih fun x hx => hs x (by simp [hx])
    have hm := Raw.apply_matches h2 api (asBytes op) (hs (op, obs) (by simp))
    rw [asBytes_decode, Option.bind_some, ← h3, ha] at hm
    obtain ⟨rw', e1, e2, e3⟩ := hm
    refine ⟨rw', ?_, e3, e2⟩
    rw [List.map_append]
    exact .step h1 e1

/-- **C58.** Bytes that are no message of the contract change nothing, on any storage. -/
theorem C58_undecodable_refused (api : Api) (w : Raw.RWorld) (sender fresh : String) (core : Bool) (b : Bytes) :
    (InstantiateMsg.jc.ofBytes b = none → Raw.apply api w (.instantiate sender b fresh core) = none) ∧
    (ExecuteMsg.jc.ofBytes b = none → Raw.apply api w (.execute sender b fresh core) = none) ∧
    (MigrateMsg.jc.ofBytes b = none → Raw.apply api w (.migrate b) = none) := by
  refine ⟨fun h => ?_, fun h => ?_, fun h => ?_⟩
  · simp only [Raw.apply, Raw.vmInstantiate, Raw.withMsg, h, Raw.finish, Raw.fail, Raw.lift, ite_self]
  · simp only [Raw.apply, Raw.vmExecute, Raw.withMsg, h, Raw.finish, Raw.fail, Raw.lift, ite_self]
  · simp only [Raw.apply, Raw.vmMigrate, Raw.withMsg, h, Raw.finish, Raw.fail, Raw.lift, ite_self]

/-- The scenario up to a packet in flight, in bytes. -/
example : ∃ h w, Raw.RExec Ex.api (.genesis Ex.env) h w ∧ Raw.Rep w.raw Ex.w2.store ∧ h.length = 2 := by
  have e : Exec Ex.api (World.genesis Ex.env) _ Ex.w2 :=
    (Exec.step .nil ((apply_iff_step (inv_genesis Ex.api Ex.env)).2 Ex.s1)).step
      ((apply_iff_step (inv_of_reachable Ex.r1)).2 Ex.s2)
  obtain ⟨w', h1, h2, _⟩ := C58_every_history_in_bytes e (by
    intro x hx
    simp only [List.nil_append, List.cons_append, List.mem_cons, List.not_mem_nil, or_false] at hx
    rcases hx with rfl | rfl
    · show Raw.Short "channel-0"; decide +kernel
    · trivial)
  exact ⟨_, w', h1, h2, rfl⟩

/-- Bytes that are not JSON. -/
example : ExecuteMsg.jc.ofBytes (utf8 "{") = none := by decide +kernel

/-! ## C59 -/

/-- **C59.** Starting from any storage, the contract only ever writes its own keys: its named values and the records of
pending queries. Everything else in the storage stays as it was. -/
theorem C59_only_own_keys {api : Api} {w w' : Raw.RWorld} {h : List (Raw.ROp × List Obs)} (he : Raw.RExec api w h w')
    {k : Bytes} (h1 : ∀ a ∈ itemNames, k ≠ utf8 a) (h2 : ¬ [0, 15] ++ utf8 "pending_queries" <+: k) :
    w'.raw k = w.raw k := by
  refine Raw.exec_keeps (Raw.own_frame w.raw) (fun _ _ => rfl) he k ?_
  rintro (rfl | ⟨key, hkey, rfl⟩ | ⟨c, n, hk⟩)
  · exact h1 "state" (by decide) rfl
  · refine h1 key ?_ rfl
    revert hkey
    simp only [Raw.itemKeys, itemNames, List.mem_cons, List.not_mem_nil, or_false]
    tauto
  · refine h2 ?_
    obtain ⟨_, _, rfl⟩ := Raw.mapKey_ok hk
    have : Raw.prefixed (utf8 Raw.PENDING_QUERIES.ns) = [0, 15] ++ utf8 "pending_queries" := by decide +kernel
    rw [this, List.append_assoc]
    exact List.prefix_append _ _

/-- A key of somebody else. -/
example : (∀ a ∈ itemNames, utf8 "admin" ≠ utf8 a) ∧ ¬ [0, 15] ++ utf8 "pending_queries" <+: utf8 "admin" := by
  decide +kernel

/-! ## C60 -/

/-- **C60.** In any world, whatever the owner sends: on its own chain the contract only ever creates and closes channels,
sends packets, calls the callback address without funds and emits events. No other message is executed, so no funds of
the contract move. -/
theorem C60_nothing_else {api : Api} {w w' : World} {op : Op} {obs : List Obs} (h : Commits api w op w' obs) :
    ∀ o ∈ obs, (∃ e, o = .event e) ∨ (∃ id, o = .channelCreated id) ∨ (∃ id, o = .channelClosed id) ∨
      (∃ p, o = .packetSent p) ∨ ∃ cb m, callbackOf w = some cb ∧ o = .call cb m [] := by
  have hcall : ∀ (st : ContractState) (m : CallbackMsg), w.store.state = some st →
      ∀ o ∈ callObs st.callbackAddress m, ∃ cb m, callbackOf w = some cb ∧ o = .call cb m [] := by
    intro st m hst o ho
    unfold callObs at ho
    split at ho
    · next a ha =>
      simp only [List.mem_singleton] at ho
      exact ⟨a, _, by simp [callbackOf, hst, ha], ho⟩
    · simp at ho
  cases op with
  | block a b => obtain ⟨_, _, _, rfl⟩ := apply_block.mp h; simp
  | instantiate sender msg fresh core =>
    obtain ⟨_, _, _, _, _, _, _, _, rfl⟩ := apply_instantiate.mp h; simp
  | execute sender msg fresh core =>
    cases msg with
    | createChannel o => obtain ⟨_, _, _, _, _, _, _, _, _, rfl⟩ := apply_create.mp h; simp
    | closeChannel => obtain ⟨_, _, _, _, _, _, _, _, _, _, rfl⟩ := apply_close.mp h; simp
    | updateCallbackAddress a => obtain ⟨_, _, _, _, _, _, rfl⟩ := apply_callback.mp h; simp
    | sendCosmosMsgs ms qs memo t =>
      obtain ⟨_, _, _, st, info, anys, cqs, c, ts, p, _, _, _, _, _, _, _, _, _, _, _, rfl⟩ := apply_send.mp h; simp
    | updateOwnership a =>
      cases a with
      | transferOwnership n e => obtain ⟨_, _, _, _, _, _, rfl⟩ := apply_transfer.mp h; simp
      | acceptOwnership => obtain ⟨_, _, _, _, _, rfl⟩ := apply_accept.mp h; simp
      | renounceOwnership => unfold Commits at h; rw [apply_renounce] at h; cases h
  | migrate => obtain ⟨_, _, _, rfl⟩ := apply_migrate.mp h; simp
  | relayOpenInit m fresh =>
    unfold Commits at h
    simp only [apply, applyWith] at h
    split at h
    · cases h
    · unfold coreOpenInit at h
      split at h
      · cases h
      · split at h
        · split at h
          · dsimp only at h
            split at h
            · obtain ⟨_, rfl⟩ := Prod.mk.inj (Option.some.inj h)
              simp
            · cases h
            · cases h
          · cases h
        · cases h
  | relayOpenTry ch v => unfold Commits at h; rw [apply_openTry] at h; cases h
  | relayOpenAck id cpId v =>
    obtain ⟨c, st, m, _, _, hst, _, _, _, _, _, rfl⟩ := apply_openAck.mp h
    exact fun o ho => .inr (.inr (.inr (.inr (hcall st _ hst o ho))))
  | relayOpenConfirm ch => unfold Commits at h; rw [apply_openConfirm] at h; cases h
  | relayCloseInit id => obtain ⟨_, _, _, _, _, _, rfl⟩ := apply_relayCloseInit.mp h; simp
  | relayCloseConfirm id => obtain ⟨_, _, _, _, _, rfl⟩ := apply_closeConfirm.mp h; simp
  | relayRecv p => unfold Commits at h; rw [apply_recv] at h; cases h
  | relayAck id seq ack relayer =>
    obtain ⟨_, _, st, _, _, _, hst, ⟨_, _, _, _, _, rfl⟩ | ⟨_, _, _, rfl⟩⟩ := apply_ack.mp h
    all_goals
      intro o ho
      rcases List.mem_cons.mp ho with rfl | ho
      · exact .inl ⟨_, rfl⟩
      · exact .inr (.inr (.inr (.inr (hcall st _ hst o ho))))
  | relayTimeout id seq relayer =>
    obtain ⟨_, _, st, _, _, _, hst, _, _, rfl⟩ := apply_timeout.mp h
    exact fun o ho => .inr (.inr (.inr (.inr (hcall st _ hst o ho))))

/-- The scenario's send of a bank message. -/
example : ∃ obs, Commits Ex.api Ex.w2 (.execute "alice" (.sendCosmosMsgs Ex.msgs Ex.qs (some "hi") none) "" true) Ex.w3
    obs := ⟨_, (apply_iff_step (inv_of_reachable Ex.r2)).2 Ex.s3⟩

/-! ## C52 -/

/-- **C52.** On any storage, each smart query answers with the JSON of exactly the stored value, and fails only if there
is none that can be read. -/
theorem C52_query_iff (raw : Raw.RawStore) (b : Bytes) :
    (Raw.vmQuery (QueryMsg.jc.toBytes .getContractState) raw = .ok b ↔
      ∃ sb x, raw (utf8 "state") = some sb ∧ ContractState.jc.ofBytes sb = some x ∧ b = ContractState.jc.toBytes x) ∧
    (Raw.vmQuery (QueryMsg.jc.toBytes .getChannel) raw = .ok b ↔
      ∃ sb x, raw (utf8 "ica_channel") = some sb ∧ ChannelState.jc.ofBytes sb = some x ∧
        b = ChannelState.jc.toBytes x) ∧
    (Raw.vmQuery (QueryMsg.jc.toBytes .ownership) raw = .ok b ↔
      ∃ sb x, raw (utf8 "ownership") = some sb ∧ Ownership.jc.ofBytes sb = some x ∧ b = Ownership.jc.toBytes x) := by
  have key : ∀ {α : Type} (i : Raw.Item α) (f : α → Bytes),
      ((do let x ← i.load; pure (f x) : Raw.RM Bytes) raw).1 = .ok b ↔
        ∃ sb x, raw (utf8 i.key) = some sb ∧ i.jc.ofBytes sb = some x ∧ b = f x := by
    intro α i f
    constructor
    · intro h
      obtain ⟨x, raw1, h1, h2⟩ := Raw.bind_ok.mp (show ((do let x ← i.load; pure (f x) : Raw.RM Bytes) raw) =
        (.ok b, ((do let x ← i.load; pure (f x) : Raw.RM Bytes) raw).2) from Prod.ext h rfl)
      obtain ⟨⟨sb, h3, h4⟩, _⟩ := Raw.load_ok.mp h1
      exact ⟨sb, x, h3, h4, (Raw.pure_ok.mp h2).1⟩
    · rintro ⟨sb, x, h3, h4, rfl⟩
      exact congrArg Prod.fst (Raw.bind_ok.mpr ⟨x, raw, Raw.load_ok.mpr ⟨⟨sb, h3, h4⟩, rfl⟩, Raw.pure_ok.mpr ⟨rfl, rfl⟩⟩ :
        (do let x ← i.load; pure (f x) : Raw.RM Bytes) raw = (.ok (f x), raw))
  unfold Raw.vmQuery Raw.withMsg
  simp only [JC.ofBytes_toBytes QueryMsg.jc_law]
  exact ⟨key Raw.STATE _, key Raw.CHANNEL_STATE _, key Raw.OWNERSHIP _⟩

/-- **C52.** No query, whatever its bytes, writes anything, on any storage. -/
theorem C52_read_only (raw : Raw.RawStore) (b : Bytes) : (Raw.withMsg QueryMsg.jc b Raw.query raw).2 = raw := by
  have key : ∀ {α : Type} (i : Raw.Item α) (f : α → Bytes),
      ((do let x ← i.load; pure (f x) : Raw.RM Bytes) raw).2 = raw := by
    intro α i f
    rw [Raw.bind_eq]
    have := Raw.load_snd i raw
    cases h : i.load raw with
    | mk r raw1 =>
      rw [h] at this
      cases r <;> exact this
  unfold Raw.withMsg
  cases QueryMsg.jc.ofBytes b with
  | none => rfl
  | some m =>
    cases m with
    | getContractState => exact key Raw.STATE _
    | getChannel => exact key Raw.CHANNEL_STATE _
    | ownership => exact key Raw.OWNERSHIP _

/-- A chain on which the contract has this storage and address answers smart queries by running the contract. -/
def Spec.Answers (q : Helpers.Querier) (addr : String) (raw : Raw.RawStore) : Prop :=
  ∀ b, q.smart addr b = match Raw.vmQuery b raw with | .ok r => some r | .err _ => none | .panic _ => none

/-- **C52.** A client contract that asks through the helper gets back exactly what is stored: in a world whose storage
stands for `s`, the answers are `s`'s contract state, channel and ownership, or a failure if `s` has none. -/
theorem C52_client_reads {q : Helpers.Querier} {addr : String} {raw : Raw.RawStore} {s : Store}
    (hq : Answers q addr raw) (hr : Raw.Rep raw s) :
    (Helpers.Contract.mk addr).getContractState q = s.state ∧ (Helpers.Contract.mk addr).getChannel q = s.channel ∧
    (Helpers.Contract.mk addr).ownership q = s.ownership := by
  have run : ∀ m, q.smart addr (QueryMsg.jc.toBytes m) =
      match Ica.query s m with | .ok r => some r | .err _ => none | .panic _ => none := by
    intro m
    rw [hq, show Raw.vmQuery (QueryMsg.jc.toBytes m) raw = Ica.query s m by
      unfold Raw.vmQuery Raw.withMsg
      simp only [JC.ofBytes_toBytes QueryMsg.jc_law]
      rw [Raw.query_ag hr]]
  refine ⟨?_, ?_, ?_⟩
  · unfold Helpers.Contract.getContractState Helpers.Querier.query
    rw [run]
    unfold Ica.query
    cases s.state with
    | none => rfl
    | some x => exact JC.ofBytes_toBytes ContractState.jc_law x
  · unfold Helpers.Contract.getChannel Helpers.Querier.query
    rw [run]
    unfold Ica.query
    cases s.channel with
    | none => rfl
    | some x => exact JC.ofBytes_toBytes ChannelState.jc_law x
  · unfold Helpers.Contract.ownership Helpers.Querier.query
    rw [run]
    unfold Ica.query
    cases s.ownership with
    | none => rfl
    | some x => exact JC.ofBytes_toBytes Ownership.jc_law x

/-- A querier on a chain with the empty contract of the start. -/
example : ∃ q, Answers q "wasm1controller" Raw.RawStore.empty ∧ Raw.Rep Raw.RawStore.empty Store.empty :=
  ⟨⟨fun _ b => match Raw.vmQuery b Raw.RawStore.empty with | .ok r => some r | .err _ => none | .panic _ => none,
    fun _ => none⟩, fun _ => rfl, Raw.rep_empty⟩

end Ica
