import Verif.Facts.Writing
import Verif.Facts.WritingOwner
import Verif.Props.Upgrade
import Verif.Props.OwnerBytes

/-!
# How a value in the storage is written makes no difference (C123)
-/
namespace Ica
open Spec

/-- **C123.** Take two contracts, on the same chain, whose storages read alike, however each is written. The same transactions are
accepted, with the same observations, and they keep reading alike. -/
theorem C123_transaction {api : Api} {w v : Raw.RWorld} (ht : Twin w v) (op : Raw.ROp) :
    (Raw.apply api w op = none ↔ Raw.apply api v op = none) ∧
    ∀ w' obs, Raw.apply api w op = some (w', obs) → ∃ v', Raw.apply api v op = some (v', obs) ∧ Twin w' v' := by
  have key : ∀ {w v : Raw.RWorld}, Twin w v → Raw.apply api v op = none → Raw.apply api w op = none := by
    intro w v ht h
    cases hw : Raw.apply api w op with
    | none => rfl
    | some p =>
      obtain ⟨v', h1, _⟩ := Raw.apply_sim (w' := p.1) (obs := p.2) ht hw
      rw [h] at h1
      cases h1
  exact ⟨⟨key (Raw.Twin.symm' ht), key ht⟩, fun w' obs h => Raw.apply_sim ht h⟩

/-- **C123**, histories: the same happens to both, and to both in the same order. -/
theorem C123_history {api : Api} {w v w' : Raw.RWorld} {h : List (Raw.ROp × List Obs)} (ht : Twin w v)
    (he : Raw.RExec api w h w') : ∃ v', Raw.RExec api v h v' ∧ Twin w' v' := by
  induction he with
  | nil => exact ⟨v, .nil, ht⟩
  | step _ ha ih =>
    obtain ⟨v1, e1, t1⟩ := ih
    obtain ⟨v2, e2, t2⟩ := Raw.apply_sim t1 ha
    exact ⟨v2, e1.step e2, t2⟩

/-- **C123**, queries: both give the same answers, byte for byte. -/
theorem C123_answers {a b : Raw.RawStore} (h : ReadAlike a b) (bytes : Bytes) : Raw.vmQuery bytes a = Raw.vmQuery bytes b :=
  ((Raw.sim_withMsg fun m => Raw.sim_query m) a b h).1.symm

/-- **C123**, errors: the exported functions end in the same way, with the same error or the same response. -/
theorem C123_calls {api : Api} {a b : Raw.RawStore} (h : ReadAlike a b) (env : Env) (sender : String) (bytes : Bytes) :
    (Raw.vmExecute api env sender bytes a).1 = (Raw.vmExecute api env sender bytes b).1 ∧
    (Raw.vmMigrate bytes a).1 = (Raw.vmMigrate bytes b).1 :=
  ⟨((Raw.sim_withMsg fun m => Raw.sim_execute api env sender m) a b h).1.symm,
    ((Raw.sim_withMsg fun _ => Raw.sim_migrate) a b h).1.symm⟩

/-- **C123**, removed members: of the remembered options only the four members they have today count, and of the contract's state
only the two. Earlier releases stored others (`tx_encoding`, `allow_channel_open_init`); those, and the order, make no difference. -/
theorem C123_members {fs gs : List (String × Json)} :
    (SameMembers ["connection_id", "counterparty_connection_id", "counterparty_port_id", "channel_ordering"] fs gs →
      ChannelOpenInitOptions.jc.dec (.obj fs) = ChannelOpenInitOptions.jc.dec (.obj gs)) ∧
    (SameMembers ["ica_info", "callback_address"] fs gs →
      ContractState.jc.dec (.obj fs) = ContractState.jc.dec (.obj gs)) := by
  constructor
  · intro h
    obtain ⟨h1, h2⟩ := Raw.same_members h
    unfold ChannelOpenInitOptions.jc
    dsimp only
    cases hf : getObj false ["connection_id", "counterparty_connection_id", "counterparty_port_id", "channel_ordering"] (.obj fs) with
    | none => rw [h1.1 hf]
    | some xs =>
      obtain ⟨e1, rfl, e2⟩ := h2 xs hf
      rw [e1]
      dsimp only
      simp only [reqF, optF]
      rw [e2 "connection_id" (by simp), e2 "counterparty_connection_id" (by simp), e2 "counterparty_port_id" (by simp),
        e2 "channel_ordering" (by simp)]
  · intro h
    obtain ⟨h1, h2⟩ := Raw.same_members h
    unfold ContractState.jc
    dsimp only
    cases hf : getObj false ["ica_info", "callback_address"] (.obj fs) with
    | none => rw [h1.1 hf]
    | some xs =>
      obtain ⟨e1, rfl, e2⟩ := h2 xs hf
      rw [e1]
      dsimp only
      simp only [optF]
      rw [e2 "ica_info" (by simp), e2 "callback_address" (by simp)]

theorem recordKey_head (c : String) (n : UInt64) : (recordKey c n).head? = some 0 := by
  have : keyPart (utf8 "pending_queries") = 0 :: (keyPart (utf8 "pending_queries")).tail := by decide +kernel
  unfold recordKey
  rw [this]
  rfl

/-- **C123**, an upgrade with removed members: put, in place of the remembered options and of the contract's state, texts with
whatever further members. The contract stays a twin of what it was, so it lives on as before. -/
theorem C123_further_members {w : Raw.RWorld} {o o' s s' : Bytes} {fo fo' fs fs' : List (String × Json)}
    (ho : w.raw (utf8 "channel_open_init_options") = some o) (hs : w.raw (utf8 "state") = some s)
    (jo : jsonOfBytes o = some (.obj fo)) (jo' : jsonOfBytes o' = some (.obj fo')) (js : jsonOfBytes s = some (.obj fs))
    (js' : jsonOfBytes s' = some (.obj fs'))
    (mo : SameMembers ["connection_id", "counterparty_connection_id", "counterparty_port_id", "channel_ordering"] fo fo')
    (ms : SameMembers ["ica_info", "callback_address"] fs fs') :
    Twin w { w with
      raw := fun k => if k = utf8 "channel_open_init_options" then some o' else if k = utf8 "state" then some s' else w.raw k } := by
  have e1 : ChannelOpenInitOptions.jc.ofBytes o = ChannelOpenInitOptions.jc.ofBytes o' := by
    simp only [JC.ofBytes, jo, jo', Option.bind_some]
    exact C123_members.1 mo
  have e2 : ContractState.jc.ofBytes s = ContractState.jc.ofBytes s' := by
    simp only [JC.ofBytes, js, js', Option.bind_some]
    exact C123_members.2 ms
  have other : ∀ k, k ≠ utf8 "channel_open_init_options" → k ≠ utf8 "state" →
      (if k = utf8 "channel_open_init_options" then some o' else if k = utf8 "state" then some s' else w.raw k) = w.raw k :=
    fun k h1 h2 => by rw [if_neg h1, if_neg h2]
  have record : ∀ c n name, (utf8 name).head? ≠ some 0 → recordKey c n ≠ utf8 name := fun c n name h e => by
    rw [← e, recordKey_head] at h
    exact h rfl
  have ho1 : (utf8 "channel_open_init_options").head? ≠ some 0 := by decide +kernel
  have hs1 : (utf8 "state").head? ≠ some 0 := by decide +kernel
  refine ⟨⟨?_, ?_, ?_, ?_, ?_, ?_, ?_, ?_, fun c n => ?_⟩, rfl⟩
  case refine_3 =>
    dsimp only
    rw [if_neg (Raw.item_ne (by decide)), if_pos rfl, hs]
    exact congrArg some e2
  case refine_5 =>
    dsimp only
    rw [if_pos rfl, ho]
    exact congrArg some e1
  case refine_9 =>
    dsimp only
    rw [other _ (record c n _ ho1) (record c n _ hs1)]
    rfl
  all_goals
    dsimp only
    rw [other _ (Raw.item_ne (by decide)) (Raw.item_ne (by decide))]
    rfl

/-- **C123**, the types that have been the same in all releases are read strictly: a text with a further member is not read. -/
theorem C123_strict {fs : List (String × Json)} :
    ((∃ f ∈ fs, f.1 ∉ ["ica_address", "channel_id", "encoding"]) → IcaInfo.jc.dec (.obj fs) = none) ∧
    ((∃ f ∈ fs, f.1 ∉ ["channel", "channel_status"]) → ChannelState.jc.dec (.obj fs) = none) ∧
    ((∃ f ∈ fs, f.1 ∉ ["owner", "pending_owner", "pending_expiry"]) → Ownership.jc.dec (.obj fs) = none) ∧
    ((∃ f ∈ fs, f.1 ∉ ["contract", "version"]) → ContractVersion.jc.dec (.obj fs) = none) := by
  have key : ∀ names : List String, (∃ f ∈ fs, f.1 ∉ names) → getObj true names (.obj fs) = none := by
    rintro names ⟨f, hf, hn⟩
    unfold getObj
    dsimp only
    rw [if_neg]
    simp only [Bool.and_eq_true, not_and, Bool.not_true, Bool.false_or, List.all_eq_true]
    intro _ H
    exact hn (by simpa using H f hf)
  refine ⟨fun h => ?_, fun h => ?_, fun h => ?_, fun h => ?_⟩
  · unfold IcaInfo.jc; dsimp only; rw [key _ h]
  · unfold ChannelState.jc; dsimp only; rw [key _ h]
  · unfold Ownership.jc; dsimp only; rw [key _ h]
  · unfold ContractVersion.jc; dsimp only; rw [key _ h]

/-- **C123**, the owner contract: two owner contracts on the same chain whose storages read alike send the same messages in
every history; and their queries have the same answers. -/
theorem C123_owner {api : Api} {w v w' : RawOwner.ROWorld} {h : List (RawOwner.ROOp × List CosmosMsg)} (ht : OwnerTwin w v)
    (he : RawOwner.ROExec api w h w') : (∃ v', RawOwner.ROExec api v h v' ∧ OwnerTwin w' v') ∧
      ∀ bytes, RawOwner.vmQuery bytes w.raw = RawOwner.vmQuery bytes v.raw := by
  refine ⟨?_, fun bytes => ?_⟩
  · induction he with
    | nil => exact ⟨v, .nil, ht⟩
    | step _ ha ih =>
      obtain ⟨v1, e1, t1⟩ := ih
      obtain ⟨v2, e2, t2⟩ := RawOwner.apply_twin t1 ha
      exact ⟨v2, e1.step e2, t2⟩
  · unfold RawOwner.vmQuery
    split
    · exact (RawOwner.sim_query _ _ _ ht.1).1.symm
    · rfl

/-- A message that is accepted is accepted in bytes. -/
theorem execute_in_bytes {api : Api} {b : Raw.RWorld} {s : Store} {sender fresh : String} {msg : ExecuteMsg} {core : Bool}
    {w' : World} {obs : List Obs} (hi : Inv api (b.typed s)) (hr : Raw.Rep b.raw s)
    (hc : ∀ id c, b.chans id = some c → Raw.Short id) (hs : Raw.Short fresh)
    (ha : apply api (b.typed s) (.execute sender msg fresh core) = some (w', obs)) :
    ∃ b', Raw.apply api b (.execute sender (ExecuteMsg.jc.toBytes msg) fresh core) = some (b', obs) := by
  have hm := Raw.apply_matches (rel_of_rep (v := s.version) hi hr hc) api (asBytes (.execute sender msg fresh core)) hs
  rw [asBytes_decode, Option.bind_some] at hm
  change Raw.Matches (apply api (b.typed s) _) _ at hm
  rw [ha] at hm
  obtain ⟨b', e1, -, -⟩ := hm
  exact ⟨b', e1⟩

/-- The options with the member of release 0.5, and in another order. -/
example : SameMembers ["connection_id", "counterparty_connection_id", "counterparty_port_id", "channel_ordering"]
    [("connection_id", .str "connection-0"), ("counterparty_connection_id", .str "connection-7"), ("counterparty_port_id", .null),
      ("channel_ordering", .null)]
    [("counterparty_connection_id", .str "connection-7"), ("connection_id", .str "connection-0"), ("counterparty_port_id", .null),
      ("tx_encoding", .str "proto3"), ("channel_ordering", .null)] := List.Perm.swap _ _ _

/-- The scenario's contract after its channel was closed; its twin has the options as release 0.5 wrote them. The owner opens a new
channel with the remembered options, and the same happens to the twin. -/
example : ∃ w v w' : Raw.RWorld, Twin w v ∧ w.raw (utf8 "channel_open_init_options") ≠ v.raw (utf8 "channel_open_init_options") ∧
    Raw.RExec Ex.api w [(.execute "alice" (ExecuteMsg.jc.toBytes (.createChannel none)) "channel-1" true,
      [.channelCreated "channel-1"])] w' := by
  have e : Exec Ex.api (World.genesis Ex.env) _ Ex.w5 :=
    ((Exec.step .nil ((apply_iff_step (inv_genesis Ex.api Ex.env)).2 Ex.s1)).step
      ((apply_iff_step (inv_of_reachable Ex.r1)).2 Ex.s2)).step ((apply_iff_step (inv_of_reachable Ex.r2)).2 Ex.s5)
  have s6 : Step Ex.api Ex.w5 (.execute "alice" (.createChannel none) "channel-1" true) _ [.channelCreated "channel-1"] :=
    .create _ _ _ Ex.opts rfl ⟨_, rfl, rfl⟩ (by simp [Ex.w5, Ex.eClose, setChan, Ex.chan, Ex.prop, ackedChan, proposalChannel,
      Ex.w2, Ex.eAck, Ex.w1, Ex.eInst, Ex.w0, World.genesis]) (by simp [Ex.w5, Ex.eClose]) rfl rfl
  obtain ⟨b, -, h2, h3⟩ := C58_every_history_in_bytes e (by
    intro x hx
    simp only [List.nil_append, List.cons_append, List.mem_cons, List.not_mem_nil, or_false] at hx
    rcases hx with rfl | rfl | rfl
    · show Raw.Short "channel-0"; decide +kernel
    · trivial
    · show Raw.Short ""; decide +kernel)
  have hc : ∀ id c, b.chans id = some c → Raw.Short id := by
    intro id c h
    have hw : b.chans = Ex.w5.chans := (congrArg World.chans h3).symm
    rw [hw] at h
    by_cases hid : id = "channel-0"
    · rw [hid]; decide +kernel
    · simp [Ex.w5, Ex.eClose, Ex.w2, Ex.eAck, Ex.w1, Ex.eInst, setChan, hid, Ex.w0, World.genesis, Ex.chan, Ex.prop, ackedChan,
        proposalChannel] at h
  have hi : Inv Ex.api (b.typed Ex.w5.store) := h3 ▸ inv_of_reachable Ex.r5
  obtain ⟨b', e1⟩ := execute_in_bytes hi h2 hc (fresh := "channel-1") (show Raw.Short "channel-1" by decide +kernel)
    (h3 ▸ (apply_iff_step (inv_of_reachable Ex.r5)).2 s6)
  let old (encoding : Json) : Json := .obj
    [("counterparty_connection_id", .str "connection-7"), ("connection_id", .str "connection-0"), ("counterparty_port_id", .null),
      ("tx_encoding", encoding), ("channel_ordering", .null)]
  have read : ∀ x, ChannelOpenInitOptions.jc.ofBytes (jsonToBytes (old x)) = some Ex.opts := fun x => by
    unfold JC.ofBytes
    rw [jsonOfBytes_toBytes, Option.bind_some]
    have hs : SameMembers ["connection_id", "counterparty_connection_id", "counterparty_port_id", "channel_ordering"]
        [("connection_id", .str "connection-0"), ("counterparty_connection_id", .str "connection-7"),
          ("counterparty_port_id", .null), ("channel_ordering", .null)]
        [("counterparty_connection_id", .str "connection-7"), ("connection_id", .str "connection-0"),
          ("counterparty_port_id", .null), ("tx_encoding", x), ("channel_ordering", .null)] := List.Perm.swap _ _ _
    exact (C123_members.1 hs).symm.trans (ChannelOpenInitOptions.jc_law Ex.opts)
  have hb : ∃ o, b.raw (utf8 "channel_open_init_options") = some o ∧ ChannelOpenInitOptions.jc.ofBytes o = some Ex.opts := by
    have := h2.options
    unfold Raw.Item.Holds at this
    split at this
    · next e => cases e
    · next o x h4 h5 =>
      cases h5
      exact ⟨o, h4, this⟩
    · exact this.elim
  obtain ⟨o, hb1, hb2⟩ := hb
  have twin : ∀ {w : Raw.RWorld} {x y : Bytes}, ChannelOpenInitOptions.jc.ofBytes x = some Ex.opts →
      w.raw (utf8 "channel_open_init_options") = some x → ChannelOpenInitOptions.jc.ofBytes y = some Ex.opts →
      Twin w { w with raw := Raw.setKey w.raw (utf8 "channel_open_init_options") (some y) } := by
    intro w x y hx hw hy
    have same : ∀ {α : Type} (c : JC α) k, k ≠ utf8 "channel_open_init_options" →
        Alike c (w.raw k) (Raw.setKey w.raw (utf8 "channel_open_init_options") (some y) k) := fun c k hk => by
      unfold Raw.setKey
      rw [if_neg hk]
      rfl
    refine ⟨⟨same _ _ (Raw.item_ne (by decide)), same _ _ (Raw.item_ne (by decide)), same _ _ (Raw.item_ne (by decide)),
      same _ _ (Raw.item_ne (by decide)), ?_, same _ _ (Raw.item_ne (by decide)), same _ _ (Raw.item_ne (by decide)),
      same _ _ (Raw.item_ne (by decide)), fun c n => same _ _ fun h => ?_⟩, rfl⟩
    · unfold Alike
      rw [hw]
      simp [Raw.setKey, hx, hy]
    · have : (utf8 "channel_open_init_options").head? ≠ some 0 := by decide +kernel
      rw [← h, recordKey_head] at this
      exact this rfl
  have t1 := twin hb2 hb1 (read .null)
  have t2 := twin (w := { b with raw := Raw.setKey b.raw (utf8 "channel_open_init_options") (some (jsonToBytes (old .null))) })
    (read .null) (by simp [Raw.setKey]) (read (.str "proto3"))
  obtain ⟨w', e2, -⟩ := C123_history t1 (Raw.RExec.step (h := []) .nil e1)
  refine ⟨_, _, w', t2, ?_, e2⟩
  simp only [Raw.setKey, if_true, ne_eq, Option.some.injEq]
  intro h
  have := congrArg jsonOfBytes h
  rw [jsonOfBytes_toBytes, jsonOfBytes_toBytes] at this
  simp [old] at this

/-- An owner contract creates a controller; and so does the one that has something else in its storage too. -/
example : ∃ w v w' h, OwnerTwin w v ∧ w.raw ≠ v.raw ∧ RawOwner.ROExec Ex.api w h w' ∧ ∃ c, w'.created = [c] := by
  obtain ⟨h0, w0, c, he, hc⟩ := Ex.owner_creates
  obtain ⟨h', hh⟩ := means_all h0
  obtain ⟨w, h1, h2⟩ := C78_values_to_bytes he hh
  have e1 : ∀ n, entryKey n ≠ utf8 "other" := fun n h => by
    have : keyPart (utf8 "ica_states") = 0 :: (keyPart (utf8 "ica_states")).tail := by decide +kernel
    unfold entryKey at h
    rw [this] at h
    exact absurd (congrArg List.head? h) (by rw [List.cons_append, List.head?_cons]; decide +kernel)
  have e2 : ∀ a, numberKey a ≠ utf8 "other" := fun n h => by
    have : keyPart (utf8 "contract_addr_to_ica_id") = 0 :: (keyPart (utf8 "contract_addr_to_ica_id")).tail := by decide +kernel
    unfold numberKey at h
    rw [this] at h
    exact absurd (congrArg List.head? h) (by rw [List.cons_append, List.head?_cons]; decide +kernel)
  let g := RawOwner.ROWorld.genesis "wasm1owner" 1700000000000000000 Ex.addrApi
      (fun n => if n = 7 then some (List.replicate 32 1) else none) (fun _ => false)
  have same : ∀ {α : Type} (c : JC α) k, k ≠ utf8 "other" →
      Alike c (g.raw k) (Raw.setKey g.raw (utf8 "other") (some [1]) k) := fun c k hk => by
    unfold Raw.setKey
    rw [if_neg hk]
    rfl
  refine ⟨g, { g with raw := Raw.setKey g.raw (utf8 "other") (some [1]) }, w, h', ⟨⟨same _ _ (Raw.item_ne (by decide)),
    same _ _ (Raw.item_ne (by decide)), fun n => same _ _ (e1 n), fun a => same _ _ (e2 a)⟩, rfl⟩, ?_, h1, c, ?_⟩
  · intro h
    have := congrFun h (utf8 "other")
    rw [show g.raw (utf8 "other") = none from rfl] at this
    simp [Raw.setKey] at this
  · rw [← hc, h2.rest]

/-- The owner contract's state with its members in another order. -/
example : Owner.State.jc.dec (.obj [("ica_controller_code_id", .num 7), ("admin", .str "boss")]) = some ⟨"boss", 7⟩ := by
  decide +kernel

end Ica
