import Verif.Facts.Footprint
import Verif.Props.Stored
import Verif.Props.OwnerStored

/-!
# C120: a call depends on and changes a few named entries, whatever else is in the storage

At the byte level and from any storage at all, well-formed or not.
-/
namespace Ica
namespace Footprint
open Ica.Raw Ica.Spec

variable {raw : RawStore}

theorem map_key {c : String} {n : UInt64} {k : Bytes} (h : mapKey PENDING_QUERIES.ns c n = .ok k) : k = recordKey c n := by
  have h' := h
  obtain ⟨_, hs, _⟩ := mapKey_ok h
  have := Stored.mapKey_record (n := n) (c := c) hs
  rw [show PENDING_QUERIES.ns = "pending_queries" from rfl] at h'
  rw [this] at h'
  exact (Res.ok.inj h').symm

theorem assertOwner_sees {R W : List Bytes} (h : utf8 "ownership" ∈ R) (sender : String) : Sees R W (Raw.assertOwner sender) raw := by
  unfold Raw.assertOwner
  exact sees_bind (sees_load _ h) fun _ _ => sees_lift _

end Footprint

open Ica.Raw Ica.Spec Footprint

/-- **C120.** Instantiation looks at nothing and writes the five values that are always there. -/
theorem C120_instantiate (api : Api) (env : Env) (sender : String) (bytes : Bytes) (raw : RawStore) :
    Sees [] (alwaysStored.map utf8) (vmInstantiate api env sender bytes) raw := by
  refine sees_withMsg fun m _ => ?_
  unfold Raw.instantiate Raw.setContractVersion Raw.initializeOwner alwaysStored
  see

/-- **C120.** An execution looks at and writes the values listed for its message. -/
theorem C120_execute (api : Api) (env : Env) (sender : String) (bytes : Bytes) (msg : ExecuteMsg)
    (hm : ExecuteMsg.jc.ofBytes bytes = some msg) (raw : RawStore) :
    Sees ((executeReads msg).map utf8) ((executeWrites msg).map utf8) (vmExecute api env sender bytes) raw := by
  refine sees_withMsg fun m h => ?_
  rw [hm] at h
  cases h
  cases msg with
  | createChannel o =>
    change Sees [utf8 "ownership", utf8 "channel_open_init_options"] [utf8 "channel_open_init_options", utf8 "allow_channel_open_init"]
      (Raw.createChannel env sender o) raw
    unfold Raw.createChannel
    refine sees_bind (assertOwner_sees (by simp) sender) fun _ _ => ?_
    refine sees_bind ?_ fun _ _ => ?_
    · unfold chooseOptions
      see
    · see
  | closeChannel =>
    change Sees [utf8 "ownership", utf8 "ica_channel"] [utf8 "allow_channel_close_init"]
      (Raw.closeChannel sender) raw
    unfold Raw.closeChannel
    refine sees_bind (assertOwner_sees (by simp) sender) fun _ _ => ?_
    see
  | updateCallbackAddress a =>
    change Sees [utf8 "ownership", utf8 "state"] [utf8 "state"]
      (Raw.updateCallbackAddress api sender a) raw
    unfold Raw.updateCallbackAddress
    refine sees_bind (assertOwner_sees (by simp) sender) fun _ _ => ?_
    see
  | sendCosmosMsgs ms qs memo t =>
    change Sees [utf8 "ownership", utf8 "state"] [utf8 "pending_query"]
      (Raw.sendCosmosMsgs env sender ms qs memo t) raw
    unfold Raw.sendCosmosMsgs
    refine sees_bind (assertOwner_sees (by simp) sender) fun _ _ => ?_
    refine sees_bind (sees_load _ (by simp [STATE])) fun _ _ => ?_
    refine sees_bind (sees_lift _) fun _ _ => ?_
    refine sees_bind ?_ fun _ _ => ?_
    · unfold Raw.fromCosmosMsgs
      see
    · see
  | updateOwnership a =>
    change Sees [utf8 "ownership"] [utf8 "ownership"]
      (Raw.updateOwnership api env sender a) raw
    unfold Raw.updateOwnership
    split
    · exact sees_fail _
    · refine sees_bind ?_ fun _ _ => sees_pure _
      unfold Raw.cwUpdateOwnership
      see

/-- **C120.** The reply to a packet looks at the contract state and the paths of the queries just sent; it removes these,
and writes one record. -/
theorem C120_reply (id : UInt64) (r : SubMsgResult) (raw : RawStore) :
    ∃ c n, Sees [utf8 "state", utf8 "pending_query"] [utf8 "pending_query", recordKey c n] (Raw.reply id r) raw := by
  unfold Raw.reply
  split
  · unfold Raw.replySendQueryPacket
    split
    · next data =>
      cases hn : bufanyUint64 (data.getD []) with
      | ok n =>
        cases hs : (STATE.load raw).1 with
        | ok cs =>
          cases hi : cs.getIcaInfo with
          | ok info =>
            refine ⟨info.channelId, n, ?_⟩
            refine sees_bind (sees_lift _) fun n' h' => ?_
            cases h'
            refine sees_bind (sees_load _ (by simp [STATE])) fun cs' h' => ?_
            rw [show (lift (Res.ok n) raw).2 = raw from rfl] at h'
            rw [hs] at h'
            cases h'
            refine sees_bind (sees_lift _) fun info' h' => ?_
            rw [show (lift cs.getIcaInfo _).1 = cs.getIcaInfo from rfl, hi] at h'
            cases h'
            refine sees_bind (sees_load _ (by simp [QUERY])) fun _ _ => ?_
            refine sees_bind (sees_remove _ (by simp [QUERY])) fun _ _ => ?_
            refine sees_bind (sees_put _ _ _ _ fun k hk => by rw [map_key hk]; simp) fun _ _ => sees_pure _
          | err e =>
            refine ⟨"", 0, ?_⟩
            refine sees_bind (sees_lift _) fun n' h' => ?_
            refine sees_bind (sees_load _ (by simp [STATE])) fun cs' h' => ?_
            rw [show (lift (Res.ok n) raw).2 = raw from rfl] at h'
            rw [hs] at h'
            cases h'
            refine sees_bind (sees_lift _) fun info' h' => ?_
            rw [show (lift cs.getIcaInfo _).1 = cs.getIcaInfo from rfl, hi] at h'
            cases h'
          | panic e =>
            refine ⟨"", 0, ?_⟩
            refine sees_bind (sees_lift _) fun n' h' => ?_
            refine sees_bind (sees_load _ (by simp [STATE])) fun cs' h' => ?_
            rw [show (lift (Res.ok n) raw).2 = raw from rfl] at h'
            rw [hs] at h'
            cases h'
            refine sees_bind (sees_lift _) fun info' h' => ?_
            rw [show (lift cs.getIcaInfo _).1 = cs.getIcaInfo from rfl, hi] at h'
            cases h'
        | err e =>
          refine ⟨"", 0, ?_⟩
          refine sees_bind (sees_lift _) fun n' h' => ?_
          refine sees_bind (sees_load _ (by simp [STATE])) fun cs' h' => ?_
          rw [show (lift (Res.ok n) raw).2 = raw from rfl, hs] at h'
          cases h'
        | panic e =>
          refine ⟨"", 0, ?_⟩
          refine sees_bind (sees_lift _) fun n' h' => ?_
          refine sees_bind (sees_load _ (by simp [STATE])) fun cs' h' => ?_
          rw [show (lift (Res.ok n) raw).2 = raw from rfl, hs] at h'
          cases h'
      | err e => exact ⟨"", 0, sees_bind (sees_lift _) fun n' h' => by cases h'⟩
      | panic e => exact ⟨"", 0, sees_bind (sees_lift _) fun n' h' => by cases h'⟩
    · exact ⟨"", 0, sees_lift _⟩
  · exact ⟨"", 0, sees_fail _⟩

/-- **C120.** A query looks at the one value it asks for, and its answer depends on nothing else. -/
theorem C120_query (bytes : Bytes) (msg : QueryMsg) (hm : QueryMsg.jc.ofBytes bytes = some msg) (raw raw' : RawStore)
    (h : ∀ k ∈ queryReads msg, raw' (utf8 k) = raw (utf8 k)) : vmQuery bytes raw' = vmQuery bytes raw := by
  have : Sees ((queryReads msg).map utf8) [] (withMsg QueryMsg.jc bytes Raw.query) raw := by
    refine sees_withMsg fun m h => ?_
    rw [hm] at h
    cases h
    cases msg with
    | getContractState =>
      change Sees [utf8 "state"] [] _ raw
      unfold Raw.query
      see
    | getChannel =>
      change Sees [utf8 "ica_channel"] [] _ raw
      unfold Raw.query
      see
    | ownership =>
      change Sees [utf8 "ownership"] [] _ raw
      unfold Raw.query
      see
  refine (this raw' fun k hk => ?_).1
  obtain ⟨x, hx, rfl⟩ := List.mem_map.1 hk
  exact h x hx

/-- **C120.** Migration looks at the version and the contract state, and writes the version. -/
theorem C120_migrate (bytes : Bytes) (raw : RawStore) :
    Sees [utf8 "contract_info", utf8 "state"] [utf8 "contract_info"] (vmMigrate bytes) raw := by
  refine sees_withMsg fun m _ => ?_
  unfold Raw.migrate Raw.setContractVersion
  see

/-- **C120.** What the opening and the closing of channels looks at and writes. -/
theorem C120_handshake (api : Api) (raw : RawStore) :
    (∀ m, Sees [utf8 "allow_channel_open_init", utf8 "ica_channel", utf8 "channel_open_init_options"]
      [utf8 "allow_channel_open_init"] (Raw.ibcChannelOpen api m) raw) ∧
    (∀ m, Sees [utf8 "state"] [utf8 "state", utf8 "ica_channel"] (Raw.ibcChannelConnect api m) raw) ∧
    (∀ ch, Sees [utf8 "allow_channel_close_init", utf8 "ica_channel"] [utf8 "allow_channel_close_init", utf8 "ica_channel"]
      (Raw.ibcChannelClose (.closeInit ch)) raw) ∧
    (∀ ch, Sees [utf8 "ica_channel"] [utf8 "ica_channel"] (Raw.ibcChannelClose (.closeConfirm ch)) raw) := by
  refine ⟨fun m => ?_, fun m => ?_, fun ch => ?_, fun ch => ?_⟩
  · unfold Raw.ibcChannelOpen
    split
    · unfold Raw.channelOpenInit
      refine sees_bind (sees_attempt _ (by simp [ALLOW_CHANNEL_OPEN_INIT])) fun _ _ => ?_
      split
      · exact sees_fail _
      · refine sees_bind (sees_save _ (by simp [ALLOW_CHANNEL_OPEN_INIT]) _) fun _ _ => ?_
        split
        · exact sees_fail _
        · refine sees_bind ?_ fun _ _ => ?_
          · unfold Raw.openInitMetadata
            split
            · unfold Raw.fromChannel
              see
            · see
          · see
    · exact sees_lift _
  · unfold Raw.ibcChannelConnect
    split
    · unfold Raw.channelOpenAck
      see
    · exact sees_lift _
  · unfold Raw.ibcChannelClose Raw.channelCloseInit Raw.channelCloseConfirm
    see
  · unfold Raw.ibcChannelClose Raw.channelCloseConfirm
    see

/-- **C120.** The acknowledgement and the timeout of a packet look at the state of the contract, at that of the channel (only
a timeout does), and at the record of that packet (only an acknowledgement does); they write this record and, on a timeout,
the channel. No record of another packet plays a part, however many there are. -/
theorem C120_packets (p : IbcPacket) (relayer : String) (raw : RawStore) :
    (∀ ack, Sees [recordKey p.src.channelId p.sequence, utf8 "state"] [recordKey p.src.channelId p.sequence]
      (Raw.ibcPacketAck ack p relayer) raw) ∧
    Sees [utf8 "ica_channel", utf8 "state"] [utf8 "ica_channel", recordKey p.src.channelId p.sequence]
      (Raw.ibcPacketTimeout p relayer) raw ∧
    Sees [] [] (Raw.ibcPacketReceive p) raw := by
  refine ⟨fun ack => ?_, ?_, sees_lift _⟩
  · unfold Raw.ibcPacketAck
    split
    · exact sees_fail _
    · unfold Raw.ackSuccess
      refine sees_bind (sees_mapLoad _ _ _ fun k hk => by rw [map_key hk]; simp) fun _ _ => ?_
      refine sees_bind (sees_lift _) fun _ _ => ?_
      refine sees_bind (sees_put _ _ _ _ fun k hk => by rw [map_key hk]; simp) fun _ _ => ?_
      see
    · unfold Raw.ackError
      see
  · have h : ∀ s, Sees [utf8 "ica_channel", utf8 "state"] [utf8 "ica_channel", recordKey p.src.channelId p.sequence]
        (Raw.timeoutCallback p relayer) s := by
      intro s
      unfold Raw.timeoutCallback
      refine sees_bind (sees_load _ (by simp [STATE])) fun _ _ => ?_
      exact sees_bind (sees_put _ _ _ _ fun k hk => by rw [map_key hk]; simp) fun _ _ => sees_pure _
    unfold Raw.ibcPacketTimeout
    refine sees_bind (sees_load _ (by simp [CHANNEL_STATE])) fun _ _ => ?_
    split
    · exact sees_bind (sees_save _ (by simp [CHANNEL_STATE]) _) fun _ _ => h _
    · exact h _

/-- **C120.** A message that cannot be read is refused without a look at the storage. -/
theorem C120_unreadable (api : Api) (env : Env) (sender : String) (bytes : Bytes) (raw : RawStore) :
    (ExecuteMsg.jc.ofBytes bytes = none → Sees [] [] (vmExecute api env sender bytes) raw) ∧
    (InstantiateMsg.jc.ofBytes bytes = none → Sees [] [] (vmInstantiate api env sender bytes) raw) ∧
    (MigrateMsg.jc.ofBytes bytes = none → Sees [] [] (vmMigrate bytes) raw) := by
  refine ⟨fun h => ?_, fun h => ?_, fun h => ?_⟩
  · exact sees_withMsg fun m hm => by rw [h] at hm; cases hm
  · exact sees_withMsg fun m hm => by rw [h] at hm; cases hm
  · exact sees_withMsg fun m hm => by rw [h] at hm; cases hm

/-- **C120.** The outcome of a packet is dealt with in the same way whatever records of other packets there are: take two
storages that differ in nothing but such records. -/
theorem C120_others_in_flight (p : IbcPacket) (relayer : String) (raw raw' : RawStore)
    (hs : (utf8 p.src.channelId).length ≤ 65535)
    (hd : ∀ k, raw' k ≠ raw k → ∃ c n, (utf8 c).length ≤ 65535 ∧ k = recordKey c n ∧ (c, n) ≠ (p.src.channelId, p.sequence)) :
    (∀ ack, (Raw.ibcPacketAck ack p relayer raw').1 = (Raw.ibcPacketAck ack p relayer raw).1) ∧
    (Raw.ibcPacketTimeout p relayer raw').1 = (Raw.ibcPacketTimeout p relayer raw).1 := by
  have item : ∀ a ∈ itemNames, raw' (utf8 a) = raw (utf8 a) := fun a ha => by
    by_contra h
    obtain ⟨c, n, hc, e, _⟩ := hd _ h
    exact C36_not_an_item (Stored.mapKey_record (n := n) hc) a ha e.symm
  have own : raw' (recordKey p.src.channelId p.sequence) = raw (recordKey p.src.channelId p.sequence) := by
    by_contra h
    obtain ⟨c, n, hc, e, hne⟩ := hd _ h
    exact C36_distinct_keys (Stored.mapKey_record hc) (Stored.mapKey_record hs) hne e.symm
  obtain ⟨h1, h2, _⟩ := C120_packets p relayer raw
  refine ⟨fun ack => (h1 ack raw' fun k hk => ?_).1, (h2 raw' fun k hk => ?_).1⟩
  · rcases List.mem_cons.1 hk with rfl | hk
    · exact own
    · rw [List.mem_singleton.1 hk]; exact item _ (by decide)
  · rcases List.mem_cons.1 hk with rfl | hk
    · exact item _ (by decide)
    · rw [List.mem_singleton.1 hk]; exact item _ (by decide)

/-- Whether an outcome is a success. -/
def Footprint.good {α : Type} : Res α → Bool
  | .ok _ => true
  | _ => false

/-- A storage with a contract state and an open channel. -/
def Ex.foot : RawStore :=
  setKey (setKey .empty (utf8 "state") (some (ContractState.jc.toBytes (st "channel-0"))))
    (utf8 "ica_channel") (some (ChannelState.jc.toBytes ⟨chan "channel-0" opts, .opened⟩))
/-- The same with a record, not even a readable one, of the packet 7. -/
def Ex.foot7 : RawStore := setKey foot (recordKey "channel-0" 7) (some [1])

theorem Footprint.load_some {α : Type} {i : Item α} (law : i.jc.Law) {x : α} {raw : RawStore}
    (h : raw (utf8 i.key) = some (i.jc.toBytes x)) : i.load raw = (.ok x, raw) := by
  unfold Item.load
  rw [h]
  dsimp only
  rw [JC.ofBytes_toBytes law]

theorem Footprint.load_none {α : Type} {i : Item α} {raw : RawStore} (h : raw (utf8 i.key) = none) :
    i.load raw = (.err (.std "not found"), raw) := by
  unfold Item.load
  rw [h]

theorem Ex.key_ne : utf8 "state" ≠ utf8 "ica_channel" ∧ recordKey "channel-0" 7 ≠ utf8 "state" ∧
    recordKey "channel-0" 7 ≠ utf8 "ica_channel" ∧ recordKey "channel-0" 1 ≠ utf8 "state" := by decide +kernel

theorem Ex.foot_state : foot (utf8 "state") = some (ContractState.jc.toBytes (st "channel-0")) := by
  simp [foot, setKey, key_ne.1]
theorem Ex.foot_channel : foot (utf8 "ica_channel") = some (ChannelState.jc.toBytes ⟨chan "channel-0" opts, .opened⟩) := by
  simp [foot, setKey]
theorem Ex.foot_record : foot (recordKey "channel-0" 7) = none := by
  simp [foot, setKey, key_ne.2.1, key_ne.2.2.1, RawStore.empty]
theorem Ex.foot7_state : foot7 (utf8 "state") = some (ContractState.jc.toBytes (st "channel-0")) := by
  rw [foot7, setKey, if_neg key_ne.2.1.symm, foot_state]
theorem Ex.foot7_channel : foot7 (utf8 "ica_channel") = some (ChannelState.jc.toBytes ⟨chan "channel-0" opts, .opened⟩) := by
  rw [foot7, setKey, if_neg key_ne.2.2.1.symm, foot_channel]

theorem Ex.timeout_good {raw : RawStore} (h1 : raw (utf8 "state") = some (ContractState.jc.toBytes (st "channel-0")))
    (h2 : raw (utf8 "ica_channel") = some (ChannelState.jc.toBytes ⟨chan "channel-0" opts, .opened⟩)) :
    good (Raw.ibcPacketTimeout pkt "relayer" raw).1 := by
  unfold Raw.ibcPacketTimeout
  rw [bind_eq, Footprint.load_some (i := CHANNEL_STATE) ChannelState.jc_law h2]
  dsimp only
  rw [if_pos (by decide), bind_eq]
  unfold Item.save Raw.timeoutCallback
  dsimp only
  rw [bind_eq, Footprint.load_some (i := STATE) (x := st "channel-0") ContractState.jc_law
    (by rw [setKey, if_neg (show utf8 STATE.key ≠ utf8 CHANNEL_STATE.key from key_ne.1)]; exact h1)]
  dsimp only
  rw [bind_eq]
  unfold Map2.remove Map2.put
  rw [show mapKey PENDING_QUERIES.ns pkt.src.channelId pkt.sequence = _ from
    Stored.mapKey_record (c := "channel-0") (n := 1) (by decide +kernel)]
  rfl

/-- The two storages differ as `C120_others_in_flight` asks, and in both the packet 1 times out well. -/
example : Ex.foot7 ≠ Ex.foot ∧
    (∀ k, Ex.foot7 k ≠ Ex.foot k → ∃ c n, (utf8 c).length ≤ 65535 ∧ k = recordKey c n ∧ (c, n) ≠ ("channel-0", 1)) ∧
    good (Raw.ibcPacketTimeout Ex.pkt "relayer" Ex.foot).1 ∧ good (Raw.ibcPacketTimeout Ex.pkt "relayer" Ex.foot7).1 := by
  refine ⟨fun h => ?_, fun k hk => ?_, Ex.timeout_good Ex.foot_state Ex.foot_channel,
    Ex.timeout_good Ex.foot7_state Ex.foot7_channel⟩
  · have : Ex.foot7 (recordKey "channel-0" 7) = Ex.foot (recordKey "channel-0" 7) := by rw [h]
    rw [Ex.foot_record] at this
    simp [Ex.foot7, setKey] at this
  · refine ⟨"channel-0", 7, by decide +kernel, ?_, by decide⟩
    by_contra h
    exact hk (by simp [Ex.foot7, setKey, h])

/-- What is looked at matters: without the channel the timeout fails, and without the contract state the error
acknowledgement does. -/
example : ¬ Sees [utf8 "state"] [utf8 "ica_channel", recordKey "channel-0" 1] (Raw.ibcPacketTimeout Ex.pkt "relayer") Ex.foot ∧
    ¬ Sees [recordKey "channel-0" 1] [recordKey "channel-0" 1] (Raw.ackError Ex.pkt "relayer" "out of gas") Ex.foot := by
  refine ⟨fun h => ?_, fun h => ?_⟩
  · have e := (h (setKey Ex.foot (utf8 "ica_channel") none) fun k hk => by
      rw [List.mem_singleton.1 hk, setKey, if_neg Ex.key_ne.1]).1
    have g := Ex.timeout_good Ex.foot_state Ex.foot_channel
    rw [← e] at g
    unfold Raw.ibcPacketTimeout at g
    rw [bind_eq, Footprint.load_none (i := CHANNEL_STATE) (if_pos rfl)] at g
    cases g
  · have e := (h (setKey Ex.foot (utf8 "state") none) fun k hk => by
      rw [List.mem_singleton.1 hk, setKey, if_neg Ex.key_ne.2.2.2]).1
    unfold Raw.ackError at e
    rw [bind_eq, bind_eq, Footprint.load_none (i := STATE) (if_pos rfl),
      Footprint.load_some (i := STATE) ContractState.jc_law Ex.foot_state] at e
    cases e

/-! ## The owner contract -/

namespace Footprint

theorem key_entry (n : UInt64) : RawOwner.ICA_STATES.rawKey n = entryKey n := OwnerStored.key_entry n
theorem key_number (a : String) : RawOwner.CONTRACT_ADDR_TO_ICA_ID.rawKey a = numberKey a := OwnerStored.key_number a

theorem create_sees (env : Owner.Env) (sender : String) (salt : Option String) (o : ChannelOpenInitOptions) (raw : RawStore) :
    ∃ n a, Sees [utf8 "state", utf8 "ica_count"] [utf8 "ica_count", entryKey n, numberKey a]
      (RawOwner.createIcaContract env sender salt o) raw := by
  unfold RawOwner.createIcaContract
  cases hs : (RawOwner.STATE.load raw).1 with
  | ok st =>
    cases hc : (attempt RawOwner.ICA_COUNT.load raw).1 with
    | ok c =>
      have key : ∀ n a, (∀ m a', (Helpers.Code.mk st.codeId).instantiate2 env.addr env.querier env.self
          (Owner.controllerMsg env.self o) ("icacontroller-" ++ env.self ++ "-" ++ decString (c.getD 0).toNat) (some env.self)
          (salt.getD (decString (env.time.toNat / 1000000000))) = some (m, a') → a' = a) → n = c.getD 0 →
          Sees [utf8 "state", utf8 "ica_count"] [utf8 "ica_count", entryKey n, numberKey a]
            (RawOwner.createIcaContract env sender salt o) raw := by
        intro n a ha hn
        unfold RawOwner.createIcaContract
        refine sees_bind (sees_load _ (by simp [RawOwner.STATE])) fun st' h' => ?_
        rw [hs] at h'
        cases h'
        rw [load_snd]
        split
        · exact sees_fail _
        · refine sees_bind (sees_attempt _ (by simp [RawOwner.ICA_COUNT])) fun c' h' => ?_
          rw [hc] at h'
          cases h'
          dsimp only
          split
          · exact sees_fail _
          · next m a' hi =>
            rw [ha m a' hi, ← hn]
            refine sees_bind (sees_save1 _ _ _ (by rw [key_entry]; simp)) fun _ _ => ?_
            refine sees_bind (sees_save1 _ _ _ (by rw [key_number]; simp)) fun _ _ => ?_
            split
            · exact sees_bind (sees_save _ (by simp [RawOwner.ICA_COUNT]) _) fun _ _ => sees_pure _
            · exact sees_lift _
      cases hi : (Helpers.Code.mk st.codeId).instantiate2 env.addr env.querier env.self
          (Owner.controllerMsg env.self o) ("icacontroller-" ++ env.self ++ "-" ++ decString (c.getD 0).toNat) (some env.self)
          (salt.getD (decString (env.time.toNat / 1000000000))) with
      | none => exact ⟨c.getD 0, "", key _ _ (fun m a' h => by rw [hi] at h; cases h) rfl⟩
      | some x =>
        refine ⟨c.getD 0, x.2, key _ _ (fun m a' h => ?_) rfl⟩
        rw [hi] at h
        cases h
        rfl
    | err e =>
      refine ⟨0, "", sees_bind (sees_load _ (by simp [RawOwner.STATE])) fun st' h' => ?_⟩
      rw [load_snd]
      split
      · exact sees_fail _
      · refine sees_bind (sees_attempt _ (by simp [RawOwner.ICA_COUNT])) fun c' h' => ?_
        rw [hc] at h'
        cases h'
    | panic e =>
      refine ⟨0, "", sees_bind (sees_load _ (by simp [RawOwner.STATE])) fun st' h' => ?_⟩
      rw [load_snd]
      split
      · exact sees_fail _
      · refine sees_bind (sees_attempt _ (by simp [RawOwner.ICA_COUNT])) fun c' h' => ?_
        rw [hc] at h'
        cases h'
  | err e =>
    refine ⟨0, "", sees_bind (sees_load _ (by simp [RawOwner.STATE])) fun st' h' => ?_⟩
    rw [hs] at h'
    cases h'
  | panic e =>
    refine ⟨0, "", sees_bind (sees_load _ (by simp [RawOwner.STATE])) fun st' h' => ?_⟩
    rw [hs] at h'
    cases h'

end Footprint

/-- **C120.** The owner contract looks at its state and its count to make a controller, and writes the count and two entries;
to act, it looks at its state and one entry; told by a controller, it looks at the number of the sender and one entry, and
writes this entry. It has no other footprint, however many controllers there are. -/
theorem C120_owner (api : Api) (env : Owner.Env) (sender : String) (raw : RawStore) :
    (∀ bytes, Sees [] [utf8 "state"] (RawOwner.vmInstantiate api sender bytes) raw) ∧
    (∀ salt o, ∃ n a, Sees [utf8 "state", utf8 "ica_count"] [utf8 "ica_count", entryKey n, numberKey a]
      (RawOwner.createIcaContract env sender salt o) raw) ∧
    (∀ i a, Sees [utf8 "state", entryKey i] [] (RawOwner.sendPredefinedAction sender i a) raw) ∧
    (∀ m, ∃ n, Sees [numberKey sender, entryKey n] [entryKey n] (RawOwner.icaCallbackHandler sender m) raw) := by
  refine ⟨fun bytes => ?_, fun salt o => ?_, fun i a => ?_, fun m => ?_⟩
  · refine sees_withMsg fun m _ => ?_
    unfold RawOwner.instantiate
    dsimp only
    split
    · refine sees_bind (sees_lift _) fun _ _ => ?_
      exact sees_bind (sees_save _ (by simp [RawOwner.STATE]) _) fun _ _ => sees_pure _
    · refine sees_bind (sees_pure _) fun _ _ => ?_
      exact sees_bind (sees_save _ (by simp [RawOwner.STATE]) _) fun _ _ => sees_pure _
  · exact create_sees env sender salt o raw
  · unfold RawOwner.sendPredefinedAction
    refine sees_bind (sees_load _ (by simp [RawOwner.STATE])) fun _ _ => ?_
    split
    · exact sees_fail _
    · exact sees_bind (sees_load1 _ _ (by rw [key_entry]; simp)) fun _ _ => sees_pure _
  · unfold RawOwner.icaCallbackHandler
    cases hn : (RawOwner.CONTRACT_ADDR_TO_ICA_ID.load sender raw).1 with
    | ok n =>
      refine ⟨n, ?_⟩
      refine sees_bind (sees_load1 _ _ (by rw [key_number]; simp)) fun n' h' => ?_
      rw [hn] at h'
      cases h'
      refine sees_bind (sees_load1 _ _ (by rw [key_entry]; simp)) fun _ _ => ?_
      split
      · exact sees_bind (sees_save1 _ _ _ (by rw [key_entry]; simp)) fun _ _ => sees_pure _
      · exact sees_pure _
    | err e =>
      refine ⟨0, sees_bind (sees_load1 _ _ (by rw [key_number]; simp)) fun n' h' => ?_⟩
      rw [hn] at h'
      cases h'
    | panic e =>
      refine ⟨0, sees_bind (sees_load1 _ _ (by rw [key_number]; simp)) fun n' h' => ?_⟩
      rw [hn] at h'
      cases h'

/-- **C120.** The same of any text sent to the owner contract: at most four entries are looked at and three written. -/
theorem C120_owner_execute (env : Owner.Env) (sender : String) (bytes : Bytes) (raw : RawStore) :
    ∃ n a, Sees [utf8 "state", utf8 "ica_count", numberKey sender, entryKey n] [utf8 "ica_count", entryKey n, numberKey a]
      (RawOwner.vmExecute env sender bytes) raw := by
  unfold RawOwner.vmExecute
  obtain ⟨-, h1, h2, h3⟩ := C120_owner ⟨fun _ => true, fun _ => true⟩ env sender raw
  split
  · next salt o _ =>
    obtain ⟨n, a, h⟩ := h1 salt o
    exact ⟨n, a, sees_mono h (by simp) (by simp)⟩
  · next i a _ => exact ⟨i, "", sees_mono (h2 i a) (by simp) (by simp)⟩
  · next m _ =>
    obtain ⟨n, h⟩ := h3 m
    exact ⟨n, "", sees_mono h (by simp) (by simp)⟩
  · exact ⟨0, "", sees_fail _⟩

end Ica
