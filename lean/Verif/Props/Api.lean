import Verif.Facts.ApiWrites
import Verif.Model.Entry
import Verif.Props.Formats
import Verif.Props.Receivers

/-!
# The JSON interface (C69, C70)

The interface is stated in `Verif/Spec/Api.lean`, the grammar of JSON in `Verif/Spec/Formats.lean`.
-/
namespace Ica
open Spec Format

theorem ofBytes_iff {α : Type} {c : JC α} {r : Api.Shape α} (h : Reads c r) {bs : Bytes} {x : α} :
    c.ofBytes bs = some x ↔ Spells r bs x := by
  unfold JC.ofBytes jsonOfBytes Spells
  rw [Option.bind_eq_some_iff]
  constructor
  · rintro ⟨j, h1, h2⟩
    obtain ⟨t, h3, h4⟩ := Option.bind_eq_some_iff.mp h1
    exact ⟨t, j, (utf8_of_ofUtf8 h3).symm, C67_reads_json.mp h4, (h _ _).mp h2⟩
  · rintro ⟨t, j, rfl, h1, h2⟩
    exact ⟨j, by rw [ofUtf8_utf8]; exact C67_reads_json.mpr h1, (h _ _).mpr h2⟩

theorem readMsg_bind {α β : Type} {c : JC α} {r : Api.Shape α} (h : Reads c r) {bs : Bytes} {f : α → Res β} {y : β} :
    (readMsg c bs).bind f = .ok y ↔ ∃ m, Spells r bs m ∧ f m = .ok y := by
  simp only [← ofBytes_iff h]
  unfold readMsg
  cases c.ofBytes bs with
  | none => simp [Res.bind]
  | some m => simp [Res.bind]

/-! ## C69: what the contract reads -/

/-- **C69** (execute). A call succeeds exactly if its bytes spell one of the documented messages and that message is
accepted; no other spelling is understood and none is understood in two ways (`C69_unambiguous`). -/
theorem C69_execute {api : Api} {env : Env} {s : Store} {sender : String} {bytes : Bytes} {out : Store × Response} :
    executeEntry api env s sender bytes = .ok out ↔
      ∃ m, Spells Api.Execute bytes m ∧ execute api env s sender m = .ok out := readMsg_bind ExecuteMsg_reads

/-- **C69** (instantiate). -/
theorem C69_instantiate {api : Api} {env : Env} {s : Store} {sender : String} {bytes : Bytes} {out : Store × Response} :
    instantiateEntry api env s sender bytes = .ok out ↔
      ∃ m, Spells Api.Instantiate bytes m ∧ instantiate api env s sender m = .ok out := readMsg_bind InstantiateMsg_reads

/-- **C69** (query). -/
theorem C69_query {s : Store} {bytes out : Bytes} :
    queryEntry s bytes = .ok out ↔ ∃ m, Spells Api.QueryMessage bytes m ∧ query s m = .ok out := readMsg_bind QueryMsg_reads

/-- **C69** (migrate). -/
theorem C69_migrate {s : Store} {bytes : Bytes} {out : Store × Response} :
    migrateEntry s bytes = .ok out ↔ ∃ m, Spells Api.Migrate bytes m ∧ migrate s = .ok out := readMsg_bind MigrateMsg_reads

theorem spells_unique {α : Type} {jc : JC α} {D : Json → α → Prop} (hr : Reads jc D) {bytes : Bytes} {m n : α}
    (h1 : Spells D bytes m) (h2 : Spells D bytes n) : m = n := by
  have e1 := (ofBytes_iff hr).mpr h1
  have e2 := (ofBytes_iff hr).mpr h2
  rw [e1] at e2
  exact Option.some.inj e2

/-- **C69** (no ambiguity). No text spells two different calls. -/
theorem C69_unambiguous {bytes : Bytes} {m n : ExecuteMsg} (h1 : Spells Api.Execute bytes m) (h2 : Spells Api.Execute bytes n) :
    m = n := spells_unique ExecuteMsg_reads h1 h2

/-- **C69** (no ambiguity). Nor do they for instantiation, queries, acknowledgements and metadata. -/
theorem C69_unambiguous_others {bytes : Bytes} :
    (∀ m n, Spells Api.Instantiate bytes m → Spells Api.Instantiate bytes n → m = n) ∧
    (∀ m n, Spells Api.QueryMessage bytes m → Spells Api.QueryMessage bytes n → m = n) ∧
    (∀ m n, Spells Api.Acknowledgement bytes m → Spells Api.Acknowledgement bytes n → m = n) ∧
    (∀ m n, Spells Api.Metadata bytes m → Spells Api.Metadata bytes n → m = n) :=
  ⟨fun _ _ => spells_unique InstantiateMsg_reads, fun _ _ => spells_unique QueryMsg_reads,
    fun _ _ => spells_unique AckData_reads, fun _ _ => spells_unique IcaMetadata_reads⟩

/-- **C69** (metadata). The version of a channel is understood exactly if it spells ICS-27 metadata. -/
theorem C69_metadata {v : String} {m : IcaMetadata} :
    IcaMetadata.jc.ofStr v = some m ↔ ∃ j, IsDocument j v.toList ∧ Api.Metadata j m := by
  unfold JC.ofStr
  rw [Option.bind_eq_some_iff]
  exact exists_congr fun j => and_congr C67_reads_json (IcaMetadata_reads _ _)

/-- **C69** (acknowledgement). The acknowledgement of a packet is understood exactly if it spells a result or an error. -/
theorem C69_acknowledgement {bytes : Bytes} {a : AckData} :
    AckData.jc.ofBytes bytes = some a ↔ Spells Api.Acknowledgement bytes a := ofBytes_iff AckData_reads

/-- A transfer of ten tokens with a timeout; white space and the order of members do not matter. -/
example : Spells Api.Execute
    (utf8 "{ \"send_cosmos_msgs\" : {\"timeout_seconds\":30,\"messages\":[{\"bank\":{\"send\":{\"amount\":[{\"denom\":\"uatom\",\"amount\":\"10\"}],\"to_address\":\"cosmos1x\"}}}]}}")
    (.sendCosmosMsgs [.bank (.send "cosmos1x" [⟨"uatom", ⟨10, by decide⟩⟩])] [] none (some 30)) :=
  (ofBytes_iff ExecuteMsg_reads).mp (by decide +kernel)
/-- An unknown member of a contract message is refused. -/
example : ¬ ∃ m, Spells Api.Execute (utf8 "{\"close_channel\":{\"force\":true}}") m := by
  rintro ⟨m, h⟩
  have h := (ofBytes_iff ExecuteMsg_reads).mpr h
  have e : ExecuteMsg.jc.ofBytes (utf8 "{\"close_channel\":{\"force\":true}}") = none := by decide +kernel
  rw [e] at h; cases h
/-- An offer of ownership. -/
example : Spells Api.Execute
    (utf8 "{\"update_ownership\":{\"transfer_ownership\":{\"new_owner\":\"bob\",\"expiry\":{\"at_height\":12}}}}")
    (.updateOwnership (.transferOwnership "bob" (some (.atHeight 12)))) :=
  (ofBytes_iff ExecuteMsg_reads).mp (by decide +kernel)
/-- An instantiation. -/
example : Spells Api.Instantiate
    (utf8 "{\"channel_open_init_options\":{\"connection_id\":\"connection-0\",\"counterparty_connection_id\":\"connection-7\",\"channel_ordering\":\"ORDER_ORDERED\"}}")
    ⟨none, ⟨"connection-0", "connection-7", none, some .ordered⟩, none⟩ :=
  (ofBytes_iff InstantiateMsg_reads).mp (by decide +kernel)
/-- A query. -/
example : Spells Api.QueryMessage (utf8 "{\"get_contract_state\":{}}") .getContractState :=
  (ofBytes_iff QueryMsg_reads).mp (by decide +kernel)
/-- A migration. -/
example : Spells Api.Migrate (utf8 "{}") ⟨⟩ := (ofBytes_iff MigrateMsg_reads).mp (by decide +kernel)
/-- Metadata of a host. -/
example : ∃ j, IsDocument j "{\"version\":\"ics27-1\",\"controller_connection_id\":\"connection-0\",\"host_connection_id\":\"connection-7\",\"address\":\"cosmos1ica\",\"encoding\":\"proto3\",\"tx_type\":\"sdk_multi_msg\"}".toList ∧
    Api.Metadata j ⟨"ics27-1", "connection-0", "connection-7", "cosmos1ica", .protobuf, "sdk_multi_msg"⟩ :=
  C69_metadata.mp (by decide +kernel)
/-- An error acknowledgement. -/
example : Spells Api.Acknowledgement (utf8 "{\"error\":\"ABCI code: 5\"}") (.error "ABCI code: 5") :=
  C69_acknowledgement.mp (by decide +kernel)

/-! ## C70: what the contract writes -/

theorem written {α : Type} (c : JC α) (x : α) {P : Json → Prop} (h : P (c.enc x)) : Written P (c.toBytes x) :=
  ⟨jsonToString (c.enc x), c.enc x, rfl, C67_writes_json _, h⟩

/-- **C70** (`get_contract_state`). -/
theorem C70_contract_state {s : Store} {bytes : Bytes} (h : query s .getContractState = .ok bytes) :
    ∃ st, s.state = some st ∧ Written (· = Api.contractStateJson st) bytes := by
  unfold query at h
  cases hs : s.state with
  | none => simp [hs, load, Res.bind] at h
  | some st =>
    simp only [hs, load, Res.bind, Res.ok.injEq] at h
    subst h
    exact ⟨st, rfl, written _ _ (enc_contractState st)⟩

/-- **C70** (`get_channel`). -/
theorem C70_channel {s : Store} {bytes : Bytes} (h : query s .getChannel = .ok bytes) :
    ∃ c, s.channel = some c ∧ Written (· = Api.channelStateJson c) bytes := by
  unfold query at h
  cases hs : s.channel with
  | none => simp [hs, load, Res.bind] at h
  | some c =>
    simp only [hs, load, Res.bind, Res.ok.injEq] at h
    subst h
    exact ⟨c, rfl, written _ _ (enc_channelState c)⟩

/-- **C70** (`ownership`). -/
theorem C70_ownership {s : Store} {bytes : Bytes} (h : query s .ownership = .ok bytes) :
    ∃ o, s.ownership = some o ∧ Written (Api.WritesOwnership o) bytes := by
  unfold query at h
  cases hs : s.ownership with
  | none => simp [hs, load, Res.bind] at h
  | some o =>
    simp only [hs, load, Res.bind, Res.ok.injEq] at h
    subst h
    exact ⟨o, rfl, written _ _ (writes_ownership o)⟩

/-- **C70** (callbacks). Every call of another contract, in every operation, carries no funds and is written as the
documented callback for the message that is read from it (C44 says which message that is). -/
theorem C70_callbacks {api : Api} {w w' : World} {op : Op} {obs : List Obs} (h : Commits api w op w' obs)
    {addr : String} {bytes : Bytes} {funds : List Coin} (hc : (addr, bytes, funds) ∈ callsOf obs) :
    callbackOf w = some addr ∧ funds = [] ∧
      ∃ m, ReceiverExecuteMsg.jc.ofBytes bytes = some (.receiveIcaCallback m) ∧ Written (Api.WritesCallback m) bytes := by
  cases hn : op.notifies with
  | false => rw [no_calls h hn] at hc; cases hc
  | true =>
    obtain ⟨m, hm⟩ := notify_calls h hn
    rw [hm, callsOf_callObs] at hc
    cases hcb : callbackOf w with
    | none => rw [hcb] at hc; cases hc
    | some a =>
      rw [hcb] at hc
      simp only [List.mem_singleton, Prod.mk.injEq] at hc
      obtain ⟨rfl, rfl, rfl⟩ := hc
      exact ⟨rfl, rfl, m, JC.ofBytes_toBytes ReceiverExecuteMsg.jc_law _, written _ _ (writes_callback m)⟩

/-- The scenario answers all three queries. -/
example : ∃ a b c, query Ex.w2.store .getContractState = .ok a ∧ query Ex.w2.store .getChannel = .ok b ∧
    query Ex.w2.store .ownership = .ok c := ⟨_, _, _, rfl, rfl, rfl⟩
/-- The scenario's OpenAck calls the callback contract. -/
example : ∃ obs bytes, Commits Ex.api Ex.w1 (.relayOpenAck "channel-0" "channel-5" Ex.ver) Ex.w2 obs ∧
    ("cb", bytes, []) ∈ callsOf obs :=
  ⟨_, _, (apply_iff_step (inv_of_reachable Ex.r1)).2 Ex.s2, by simp [callsOf, callObs]; rfl⟩

end Ica
