import Verif.Facts.GoClient
import Verif.Facts.FormatBase64
import Verif.Props.Api
import Verif.Props.OwnerBytes

/-!
# The Go client (C100)

What a Go value stands for is stated in `Verif/Spec/GoClient.lean`, the client is modelled in `Verif/Model/GoClient.lean`.
-/
namespace Ica
open Spec Format GoClient

theorem spells_text {α : Type} {r : Api.Shape α} {j : Json} {x : α} : Spells r (toBytes j) x ↔ r j x := by
  unfold Spells toBytes
  constructor
  · rintro ⟨t, k, e, hd, h⟩
    have : t = String.ofList (text j) := by
      have := congrArg ofUtf8 e
      rw [ofUtf8_utf8, ofUtf8_utf8] at this
      exact (Option.some.inj this).symm
    subst this
    rw [String.toList_ofList] at hd
    rwa [C67_unambiguous (isDocument_text j) hd]
  · intro h
    exact ⟨_, j, rfl, by rw [String.toList_ofList]; exact isDocument_text j, h⟩

/-- **C100** (calls). What the contract reads in a call of the Go client is what the Go value stands for, and it refuses
every value that stands for nothing (two pointers of a union set, a `nil` where an array is due, a number that is not
one, …). Missing: offers of ownership, see `C100_no_offer`. -/
theorem C100_execute_partial {g : GoController.ExecuteMsg} (hg : ¬ GoMeans.Offers g) {m : ExecuteMsg} :
    Spells Api.Execute (toBytes g.json) m ↔ GoMeans.Execute g m := by
  rw [spells_text, Go.execute_iff]; simp [hg]

/-- **C100** (effect). So a call through the client does what the message would do. -/
theorem C100_call_partial {g : GoController.ExecuteMsg} {m : ExecuteMsg} (hg : ¬ GoMeans.Offers g) (hm : GoMeans.Execute g m)
    {api : Api} {env : Env} {s : Store} {sender : String} {out : Store × Response} :
    executeEntry api env s sender (toBytes g.json) = .ok out ↔ execute api env s sender m = .ok out := by
  rw [C69_execute]
  constructor
  · rintro ⟨n, h1, h2⟩
    rwa [C69_unambiguous ((C100_execute_partial hg).mpr hm) h1]
  · exact fun h => ⟨m, (C100_execute_partial hg).mpr hm, h⟩

/-- **C100** (a defect). No offer of ownership made with the Go client is understood, whoever makes it: the client leaves out
the name of the action. -/
theorem C100_no_offer {g : GoController.ExecuteMsg} (hg : GoMeans.Offers g) {api : Api} {env : Env} {s : Store}
    {sender : String} {out : Store × Response} : executeEntry api env s sender (toBytes g.json) ≠ .ok out := by
  rw [Ne, C69_execute]
  rintro ⟨m, h, -⟩
  rw [spells_text, Go.execute_iff] at h
  exact h.2 hg

/-- **C100** (instantiation). -/
theorem C100_instantiate {g : GoController.InstantiateMsg} {m : InstantiateMsg} :
    Spells Api.Instantiate (toBytes g.json) m ↔ GoMeans.Instantiate g m := by rw [spells_text, Go.instantiate_iff]

/-- **C100** (queries). -/
theorem C100_query {g : GoController.QueryMsg} {m : QueryMsg} :
    Spells Api.QueryMessage (toBytes g.json) m ↔ GoMeans.QueryMessage g m := by rw [spells_text, Go.queryMessage_iff]

/-- **C100** (the query client). A request that is not `nil` asks the query it names. -/
theorem C100_query_client {tag : String} {req : Option GoController.Empty} {m : QueryMsg} :
    Spells Api.QueryMessage (toBytes (queryRequest tag req)) m ↔ req ≠ none ∧
      tag = match m with
        | .getChannel => "get_channel"
        | .getContractState => "get_contract_state"
        | .ownership => "ownership" := by
  rw [spells_text]
  cases req <;> cases m <;> simp [queryRequest, Api.QueryMessage, Api.Variant, Api.Closed, GoController.Empty.json, present]

/-- **C100** (protobuf messages). The helper sends exactly the given messages, in order, without queries. -/
theorem C100_from_proto {msgs : List ProtoAny} {memo : Option String} {timeout : Option UInt64} :
    Spells Api.Execute (toBytes (newExecuteMsgSendCosmosMsgsFromProto msgs memo (timeout.map UInt64.toNat)).json)
      (.sendCosmosMsgs (msgs.map fun m => .stargate m.1 m.2) [] memo timeout) := by
  rw [C100_execute_partial (by simp [GoMeans.Offers, newExecuteMsgSendCosmosMsgsFromProto])]
  refine ⟨_, rfl, .inr ⟨_, rfl, ?_⟩, .inl ⟨rfl, rfl⟩, rfl, ?_⟩
  · rw [List.forall₂_map_left_iff, List.forall₂_map_right_iff]
    refine List.forall₂_same.mpr fun m _ => ⟨_, rfl, rfl, _, rfl, 0, ?_⟩
    simpa [base64] using isBase64_b64Enc m.2
  · cases timeout with
    | none => exact .inl ⟨rfl, rfl⟩
    | some t => exact .inr ⟨_, _, rfl, rfl, rfl⟩

/-- **C100** (the owner contract). -/
theorem C100_owner {g : GoOwner.ExecuteMsg} {m : Owner.OwnMsg} :
    Spells Api.OwnerCall (toBytes g.json) m ↔ GoMeans.OwnerCall g m := by rw [spells_text, Go.ownerCall_iff]
/-- **C100** (the owner contract, instantiation). -/
theorem C100_owner_instantiate {g : GoOwner.InstantiateMsg} {m : Owner.InstantiateMsg} :
    Spells Api.OwnerInstantiate (toBytes g.json) m ↔ GoMeans.OwnerInstantiate g m := by rw [spells_text, Go.ownerInstantiate_iff]
/-- **C100** (the owner contract, queries). -/
theorem C100_owner_query {g : GoOwner.QueryMsg} {m : Owner.QueryMsg} :
    Spells Api.OwnerQuery (toBytes g.json) m ↔ GoMeans.OwnerQuery g m := by rw [spells_text, Go.ownerQuery_iff]

/-! ## Cases -/

namespace GoEx
open GoController

/-- Ten tokens and a memo that Go escapes. -/
def send : GoController.ExecuteMsg :=
  { SendCosmosMsgs := some {
      Messages := some [{ Bank := some { Send := some { Amount := some [{ Amount := "10", Denom := "uatom" }], ToAddress := "cosmos1x" } } }]
      PacketMemo := some "a<b&\"c"
      TimeoutSeconds := some 30 } }

/-- The text of the call. -/
example : toBytes send.json = utf8 ("{\"send_cosmos_msgs\":{\"messages\":[{\"bank\":{\"send\":{\"amount\":[{\"amount\":\"10\"," ++
    "\"denom\":\"uatom\"}],\"to_address\":\"cosmos1x\"}}}],\"packet_memo\":\"a\\u003cb\\u0026\\\"c\",\"queries\":null," ++
    "\"timeout_seconds\":30}}") := by decide +kernel

theorem ten : GoMeans.Coins { Amount := "10", Denom := "uatom" } ⟨"uatom", ⟨10, by decide⟩⟩ :=
  ⟨rfl, _, rfl, _, .inl rfl, by decide, by unfold IsDigits; decide, by decide⟩

/-- What it stands for. -/
theorem send_means : GoMeans.Execute send
    (.sendCosmosMsgs [.bank (.send "cosmos1x" [⟨"uatom", ⟨10, by decide⟩⟩])] [] (some "a<b&\"c") (some 30)) :=
  ⟨_, rfl, .inr ⟨_, rfl, .cons ⟨_, rfl, _, rfl, rfl, _, rfl, .cons ten .nil⟩ .nil⟩, .inl ⟨rfl, rfl⟩, rfl, .inr ⟨_, _, rfl, rfl, rfl⟩⟩

theorem send_no_offer : ¬ GoMeans.Offers send := by simp [GoMeans.Offers, send]

/-- So the contract reads it as that. -/
example : Spells Api.Execute (toBytes send.json)
    (.sendCosmosMsgs [.bank (.send "cosmos1x" [⟨"uatom", ⟨10, by decide⟩⟩])] [] (some "a<b&\"c") (some 30)) :=
  (C100_execute_partial send_no_offer).mpr send_means

/-- The owner of the scenario closes its channel through the client. -/
example : ∃ out, executeEntry Ex.api Ex.w2.env Ex.w2.store "alice" (toBytes (ExecuteMsg.json { CloseChannel := some {} })) = .ok out := by
  have h : ∃ out, execute Ex.api Ex.w2.env Ex.w2.store "alice" .closeChannel = .ok out := ⟨_, rfl⟩
  obtain ⟨out, h⟩ := h
  exact ⟨out, (C100_call_partial (g := { CloseChannel := some {} }) (m := .closeChannel) (by simp [GoMeans.Offers]) ⟨_, rfl⟩).mpr h⟩

/-- Two calls in one value are refused. -/
example : ¬ ∃ m, Spells Api.Execute (toBytes (ExecuteMsg.json { CreateChannel := some {}, CloseChannel := some {} })) m := by
  rintro ⟨m, h⟩
  rw [C100_execute_partial (by simp [GoMeans.Offers])] at h
  cases m <;> simp [GoMeans.Execute] at h

/-- Funds that are `nil` are refused. -/
example : ¬ ∃ m, Spells Api.Execute (toBytes (ExecuteMsg.json { SendCosmosMsgs := some { Messages := some [{ Wasm := some { Execute := some {
    ContractAddr := "c", Msg := "e30=" } } }] } })) m := by
  rintro ⟨m, h⟩
  rw [C100_execute_partial (by simp [GoMeans.Offers])] at h
  cases m with
  | sendCosmosMsgs ms qs memo timeout =>
    obtain ⟨x, e, h, -⟩ := h
    cases e
    rcases h with ⟨h, -⟩ | ⟨l, e, h⟩
    · cases h
    · cases e
      cases h with
      | cons h _ =>
        rename_i c _ _
        cases c with
        | wasm w =>
          obtain ⟨y, e, h⟩ := h
          cases e
          cases w <;> simp [GoMeans.Wasm, GoMeans.Slice] at h
        | _ => simp [GoMeans.Cosmos] at h
  | _ => simp [GoMeans.Execute] at h

/-- An offer of ownership and what the client sends. -/
def offer : GoController.ExecuteMsg := { UpdateOwnership := some (.transferOwnership { NewOwner := "bob" }) }
/-- It stands for an offer; the contract would accept that message from its owner. -/
example : GoMeans.Offers offer ∧ GoMeans.Execute offer (.updateOwnership (.transferOwnership "bob" none)) ∧
    toBytes offer.json = utf8 "{\"update_ownership\":{\"new_owner\":\"bob\"}}" ∧
    ∃ out, execute Ex.api Ex.w2.env Ex.w2.store "alice" (.updateOwnership (.transferOwnership "bob" none)) = .ok out :=
  ⟨⟨_, rfl⟩, ⟨_, rfl, _, rfl, rfl, .inl ⟨rfl, rfl⟩⟩, by decide +kernel, _, rfl⟩
/-- The nominee can accept through the client. -/
example : Spells Api.Execute (toBytes (ExecuteMsg.json { UpdateOwnership := some (.acceptOwnership "accept_ownership") }))
    (.updateOwnership .acceptOwnership) :=
  (C100_execute_partial (by simp [GoMeans.Offers])).mpr ⟨_, rfl, _, .inl rfl, rfl⟩
/-- An instantiation. -/
example : Spells Api.Instantiate (toBytes (InstantiateMsg.json { ChannelOpenInitOptions := {
      ConnectionId := "connection-0", CounterpartyConnectionId := "connection-7", ChannelOrdering := some "ORDER_UNORDERED" } }))
    ⟨none, ⟨"connection-0", "connection-7", none, some .unordered⟩, none⟩ :=
  C100_instantiate.mpr ⟨rfl, ⟨rfl, rfl, rfl, .inr ⟨_, _, rfl, rfl, rfl⟩⟩, rfl⟩
/-- A query, through the message and through the query client. -/
example : Spells Api.QueryMessage (toBytes (QueryMsg.json { Ownership := some {} })) .ownership ∧
    Spells Api.QueryMessage (toBytes (queryRequest "ownership" (some {}))) .ownership :=
  ⟨C100_query.mpr ⟨_, rfl⟩, C100_query_client.mpr ⟨by simp, rfl⟩⟩
/-- A message of the governance module through the helper. -/
example : Spells Api.Execute (toBytes (newExecuteMsgSendCosmosMsgsFromProto [("/cosmos.gov.v1beta1.MsgVote", [8, 1])] none (some 60)).json)
    (.sendCosmosMsgs [.stargate "/cosmos.gov.v1beta1.MsgVote" [8, 1]] [] none (some 60)) := C100_from_proto (timeout := some 60)
/-- The owner contract. -/
example : Spells Api.OwnerCall (toBytes (GoOwner.ExecuteMsg.json { SendPredefinedAction := some { IcaId := 3, ToAddress := "cosmos1x" } }))
    (.sendPredefinedAction 3 "cosmos1x") := C100_owner.mpr ⟨_, rfl, rfl, rfl⟩

end GoEx
end Ica
