import Verif.Props.Writing

/-!
# Messages in the words of earlier releases (C125)

A call is compared as a whole: `Raw.vmExecute api env sender bytes` is the function from the storage before the call to the result,
response or error, and the storage after it. That two texts give the same function means that nobody can tell which one was sent.
-/
namespace Ica
open Spec

theorem same_call {api : Api} {env : Env} {sender : String} {a b : Bytes}
    (h : (jsonOfBytes a).bind ExecuteMsg.jc.dec = (jsonOfBytes b).bind ExecuteMsg.jc.dec) :
    Raw.vmExecute api env sender a = Raw.vmExecute api env sender b := by
  unfold Raw.vmExecute Raw.withMsg JC.ofBytes
  rw [h]

theorem refused_call {api : Api} {env : Env} {sender : String} {a : Bytes} {j : Json} (ha : jsonOfBytes a = some j)
    (h : ExecuteMsg.jc.dec j = none) (raw : Raw.RawStore) :
    Raw.vmExecute api env sender a raw = (.err (.std "Error parsing into type"), raw) := by
  unfold Raw.vmExecute Raw.withMsg JC.ofBytes
  rw [ha, Option.bind_some, h]
  rfl

theorem getObj_strict {names : List String} {fs : List (String × Json)} (h : ∃ f ∈ fs, f.1 ∉ names) :
    getObj true names (.obj fs) = none := by
  obtain ⟨f, hf, hn⟩ := h
  unfold getObj
  dsimp only
  rw [if_neg]
  simp only [Bool.and_eq_true, not_and, Bool.not_true, Bool.false_or, List.all_eq_true]
  intro _ hall
  exact hn (by simpa using hall f hf)

/-- **C125**, options for a new channel: of the options in a `create_channel` only the four members they have today count. A text of
an earlier release, with a `tx_encoding` of whatever value and no `channel_ordering`, does what the same text without `tx_encoding`
does. -/
theorem C125_create_channel {api : Api} {env : Env} {sender : String} {a b : Bytes} {fs gs : List (String × Json)}
    (ha : jsonOfBytes a = some (.obj [("create_channel", .obj [("channel_open_init_options", .obj fs)])]))
    (hb : jsonOfBytes b = some (.obj [("create_channel", .obj [("channel_open_init_options", .obj gs)])]))
    (h : SameMembers ["connection_id", "counterparty_connection_id", "counterparty_port_id", "channel_ordering"] fs gs) :
    Raw.vmExecute api env sender a = Raw.vmExecute api env sender b := by
  refine same_call ?_
  rw [ha, hb]
  have e := (C123_members (fs := fs) (gs := gs)).1 h
  simp [ExecuteMsg.jc, getObj, countKey, lookupKey, optF, jcOpt, e]

/-- **C125**, options at instantiation: the same. The options may stand before, between or after the other members. -/
theorem C125_instantiate {api : Api} {env : Env} {sender : String} {a b : Bytes} {before after fs gs : List (String × Json)}
    (ha : jsonOfBytes a = some (.obj (before ++ ("channel_open_init_options", .obj fs) :: after)))
    (hb : jsonOfBytes b = some (.obj (before ++ ("channel_open_init_options", .obj gs) :: after)))
    (h : SameMembers ["connection_id", "counterparty_connection_id", "counterparty_port_id", "channel_ordering"] fs gs) :
    Raw.vmInstantiate api env sender a = Raw.vmInstantiate api env sender b := by
  have e := (C123_members (fs := fs) (gs := gs)).1 h
  have hc : ∀ k (x : Json), countKey k (before ++ ("channel_open_init_options", x) :: after) =
      countKey k before + ((if "channel_open_init_options" = k then 1 else 0) + countKey k after) := by
    intro k x
    clear ha hb
    induction before with
    | nil => simp [countKey]
    | cons f r ih => obtain ⟨k', v⟩ := f; simp only [List.cons_append, countKey, ih]; omega
  have hl : ∀ k (x y : Json), "channel_open_init_options" ≠ k → lookupKey k (before ++ ("channel_open_init_options", x) :: after) =
      lookupKey k (before ++ ("channel_open_init_options", y) :: after) := by
    intro k x y hk
    clear ha hb hc
    induction before with
    | nil => simp [lookupKey, hk]
    | cons f r ih => obtain ⟨k', v⟩ := f; simp only [List.cons_append, lookupKey, ih]
  have ho : ∀ x : Json, lookupKey "channel_open_init_options" (before ++ ("channel_open_init_options", x) :: after) =
      ((lookupKey "channel_open_init_options" before).or (some x)) := by
    intro x
    clear ha hb hc hl
    induction before with
    | nil => simp [lookupKey]
    | cons f r ih =>
      obtain ⟨k', v⟩ := f
      simp only [List.cons_append, lookupKey, ih]
      by_cases hk : k' = "channel_open_init_options" <;> simp [hk]
  have key : InstantiateMsg.jc.dec (.obj (before ++ ("channel_open_init_options", .obj fs) :: after)) =
      InstantiateMsg.jc.dec (.obj (before ++ ("channel_open_init_options", .obj gs) :: after)) := by
    have hg : ∀ x : Json, getObj true ["owner", "channel_open_init_options", "send_callbacks_to"]
        (.obj (before ++ ("channel_open_init_options", x) :: after)) =
        (if (["owner", "channel_open_init_options", "send_callbacks_to"].all fun k => decide (countKey k before +
            ((if "channel_open_init_options" = k then 1 else 0) + countKey k after) ≤ 1)) &&
          (before.all fun p => ["owner", "channel_open_init_options", "send_callbacks_to"].contains p.1) &&
          (after.all fun p => ["owner", "channel_open_init_options", "send_callbacks_to"].contains p.1)
          then some (before ++ ("channel_open_init_options", x) :: after) else none) := by
      intro x
      unfold getObj
      dsimp only
      simp only [hc, Bool.not_true, Bool.false_or, List.all_append, List.all_cons]
      have : (["owner", "channel_open_init_options", "send_callbacks_to"].contains "channel_open_init_options") = true := by decide
      simp only [this, Bool.true_and, Bool.and_assoc]
    unfold InstantiateMsg.jc
    dsimp only
    rw [hg, hg]
    split
    · rename_i h1
      have h1' := h1
      split at h1'
      · cases h1'
      · next hif => rw [if_neg hif]
    · rename_i xs h1
      split at h1
      · next hif =>
        rw [if_pos hif]
        cases Option.some.inj h1
        dsimp only
        unfold optF reqF
        rw [hl "owner" (.obj fs) (.obj gs) (by decide), hl "send_callbacks_to" (.obj fs) (.obj gs) (by decide), ho, ho]
        cases lookupKey "channel_open_init_options" before with
        | some x => rfl
        | none =>
          simp only [Option.none_or]
          rw [e]
      · cases h1
  unfold Raw.vmInstantiate Raw.withMsg JC.ofBytes
  rw [ha, hb, Option.bind_some, Option.bind_some, key]

/-- **C125**, requests without queries: a `send_cosmos_msgs` that does not have the member `queries`, as before queries were
introduced, is the request with no queries. -/
theorem C125_no_queries {api : Api} {env : Env} {sender : String} {a b : Bytes} {fs : List (String × Json)} {none' : Json}
    (ha : jsonOfBytes a = some (.obj [("send_cosmos_msgs", .obj fs)]))
    (hb : jsonOfBytes b = some (.obj [("send_cosmos_msgs", .obj (("queries", none') :: fs))]))
    (hq : ∀ f ∈ fs, f.1 ≠ "queries") (hn : none' = .arr [] ∨ none' = .null) :
    Raw.vmExecute api env sender a = Raw.vmExecute api env sender b := by
  refine same_call ?_
  rw [ha, hb]
  have hc : countKey "queries" fs = 0 := by
    clear ha hb
    induction fs with
    | nil => rfl
    | cons f r ih =>
      obtain ⟨k, v⟩ := f
      have h1 := hq (k, v) (by simp)
      simp only [countKey, if_neg h1, ih fun f hf => hq f (by simp [hf])]
  have hl : lookupKey "queries" fs = none := by
    clear ha hb hc
    induction fs with
    | nil => rfl
    | cons f r ih =>
      obtain ⟨k, v⟩ := f
      have h1 := hq (k, v) (by simp)
      simp only [lookupKey, if_neg h1, ih fun f hf => hq f (by simp [hf])]
  have hg : getObj true ["messages", "queries", "packet_memo", "timeout_seconds"] (.obj (("queries", none') :: fs)) =
      (getObj true ["messages", "queries", "packet_memo", "timeout_seconds"] (.obj fs)).map fun xs => ("queries", none') :: xs := by
    unfold getObj
    dsimp only
    simp only [List.all_cons, List.all_nil, countKey, hc]
    have h2 : (["messages", "queries", "packet_memo", "timeout_seconds"].contains "queries") = true := by decide
    simp only [h2, Bool.true_and, show ("queries" = "messages") = False by simp, show ("queries" = "packet_memo") = False by simp,
      show ("queries" = "timeout_seconds") = False by simp, if_false, if_true, Nat.zero_add, Nat.add_zero]
    split
    · next hif => rw [if_pos (by simpa using hif)]; rfl
    · next hif => rw [if_neg (by simpa using hif)]; rfl
  have hd : (jcOpt (jcList QueryRequest.jc)).dec none' = some (some []) ∨ (jcOpt (jcList QueryRequest.jc)).dec none' = some none := by
    rcases hn with rfl | rfl
    · exact Or.inl rfl
    · exact Or.inr rfl
  simp only [Option.bind_some]
  unfold ExecuteMsg.jc
  dsimp only
  rw [if_neg (by decide), if_neg (by decide), if_pos rfl, if_neg (by decide), if_neg (by decide), if_pos rfl, hg]
  cases hx : getObj true ["messages", "queries", "packet_memo", "timeout_seconds"] (.obj fs) with
  | none => rfl
  | some xs =>
    have hxs : xs = fs := by
      unfold getObj at hx
      dsimp only at hx
      split at hx
      · exact (Option.some.inj hx).symm
      · cases hx
    subst hxs
    dsimp only [Option.map_some]
    have l1 : lookupKey "messages" (("queries", none') :: xs) = lookupKey "messages" xs := by simp [lookupKey]
    have l2 : lookupKey "packet_memo" (("queries", none') :: xs) = lookupKey "packet_memo" xs := by simp [lookupKey]
    have l3 : lookupKey "timeout_seconds" (("queries", none') :: xs) = lookupKey "timeout_seconds" xs := by simp [lookupKey]
    have l4 : lookupKey "queries" (("queries", none') :: xs) = some none' := by simp [lookupKey]
    have d1 : defListF QueryRequest.jc "queries" (("queries", none') :: xs) = some [] := by
      unfold defListF
      rw [l4]
      dsimp only
      rcases hd with h | h <;> rw [h] <;> rfl
    have d2 : defListF QueryRequest.jc "queries" xs = some [] := by
      unfold defListF
      rw [hl]
    rw [d1, d2]
    unfold nullListF optF
    rw [l1, l2, l3]

/-- **C125**, removed calls: a text that names a call the contract does not have (`send_custom_ica_messages`,
`send_predefined_action`) is refused, whatever it carries, whoever sends it, in every state, and changes nothing. -/
theorem C125_removed_calls {api : Api} {env : Env} {sender : String} {a : Bytes} {call : String} {content : Json}
    (ha : jsonOfBytes a = some (.obj [(call, content)]))
    (hc : call ∉ ["create_channel", "close_channel", "send_cosmos_msgs", "update_callback_address", "update_ownership"])
    (raw : Raw.RawStore) :
    Raw.vmExecute api env sender a raw = (.err (.std "Error parsing into type"), raw) := by
  refine refused_call ha ?_ raw
  simp only [List.mem_cons, not_or, List.not_mem_nil, not_false_eq_true, and_true] at hc
  obtain ⟨h1, h2, h3, h4, h5⟩ := hc
  simp [ExecuteMsg.jc, h1, h2, h3, h4, h5]

/-- **C125**, everything else is strict: a further member anywhere but in the options is refused and changes nothing. So is an
instantiation with a further member (such as an `admin`) or without options. -/
theorem C125_further_members {api : Api} {env : Env} {sender : String} {a : Bytes} {fs : List (String × Json)} (raw : Raw.RawStore) :
    ((∃ call names, (call, names) ∈ [("create_channel", ["channel_open_init_options"]), ("close_channel", []),
        ("send_cosmos_msgs", ["messages", "queries", "packet_memo", "timeout_seconds"]),
        ("update_callback_address", ["callback_address"])] ∧
        jsonOfBytes a = some (.obj [(call, .obj fs)]) ∧ ∃ f ∈ fs, f.1 ∉ names) →
      Raw.vmExecute api env sender a raw = (.err (.std "Error parsing into type"), raw)) ∧
    (jsonOfBytes a = some (.obj fs) →
      ((∃ f ∈ fs, f.1 ∉ ["owner", "channel_open_init_options", "send_callbacks_to"]) ∨
        ∀ f ∈ fs, f.1 ≠ "channel_open_init_options") →
      Raw.vmInstantiate api env sender a raw = (.err (.std "Error parsing into type"), raw)) := by
  constructor
  · rintro ⟨call, names, hm, ha, hf⟩
    refine refused_call ha ?_ raw
    have hg := getObj_strict hf
    simp only [List.mem_cons, Prod.mk.injEq, List.not_mem_nil, or_false] at hm
    rcases hm with ⟨rfl, rfl⟩ | ⟨rfl, rfl⟩ | ⟨rfl, rfl⟩ | ⟨rfl, rfl⟩ <;> simp [ExecuteMsg.jc, hg]
  · intro ha h
    have hd : InstantiateMsg.jc.dec (.obj fs) = none := by
      unfold InstantiateMsg.jc
      dsimp only
      rcases h with h | h
      · rw [getObj_strict h]
      · have hl : lookupKey "channel_open_init_options" fs = none := by
          clear ha
          induction fs with
          | nil => rfl
          | cons f r ih =>
            obtain ⟨k, v⟩ := f
            have h1 := h (k, v) (by simp)
            simp only [lookupKey, if_neg h1, ih fun f hf => h f (by simp [hf])]
        unfold getObj
        dsimp only
        split
        · rfl
        · next xs hx =>
          split at hx
          · cases Option.some.inj hx
            cases optF jcStr "owner" fs with
            | none => rfl
            | some o =>
              dsimp only
              unfold reqF
              rw [hl]
          · cases hx
    unfold Raw.vmInstantiate Raw.withMsg JC.ofBytes
    rw [ha, Option.bind_some, hd]
    rfl

namespace Earlier.Ex

theorem text {s : String} {j : Json} (h : jsonToBytes j = utf8 s) : jsonOfBytes (utf8 s) = some j := by
  rw [← h, jsonOfBytes_toBytes]

/-- What a client of v0.5 sends to open a channel whose transactions are to be written in JSON. -/
def asked : Bytes := utf8 "{\"create_channel\":{\"channel_open_init_options\":{\"connection_id\":\"connection-0\",\"counterparty_connection_id\":\"connection-1\",\"tx_encoding\":\"proto3json\"}}}"
/-- The same in the words of today: the encoding is not mentioned. -/
def understood : Bytes := utf8 "{\"create_channel\":{\"channel_open_init_options\":{\"counterparty_connection_id\":\"connection-1\",\"connection_id\":\"connection-0\"}}}"

/-- The request for JSON is not refused: it is passed over in silence. -/
example (api : Api) (env : Env) (sender : String) :
    Raw.vmExecute api env sender asked = Raw.vmExecute api env sender understood :=
  C125_create_channel (fs := [("connection_id", .str "connection-0"), ("counterparty_connection_id", .str "connection-1"),
      ("tx_encoding", .str "proto3json")])
    (gs := [("counterparty_connection_id", .str "connection-1"), ("connection_id", .str "connection-0")])
    (text (by decide +kernel)) (text (by decide +kernel)) (List.Perm.swap _ _ _)

/-- And it is understood as a call, so it is carried out. -/
example : ExecuteMsg.jc.ofBytes asked = some (.createChannel (some ⟨"connection-0", "connection-1", none, none⟩)) := by
  decide +kernel

/-- A request of a client that does not know queries. -/
example (api : Api) (env : Env) (sender : String) :
    Raw.vmExecute api env sender (utf8 "{\"send_cosmos_msgs\":{\"messages\":[{\"bank\":{\"burn\":{\"amount\":[]}}}]}}") =
    Raw.vmExecute api env sender (utf8 "{\"send_cosmos_msgs\":{\"queries\":[],\"messages\":[{\"bank\":{\"burn\":{\"amount\":[]}}}]}}") :=
  C125_no_queries (fs := [("messages", .arr [.obj [("bank", .obj [("burn", .obj [("amount", .arr [])])])]])])
    (text (by decide +kernel)) (text (by decide +kernel)) (by decide) (Or.inl rfl)

/-- A call of v0.5 that is gone. -/
example (api : Api) (env : Env) (sender : String) (raw : Raw.RawStore) :
    Raw.vmExecute api env sender (utf8 "{\"send_custom_ica_messages\":{\"messages\":\"e30=\"}}") raw =
      (.err (.std "Error parsing into type"), raw) :=
  C125_removed_calls (call := "send_custom_ica_messages") (content := .obj [("messages", .str "e30=")]) (text (by decide +kernel))
    (by decide) raw

/-- An instantiation that names an encoding, and one that names an admin and no options. -/
example (api : Api) (env : Env) (sender : String) :
    Raw.vmInstantiate api env sender (utf8 "{\"channel_open_init_options\":{\"connection_id\":\"a\",\"counterparty_connection_id\":\"b\",\"tx_encoding\":\"proto3\"},\"owner\":\"x\"}") =
    Raw.vmInstantiate api env sender (utf8 "{\"channel_open_init_options\":{\"connection_id\":\"a\",\"counterparty_connection_id\":\"b\"},\"owner\":\"x\"}") :=
  C125_instantiate (before := []) (after := [("owner", .str "x")])
    (fs := [("connection_id", .str "a"), ("counterparty_connection_id", .str "b"), ("tx_encoding", .str "proto3")])
    (gs := [("connection_id", .str "a"), ("counterparty_connection_id", .str "b")])
    (text (by decide +kernel)) (text (by decide +kernel)) (List.Perm.refl _)
example (api : Api) (env : Env) (sender : String) (raw : Raw.RawStore) :
    Raw.vmInstantiate api env sender (utf8 "{\"admin\":\"x\"}") raw = (.err (.std "Error parsing into type"), raw) :=
  (C125_further_members (fs := [("admin", .str "x")]) raw).2 (text (by decide +kernel)) (Or.inl (by decide))

end Earlier.Ex
end Ica
