import Verif.Model.Library
import Verif.Props.Interchain

/-!
# The crate as a library (C87, C88)

What a contract that links this crate as a library can rely on: the packets it builds and the acknowledgements it reads.
-/
namespace Ica
open Spec

/-- The message or query needs the feature `staking`. -/
def Spec.NeedsStaking (m : CosmosMsg) : Prop := (∃ s, m = .staking s) ∨ ∃ d, m = .distribution d

/-- The query needs the feature `staking`. -/
def Spec.QueryNeedsStaking (q : QueryRequest) : Prop := ∃ s, q = .staking s

theorem forall₂_mem_left {α β : Type} {R : α → β → Prop} {l : List α} {l' : List β} (h : List.Forall₂ R l l') {x : α}
    (hx : x ∈ l) : ∃ y, y ∈ l' ∧ R x y := by
  induction h with
  | nil => cases hx
  | cons a _ ih =>
    rcases List.mem_cons.1 hx with rfl | hx
    · exact ⟨_, by simp, a⟩
    · obtain ⟨y, h1, h2⟩ := ih hx
      exact ⟨y, by simp [h1], h2⟩

namespace Lib

theorem convert_iff {st : Bool} {m : CosmosMsg} {ica : String} {a : P.Any} :
    convertToProtoAny st m ica = .ok a ↔ Ica.convertToProtoAny m ica = .ok a ∧ (NeedsStaking m → st = true) := by
  cases m <;> cases st <;> simp [convertToProtoAny, Ica.convertToProtoAny, NeedsStaking]

theorem query_iff {st : Bool} {q : QueryRequest} {a : String × Bytes × Bool} :
    queryToProtobuf st q = .ok a ↔ Ica.queryToProtobuf q = .ok a ∧ (QueryNeedsStaking q → st = true) := by
  cases q <;> cases st <;> simp [queryToProtobuf, Ica.queryToProtobuf, QueryNeedsStaking]

theorem fromCosmosMsgs_eq_ok {st : Bool} {ms : List CosmosMsg} {qs : List QueryRequest} {e : TxEncoding}
    {memo : Option String} {ica : String} {p : IcaPacketData} :
    fromCosmosMsgs st ms qs e memo ica = .ok p ↔
      e = .protobuf ∧ ∃ anys cqs, List.Forall₂ (fun m a => convertToProtoAny st m ica = .ok a) ms anys ∧
        List.Forall₂ (fun q a => queryToProtobuf st q = .ok a) qs cqs ∧
        p = .fromProtoAnys (packetAnys ica anys cqs) memo := by
  cases e with
  | proto3Json => simp [fromCosmosMsgs]
  | protobuf =>
    simp only [fromCosmosMsgs, Res.bind_eq_ok', true_and, mapRes_eq_ok]
    by_cases hq : qs = []
    · subst hq
      simp only [if_true, Res.ok.injEq]
      constructor
      · rintro ⟨anys, h1, rfl⟩
        exact ⟨anys, [], h1, .nil, rfl⟩
      · rintro ⟨anys, _, h1, h2, rfl⟩
        cases h2
        exact ⟨anys, h1, rfl⟩
    · simp only [if_neg hq, Res.bind_eq_ok', mapRes_eq_ok, mkAny, Res.ok.injEq]
      have hne : ∀ {cqs}, List.Forall₂ (fun q a => queryToProtobuf st q = .ok a) qs cqs → cqs ≠ [] := by
        rintro _ h rfl
        cases h
        exact hq rfl
      constructor
      · rintro ⟨anys, h1, cqs, h2, a, rfl, rfl⟩
        exact ⟨anys, cqs, h1, h2, by simp [packetAnys, hne h2]⟩
      · rintro ⟨anys, cqs, h1, h2, rfl⟩
        exact ⟨anys, h1, cqs, h2, _, rfl, by simp [packetAnys, hne h2]⟩

theorem plain_eq {st : Bool} {ms : List CosmosMsg} {e : TxEncoding} {memo : Option String} {ica : String} :
    fromCosmosMsgsPlain st ms e memo ica = fromCosmosMsgs st ms [] e memo ica := by
  cases e <;> rfl

end Lib

/-- **C87.** A library builds a packet exactly if the encoding is protobuf and every message and every query is of a kind
it was built to support. -/
theorem C87_builds_iff {st : Bool} {ms : List CosmosMsg} {qs : List QueryRequest} {e : TxEncoding}
    {memo : Option String} {ica : String} :
    (∃ p, Lib.fromCosmosMsgs st ms qs e memo ica = .ok p) ↔
      e = .protobuf ∧ (∀ m ∈ ms, Supported m ∧ (NeedsStaking m → st = true)) ∧
        ∀ q ∈ qs, SupportedQuery q ∧ (QueryNeedsStaking q → st = true) := by
  simp only [Lib.fromCosmosMsgs_eq_ok]
  constructor
  · rintro ⟨p, he, anys, cqs, h1, h2, _⟩
    refine ⟨he, fun m hm => ?_, fun q hq => ?_⟩
    · obtain ⟨a, -, ha⟩ := forall₂_mem_left h1 hm
      obtain ⟨h, hst⟩ := Lib.convert_iff.1 ha
      refine ⟨?_, hst⟩
      by_contra hn
      obtain ⟨e, h'⟩ := not_convert hn ica
      rw [h] at h'
      cases h'
    · obtain ⟨a, -, ha⟩ := forall₂_mem_left h2 hq
      obtain ⟨h, hst⟩ := Lib.query_iff.1 ha
      refine ⟨?_, hst⟩
      by_contra hn
      obtain ⟨e, h'⟩ := not_convertQuery hn
      rw [h] at h'
      cases h'
  · rintro ⟨he, hm, hq⟩
    obtain ⟨anys, h1⟩ := forall₂_exists (l := ms) (R := fun m a => Lib.convertToProtoAny st m ica = .ok a) fun m h =>
      (convert_of_supported (hm m h).1 ica).imp fun _ ha => Lib.convert_iff.2 ⟨ha, (hm m h).2⟩
    obtain ⟨cqs, h2⟩ := forall₂_exists (l := qs) (R := fun q a => Lib.queryToProtobuf st q = .ok a) fun q h =>
      (convert_of_supportedQuery (hq q h).1).imp fun _ ha => Lib.query_iff.2 ⟨ha, (hq q h).2⟩
    exact ⟨_, he, anys, cqs, h1, h2, rfl⟩

/-- **C87.** The host, reading the bytes a library sends, finds type 1 (`EXECUTE_TX`), the memo given, one message for
each message given, in order, each exactly what was asked for; then, if and only if queries were given, one last message:
the safe module query of the account, with one request per query, in order. The packet goes to the channel named; it
times out the given number of seconds (ten minutes if none is given) after the block. -/
theorem C87_host_reads {st : Bool} {ms : List CosmosMsg} {qs : List QueryRequest} {e : TxEncoding}
    {memo : Option String} {ica : String} {p : IcaPacketData} (hp : Lib.fromCosmosMsgs st ms qs e memo ica = .ok p)
    {env : Env} {channel : String} {t : Option UInt64} {m : IbcMsg} (hm : p.toIbcMsg env channel t = .ok m) :
    ∃ data ts, m = .sendPacket channel data ⟨none, some ts⟩ ∧
      ts.toNat = env.time.toNat + allowedSeconds t * 1000000000 ∧
      ∃ l last, readPacket data = some ⟨1, memo, l ++ last⟩ ∧ List.Forall₂ (HostReads ica) ms l ∧
        (qs = [] ∧ last = [] ∨ qs ≠ [] ∧ ∃ url value reqs, last = [(url, value)] ∧
          readHostMsg url value = some (.moduleQuerySafe ica reqs) ∧ List.Forall₂ QueryReads qs reqs) := by
  obtain ⟨-, anys, cqs, h2, h3, rfl⟩ := Lib.fromCosmosMsgs_eq_ok.1 hp
  obtain ⟨ts, hts, rfl⟩ := toIbcMsg_eq_ok.1 hm
  refine ⟨_, ts, rfl, by rw [hts, allowedSeconds_eq], anys.map (fun a => (a.typeUrl, a.value)), ?_⟩
  have hrd : readPacket (IcaPacketData.jc.toBytes (.fromProtoAnys (packetAnys ica anys cqs) memo)) =
      some ⟨1, memo, (packetAnys ica anys cqs).map fun a => (a.typeUrl, a.value)⟩ := readPacket_toBytes _ _
  have hmm : List.Forall₂ (HostReads ica) ms (anys.map fun a => (a.typeUrl, a.value)) := by
    clear * - h2
    induction h2 with
    | nil => exact .nil
    | cons a _ ih => exact .cons (hostReads_convert (Lib.convert_iff.1 a).1) ih
  by_cases hq : qs = []
  · subst hq
    cases h3
    exact ⟨[], by simpa [packetAnys] using hrd, hmm, .inl ⟨rfl, rfl⟩⟩
  · have hcq : cqs ≠ [] := by
      rintro rfl
      cases h3
      exact hq rfl
    refine ⟨_, by simpa [packetAnys, hcq] using hrd, hmm, .inr ⟨hq, _, _, _, rfl, readHostMsg_querySafe _ _, ?_⟩⟩
    rw [List.map_map]
    clear * - h3
    induction h3 with
    | nil => exact .nil
    | cons a _ ih => exact .cons (queryReads_convert (Lib.query_iff.1 a).1) ih

/-- **C87.** Whatever a library builds, the controller contract would have built: the same packet, byte for byte. With the
feature `staking` it builds whatever the contract builds. Without queries all three builds of the function agree. -/
theorem C87_same_as_contract {ms : List CosmosMsg} {qs : List QueryRequest} {e : TxEncoding} {memo : Option String}
    {ica : String} (s : Store) (p : IcaPacketData) :
    (∀ st, Lib.fromCosmosMsgs st ms qs e memo ica = .ok p → ∃ s', fromCosmosMsgs s ms qs e memo ica = .ok (s', p)) ∧
    ((∃ s', fromCosmosMsgs s ms qs e memo ica = .ok (s', p)) → Lib.fromCosmosMsgs true ms qs e memo ica = .ok p) ∧
    ∀ st, Lib.fromCosmosMsgsPlain st ms e memo ica = .ok p ↔ Lib.fromCosmosMsgs st ms [] e memo ica = .ok p := by
  refine ⟨fun st h => ?_, ?_, fun st => by rw [Lib.plain_eq]⟩
  · obtain ⟨he, anys, cqs, h1, h2, rfl⟩ := Lib.fromCosmosMsgs_eq_ok.1 h
    exact ⟨_, fromCosmosMsgs_eq_ok.2 ⟨he, anys, cqs, mapRes_eq_ok.2 (h1.imp fun _ _ h => (Lib.convert_iff.1 h).1),
      mapRes_eq_ok.2 (h2.imp fun _ _ h => (Lib.query_iff.1 h).1), rfl, rfl⟩⟩
  · rintro ⟨s', h⟩
    obtain ⟨he, anys, cqs, h1, h2, -, rfl⟩ := fromCosmosMsgs_eq_ok.1 h
    exact Lib.fromCosmosMsgs_eq_ok.2 ⟨he, anys, cqs,
      (mapRes_eq_ok.1 h1).imp fun _ _ h => Lib.convert_iff.2 ⟨h, fun _ => rfl⟩,
      (mapRes_eq_ok.1 h2).imp fun _ _ h => Lib.query_iff.2 ⟨h, fun _ => rfl⟩, rfl⟩

/-- A delegation. -/
def Ex.delegation : CosmosMsg := .staking (.delegate "v" ⟨"uatom", ⟨5, by decide⟩⟩)

theorem Ex.built (st : Bool) : ∃ p, Lib.fromCosmosMsgs st Ex.msgs Ex.qs .protobuf (some "hi") "cosmos1ica" = .ok p := by
  refine C87_builds_iff.2 ⟨rfl, ?_, ?_⟩
  · intro m hm
    simp only [Ex.msgs, List.mem_cons, List.not_mem_nil, or_false] at hm
    rcases hm with rfl | rfl
    · exact ⟨.inr ⟨_, rfl⟩, by rintro (⟨_, h⟩ | ⟨_, h⟩) <;> cases h⟩
    · exact ⟨.inl ⟨_, _, rfl⟩, by rintro (⟨_, h⟩ | ⟨_, h⟩) <;> cases h⟩
  · intro m hm
    simp only [Ex.qs, List.mem_cons, List.not_mem_nil, or_false] at hm
    rcases hm with rfl | rfl
    · exact ⟨.inr ⟨_, rfl⟩, by rintro ⟨_, h⟩; cases h⟩
    · exact ⟨.inl ⟨_, _, rfl⟩, by rintro ⟨_, h⟩; cases h⟩

/-- A library without `staking` builds the packet of the scenario and sends it; it refuses a delegation, which a library
with `staking` accepts. -/
example : (∃ p, Lib.fromCosmosMsgs false Ex.msgs Ex.qs .protobuf (some "hi") "cosmos1ica" = .ok p ∧
      ∃ m, p.toIbcMsg Ex.env "channel-3" none = .ok m) ∧
    (∃ p, Lib.fromCosmosMsgs true [Ex.delegation] [] .protobuf none "x" = .ok p) ∧
    ¬ ∃ p, Lib.fromCosmosMsgs false (Ex.msgs ++ [Ex.delegation]) Ex.qs .protobuf none "x" = .ok p := by
  refine ⟨?_, C87_builds_iff.2 ⟨rfl, ?_, by simp⟩, fun h => ?_⟩
  · obtain ⟨p, hp⟩ := Ex.built false
    exact ⟨p, hp, _, toIbcMsg_eq_ok.2 ⟨1700000600000000000, rfl, rfl⟩⟩
  · intro m hm
    simp only [List.mem_singleton] at hm
    subst hm
    exact ⟨.inr ⟨_, rfl⟩, fun _ => rfl⟩
  · have := (C87_builds_iff.1 h).2.1 Ex.delegation (by simp)
    exact absurd (this.2 (.inl ⟨_, rfl⟩)) (by decide)

/-! ## Reading acknowledgements -/

theorem toTxMsgData_eq_ok {a : AckData} {rs : List (String × Bytes)} :
    (∃ t, toTxMsgData a = .ok t ∧ t.msgResponses.map (fun x => (x.typeUrl, x.value)) = rs) ↔
      ∃ res, a = .result res ∧ readTxMsgData res = some rs := by
  have hr : ∀ res, readTxMsgData res = ((parseWire res).bind fun tx => ((dMsgs (sel 1 tx)).bind (readAll readMsgData)).bind
    fun _ => (dMsgs (sel 2 tx)).bind (readAll readAny)) := fun _ => rfl
  cases a with
  | error e => simp [toTxMsgData]
  | result res =>
    simp only [AckData.result.injEq, exists_eq_left', hr]
    rcases toTxMsgData_eq (res := res) with ⟨t, h1, h2⟩ | ⟨⟨e, h1⟩, h2⟩
    · rw [h1, h2]; simp
    · rw [h1, h2]; simp

/-- **C88.** The responses of an acknowledgement are read exactly if it is a result and decodes; they are then all of
them, in order. -/
theorem C88_responses {a : AckData} {rs : List (String × Bytes)} :
    (∃ t, toTxMsgData a = .ok t ∧ t.msgResponses.map (fun x => (x.typeUrl, x.value)) = rs) ↔
      ∃ res, a = .result res ∧ readTxMsgData res = some rs :=
  toTxMsgData_eq_ok

/-- **C88.** Asked for the query response at an index, the decoder returns the response at that index and no other, and
succeeds exactly if there is one and it decodes. -/
theorem C88_at_index {a : AckData} {i : Nat} {m : P.MsgModuleQuerySafeResponse} :
    decodeModuleQuerySafeResp a i = .ok m ↔
      ∃ res rs r, a = .result res ∧ readTxMsgData res = some rs ∧ rs[i]? = some r ∧
        readSafeResponse r.2 = some (m.height, m.responses) := by
  simp only [decodeModuleQuerySafeResp, Res.bind_eq_ok']
  constructor
  · rintro ⟨t, ht, hm⟩
    obtain ⟨res, rfl, h⟩ := toTxMsgData_eq_ok.1 ⟨t, ht, rfl⟩
    cases hi : t.msgResponses[i]? with
    | none => rw [hi] at hm; cases hm
    | some x =>
      rw [hi] at hm
      exact ⟨res, _, (x.typeUrl, x.value), rfl, h, by simp [hi], decodeSafe_eq_ok.1 hm⟩
  · rintro ⟨res, rs, r, rfl, h, hi, hm⟩
    obtain ⟨t, ht, rfl⟩ := toTxMsgData_eq_ok.2 ⟨res, rfl, h⟩
    refine ⟨t, ht, ?_⟩
    rw [List.getElem?_map] at hi
    cases hx : t.msgResponses[i]? with
    | none => rw [hx] at hi; cases hi
    | some x =>
      rw [hx] at hi
      simp only [Option.map_some, Option.some.injEq] at hi
      subst hi
      exact decodeSafe_eq_ok.2 hm

/-- **C88.** Where the answers of a library's queries are: if a conforming host executes the packet, the response at the
index that is the number of messages is there and holds one answer for each query, given at the host's height; it is the
last one. -/
theorem C88_where {st : Bool} {ms : List CosmosMsg} {qs : List QueryRequest} {e : TxEncoding} {memo : Option String}
    {ica : String} {p : IcaPacketData} (hp : Lib.fromCosmosMsgs st ms qs e memo ica = .ok p) (hq : qs ≠ [])
    {env : Env} {channel : String} {t : Option UInt64} {data : Bytes} {timeout : IbcTimeout}
    (hm : p.toIbcMsg env channel t = .ok (.sendPacket channel data timeout)) {x : HostPacket}
    (hx : readPacket data = some x) {height : UInt64} {rs : List (String × Bytes)}
    (hr : List.Forall₂ (Responds height) x.messages rs) {ack : Bytes} (ha : AckSays ack (.ok rs)) :
    ∃ a r, readAck ack = some a ∧ decodeModuleQuerySafeResp a ms.length = .ok r ∧ r.height = height ∧
      r.responses.length = qs.length ∧ decodeModuleQuerySafeRespLast a = .ok r ∧
      ∀ i, ms.length < i → ∀ r', decodeModuleQuerySafeResp a i ≠ .ok r' := by
  obtain ⟨data', ts, e1, -, l, last, h1, h2, h3⟩ := C87_host_reads hp hm
  injection e1 with _ e1 _
  subst e1
  rw [hx] at h1
  injection h1 with h1
  subst h1
  rcases h3 with ⟨h3, -⟩ | ⟨-, url, value, reqs, rfl, h4, h5⟩
  · exact absurd h3 hq
  · obtain ⟨res, ha1, ha2⟩ := ha
    have hl : ms.length = l.length := h2.length_eq
    have hrl : rs.length = l.length + 1 := by rw [← hr.length_eq]; simp
    have hi : ms.length < rs.length := by omega
    have hresp : Responds height (url, value) rs[ms.length] := by
      have := List.forall₂_iff_get.1 hr
      have := this.2 ms.length (by simp; omega) hi
      simpa [hl] using this
    obtain ⟨answers, g1, g2⟩ := hresp _ _ h4
    have hgl : rs.getLast? = some rs[ms.length] := by
      rw [List.getLast?_eq_getElem?, List.getElem?_eq_getElem (by omega)]
      congr 2
      omega
    refine ⟨_, ⟨height, answers⟩, ha1, C88_at_index.2 ⟨res, rs, _, rfl, ha2, List.getElem?_eq_getElem hi, g1⟩, rfl,
      by rw [g2, h5.length_eq], ?_, ?_⟩
    · rw [decodeLast_eq_ok, readQueryAnswer_last ha2 hgl, g1]
    · intro i hlt r' h'
      obtain ⟨res', rs', r, e1, e2, e3, -⟩ := C88_at_index.1 h'
      injection e1 with e1
      subst e1
      rw [ha2] at e2
      injection e2 with e2
      subst e2
      rw [List.getElem?_eq_none (by omega)] at e3
      cases e3

/-- The acknowledgement of the scenario: the answers of its two queries are at index 2, after the two messages. -/
example : ∃ r, decodeModuleQuerySafeResp (.result Ex.okRes) 2 = .ok r ∧ r.height = 77 ∧ r.responses.length = 2 ∧
    (∀ r', decodeModuleQuerySafeResp (.result Ex.okRes) 3 ≠ .ok r') ∧ ∃ t, toTxMsgData (.result Ex.okRes) = .ok t := by
  refine ⟨⟨77, [Ex.ans1.bytes, [9]]⟩, C88_at_index.2 ⟨_, Ex.rsps, _, rfl, Ex.okRsps, rfl, Ex.okSafe⟩, rfl, rfl, ?_, ?_⟩
  · intro r' h
    obtain ⟨res', rs', r, e1, e2, e3, -⟩ := C88_at_index.1 h
    injection e1 with e1
    rw [← e1, Ex.okRsps] at e2
    injection e2 with e2
    subst e2
    cases e3
  · obtain ⟨t, h, -⟩ := C88_responses.2 ⟨_, rfl, Ex.okRsps⟩
    exact ⟨t, h⟩

end Ica
