import Verif.Facts.FormatWire
import Verif.Facts.FormatJson
import Verif.Facts.FormatBase64
import Verif.Props.Send

/-!
# The bytes on the wire follow the public formats (C66-C68)

The host, the relayers and the contracts that receive callbacks have their own protobuf, JSON and base64 libraries. The
formats are stated in `Verif/Spec/Formats.lean` from their public specifications.
-/
namespace Ica
open Spec Format

/-! ## C66: protobuf -/

/-- **C66** (reading). Exactly the byte strings that follow the protobuf rules are read, and as the records they spell. -/
theorem C66_reads_protobuf {bs : Bytes} {fs : Fields} (hl : bs.length < 2 ^ 64) :
    parseWire bs = some fs ↔ IsMessage fs bs := parseWire_iff hl

/-- **C66** (no ambiguity). No byte string spells two different messages. -/
theorem C66_unambiguous {bs : Bytes} {fs gs : Fields} (h1 : IsMessage fs bs) (h2 : IsMessage gs bs) : fs = gs := by
  have e1 := parseWireAux_complete h1 _ (Nat.le_refl _)
  have e2 := parseWireAux_complete h2 _ (Nat.le_refl _)
  rw [e1] at e2
  exact Option.some.inj e2

/-- 150 is the two bytes `96 01` (the example of the protobuf documentation, field 1). -/
example : IsMessage [(1, .varint 150)] [0x08, 0x96, 0x01] := by
  rw [← C66_reads_protobuf (by decide)]; decide
/-- "testing" as field 2 (same source). -/
example : IsMessage [(2, .len [0x74, 0x65, 0x73, 0x74, 0x69, 0x6e, 0x67])]
    [0x12, 0x07, 0x74, 0x65, 0x73, 0x74, 0x69, 0x6e, 0x67] := by
  rw [← C66_reads_protobuf (by decide)]; decide
/-- Groups (3 within 2) are skipped, but have to be well-formed: opened and closed with the same number. -/
example : IsMessage [(2, .group), (1, .varint 5)] [0x13, 0x08, 0x01, 0x1b, 0x1c, 0x14, 0x08, 0x05] ∧
    ¬ ∃ fs, IsMessage fs [0x13, 0x1c] := by
  constructor
  · rw [← C66_reads_protobuf (by decide)]; decide
  · rintro ⟨fs, h⟩
    have := (C66_reads_protobuf (by decide)).mpr h
    have e : parseWire [0x13, 0x1c] = none := by decide
    rw [e] at this; cases this
/-- A truncated record is not a message. -/
example : ¬ ∃ fs, IsMessage fs [0x12, 0x07, 0x74] := by
  rintro ⟨fs, h⟩
  have := (C66_reads_protobuf (by decide)).mpr h
  revert this
  have e : parseWire [0x12, 0x07, 0x74] = none := by decide
  rw [e]; simp

/-- The text the JSON tree of a packet has: `type`, `data` as an array of numbers, `memo` if there is one. -/
def packetTree (tx : Bytes) (memo : Option String) : Json :=
  .obj ([("type", .num 1), ("data", .arr (tx.map fun b => .num b.toNat))] ++
    match memo with
    | none => []
    | some m => [("memo", .str m)])

/-- The records of a `google.protobuf.Any`: type URL and value; empty ones are left out. -/
def anyRecords (a : String × Bytes) : Fields :=
  (if a.1 = "" then [] else [(1, .len (utf8 a.1))]) ++ (if a.2 = [] then [] else [(2, .len a.2)])

theorem anyRecords_eq (a : P.Any) : a.enc = anyRecords (a.typeUrl, a.value) := by
  unfold P.Any.enc anyRecords vStr vBytes
  by_cases h1 : a.typeUrl = "" <;> by_cases h2 : a.value = [] <;> simp [h1, h2, tagged]

theorem len_le_encFields {fs : Fields} {t : Nat} {b : Bytes} (h : (t, WVal.len b) ∈ fs) : b.length ≤ (encFields fs).length := by
  induction fs with
  | nil => cases h
  | cons p fs ih =>
    have e : encFields (p :: fs) = encField p ++ encFields fs := by simp [encFields]
    rw [e, List.length_append]
    rcases List.mem_cons.mp h with rfl | h
    · simp only [encField, List.length_append]; omega
    · have := ih h; omega

/-- **C66** (the packet). The data of a packet the contract sends is the UTF-8 text of a JSON document with the members
of `packetTree`; the bytes in it are a protobuf message whose records all have number 1 and hold one
`google.protobuf.Any` each: those `readPacket` shows, in order. -/
theorem C66_packet_bytes {api : Api} {w w' : World} {sender : String} {ms : List CosmosMsg} {qs : List QueryRequest}
    {memo : Option String} {t : Option UInt64} {fresh : String} {core : Bool} {obs : List Obs}
    (hc : Commits api w (.execute sender (.sendCosmosMsgs ms qs memo t) fresh core) w' obs) :
    ∃ p l text tx items, obs = [.packetSent p] ∧ readPacket p.data = some ⟨1, memo, l⟩ ∧
      p.data = utf8 text ∧ IsDocument (packetTree tx memo) text.toList ∧
      (tx.length < 2 ^ 64 → IsMessage (items.map fun b => (1, .len b)) tx ∧
        List.Forall₂ (fun a b => IsMessage (anyRecords a) b) l items) := by
  obtain ⟨info, anys, cqs, c, ts, p, h1, h2, h3, h4, h5, h6, h7, h8, h9, h10⟩ := send_inv hc
  obtain ⟨info', p', g1, g2, l, last, g3, -⟩ := C27_host_reads hc
  have hp : p' = p := by rw [h10] at g2; simpa using g2.symm
  subst hp
  generalize hA : packetAnys info.icaAddress anys cqs = A at h8
  have hd : p'.data = IcaPacketData.jc.toBytes (.fromProtoAnys A memo) := by rw [h8]
  have hl : l ++ last = A.map fun a => (a.typeUrl, a.value) := by
    have := readPacket_toBytes A memo
    rw [← hd, g3] at this
    simpa using this
  refine ⟨p', l ++ last, jsonToString (packetTree (P.CosmosTx.toBytes ⟨A⟩) memo), P.CosmosTx.toBytes ⟨A⟩,
    A.map P.Any.toBytes, h10, g3, ?_, ?_, ?_⟩
  · rw [hd]
    simp only [JC.toBytes, jsonToBytes]
    congr 2
    simp only [IcaPacketData.jc, IcaPacketData.fromProtoAnys, IcaPacketData.new, packetTree, jcU32, jcList, jcU8, skipNone, jcStr]
    cases memo <;> rfl
  · simp only [jsonToString, String.toList_ofList]
    exact isDocument_print _
  · intro hlen
    have he : (A.map P.Any.toBytes).map (fun b => ((1 : Nat), WVal.len b)) = P.CosmosTx.enc ⟨A⟩ := by
      simp [P.CosmosTx.enc, vMsgs, tagged, P.Any.toBytes, Function.comp_def]
    refine ⟨?_, ?_⟩
    · rw [he]
      exact isMessage_encFields (P.CosmosTx.valid _) hlen
    · rw [hl, List.forall₂_map_left_iff, List.forall₂_map_right_iff]
      rw [List.forall₂_same]
      intro a ha
      rw [← anyRecords_eq]
      refine isMessage_encFields (P.Any.valid a) ?_
      have hm : ((1 : Nat), WVal.len (P.Any.toBytes a)) ∈ P.CosmosTx.enc ⟨A⟩ := by
        rw [← he]
        exact List.mem_map.mpr ⟨_, List.mem_map.mpr ⟨a, ha, rfl⟩, rfl⟩
      have := len_le_encFields hm
      unfold P.Any.toBytes at this
      unfold P.CosmosTx.toBytes at hlen
      omega

/-- The send of the scenario meets the hypothesis. -/
example : ∃ p l text tx items, [Obs.packetSent Ex.pkt] = [.packetSent p] ∧ readPacket p.data = some ⟨1, some "hi", l⟩ ∧
    p.data = utf8 text ∧ IsDocument (packetTree tx (some "hi")) text.toList ∧
    (tx.length < 2 ^ 64 → IsMessage (items.map fun b => (1, .len b)) tx ∧
      List.Forall₂ (fun a b => IsMessage (anyRecords a) b) l items) :=
  C66_packet_bytes ((apply_iff_step (inv_of_reachable Ex.r2)).2 Ex.s3)

/-! ## C67: JSON -/

/-- **C67** (reading). Exactly the documents of RFC 8259 are read, and as the tree they spell (numbers: naturals). -/
theorem C67_reads_json {t : String} {j : Json} : jsonOfString t = some j ↔ IsDocument j t.toList := parseJson_iff

/-- **C67** (writing). What the contract writes is a document of RFC 8259 that spells the tree. -/
theorem C67_writes_json (j : Json) : IsDocument j (jsonToString j).toList := by
  simp only [jsonToString, String.toList_ofList]
  exact isDocument_print j

/-- **C67** (no ambiguity). No text spells two trees, so every reader understands it the same way. -/
theorem C67_unambiguous {t : List Char} {j k : Json} (h1 : IsDocument j t) (h2 : IsDocument k t) : j = k := by
  have e1 := parseJson_iff.mpr h1
  have e2 := parseJson_iff.mpr h2
  rw [e1] at e2
  exact Option.some.inj e2

theorem isDocument_of_print {t : List Char} {j : Json} (h : (parseJson t).map printJson = some (printJson j)) :
    IsDocument j t := by
  rw [Option.map_eq_some_iff] at h
  obtain ⟨k, h1, h2⟩ := h
  have : k = j := by
    have e := congrArg parseJson h2
    rw [parseJson_print, parseJson_print] at e
    exact Option.some.inj e
  exact parseJson_iff.mp (this ▸ h1)

/-- White space, escapes and a surrogate pair. -/
example : IsDocument (.obj [("a", .arr [.num 10, .null]), ("b\n", .str "é😀")])
    " { \"a\" : [ 10 ,null ] , \"b\\n\":\"\\u00e9\\ud83d\\uDE00\"}\n".toList :=
  isDocument_of_print (by decide +kernel)
/-- No leading zeros, no trailing comma. -/
example : ¬ (∃ j, IsDocument j "01".toList) ∧ ¬ ∃ j, IsDocument j "[1,]".toList := by
  constructor
  · rintro ⟨j, h⟩
    have := parseJson_iff.mpr h
    have e : parseJson "01".toList = none := by decide +kernel
    rw [e] at this; cases this
  · rintro ⟨j, h⟩
    have := parseJson_iff.mpr h
    have e : parseJson "[1,]".toList = none := by decide +kernel
    rw [e] at this; cases this

/-! ## C68: base64 -/

/-- **C68** (writing). Binary data is written as RFC 4648 base64 with padding; no other text is. -/
theorem C68_writes_base64 (bs : Bytes) (t : List Char) : b64Enc bs = t ↔ IsBase64 bs t :=
  ⟨fun h => h ▸ isBase64_b64Enc bs, fun h => (isBase64_unique h).symm⟩

/-- **C68** (reading). Exactly the RFC 4648 texts are read, some or all of the padding left out; left-over bits must be
zero. -/
theorem C68_reads_base64 {t : List Char} {bs : Bytes} : b64Dec t = some bs ↔ IsLooseBase64 bs t := b64Dec_iff

/-- **C68** (no ambiguity). No text spells two byte strings. -/
theorem C68_unambiguous {t : List Char} {a b : Bytes} (ha : IsLooseBase64 a t) (hb : IsLooseBase64 b t) : a = b := by
  have e1 := b64Dec_iff.mpr ha
  have e2 := b64Dec_iff.mpr hb
  rw [e1] at e2
  exact Option.some.inj e2

/-- The test vectors of RFC 4648 section 10: "foob" is `Zm9vYg==`. -/
example : IsBase64 [0x66, 0x6f, 0x6f, 0x62] "Zm9vYg==".toList := (C68_writes_base64 _ _).mp (by decide +kernel)
/-- The same without padding is read; `Zm9vYh` has left-over bits and is not. -/
example : IsLooseBase64 [0x66, 0x6f, 0x6f, 0x62] "Zm9vYg".toList ∧ ¬ ∃ bs, IsLooseBase64 bs "Zm9vYh".toList := by
  refine ⟨C68_reads_base64.mp (by decide +kernel), ?_⟩
  rintro ⟨bs, h⟩
  have := C68_reads_base64.mpr h
  have e : b64Dec "Zm9vYh".toList = none := by decide +kernel
  rw [e] at this; cases this

end Ica
