import Verif.Facts.ApiBase
import Verif.Spec.ApiStored

/-! # Checksums against the interface (helper lemmas for C69, C80) -/
namespace Ica
open Format Api

theorem unhex_iff : ∀ (bs : Bytes) (t : List Char), unhex t = some bs ↔ Api.IsHexText bs t
  | [], t => by
    match t with
    | [] => simp [unhex, Api.IsHexText]
    | [x] => simp [unhex, Api.IsHexText]
    | x :: y :: t =>
      simp only [unhex, Api.IsHexText, reduceCtorEq, iff_false]
      split <;> simp
  | b :: bs, t => by
    match t with
    | [] => simp [unhex, Api.IsHexText]
    | [x] => simp [unhex, Api.IsHexText]
    | x :: y :: t =>
      simp only [unhex, Api.IsHexText]
      constructor
      · intro h
        split at h
        · next a c cs ha hc hcs =>
          simp only [Option.some.injEq, List.cons.injEq] at h
          obtain ⟨rfl, rfl⟩ := h
          have h1 := (isHex_iff _ _).mp ha
          have h2 := (isHex_iff _ _).mp hc
          have := isHex_lt h1; have := isHex_lt h2
          refine ⟨x, y, t, a, c, rfl, h1, h2, ?_, (unhex_iff _ _).mp hcs⟩
          rw [UInt8.toNat_ofNat_of_lt' (by show _ < 256; omega)]
        · cases h
      · rintro ⟨x', y', u, a, c, e, h1, h2, hb, hu⟩
        simp only [List.cons.injEq] at e
        obtain ⟨rfl, rfl, rfl⟩ := e
        rw [(isHex_iff _ _).mpr h1, (isHex_iff _ _).mpr h2, (unhex_iff _ _).mpr hu]
        simp only [Option.some.injEq, List.cons.injEq, and_true]
        rw [← hb, UInt8.ofNat_toNat]
theorem reads_hex32 : Reads jcChecksum Api.Hex32 := by
  intro j c
  cases j with
  | str s =>
    simp only [jcChecksum, Checksum.ofHex, Api.Hex32, Json.str.injEq, exists_eq_left']
    rw [← unhex_iff]
    constructor
    · intro h
      split at h
      · next bs hbs =>
        split at h
        · cases h; exact hbs
        · cases h
      · cases h
    · intro h
      simp only [h, c.size, dite_true]
  | _ => simp [jcChecksum, Api.Hex32]

end Ica
