import Verif.Wire

/-! # Protobuf wire round trip (helper lemmas) -/
namespace Ica

theorem u8_toNat_ofNat {n : Nat} (h : n < 256) : (UInt8.ofNat n).toNat = n := by
  rw [UInt8.toNat_ofNat']; exact Nat.mod_eq_of_lt (by simpa using h)

theorem varDec_varAux (f n : Nat) (h : n < 128 ∨ n ≤ f) (r : Bytes) :
    ∃ k, varDec (varAux f n ++ r) = some (n, k, r) ∧ 0 < k ∧ (∀ m, n < 128 ^ (m + 1) → k ≤ m + 1) := by
  induction f generalizing n with
  | zero =>
    have hn : n < 128 := by omega
    refine ⟨1, ?_, by omega, fun m _ => by omega⟩
    simp [varAux, varDec, u8_toNat_ofNat (show n < 256 by omega), hn]
  | succ f ih =>
    by_cases hn : n < 128
    · refine ⟨1, ?_, by omega, fun m _ => by omega⟩
      simp [varAux, varDec, u8_toNat_ofNat (show n < 256 by omega), hn]
    · obtain ⟨k, h1, h2, h3⟩ := ih (n / 128) (by omega)
      refine ⟨k + 1, ?_, by omega, ?_⟩
      · simp only [varAux, hn, if_false, List.cons_append, varDec]
        rw [u8_toNat_ofNat (show n % 128 + 128 < 256 by omega), if_neg (by omega), h1]
        simp only [Option.some.injEq, Prod.mk.injEq, and_true, true_and]
        omega
      · intro m hm
        cases m with
        | zero => simp at hm; omega
        | succ m =>
          have := h3 m (by
            rw [Nat.div_lt_iff_lt_mul (by omega)]
            calc n < 128 ^ (m + 1 + 1) := hm
              _ = 128 ^ (m + 1) * 128 := by rw [Nat.pow_succ])
          omega

theorem varDec64_varEnc (n : UInt64) (r : Bytes) : varDec64 (varEnc n.toNat ++ r) = some (n, r) := by
  have hn : n.toNat < u64Bound := n.toNat_lt
  obtain ⟨k, h1, -, h3⟩ := varDec_varAux n.toNat n.toNat (Or.inr (Nat.le_refl _)) r
  have hk := h3 9 (Nat.lt_trans hn (by norm_num [u64Bound]))
  simp only [varDec64, varEnc, h1]
  rw [if_pos ⟨hk, hn⟩, UInt64.ofNat_toNat]

theorem varDec64_nat (n : Nat) (hn : n < u64Bound) (r : Bytes) :
    varDec64 (varEnc n ++ r) = some (UInt64.ofNat n, r) := by
  have h : (UInt64.ofNat n).toNat = n := by
    rw [UInt64.toNat_ofNat']; exact Nat.mod_eq_of_lt hn
  have := varDec64_varEnc (UInt64.ofNat n) r
  rwa [h] at this

theorem varDecLen_varEnc (n : Nat) (r : Bytes) : varDecLen (varEnc n ++ r) = some (n, r) := by
  obtain ⟨k, h1, -, h3⟩ := varDec_varAux n n (Or.inr (Nat.le_refl _)) r
  simp only [varDecLen, varEnc, h1]
  rw [if_pos]
  by_cases hn : n < u64Bound
  · exact Or.inl (h3 9 (Nat.lt_trans hn (by norm_num [u64Bound])))
  · exact Or.inr (by omega)

theorem takeExact_append (a r : Bytes) : takeExact a.length (a ++ r) = some (a, r) := by
  induction a with
  | nil => rfl
  | cons b a ih => simp [takeExact, ih]

/-- A legal field number. -/
def OkTag (t : Nat) : Prop := 0 < t ∧ t < 536870912

/-- All field numbers are legal. -/
def Valid (fs : Fields) : Prop := ∀ p ∈ fs, OkTag p.1

theorem varEnc_ne_nil (n : Nat) : varEnc n ≠ [] := by
  unfold varEnc
  cases n with
  | zero => simp [varAux]
  | succ n => simp only [varAux]; split <;> simp

theorem encField_ne_nil (p : Nat × WVal) : encField p ≠ [] := by
  obtain ⟨t, v⟩ := p
  cases v <;> simp [encField, varEnc_ne_nil]

theorem parseWireAux_cons {f : Nat} {bs : Bytes} (h : bs ≠ []) :
    parseWireAux (f + 1) bs =
      match varDec64 bs with
      | none => none
      | some (key, r) =>
        if key.toNat < u32Bound ∧ key.toNat / 8 ≠ 0 then
          match parseField (key.toNat / 8) (key.toNat % 8) r with
          | none => none
          | some (v, r') => (parseWireAux f r').map fun fs => (key.toNat / 8, v) :: fs
        else none := by
  cases bs with
  | nil => exact absurd rfl h
  | cons b bs => rfl

theorem parse_one {t wt : Nat} {v : WVal} {body rest : Bytes} {f : Nat} (ht : OkTag t) (hwt : wt < 8)
    (hv : parseField t wt (body ++ rest) = some (v, rest)) :
    parseWireAux (f + 1) (varEnc (t * 8 + wt) ++ (body ++ rest)) =
      (parseWireAux f rest).map fun fs => (t, v) :: fs := by
  have hb : t * 8 + wt < u64Bound := by unfold u64Bound; have := ht.2; omega
  rw [parseWireAux_cons (by simp [varEnc_ne_nil]), varDec64_nat _ hb]
  have hk : (UInt64.ofNat (t * 8 + wt)).toNat = t * 8 + wt := by
    rw [UInt64.toNat_ofNat']; exact Nat.mod_eq_of_lt hb
  have h1 : (t * 8 + wt) / 8 = t := by omega
  have h2 : (t * 8 + wt) % 8 = wt := by omega
  simp only [hk, h1, h2, hv]
  rw [if_pos]
  refine ⟨?_, ?_⟩
  · unfold u32Bound; have := ht.2; omega
  · have := ht.1; omega

theorem skipGroup_end {t : Nat} (ht : OkTag t) (f d : Nat) (r : Bytes) :
    skipGroup (f + 1) d t (varEnc (t * 8 + 4) ++ r) = some r := by
  have hb : t * 8 + 4 < u64Bound := by unfold u64Bound; have := ht.2; omega
  have hk : (UInt64.ofNat (t * 8 + 4)).toNat = t * 8 + 4 := by
    rw [UInt64.toNat_ofNat']; exact Nat.mod_eq_of_lt hb
  unfold skipGroup
  rw [varDec64_nat _ hb]
  have h1 : (t * 8 + 4) / 8 = t := by omega
  have h2 : (t * 8 + 4) % 8 = 4 := by omega
  simp only [hk, h1, h2, if_true]
  rw [if_pos]
  refine ⟨?_, ?_⟩
  · unfold u32Bound; have := ht.2; omega
  · have := ht.1; omega

theorem parseWireAux_encField {p : Nat × WVal} (ht : OkTag p.1) (rest : Bytes) (f : Nat) :
    parseWireAux (f + 1) (encField p ++ rest) = (parseWireAux f rest).map fun fs => p :: fs := by
  obtain ⟨t, v⟩ := p
  cases v with
  | varint n =>
    simp only [encField, List.append_assoc]
    exact parse_one (wt := 0) ht (by omega) (by simp [parseField, parseWVal, varDec64_varEnc])
  | i64 a b c d e g h i =>
    simp only [encField, List.append_assoc]
    exact parse_one (wt := 1) ht (by omega) (by simp [parseField, parseWVal])
  | len bs =>
    have h := parse_one (t := t) (wt := 2) (v := .len bs) (body := varEnc bs.length ++ bs) (rest := rest)
      (f := f) ht (by omega) (by simp [parseField, parseWVal, varDecLen_varEnc, takeExact_append])
    simpa only [encField, List.append_assoc] using h
  | i32 a b c d =>
    simp only [encField, List.append_assoc]
    exact parse_one (wt := 5) ht (by omega) (by simp [parseField, parseWVal])
  | group =>
    simp only [encField, List.append_assoc]
    refine parse_one (wt := 3) ht (by omega) ?_
    have hl : 0 < (varEnc (t * 8 + 4) ++ rest).length := by
      have := List.length_pos_iff.mpr (varEnc_ne_nil (t * 8 + 4))
      rw [List.length_append]; omega
    obtain ⟨g, hg⟩ : ∃ g, (varEnc (t * 8 + 4) ++ rest).length = g + 1 := ⟨_, (Nat.succ_pred_eq_of_pos hl).symm⟩
    simp only [parseField, if_true, hg, skipGroup_end ht]
    rfl

theorem parseWireAux_encFields {fs : Fields} (hv : Valid fs) (f : Nat) (hf : fs.length ≤ f) :
    parseWireAux f (encFields fs) = some fs := by
  induction fs generalizing f with
  | nil => cases f <;> rfl
  | cons p fs ih =>
    obtain ⟨f, rfl⟩ : ∃ g, f = g + 1 := ⟨f - 1, by simp at hf; omega⟩
    have h1 := ih (fun q hq => hv q (by simp [hq])) f (by simp at hf; omega)
    have h2 := parseWireAux_encField (hv p (by simp)) (encFields fs) f
    have h3 : encFields (p :: fs) = encField p ++ encFields fs := by simp [encFields]
    rw [h3, h2, h1]; rfl

theorem length_le_encFields (fs : Fields) : fs.length ≤ (encFields fs).length := by
  induction fs with
  | nil => simp
  | cons p fs ih =>
    have h3 : encFields (p :: fs) = encField p ++ encFields fs := by simp [encFields]
    have := List.length_pos_iff.mpr (encField_ne_nil p)
    rw [h3, List.length_append, List.length_cons]; omega

/-- Parsing an encoded message gives its fields back. -/
theorem parseWire_encFields {fs : Fields} (hv : Valid fs) : parseWire (encFields fs) = some fs :=
  parseWireAux_encFields hv _ (length_le_encFields fs)

/-! ## Selection laws -/

@[simp] theorem sel_nil (t : Nat) : sel t [] = [] := rfl
@[simp] theorem sel_append (t : Nat) (a b : Fields) : sel t (a ++ b) = sel t a ++ sel t b := by
  simp [sel]
@[simp] theorem sel_tagged_same (t : Nat) (vs : List WVal) : sel t (tagged t vs) = vs := by
  induction vs with
  | nil => rfl
  | cons v vs ih => simp_all [sel, tagged]
theorem sel_tagged_ne {t t' : Nat} (h : t' ≠ t) (vs : List WVal) : sel t (tagged t' vs) = [] := by
  induction vs with
  | nil => rfl
  | cons v vs ih => simp_all [sel, tagged]

@[simp] theorem valid_nil : Valid [] := by intro p hp; cases hp
@[simp] theorem valid_append {a b : Fields} : Valid (a ++ b) ↔ Valid a ∧ Valid b := by
  simp only [Valid, List.mem_append]
  constructor
  · intro h; exact ⟨fun p hp => h p (Or.inl hp), fun p hp => h p (Or.inr hp)⟩
  · rintro ⟨h1, h2⟩ p (hp | hp)
    · exact h1 p hp
    · exact h2 p hp
theorem valid_tagged {t : Nat} (ht : OkTag t) (vs : List WVal) : Valid (tagged t vs) := by
  intro p hp
  simp only [tagged, List.mem_map] at hp
  obtain ⟨v, -, rfl⟩ := hp
  exact ht

@[simp] theorem dStr_vStr (s : String) : dStr (vStr s) = some s := by
  unfold vStr dStr
  split
  · simp_all [dStrs]
  · simp [dStrs, ofUtf8_utf8]
@[simp] theorem dBytes_vBytes (b : Bytes) : dBytes (vBytes b) = some b := by
  unfold vBytes dBytes
  split
  · simp_all [dBytess]
  · simp [dBytess]
@[simp] theorem dU64_vU64 (n : UInt64) : dU64 (vU64 n) = some n := by
  unfold vU64 dU64
  split
  · simp_all [dVars]
  · simp [dVars]
@[simp] theorem dBool_vBool (b : Bool) : dBool (vBool b) = some b := by
  cases b <;> simp [vBool, dBool, dVars]
theorem dU32_vU64 (n : UInt32) : dU32 (vU64 n.toUInt64) = some n := by
  unfold vU64 dU32
  split
  · rename_i h
    have : n.toUInt64.toUInt32 = (0 : UInt64).toUInt32 := by rw [h]
    simp [dVars] at *
    exact this.symm
  · simp [dVars]
theorem dMsg_vMsg {o : Option Fields} (h : ∀ fs, o = some fs → Valid fs) : dMsg (vMsg o) = some o := by
  cases o with
  | none => simp [vMsg, dMsg, dMsgs]
  | some fs => simp [vMsg, dMsg, dMsgs, parseWire_encFields (h fs rfl)]
theorem dMsgs_vMsgs {l : List Fields} (h : ∀ fs ∈ l, Valid fs) : dMsgs (vMsgs l) = some l := by
  induction l with
  | nil => rfl
  | cons fs l ih =>
    have := ih (fun x hx => h x (by simp [hx]))
    unfold vMsgs at this
    simp [vMsgs, dMsgs, parseWire_encFields (h fs (by simp)), this]
@[simp] theorem dStrs_vStrs (l : List String) : dStrs (vStrs l) = some l := by
  induction l with
  | nil => rfl
  | cons s l ih =>
    unfold vStrs at ih
    simp [vStrs, dStrs, ofUtf8_utf8, ih]
@[simp] theorem dBytess_vBytess (l : List Bytes) : dBytess (vBytess l) = some l := by
  induction l with
  | nil => rfl
  | cons s l ih =>
    unfold vBytess at ih
    simp [vBytess, dBytess, ih]

theorem varsAux_flatMap (l : List UInt64) (f : Nat) (hf : (l.flatMap fun n => varEnc n.toNat).length ≤ f) :
    varsAux f (l.flatMap fun n => varEnc n.toNat) = some l := by
  induction l generalizing f with
  | nil => cases f <;> rfl
  | cons n l ih =>
    rw [List.flatMap_cons] at hf ⊢
    have hne := varEnc_ne_nil n.toNat
    cases hv : varEnc n.toNat with
    | nil => exact absurd hv hne
    | cons b bs =>
      rw [hv] at hf
      cases f with
      | zero => simp at hf
      | succ f =>
        have h := varDec64_varEnc n (l.flatMap fun n => varEnc n.toNat)
        rw [hv] at h
        simp only [List.cons_append] at h ⊢
        simp only [varsAux, h]
        rw [ih f (by simp at hf ⊢; omega)]
        rfl
@[simp] theorem dPacked_vPacked (l : List UInt64) : dPacked (vPacked l) = some l := by
  unfold vPacked
  split
  · rename_i h; subst h; rfl
  · simp only [dPacked, varsAux_flatMap l _ (Nat.le_refl _)]
    simp

end Ica
