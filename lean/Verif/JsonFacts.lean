import Verif.Json

/-! # JSON text round trip (helper lemmas) -/
set_option linter.unusedSimpArgs false
namespace Ica

theorem printJson_arr (x : Json) (xs : List Json) :
    printJson (.arr (x :: xs)) = '[' :: printElems x xs := by rw [printJson, printElems]
theorem printJson_obj (g : String × Json) (gs : List (String × Json)) :
    printJson (.obj (g :: gs)) = '{' :: printFields g gs := by
  obtain ⟨k, v⟩ := g; rw [printJson, printFields]
theorem printElems_nil (x : Json) : printElems x [] = printJson x ++ [']'] := by
  rw [printElems, printElemTail]
theorem printElems_cons (x y : Json) (ys : List Json) :
    printElems x (y :: ys) = printJson x ++ ',' :: printElems y ys := by
  rw [printElems, printElemTail, printElems]
theorem printFields_nil (k : String) (v : Json) :
    printFields (k, v) [] = printStr k ++ ':' :: (printJson v ++ ['}']) := by
  rw [printFields, printFieldTail]
theorem printFields_cons (k : String) (v : Json) (g : String × Json) (gs : List (String × Json)) :
    printFields (k, v) (g :: gs) = printStr k ++ ':' :: (printJson v ++ ',' :: printFields g gs) := by
  obtain ⟨k', v'⟩ := g
  rw [printFields, printFieldTail, printFields]

theorem hexVal_hexChar {n : Nat} (h : n < 16) : hexVal (hexChar n) = some n := by
  have key : ∀ m : Fin 16, hexVal (hexChar m.val) = some m.val := by decide
  exact key ⟨n, h⟩

theorem charOfNat_toNat (c : Char) : Char.ofNat c.toNat = c := Char.ofNat_toNat c

theorem parseStrBody_quote (r : List Char) : parseStrBody ('"' :: r) = some ([], r) := by
  rw [parseStrBody.eq_def]; simp

theorem parseStrBody_simple {e x : Char} (he : simpleEsc e = some x) (hu : e ≠ 'u') (r : List Char) :
    parseStrBody ('\\' :: e :: r) =
      match parseStrBody r with
      | none => none
      | some (s, t) => some (x :: s, t) := by
  rw [parseStrBody.eq_def]
  simp only [show ('\\' : Char) ≠ '"' by decide, if_false, if_true, he, hu]
  rfl

theorem parseStrBody_esc (c : Char) (rest : List Char) :
    parseStrBody (escChar c ++ rest) =
      match parseStrBody rest with
      | none => none
      | some (s, t) => some (c :: s, t) := by
  unfold escChar
  split_ifs with h1 h2 h3 h4 h5 h6 h7 h8
  · subst h1; exact parseStrBody_simple (by decide) (by decide) rest
  · subst h2; exact parseStrBody_simple (by decide) (by decide) rest
  · have : c = Char.ofNat 8 := by rw [← h3, charOfNat_toNat]
    subst this; exact parseStrBody_simple (by decide) (by decide) rest
  · have : c = '\t' := by rw [← charOfNat_toNat c, h4]
    subst this; exact parseStrBody_simple (by decide) (by decide) rest
  · have : c = '\n' := by rw [← charOfNat_toNat c, h5]
    subst this; exact parseStrBody_simple (by decide) (by decide) rest
  · have : c = Char.ofNat 12 := by rw [← h6, charOfNat_toNat]
    subst this; exact parseStrBody_simple (by decide) (by decide) rest
  · have : c = '\r' := by rw [← charOfNat_toNat c, h7]
    subst this; exact parseStrBody_simple (by decide) (by decide) rest
  · have hx : hex4 '0' '0' (hexChar (c.toNat / 16)) (hexChar (c.toNat % 16)) = some c.toNat := by
      have h0 : hexVal '0' = some 0 := by decide
      simp only [hex4, h0, hexVal_hexChar (show c.toNat / 16 < 16 by omega),
        hexVal_hexChar (show c.toNat % 16 < 16 by omega), Option.bind_eq_bind, Option.bind_some]
      congr 1; omega
    simp only [List.cons_append, List.nil_append]
    rw [parseStrBody.eq_def]
    simp only [show ('\\' : Char) ≠ '"' by decide, if_false, if_true, hx]
    rw [if_neg (by omega), if_neg (by omega), charOfNat_toNat]
    rfl
  · simp only [List.cons_append, List.nil_append]
    rw [parseStrBody.eq_def]
    simp only [h1, h2, h8, if_false]
    rfl

theorem parseStrBody_escBody (cs rest : List Char) :
    parseStrBody (escBody cs ++ rest) = some (cs, rest) := by
  induction cs with
  | nil => exact parseStrBody_quote rest
  | cons c cs ih =>
    rw [escBody, List.append_assoc, parseStrBody_esc, ih]

/-- What may follow a number without changing it. -/
def NoDigit (rest : List Char) : Prop := ∀ c cs, rest = c :: cs → isDigit c = false

theorem takeDigits_append {ds rest : List Char} (hd : ∀ c ∈ ds, isDigit c = true) (hr : NoDigit rest) :
    takeDigits (ds ++ rest) = (ds, rest) := by
  induction ds with
  | nil =>
    cases rest with
    | nil => rfl
    | cons c cs => simp [takeDigits, hr c cs rfl]
  | cons c cs ih =>
    have h1 := ih (fun x hx => hd x (by simp [hx]))
    have h2 := hd c (by simp)
    simp [takeDigits, h1, h2]

theorem parseNum_decChars (n : Nat) {rest : List Char} (hr : NoDigit rest) :
    parseNum (decChars n ++ rest) = some (n, rest) := by
  rcases Nat.eq_zero_or_pos n with rfl | hpos
  · simp [decChars_zero, parseNum]
  · obtain ⟨c, cs, hcs, hc⟩ := decChars_head hpos
    have h1 := takeDigits_append (decChars_all_digit n) hr
    have h2 := parseDecChars_decChars n
    rw [hcs] at h1 h2 ⊢
    simp only [List.cons_append] at h1 ⊢
    simp only [parseNum, hc, if_false, h1, h2]

theorem skipWs_cons {c : Char} (h : isWs c = false) (cs : List Char) : skipWs (c :: cs) = c :: cs := by
  simp [skipWs, h]

mutual
/-- A size measure that `parseValue`'s fuel has to reach. -/
def jsize : Json → Nat
  | .arr xs => jsizeList xs + 1
  | .obj fs => jsizeFields fs + 1
  | _ => 1
/-- Size of a list of values. -/
def jsizeList : List Json → Nat
  | [] => 0
  | x :: xs => jsize x + jsizeList xs + 1
/-- Size of a list of members. -/
def jsizeFields : List (String × Json) → Nat
  | [] => 0
  | (_, v) :: fs => jsize v + jsizeFields fs + 1
end

theorem digit_facts {c : Char} (h : isDigit c = true) :
    isWs c = false ∧ c ≠ 'n' ∧ c ≠ 't' ∧ c ≠ 'f' ∧ c ≠ '"' ∧ c ≠ '[' ∧ c ≠ '{' ∧ c ≠ ']' ∧ c ≠ '}' := by
  refine ⟨?_, ?_, ?_, ?_, ?_, ?_, ?_, ?_, ?_⟩
  · unfold isWs
    simp only [Bool.or_eq_false_iff, decide_eq_false_iff_not]
    refine ⟨⟨⟨?_, ?_⟩, ?_⟩, ?_⟩ <;> (rintro rfl; revert h; decide)
  all_goals (rintro rfl; revert h; decide)

theorem noDigit_cons {c : Char} {cs : List Char} (h : isDigit c = false) : NoDigit (c :: cs) := by
  intro c' cs' heq
  injection heq with h1 h2
  rw [← h1]; exact h

/-- The first character of a printed value: not white space, not a closing bracket. -/
theorem printJson_head (j : Json) :
    ∃ c cs, printJson j = c :: cs ∧ isWs c = false ∧ c ≠ ']' ∧ c ≠ '}' := by
  cases j with
  | null => exact ⟨_, _, rfl, by decide, by decide, by decide⟩
  | bool b => cases b <;> exact ⟨_, _, rfl, by decide, by decide, by decide⟩
  | num n =>
    cases hn : decChars n with
    | nil => exact absurd hn (decChars_ne_nil n)
    | cons c cs =>
      have hd := decChars_all_digit n c (by rw [hn]; simp)
      have := digit_facts hd
      exact ⟨c, cs, by rw [printJson, hn], this.1, this.2.2.2.2.2.2.2.1, this.2.2.2.2.2.2.2.2⟩
  | str s => exact ⟨'"', escBody s.toList, by simp [printJson, printStr], by decide, by decide, by decide⟩
  | arr xs =>
    cases xs with
    | nil => exact ⟨'[', _, by rw [printJson], by decide, by decide, by decide⟩
    | cons x xs => exact ⟨'[', _, printJson_arr x xs, by decide, by decide, by decide⟩
  | obj fs =>
    cases fs with
    | nil => exact ⟨'{', _, by rw [printJson], by decide, by decide, by decide⟩
    | cons x xs => exact ⟨'{', _, printJson_obj x xs, by decide, by decide, by decide⟩

theorem printElems_head (x : Json) (xs : List Json) :
    ∃ c cs, printElems x xs = c :: cs ∧ isWs c = false ∧ c ≠ ']' := by
  obtain ⟨c, cs, h, h1, h2, h3⟩ := printJson_head x
  cases xs <;> simp only [printElems_nil, printElems_cons, h, List.cons_append] <;> exact ⟨_, _, rfl, h1, h2⟩

theorem printFields_head (f : String × Json) (fs : List (String × Json)) :
    ∃ cs, printFields f fs = '"' :: cs := by
  obtain ⟨k, v⟩ := f
  cases fs <;> simp only [printFields_nil, printFields_cons, printStr, List.cons_append] <;> exact ⟨_, rfl⟩

theorem skipWs_quote (cs : List Char) : skipWs ('"' :: cs) = '"' :: cs := skipWs_cons (by decide) cs
theorem skipWs_lbrk (cs : List Char) : skipWs ('[' :: cs) = '[' :: cs := skipWs_cons (by decide) cs
theorem skipWs_rbrk (cs : List Char) : skipWs (']' :: cs) = ']' :: cs := skipWs_cons (by decide) cs
theorem skipWs_lbrc (cs : List Char) : skipWs ('{' :: cs) = '{' :: cs := skipWs_cons (by decide) cs
theorem skipWs_rbrc (cs : List Char) : skipWs ('}' :: cs) = '}' :: cs := skipWs_cons (by decide) cs
theorem skipWs_comma (cs : List Char) : skipWs (',' :: cs) = ',' :: cs := skipWs_cons (by decide) cs
theorem skipWs_colon (cs : List Char) : skipWs (':' :: cs) = ':' :: cs := skipWs_cons (by decide) cs

theorem jsize_pos (j : Json) : 0 < jsize j := by cases j <;> simp [jsize]

theorem obtain_succ {n f : Nat} (h : n ≤ f) (hn : 0 < n) : ∃ g, f = g + 1 := ⟨f - 1, by omega⟩

mutual
theorem parseValue_print : ∀ (j : Json) (f : Nat) (rest : List Char), jsize j ≤ f → NoDigit rest →
    parseValue f (printJson j ++ rest) = some (j, rest)
  | j, 0, _, hf, _ => by have := jsize_pos j; omega
  | .null, f + 1, rest, _, _ => by simp [printJson, parseValue, skipWs, isWs, expect]
  | .bool true, f + 1, rest, _, _ => by simp [printJson, parseValue, skipWs, isWs, expect]
  | .bool false, f + 1, rest, _, _ => by simp [printJson, parseValue, skipWs, isWs, expect]
  | .num n, f + 1, rest, _, hr => by
    have hp := parseNum_decChars n hr
    cases hn : decChars n with
    | nil => exact absurd hn (decChars_ne_nil n)
    | cons c cs =>
      have hd := digit_facts (decChars_all_digit n c (by rw [hn]; simp))
      rw [hn] at hp
      simp only [List.cons_append] at hp
      simp only [printJson, hn, List.cons_append, parseValue, skipWs_cons hd.1]
      obtain ⟨-, h1, h2, h3, h4, h5, h6, -⟩ := hd
      simp only [h1, h2, h3, h4, h5, h6, if_false, hp, Option.map_some]
  | .str s, f + 1, rest, _, _ => by
    simp only [printJson, printStr, List.cons_append, parseValue, skipWs_quote]
    simp only [show ('"' : Char) ≠ 'n' by decide, show ('"' : Char) ≠ 't' by decide,
      show ('"' : Char) ≠ 'f' by decide, if_false, if_true, parseStrBody_escBody, Option.map_some,
      String.ofList_toList]
  | .arr [], f + 1, rest, _, _ => by simp [printJson, parseValue, skipWs, isWs]
  | .arr (x :: xs), f + 1, rest, hf, _ => by
    have ih := parseElems_print x xs f rest (by rw [jsize] at hf; omega)
    obtain ⟨c, cs, h, hw, hb⟩ := printElems_head x xs
    rw [h] at ih
    simp only [List.cons_append] at ih
    simp only [printJson_arr, h, List.cons_append, parseValue, skipWs_lbrk, skipWs_cons hw]
    simp only [show ('[' : Char) ≠ 'n' by decide, show ('[' : Char) ≠ 't' by decide,
      show ('[' : Char) ≠ 'f' by decide, show ('[' : Char) ≠ '"' by decide, if_false, if_true, hb, ih,
      Option.map_some]
  | .obj [], f + 1, rest, _, _ => by simp [printJson, parseValue, skipWs, isWs]
  | .obj (g :: gs), f + 1, rest, hf, _ => by
    have ih := parseFields_print g gs f rest (by rw [jsize] at hf; omega)
    obtain ⟨cs, h⟩ := printFields_head g gs
    rw [h] at ih
    simp only [List.cons_append] at ih
    simp only [printJson_obj, h, List.cons_append, parseValue, skipWs_lbrc, skipWs_quote]
    simp only [show ('{' : Char) ≠ 'n' by decide, show ('{' : Char) ≠ 't' by decide,
      show ('{' : Char) ≠ 'f' by decide, show ('{' : Char) ≠ '"' by decide,
      show ('{' : Char) ≠ '[' by decide, show ('"' : Char) ≠ '}' by decide, if_false, if_true, ih,
      Option.map_some]
termination_by j => jsize j
decreasing_by all_goals (simp only [jsize]; omega)
theorem parseElems_print : ∀ (x : Json) (xs : List Json) (f : Nat) (rest : List Char),
    jsizeList (x :: xs) ≤ f → parseElems f (printElems x xs ++ rest) = some (x :: xs, rest)
  | x, xs, 0, _, hf => by rw [jsizeList] at hf; omega
  | x, [], f + 1, rest, hf => by
    have ih := parseValue_print x f (']' :: rest) (by rw [jsizeList] at hf; omega)
      (noDigit_cons (by decide))
    simp only [printElems_nil, List.append_assoc, List.cons_append, List.nil_append, parseElems, ih,
      skipWs_rbrk]
    simp
  | x, y :: ys, f + 1, rest, hf => by
    have ih := parseValue_print x f (',' :: (printElems y ys ++ rest))
      (by rw [jsizeList] at hf; omega) (noDigit_cons (by decide))
    have ih2 := parseElems_print y ys f rest (by rw [jsizeList] at hf; omega)
    simp only [printElems_cons, List.append_assoc, List.cons_append, parseElems, ih, skipWs_comma]
    simp [ih2]
termination_by x xs => jsizeList (x :: xs)
decreasing_by all_goals (simp only [jsizeList]; omega)
theorem parseFields_print : ∀ (g : String × Json) (gs : List (String × Json)) (f : Nat) (rest : List Char),
    jsizeFields (g :: gs) ≤ f → parseFields f (printFields g gs ++ rest) = some (g :: gs, rest)
  | (k, v), gs, 0, _, hf => by rw [jsizeFields] at hf; omega
  | (k, v), [], f + 1, rest, hf => by
    have ih := parseValue_print v f ('}' :: rest) (by rw [jsizeFields] at hf; omega)
      (noDigit_cons (by decide))
    simp only [printFields_nil, printStr, List.append_assoc, List.cons_append, List.nil_append,
      parseFields, skipWs_quote, skipWs_colon, skipWs_rbrc, if_true, parseStrBody_escBody, ih]
    simp
  | (k, v), h :: hs, f + 1, rest, hf => by
    have ih := parseValue_print v f (',' :: (printFields h hs ++ rest))
      (by rw [jsizeFields] at hf; omega) (noDigit_cons (by decide))
    have ih2 := parseFields_print h hs f rest (by rw [jsizeFields] at hf; omega)
    simp only [printFields_cons, printStr, List.append_assoc, List.cons_append, parseFields,
      skipWs_quote, skipWs_colon, skipWs_comma, if_true, parseStrBody_escBody, ih]
    simp [ih2]
termination_by g gs => jsizeFields (g :: gs)
decreasing_by all_goals (simp only [jsizeFields]; omega)
end

mutual
theorem jsize_le_length : ∀ j : Json, jsize j ≤ (printJson j).length
  | .null => by simp [jsize, printJson]
  | .bool true => by simp [jsize, printJson]
  | .bool false => by simp [jsize, printJson]
  | .num n => by
    have := decChars_ne_nil n
    simp only [jsize, printJson]
    exact List.length_pos_iff.mpr this
  | .str s => by simp [jsize, printJson, printStr]
  | .arr [] => by simp [jsize, jsizeList, printJson]
  | .arr (x :: xs) => by
    have := jsizeList_le_length x xs
    simp only [jsize, printJson_arr, List.length_cons]; omega
  | .obj [] => by simp [jsize, jsizeFields, printJson]
  | .obj (g :: gs) => by
    have := jsizeFields_le_length g gs
    simp only [jsize, printJson_obj, List.length_cons]; omega
termination_by j => jsize j
decreasing_by all_goals (simp only [jsize]; omega)
theorem jsizeList_le_length : ∀ (x : Json) (xs : List Json),
    jsizeList (x :: xs) ≤ (printElems x xs).length
  | x, [] => by
    have := jsize_le_length x
    simp only [jsizeList, printElems_nil, List.length_append, List.length_cons, List.length_nil]; omega
  | x, y :: ys => by
    have h1 := jsize_le_length x
    have h2 := jsizeList_le_length y ys
    rw [jsizeList]
    simp only [printElems_cons, List.length_append, List.length_cons]; omega
termination_by x xs => jsizeList (x :: xs)
decreasing_by all_goals (simp only [jsizeList]; omega)
theorem jsizeFields_le_length : ∀ (g : String × Json) (gs : List (String × Json)),
    jsizeFields (g :: gs) ≤ (printFields g gs).length
  | (k, v), [] => by
    have := jsize_le_length v
    simp only [jsizeFields, printFields_nil, List.length_append, List.length_cons, List.length_nil]; omega
  | (k, v), h :: hs => by
    have h1 := jsize_le_length v
    have h2 := jsizeFields_le_length h hs
    rw [jsizeFields]
    simp only [printFields_cons, List.length_append, List.length_cons]; omega
termination_by g gs => jsizeFields (g :: gs)
decreasing_by all_goals (simp only [jsizeFields]; omega)
end

/-- Parsing what was printed gives the value back. -/
theorem parseJson_print (j : Json) : parseJson (printJson j) = some j := by
  have h := parseValue_print j ((printJson j).length + 1) [] (by have := jsize_le_length j; omega)
    (by intro c cs h; cases h)
  rw [List.append_nil] at h
  simp only [parseJson, h]
  simp [skipWs]

theorem jsonOfString_toString (j : Json) : jsonOfString (jsonToString j) = some j := by
  simp [jsonOfString, jsonToString, parseJson_print]

theorem jsonOfBytes_toBytes (j : Json) : jsonOfBytes (jsonToBytes j) = some j := by
  simp [jsonOfBytes, jsonToBytes, ofUtf8_utf8, jsonOfString_toString]

end Ica
