import Verif.Lemmas.OutText
import Verif.Lemmas.Choice
/-! # Lemmas about the JSON output (C61, C71) -/
set_option autoImplicit false

namespace Verif
open Spec

/-! ## Strings -/

/-- UTF-16 code units of a character -/
def utf16 (c : Char) : List Nat :=
  if c.toNat < 0x10000 then [c.toNat]
  else [0xd800 + (c.toNat - 0x10000) / 0x400 % 0x400, 0xdc00 + (c.toNat - 0x10000) % 0x400]

theorem uEscape_shape (n : Nat) (h : n < 0x10000) :
    ∃ h1 h2 h3 h4, uEscape n = ['\\', 'u', h1, h2, h3, h4] ∧ isHexDigit h1 = true ∧ isHexDigit h2 = true ∧
      isHexDigit h3 = true ∧ isHexDigit h4 = true ∧ natOfHex [h1, h2, h3, h4] = n := by
  have hlen : (Nat.toDigits 16 n).length ≤ 4 := (Nat.length_toDigits_le_iff (by omega) (by omega)).2 (by simpa using h)
  have hall : ∀ c ∈ List.replicate (4 - (Nat.toDigits 16 n).length) '0' ++ Nat.toDigits 16 n, isHexDigit c = true := by
    intro c hc
    rcases List.mem_append.1 hc with hc | hc
    · rw [List.eq_of_mem_replicate hc]; rfl
    · exact toDigits16_hex n c hc
  have hval := natOfHex_zeros (4 - (Nat.toDigits 16 n).length) (Nat.toDigits 16 n)
  rw [natOfHex_toDigits] at hval
  have hl : (List.replicate (4 - (Nat.toDigits 16 n).length) '0' ++ Nat.toDigits 16 n).length = 4 := by simp; omega
  have hu : uEscape n = '\\' :: 'u' :: (List.replicate (4 - (Nat.toDigits 16 n).length) '0' ++ Nat.toDigits 16 n) := rfl
  rw [hu]
  generalize List.replicate (4 - (Nat.toDigits 16 n).length) '0' ++ Nat.toDigits 16 n = d at *
  match d, hl with
  | [h1, h2, h3, h4], _ =>
    exact ⟨h1, h2, h3, h4, rfl, hall h1 (by simp), hall h2 (by simp), hall h3 (by simp), hall h4 (by simp), hval⟩

theorem readUnits_uEscape (n : Nat) (h : n < 0x10000) (t : Str) :
    readUnits (uEscape n ++ t) = (readUnits t).map fun p => (n :: p.1, p.2) := by
  obtain ⟨h1, h2, h3, h4, he, a1, a2, a3, a4, hv⟩ := uEscape_shape n h
  rw [he]
  simp only [List.cons_append, List.nil_append]
  rw [readUnits]
  simp [a1, a2, a3, a4, hv]

theorem char_toNat_inj {a b : Char} (h : a.toNat = b.toNat) : a = b := by
  apply Char.ext
  apply UInt32.toNat_inj.1
  exact h

theorem readUnits_escape (c : Char) (t : Str) :
    readUnits (jsonEscape c ++ t) = (readUnits t).map fun p => (utf16 c ++ p.1, p.2) := by
  unfold jsonEscape
  split
  · next h => subst h; simp only [List.cons_append, List.nil_append]; rw [readUnits.eq_def]; rfl
  split
  · next h => subst h; simp only [List.cons_append, List.nil_append]; rw [readUnits.eq_def]; rfl
  split
  · next h => subst h; simp only [List.cons_append, List.nil_append]; rw [readUnits.eq_def]; rfl
  split
  · next h => subst h; simp only [List.cons_append, List.nil_append]; rw [readUnits.eq_def]; rfl
  split
  · next h => subst h; simp only [List.cons_append, List.nil_append]; rw [readUnits.eq_def]; rfl
  split
  · next h => subst h; simp only [List.cons_append, List.nil_append]; rw [readUnits.eq_def]; rfl
  split
  · next h => subst h; simp only [List.cons_append, List.nil_append]; rw [readUnits.eq_def]; rfl
  split
  · next h1 h2 _ _ _ _ _ h =>
    have hu : utf16 c = [c.toNat] := if_pos (by omega)
    rw [hu, List.singleton_append, readUnits.eq_def]
    simp only []
    rw [if_neg h1, if_neg h2, if_neg (by omega)]
    rfl
  split
  · next h =>
    have hu : utf16 c = [c.toNat] := if_pos (by omega)
    rw [readUnits_uEscape _ h, hu]
    rfl
  · next h =>
    have hu : utf16 c = [0xd800 + (c.toNat - 0x10000) / 0x400 % 0x400, 0xdc00 + (c.toNat - 0x10000) % 0x400] :=
      if_neg h
    simp only []
    rw [List.append_assoc, readUnits_uEscape _ (by omega), readUnits_uEscape _ (by omega), hu, Option.map_map]
    rfl

theorem readUnits_str (s t : Str) :
    readUnits (s.flatMap jsonEscape ++ '"' :: t) = some (s.flatMap utf16, t) := by
  induction s with
  | nil => simp only [List.flatMap_nil, List.nil_append]; rw [readUnits.eq_def]; rfl
  | cons c s ih =>
    rw [List.flatMap_cons, List.append_assoc, readUnits_escape, ih]
    rfl

theorem char_valid (c : Char) : c.toNat < 0xd800 ∨ (0xdfff < c.toNat ∧ c.toNat < 0x110000) := by
  have := c.valid
  rcases this with h | ⟨h1, h2⟩
  · left; exact h
  · right; exact ⟨h1, h2⟩

theorem ofNat_toNat (c : Char) : Char.ofNat c.toNat = c := Char.ofNat_toNat c

theorem fromUtf16_cons (c : Char) (us : List Nat) : fromUtf16 (utf16 c ++ us) = c :: fromUtf16 us := by
  have hv := char_valid c
  by_cases h : c.toNat < 0x10000
  · have hu : utf16 c = [c.toNat] := if_pos h
    rw [hu, List.singleton_append]
    cases us with
    | nil => simp [fromUtf16]
    | cons v us =>
      rw [fromUtf16, if_neg (by omega), ofNat_toNat]
  · have hu : utf16 c = [0xd800 + (c.toNat - 0x10000) / 0x400 % 0x400, 0xdc00 + (c.toNat - 0x10000) % 0x400] := if_neg h
    rw [hu]
    simp only [List.cons_append, List.nil_append]
    rw [fromUtf16, if_pos (by omega)]
    have : 0x10000 + (0xd800 + (c.toNat - 0x10000) / 0x400 % 0x400 - 0xd800) * 0x400
        + (0xdc00 + (c.toNat - 0x10000) % 0x400 - 0xdc00) = c.toNat := by omega
    rw [this, ofNat_toNat]

theorem fromUtf16_utf16 (s : Str) : fromUtf16 (s.flatMap utf16) = s := by
  induction s with
  | nil => rfl
  | cons c s ih => rw [List.flatMap_cons, fromUtf16_cons, ih]

theorem readString_str (s t : Str) : readString (s.flatMap jsonEscape ++ '"' :: t) = some (s, t) := by
  rw [readString, readUnits_str, Option.map_some, fromUtf16_utf16]

/-! ## White space -/

theorem skipWs_append (ws t : Str) (h : ∀ c ∈ ws, jsonWs c = true) : skipWs (ws ++ t) = skipWs t := by
  induction ws with
  | nil => rfl
  | cons c ws ih =>
    have hc := h c List.mem_cons_self
    simp only [skipWs, List.cons_append, List.dropWhile_cons, hc, if_true] at *
    exact ih fun c hc => h c (List.mem_cons_of_mem _ hc)

theorem skipWs_stop (c : Char) (t : Str) (h : jsonWs c = false) : skipWs (c :: t) = c :: t := by
  simp [skipWs, h]

theorem nl_ws (n : Nat) : ∀ c ∈ nl n, jsonWs c = true := by
  intro c hc
  rcases List.mem_cons.1 hc with rfl | hc
  · rfl
  · rw [List.eq_of_mem_replicate hc]; rfl

theorem skipWs_nl (n : Nat) (c : Char) (t : Str) (h : jsonWs c = false) : skipWs (nl n ++ c :: t) = c :: t := by
  rw [skipWs_append _ _ (nl_ws n), skipWs_stop _ _ h]

/-! ## Values -/

mutual
/-- number of calls the reader needs -/
def jsize : Json → Nat
  | .null => 1
  | .bool _ => 1
  | .num _ => 1
  | .str _ => 1
  | .arr l => 1 + jsizeArr l
  | .obj l => 1 + jsizeObj l
/-- for the elements -/
def jsizeArr : List Json → Nat
  | [] => 0
  | j :: l => 1 + jsize j + jsizeArr l
/-- for the members -/
def jsizeObj : List (Str × Json) → Nat
  | [] => 0
  | (_, j) :: l => 1 + jsize j + jsizeObj l
end

/-- after an element -/
def afterElem (n : Nat) (r : Str) : Option (List Json × Str) :=
  match skipWs r with
  | ',' :: r' => readElems n r'
  | ']' :: r' => some ([], r')
  | _ => none

/-- after a member -/
def afterMember (n : Nat) (r : Str) : Option (List (Str × Json) × Str) :=
  match skipWs r with
  | ',' :: r' => readMembers n r'
  | '}' :: r' => some ([], r')
  | _ => none

theorem readElems_step {n : Nat} {s r : Str} {j : Json} {l : List Json} {t : Str} (h1 : readValue n s = some (j, r))
    (h2 : afterElem n r = some (l, t)) : readElems (n + 1) s = some (j :: l, t) := by
  unfold readElems
  rw [h1]
  simp only []
  unfold afterElem at h2
  split at h2
  · next r' hr => simp only [hr]; rw [h2]; rfl
  · next r' hr => simp only [hr]; simp at h2; simp [h2]
  · simp at h2

theorem readMembers_step {n : Nat} {ws : Str} (hws : ∀ c ∈ ws, jsonWs c = true) {k : Str} {s r : Str} {j : Json}
    {l : List (Str × Json)} {t : Str} (h1 : readValue n (' ' :: s) = some (j, r))
    (h2 : afterMember n r = some (l, t)) : readMembers (n + 1) (ws ++ (jsonStr k ++ cs!": " ++ s)) = some ((k, j) :: l, t) := by
  unfold readMembers
  have e : ws ++ (jsonStr k ++ cs!": " ++ s) = ws ++ '"' :: (k.flatMap jsonEscape ++ '"' :: ':' :: ' ' :: s) := by
    simp [jsonStr]
  rw [e, skipWs_append _ _ hws, skipWs_stop _ _ rfl]
  simp only [readString_str, skipWs_stop ':' _ rfl, h1]
  unfold afterMember at h2
  split at h2
  · next r' hr => simp only [hr]; rw [h2]; rfl
  · next r' hr => simp only [hr]; simp at h2; simp [h2]
  · simp at h2

theorem digit_ws : ∀ c : Char, isDigit c = true → jsonWs c = false := by
  intro c hc
  unfold isDigit at hc
  simp only [jsonWs]
  by_cases h : (c == ' ' || c == '\n' || c == '\t' || c == '\r') = true
  · exfalso
    simp only [Bool.or_eq_true, beq_iff_eq] at h
    rcases h with ((rfl | rfl) | rfl) | rfl <;> simp at hc
  · simpa using h

/-- the first character of a dumped value -/
theorem dump_head (j : Json) (level : Nat) (rest : Str) :
    ∃ c t, j.dump level ++ rest = c :: t ∧ jsonWs c = false ∧ c ≠ ']' ∧ c ≠ '}' := by
  cases j with
  | null => exact ⟨_, _, rfl, rfl, by decide, by decide⟩
  | bool b => cases b <;> exact ⟨_, _, rfl, rfl, by decide, by decide⟩
  | num n =>
    simp only [Json.dump]
    cases h : natRepr n with
    | nil => exact absurd h (natRepr_ne_nil n)
    | cons c t =>
      have hd := natRepr_all_digits n c (by simp [h])
      refine ⟨c, t ++ rest, rfl, digit_ws c hd, ?_, ?_⟩ <;> (rintro rfl; simp [isDigit] at hd)
  | str s => exact ⟨_, _, rfl, rfl, by decide, by decide⟩
  | arr l => cases l <;> exact ⟨_, _, rfl, rfl, by decide, by decide⟩
  | obj l => rcases l with _ | ⟨⟨k, j⟩, l⟩ <;> exact ⟨_, _, rfl, rfl, by decide, by decide⟩

/-- the text does not go on with a digit -/
def NoDigit (rest : Str) : Prop := ∀ c t, rest = c :: t → isDigit c = false

theorem noDigit_tail (level level' : Nat) (l : List Json) (t : Str) : NoDigit (dumpTail level l ++ nl level' ++ t) := by
  intro c r h
  cases l with
  | nil => simp only [dumpTail, nl] at h; injection h with h1 _; subst h1; rfl
  | cons j l => simp only [dumpTail] at h; injection h with h1 _; subst h1; rfl

theorem noDigit_members (level level' : Nat) (l : List (Str × Json)) (t : Str) :
    NoDigit (dumpMembers level l ++ nl level' ++ t) := by
  intro c r h
  cases l with
  | nil => simp only [dumpMembers, nl] at h; injection h with h1 _; subst h1; rfl
  | cons j l => obtain ⟨k, j⟩ := j; simp only [dumpMembers] at h; injection h with h1 _; subst h1; rfl

theorem readValue_num (n : Nat) (fuel : Nat) (ws rest : Str) (hws : ∀ c ∈ ws, jsonWs c = true) (hr : NoDigit rest) :
    readValue (fuel + 1) (ws ++ (natRepr n ++ rest)) = some (.num n, rest) := by
  unfold readValue
  rw [skipWs_append _ _ hws]
  have hall := natRepr_all_digits n
  have ht := takeWhile_append_stop isDigit (natRepr n) rest hall (fun x xs h => hr x xs h)
  have hd := dropWhile_append_stop isDigit (natRepr n) rest hall (fun x xs h => hr x xs h)
  have hv := natOfDigits_natRepr n
  cases h : natRepr n with
  | nil => exact absurd h (natRepr_ne_nil n)
  | cons c t =>
    have hc : isDigit c = true := hall c (by simp [h])
    rw [h] at ht hd hv
    rw [List.cons_append] at *
    rw [skipWs_stop _ _ (digit_ws c hc)]
    have n1 : c ≠ '"' := by rintro rfl; simp [isDigit] at hc
    have n2 : c ≠ '[' := by rintro rfl; simp [isDigit] at hc
    have n3 : c ≠ '{' := by rintro rfl; simp [isDigit] at hc
    simp only [if_neg n1, if_neg n2, if_neg n3, if_pos hc]
    rw [ht, hd, hv]

mutual
theorem readValue_dump (j : Json) (level fuel : Nat) (ws rest : Str) (hws : ∀ c ∈ ws, jsonWs c = true)
    (hf : jsize j ≤ fuel) (hr : NoDigit rest) : readValue fuel (ws ++ (j.dump level ++ rest)) = some (j, rest) := by
  cases fuel with
  | zero => cases j <;> simp [jsize] at hf
  | succ fuel =>
    match j with
    | .null => unfold readValue; rw [skipWs_append _ _ hws]; rfl
    | .bool true => unfold readValue; rw [skipWs_append _ _ hws]; rfl
    | .bool false => unfold readValue; rw [skipWs_append _ _ hws]; rfl
    | .num n => exact readValue_num n fuel ws rest hws hr
    | .str s =>
      unfold readValue
      have e : Json.dump level (.str s) ++ rest = '"' :: (s.flatMap jsonEscape ++ '"' :: rest) := by simp [Json.dump, jsonStr]
      rw [e, skipWs_append _ _ hws, skipWs_stop _ _ rfl]
      simp only [if_true, readString_str, Option.map_some]
    | .arr [] => unfold readValue; rw [skipWs_append _ _ hws]; rfl
    | .arr (x :: l) =>
      unfold readValue
      have e : Json.dump level (.arr (x :: l)) ++ rest =
          '[' :: (nl (level + 1) ++ (x.dump (level + 1) ++ (dumpTail (level + 1) l ++ nl level ++ ']' :: rest))) := by
        simp [Json.dump]
      rw [e, skipWs_append _ _ hws, skipWs_stop _ _ rfl]
      have hl : readElems fuel (nl (level + 1) ++ (x.dump (level + 1) ++ (dumpTail (level + 1) l ++ nl level ++ ']' :: rest)))
          = some (x :: l, rest) := by
        simp only [jsize, jsizeArr] at hf
        obtain ⟨m, rfl⟩ : ∃ m, fuel = m + 1 := ⟨fuel - 1, by omega⟩
        exact readElems_step (readValue_dump x (level + 1) m (nl (level + 1)) _ (nl_ws _) (by omega) (noDigit_tail _ _ _ _))
          (afterElem_dump l (level + 1) level m rest (by omega))
      obtain ⟨c, t, hd, h1, h2, _⟩ := dump_head x (level + 1) (dumpTail (level + 1) l ++ nl level ++ ']' :: rest)
      have hs : skipWs (nl (level + 1) ++ (x.dump (level + 1) ++ (dumpTail (level + 1) l ++ nl level ++ ']' :: rest))) = c :: t := by
        rw [hd]; exact skipWs_nl _ _ _ h1
      simp only []
      rw [if_neg (by decide), if_pos trivial, hs]
      split
      · next r' he => injection he with he _; exact absurd he h2
      · rw [hl]; rfl
    | .obj [] => unfold readValue; rw [skipWs_append _ _ hws]; rfl
    | .obj ((k, x) :: l) =>
      unfold readValue
      have e : Json.dump level (.obj ((k, x) :: l)) ++ rest =
          '{' :: (nl (level + 1) ++ (jsonStr k ++ cs!": " ++ (x.dump (level + 1) ++ (dumpMembers (level + 1) l ++ nl level ++ '}' :: rest)))) := by
        simp [Json.dump]
      rw [e, skipWs_append _ _ hws, skipWs_stop _ _ rfl]
      have hl : readMembers fuel (nl (level + 1) ++ (jsonStr k ++ cs!": " ++ (x.dump (level + 1) ++ (dumpMembers (level + 1) l ++ nl level ++ '}' :: rest))))
          = some ((k, x) :: l, rest) := by
        simp only [jsize, jsizeObj] at hf
        obtain ⟨m, rfl⟩ : ∃ m, fuel = m + 1 := ⟨fuel - 1, by omega⟩
        refine readMembers_step (nl_ws _)
          (readValue_dump x (level + 1) m cs!" " _ (by simp [jsonWs]) (by omega) (noDigit_members _ _ _ _))
          (afterMember_dump l (level + 1) level m rest (by omega))
      have hs : skipWs (nl (level + 1) ++ (jsonStr k ++ cs!": " ++ (x.dump (level + 1) ++ (dumpMembers (level + 1) l ++ nl level ++ '}' :: rest))))
          = '"' :: (k.flatMap jsonEscape ++ '"' :: (cs!": " ++ (x.dump (level + 1) ++ (dumpMembers (level + 1) l ++ nl level ++ '}' :: rest)))) := by
        have : (jsonStr k ++ cs!": " ++ (x.dump (level + 1) ++ (dumpMembers (level + 1) l ++ nl level ++ '}' :: rest)))
            = '"' :: (k.flatMap jsonEscape ++ '"' :: (cs!": " ++ (x.dump (level + 1) ++ (dumpMembers (level + 1) l ++ nl level ++ '}' :: rest)))) := by
          simp [jsonStr]
        rw [this]; exact skipWs_nl _ _ _ rfl
      simp only []
      rw [if_neg (by decide), if_neg (by decide), if_pos trivial, hs]
      rw [hl]; rfl
theorem afterElem_dump (l : List Json) (level level' n : Nat) (rest : Str) (hf : jsizeArr l ≤ n) :
    afterElem n (dumpTail level l ++ nl level' ++ ']' :: rest) = some (l, rest) := by
  match l with
  | [] =>
    unfold afterElem
    rw [dumpTail, List.nil_append, skipWs_nl _ _ _ rfl]
    rfl
  | x :: l =>
    simp only [jsizeArr] at hf
    obtain ⟨m, rfl⟩ : ∃ m, n = m + 1 := ⟨n - 1, by omega⟩
    unfold afterElem
    have e : dumpTail level (x :: l) ++ nl level' ++ ']' :: rest =
        ',' :: (nl level ++ (x.dump level ++ (dumpTail level l ++ nl level' ++ ']' :: rest))) := by simp [dumpTail]
    rw [e, skipWs_stop _ _ rfl]
    exact readElems_step (readValue_dump x level m (nl level) _ (nl_ws _) (by omega) (noDigit_tail _ _ _ _))
      (afterElem_dump l level level' m rest (by omega))
theorem afterMember_dump (l : List (Str × Json)) (level level' n : Nat) (rest : Str) (hf : jsizeObj l ≤ n) :
    afterMember n (dumpMembers level l ++ nl level' ++ '}' :: rest) = some (l, rest) := by
  match l with
  | [] =>
    unfold afterMember
    rw [dumpMembers, List.nil_append, skipWs_nl _ _ _ rfl]
    rfl
  | (k, x) :: l =>
    simp only [jsizeObj] at hf
    obtain ⟨m, rfl⟩ : ∃ m, n = m + 1 := ⟨n - 1, by omega⟩
    unfold afterMember
    have e : dumpMembers level ((k, x) :: l) ++ nl level' ++ '}' :: rest =
        ',' :: (nl level ++ (jsonStr k ++ cs!": " ++ (x.dump level ++ (dumpMembers level l ++ nl level' ++ '}' :: rest)))) := by
      simp [dumpMembers]
    rw [e, skipWs_stop _ _ rfl]
    exact readMembers_step (nl_ws _) (readValue_dump x level m cs!" " _ (by simp [jsonWs]) (by omega) (noDigit_members _ _ _ _))
      (afterMember_dump l level level' m rest (by omega))
end

/-- what is written is read back -/
theorem isJson_dump (j : Json) : IsJson (j.dump 0) j := by
  refine ⟨jsize j, fun fuel hf => ?_⟩
  have := readValue_dump j 0 fuel [] [] (by simp) hf (by intro c t h; simp at h)
  simpa using this

/-! ## Sorted keys -/

theorem sortKeys_strs (l : List Str) : (Json.arr (l.map .str)).sortKeys = .arr (l.map .str) := by
  have h : sortKeysArr (l.map .str) = l.map .str := by
    induction l with
    | nil => rfl
    | cons s l ih => simp only [List.map_cons, sortKeysArr, ih, Json.sortKeys]
  simp only [Json.sortKeys, h]

theorem sortKeys_optStrs (o : Option (List Str)) : (Json.optStrs o).sortKeys = orNull (fun l => .arr (l.map .str)) o := by
  cases o with
  | none => simp only [Json.optStrs, Json.sortKeys, orNull]
  | some l => exact sortKeys_strs l

theorem sortKeys_optStr (o : Option Str) : (Json.optStr o).sortKeys = orNull .str o := by
  cases o <;> simp only [Json.optStr, Json.sortKeys, orNull]

theorem sortKeys_optNum (o : Option Nat) : (Json.optNum o).sortKeys = orNull .num o := by
  cases o <;> simp only [Json.optNum, Json.sortKeys, orNull]

theorem sortKeys_arr (l : List Json) : (Json.arr l).sortKeys = .arr (l.map Json.sortKeys) := by
  have h : sortKeysArr l = l.map Json.sortKeys := by
    induction l with
    | nil => rfl
    | cons s l ih => simp only [List.map_cons, sortKeysArr, ih]
  simp only [Json.sortKeys, h]

theorem sortKeysObj_map (l : List (Str × Json)) : sortKeysObj l = l.map fun p => (p.1, p.2.sortKeys) := by
  induction l with
  | nil => rfl
  | cons p l ih => obtain ⟨k, j⟩ := p; simp only [List.map_cons, sortKeysObj, ih]

theorem object_sorted (l m : List (Str × Json)) (h : l.map (fun p => (p.1, p.2.sortKeys)) = m)
    (hk : (l.map Prod.fst).Nodup) : Object (Json.sortKeys (.obj l)) m := by
  refine ⟨_, by rw [Json.sortKeys], ?_, ?_⟩
  · rw [sortKeysObj_map, h]
    exact sortBy_perm _ _
  · have hp : (sortItems (sortKeysObj l)).Perm (sortKeysObj l) := sortBy_perm _ _
    have : (sortKeysObj l).map Prod.fst = l.map Prod.fst := by rw [sortKeysObj_map, List.map_map]; rfl
    exact (hp.map Prod.fst).nodup_iff.2 (by rw [this]; exact hk)

theorem noprefix_config (opt : Str) : noprefix (cs!"CONFIG_" ++ opt) [cs!"CONFIG_"] = opt := by
  have : startsWith (cs!"CONFIG_" ++ opt) cs!"CONFIG_" = true := by
    simp [startsWith]
  simp only [noprefix, this, if_true]
  rfl

theorem noprefix_other (s : Str) (h : ¬ cs!"CONFIG_" <+: s) : noprefix s [cs!"CONFIG_"] = s := by
  have : ¬ startsWith s cs!"CONFIG_" = true := by
    rw [startsWith, List.isPrefixOf_iff_prefix]; exact h
  simp only [noprefix, this]
  rfl

theorem syscall_keys_nodup : ([cs!"index", cs!"number", cs!"name", cs!"origname", cs!"symbol", cs!"file", cs!"line",
    cs!"signature", cs!"esoteric", cs!"good_location", cs!"grepped_location", cs!"kconfig"] : List Str).Nodup := by
  decide +kernel

theorem syscallObject (sc : Syscall) : SyscallObject sc (syscallJson sc).sortKeys := by
  have key : ∀ k : Json, k.sortKeys = k → KconfigValue sc.kconfig k → syscallJson sc = .obj
      [(cs!"index", .optNum sc.index), (cs!"number", .num sc.number), (cs!"name", .str sc.name),
       (cs!"origname", .str sc.origname), (cs!"symbol", .str sc.symbol.name), (cs!"file", .optStr (sc.file.map Path.str)),
       (cs!"line", .optNum sc.line), (cs!"signature", .optStrs sc.signature), (cs!"esoteric", .bool sc.esoteric),
       (cs!"good_location", .bool sc.goodLocation), (cs!"grepped_location", .bool sc.greppedLocation),
       (cs!"kconfig", k)] → SyscallObject sc (syscallJson sc).sortKeys := by
    intro k hks hk he
    refine ⟨k, hk, ?_⟩
    rw [he]
    refine object_sorted _ _ ?_ syscall_keys_nodup
    simp only [List.map_cons, List.map_nil, sortKeys_optNum, sortKeys_optStr, sortKeys_optStrs, hks]
    simp only [Json.sortKeys]
    cases sc.file <;> rfl
  cases hk : sc.kconfig with
  | none =>
    refine key .null rfl ?_ ?_
    · rw [hk]
      exact ⟨fun _ => rfl, fun _ h => by simp at h, fun _ h => by simp at h⟩
    · simp only [syscallJson, hk, slots, dset]
      rfl
  | some s =>
    cases s with
    | nil =>
      refine key (.str []) rfl ?_ ?_
      · rw [hk]
        refine ⟨fun h => by simp at h, fun opt h => by simp at h, fun s h _ => by simp at h; rw [h]⟩
      · simp only [syscallJson, hk, slots, dset]
        rfl
    | cons c s =>
      refine key (.str (noprefix (c :: s) [cs!"CONFIG_"])) rfl ?_ ?_
      · rw [hk]
        refine ⟨fun h => by simp at h, fun opt h => ?_, fun s' h hn => ?_⟩
        · injection h with h; rw [h, noprefix_config]
        · injection h with h; subst h; rw [noprefix_other _ hn]
      · simp only [syscallJson, hk, slots, dset]
        rfl

end Verif
