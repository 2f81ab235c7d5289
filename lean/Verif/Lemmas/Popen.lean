import Verif.Spec.Popen
import Verif.Lemmas.Py
import Verif.Lemmas.Str
import Verif.Lemmas.Version
/-! Helper lemmas about messages on external commands. -/
set_option autoImplicit false

namespace Verif
open Spec

/-! ## String literals -/

theorem readPyString_plain (q c : Char) (h1 : c ≠ '\\') (h2 : c ≠ q) (rest : Str) :
    readPyString q (c :: rest) = (readPyString q rest).map fun r => (c :: r.1, r.2) := by
  rw [readPyString]
  · rw [if_neg h2]
  all_goals (intros; simp_all)

theorem readPyString_quote (q : Char) (h : q ≠ '\\') (rest : Str) : readPyString q (q :: rest) = some ([], rest) := by
  rw [readPyString]
  · rw [if_pos rfl]
  all_goals (intros; simp_all)

theorem readPyString_escape (q c : Char) (h : c ∉ ['t', 'n', 'r', 'x', 'u', 'U']) (rest : Str) :
    readPyString q ('\\' :: c :: rest) = (readPyString q rest).map fun r => (c :: r.1, r.2) := by
  simp only [List.mem_cons, List.not_mem_nil, or_false, not_or] at h
  obtain ⟨h1, h2, h3, h4, h5, h6⟩ := h
  rw [readPyString]
  all_goals (intros; simp_all)

theorem hexDigit_value : ∀ n, n < 16 → (if (hexDigit n).toNat < 58 then (hexDigit n).toNat - 48 else (hexDigit n).toNat - 87) = n := by
  decide

theorem hexValue_append (a : Str) (n : Nat) (h : n < 16) : hexValue (a ++ [hexDigit n]) = 16 * hexValue a + n := by
  have := hexDigit_value n h
  unfold hexValue
  rw [List.foldl_append]
  simp only [List.foldl_cons, List.foldl_nil, this]

theorem hexValue_fixed (k n : Nat) : hexValue (hexFixed k n) = n % 16 ^ k := by
  induction k generalizing n with
  | zero => simp [hexFixed, hexValue, Nat.mod_one]
  | succ k ih =>
    rw [hexFixed, hexValue_append _ _ (Nat.mod_lt _ (by decide)), ih, Nat.pow_succ, Nat.mul_comm (16 ^ k) 16, Nat.mod_mul]
    omega

theorem ofNat_of_toNat (c : Char) : Char.ofNat c.toNat = c := Char.ofNat_toNat c

theorem toNat_lt (c : Char) : c.toNat < 0x110000 := by
  have := c.valid
  rcases this with h | ⟨_, h⟩
  · exact Nat.lt_trans h (by decide)
  · exact h

theorem readPyString_x (q c : Char) (h : c.toNat ≤ 0xff) (rest : Str) :
    readPyString q ('\\' :: 'x' :: hexFixed 2 c.toNat ++ rest) = (readPyString q rest).map fun r => (c :: r.1, r.2) := by
  have e : hexFixed 2 c.toNat = [hexDigit (c.toNat / 16 % 16), hexDigit (c.toNat % 16)] := rfl
  have v := hexValue_fixed 2 c.toNat
  rw [Nat.mod_eq_of_lt (by omega)] at v
  rw [e] at v ⊢
  simp only [List.cons_append, List.nil_append]
  rw [readPyString, v, ofNat_of_toNat]

theorem readPyString_u (q c : Char) (h : c.toNat ≤ 0xffff) (rest : Str) :
    readPyString q ('\\' :: 'u' :: hexFixed 4 c.toNat ++ rest) = (readPyString q rest).map fun r => (c :: r.1, r.2) := by
  have e : hexFixed 4 c.toNat = [hexDigit (c.toNat / 16 / 16 / 16 % 16), hexDigit (c.toNat / 16 / 16 % 16),
    hexDigit (c.toNat / 16 % 16), hexDigit (c.toNat % 16)] := rfl
  have v := hexValue_fixed 4 c.toNat
  rw [Nat.mod_eq_of_lt (by omega)] at v
  rw [e] at v ⊢
  simp only [List.cons_append, List.nil_append]
  rw [readPyString, v, ofNat_of_toNat]

theorem readPyString_U (q c : Char) (rest : Str) :
    readPyString q ('\\' :: 'U' :: hexFixed 8 c.toNat ++ rest) = (readPyString q rest).map fun r => (c :: r.1, r.2) := by
  have e : hexFixed 8 c.toNat = [hexDigit (c.toNat / 16 / 16 / 16 / 16 / 16 / 16 / 16 % 16),
    hexDigit (c.toNat / 16 / 16 / 16 / 16 / 16 / 16 % 16), hexDigit (c.toNat / 16 / 16 / 16 / 16 / 16 % 16),
    hexDigit (c.toNat / 16 / 16 / 16 / 16 % 16), hexDigit (c.toNat / 16 / 16 / 16 % 16), hexDigit (c.toNat / 16 / 16 % 16),
    hexDigit (c.toNat / 16 % 16), hexDigit (c.toNat % 16)] := rfl
  have v := hexValue_fixed 8 c.toNat
  have := toNat_lt c
  rw [Nat.mod_eq_of_lt (by omega)] at v
  rw [e] at v ⊢
  simp only [List.cons_append, List.nil_append]
  rw [readPyString, v, ofNat_of_toNat]

theorem readPyString_reprChar (pr : Char → Bool) (q c : Char) (hq : q = '\'' ∨ q = '"') (rest : Str) :
    readPyString q (reprChar pr q c ++ rest) = (readPyString q rest).map fun r => (c :: r.1, r.2) := by
  unfold reprChar
  by_cases h1 : c = q ∨ c = '\\'
  · rw [if_pos h1]
    simp only [List.cons_append, List.nil_append]
    refine readPyString_escape q c ?_ rest
    rcases h1 with rfl | rfl
    · rcases hq with rfl | rfl <;> decide
    · decide
  rw [if_neg h1]
  have hb : c ≠ '\\' := fun e => h1 (.inr e)
  have hcq : c ≠ q := fun e => h1 (.inl e)
  by_cases h2 : c = '\t'
  · subst h2; rw [if_pos rfl]; simp only [List.cons_append, List.nil_append]; rw [readPyString]
  rw [if_neg h2]
  by_cases h3 : c = '\n'
  · subst h3; rw [if_pos rfl]; simp only [List.cons_append, List.nil_append]; rw [readPyString]
  rw [if_neg h3]
  by_cases h4 : c = '\r'
  · subst h4; rw [if_pos rfl]; simp only [List.cons_append, List.nil_append]; rw [readPyString]
  rw [if_neg h4]
  by_cases h5 : c.toNat < 32 ∨ c.toNat = 127
  · rw [if_pos h5]; exact readPyString_x q c (by omega) rest
  rw [if_neg h5]
  by_cases h6 : c.toNat < 127
  · rw [if_pos h6]; exact readPyString_plain q c hb hcq rest
  rw [if_neg h6]
  by_cases h7 : pr c = true
  · rw [if_pos h7]; exact readPyString_plain q c hb hcq rest
  rw [if_neg h7]
  by_cases h8 : c.toNat ≤ 0xff
  · rw [if_pos h8]; exact readPyString_x q c h8 rest
  rw [if_neg h8]
  by_cases h9 : c.toNat ≤ 0xffff
  · rw [if_pos h9]; exact readPyString_u q c h9 rest
  rw [if_neg h9]; exact readPyString_U q c rest

theorem readPyString_body (pr : Char → Bool) (q : Char) (hq : q = '\'' ∨ q = '"') (s rest : Str) :
    readPyString q (s.flatMap (reprChar pr q) ++ q :: rest) = some (s, rest) := by
  induction s with
  | nil => exact readPyString_quote q (by rcases hq with rfl | rfl <;> decide) rest
  | cons c s ih => rw [List.flatMap_cons, List.append_assoc, readPyString_reprChar pr q c hq, ih]; rfl

theorem reprQuote_cases (s : Str) : reprQuote s = '\'' ∨ reprQuote s = '"' := by
  unfold reprQuote; split <;> simp

theorem readWord_repr (pr : Char → Bool) (w : CmdWord) (rest : Str) : readWord (w.repr pr ++ rest) = some (w, rest) := by
  cases w with
  | str s =>
    have b := readPyString_body pr (reprQuote s) (reprQuote_cases s) s rest
    simp only [CmdWord.repr, strRepr, List.cons_append, List.append_assoc, List.nil_append]
    rcases reprQuote_cases s with e | e <;> rw [e] at b ⊢ <;> rw [readWord, b] <;> rfl
  | path s =>
    have b := readPyString_body pr (reprQuote s) (reprQuote_cases s) s (')' :: rest)
    simp only [CmdWord.repr, strRepr, List.cons_append, List.append_assoc, List.nil_append]
    rcases reprQuote_cases s with e | e <;> rw [e] at b ⊢ <;> rw [readWord, if_pos (by decide), b] <;> rfl

theorem readWords_cons (close : Char) (n : Nat) (s : Str) (w : CmdWord) (more : Str) (h : readWord s = some (w, ',' :: ' ' :: more)) :
    readWords close (n + 1) s = (readWords close n more).map fun r => (w :: r.1, r.2) := by
  rw [readWords, h]; rfl

theorem readWords_end (close : Char) (hc : close ≠ ',') (n : Nat) (s : Str) (w : CmdWord) (more : Str)
    (h : readWord s = some (w, close :: more)) : readWords close (n + 1) s = some ([w], more) := by
  rw [readWords, h]
  simp only
  split
  · rename_i e; cases e; exact absurd rfl hc
  · rename_i e; cases e; exact absurd rfl hc
  · rename_i e; cases e; rw [if_pos rfl]
  · rename_i e; cases e

theorem readWords_comma (n : Nat) (s : Str) (w : CmdWord) (more : Str)
    (h : readWord s = some (w, ',' :: ')' :: more)) : readWords ')' (n + 1) s = some ([w], more) := by
  rw [readWords, h]; rfl

theorem readWords_join (pr : Char → Bool) (close : Char) (hc : close ≠ ',') (w : CmdWord) (ws : List CmdWord) (n : Nat)
    (hn : ws.length < n) (rest : Str) :
    readWords close n (joinWith cs!", " ((w :: ws).map (CmdWord.repr pr)) ++ close :: rest) = some (w :: ws, rest) := by
  induction ws generalizing w n with
  | nil =>
    obtain ⟨n, rfl⟩ : ∃ m, n = m + 1 := ⟨n - 1, by simp at hn; omega⟩
    simp only [List.map_cons, List.map_nil, joinWith]
    exact readWords_end close hc n _ w rest (readWord_repr pr w _)
  | cons v ws ih =>
    obtain ⟨n, rfl⟩ : ∃ m, n = m + 1 := ⟨n - 1, by simp at hn; omega⟩
    simp only [List.map_cons, joinWith, List.append_assoc, List.cons_append, List.nil_append]
    rw [readWords_cons close n _ w _ (readWord_repr pr w _)]
    have := ih v n (by simp at hn; omega)
    simp only [List.map_cons] at this
    rw [this]; rfl

theorem repr_head (pr : Char → Bool) (w : CmdWord) : ∃ c t, w.repr pr = c :: t ∧ c ≠ ']' ∧ c ≠ ')' := by
  cases w with
  | str s =>
    refine ⟨reprQuote s, _, rfl, ?_⟩
    rcases reprQuote_cases s with e | e <;> rw [e] <;> decide
  | path s => exact ⟨'P', _, rfl, by decide⟩

theorem joinRepr_head (pr : Char → Bool) (w : CmdWord) (ws : List CmdWord) (rest : Str) :
    ∃ c t, joinWith cs!", " ((w :: ws).map (CmdWord.repr pr)) ++ rest = c :: t ∧ c ≠ ']' ∧ c ≠ ')' := by
  obtain ⟨c, t, e, h⟩ := repr_head pr w
  cases ws with
  | nil => exact ⟨c, t ++ rest, by simp [joinWith, e], h⟩
  | cons v ws =>
    refine ⟨c, t ++ (cs!", " ++ joinWith cs!", " ((v :: ws).map (CmdWord.repr pr)) ++ rest), ?_, h⟩
    simp [joinWith, e]

theorem length_join (pr : Char → Bool) (ws : List CmdWord) :
    ws.length ≤ (joinWith cs!", " (ws.map (CmdWord.repr pr))).length + 1 := by
  induction ws with
  | nil => simp
  | cons w ws ih =>
    cases ws with
    | nil => simp
    | cons v ws =>
      simp only [List.map_cons, joinWith, List.length_append, List.length_cons, List.length_nil] at ih ⊢
      omega

theorem readCommand_list (pr : Char → Bool) (ws : List CmdWord) (rest : Str) :
    readCommand ((CmdArg.list ws).shown pr ++ rest) = some (.list ws, rest) := by
  cases ws with
  | nil => rfl
  | cons w ws =>
    obtain ⟨c, t, e, h1, h2⟩ := joinRepr_head pr w ws (']' :: rest)
    have r := readWords_join pr ']' (by decide) w ws
      ((joinWith cs!", " ((w :: ws).map (CmdWord.repr pr)) ++ ']' :: rest).length + 1)
      (by have := length_join pr (w :: ws); simp only [List.length_append, List.length_cons] at this ⊢; omega) rest
    simp only [CmdArg.shown, List.cons_append, List.append_assoc, List.nil_append]
    rw [e] at r ⊢
    rw [readCommand, r]
    · rfl
    · intro x hx; cases hx; exact h1 rfl

theorem readCommand_tuple (pr : Char → Bool) (ws : List CmdWord) (rest : Str) :
    readCommand ((CmdArg.tuple ws).shown pr ++ rest) = some (.tuple ws, rest) := by
  match ws with
  | [] => rfl
  | [w] =>
    obtain ⟨c, t, e, h1, h2⟩ := repr_head pr w
    have r := readWord_repr pr w (',' :: ')' :: rest)
    simp only [CmdArg.shown, List.cons_append, List.append_assoc, List.nil_append]
    rw [e, List.cons_append] at r ⊢
    rw [readCommand, readWords_comma _ _ w rest r]
    · rfl
    · intro x hx; cases hx; exact h2 rfl
  | w :: v :: ws =>
    obtain ⟨c, t, e, h1, h2⟩ := joinRepr_head pr w (v :: ws) (')' :: rest)
    have r := readWords_join pr ')' (by decide) w (v :: ws)
      ((joinWith cs!", " ((w :: v :: ws).map (CmdWord.repr pr)) ++ ')' :: rest).length + 1)
      (by have := length_join pr (w :: v :: ws); simp only [List.length_append, List.length_cons] at this ⊢; omega) rest
    simp only [CmdArg.shown, List.cons_append, List.append_assoc, List.nil_append]
    rw [e] at r ⊢
    rw [readCommand, r]
    · rfl
    · intro x hx; cases hx; exact h2 rfl

/-! ## Numbers -/

theorem readInt_repr (n : Int) (rest : Str) : readInt (intRepr n ++ ':' :: rest) = (n, ':' :: rest) := by
  have tw : (natRepr n.natAbs ++ ':' :: rest).takeWhile isDigit = natRepr n.natAbs := by
    rw [List.takeWhile_append_of_pos (natRepr_all_digits _), List.takeWhile_cons_of_neg (by decide), List.append_nil]
  have dw : (natRepr n.natAbs ++ ':' :: rest).dropWhile isDigit = ':' :: rest := by
    rw [List.dropWhile_append_of_pos (natRepr_all_digits _), List.dropWhile_cons_of_neg (by decide)]
  have v : decimal (natRepr n.natAbs) = n.natAbs := by rw [decimal_eq, natOfDigits_natRepr]
  unfold intRepr
  by_cases h : n < 0
  · rw [if_pos h, List.cons_append, readInt, tw, dw, v]
    congr 1; omega
  · rw [if_neg h]
    obtain ⟨d, ds, e⟩ : ∃ d ds, natRepr n.natAbs = d :: ds := by
      cases e : natRepr n.natAbs with
      | nil => exact absurd e (natRepr_ne_nil _)
      | cons d ds => exact ⟨d, ds, rfl⟩
    have hd := natRepr_all_digits n.natAbs d (by rw [e]; simp)
    rw [readInt]
    · rw [tw, dw, v]; congr 1; omega
    · intro t ht; rw [e] at ht; cases ht; revert hd; decide

/-! ## Lines -/

/-- lines as cut by `splitlines(True)` -/
inductive CutLines : List Str → Prop
  | nil : CutLines []
  | last (b : Str) (hb : ∀ c ∈ b, isLineEnd c = false) (h : b ≠ []) : CutLines [b]
  | crlf (b : Str) (hb : ∀ c ∈ b, isLineEnd c = false) (ls : List Str) (h : CutLines ls) : CutLines ((b ++ ['\r', '\n']) :: ls)
  | one (b : Str) (hb : ∀ c ∈ b, isLineEnd c = false) (c : Char) (hc : isLineEnd c = true) (ls : List Str)
      (hr : c = '\r' → ∀ t, ls.flatten ≠ '\n' :: t) (h : CutLines ls) : CutLines ((b ++ [c]) :: ls)

theorem keepLinesGo_body (b rest cur : Str) (hb : ∀ c ∈ b, isLineEnd c = false) :
    keepLinesGo (b ++ rest) cur = keepLinesGo rest (cur ++ b) := by
  induction b generalizing cur with
  | nil => simp
  | cons c b ih =>
    have hc := hb c (by simp)
    rw [List.cons_append, keepLinesGo]
    · rw [hc]
      simp only [Bool.false_eq_true, if_false]
      rw [ih _ fun x hx => hb x (by simp [hx])]
      simp
    · intro cs e; cases e; simp [isLineEnd] at hc

theorem keepLines_cut (ls : List Str) (h : CutLines ls) : keepLines ls.flatten = ls := by
  unfold keepLines
  induction h with
  | nil => rfl
  | last b hb h =>
    rw [List.flatten_cons, List.flatten_nil, keepLinesGo_body _ _ _ hb, List.nil_append, keepLinesGo]
    simp [h]
  | crlf b hb ls _ ih =>
    rw [List.flatten_cons, List.append_assoc, keepLinesGo_body _ _ _ hb, List.nil_append]
    simp only [List.cons_append, List.nil_append]
    rw [keepLinesGo, ih]
  | one b hb c hc ls hr _ ih =>
    rw [List.flatten_cons, List.append_assoc, keepLinesGo_body _ _ _ hb, List.nil_append]
    simp only [List.cons_append, List.nil_append]
    rw [keepLinesGo, hc, if_pos rfl, ih]
    intro cs e1 e2
    exact hr e1 cs e2

theorem keepLinesGo_flatten (s cur : Str) : (keepLinesGo s cur).flatten = cur ++ s := by
  fun_induction keepLinesGo s cur with
  | case1 cur h => simp_all
  | case2 cur h => simp
  | case3 cur cs ih => simp [ih]
  | case4 cur c cs _ h ih => simp [ih]
  | case5 cur c cs _ h ih => simp [ih]

theorem keepLinesGo_isCut (s cur : Str) (hcur : ∀ c ∈ cur, isLineEnd c = false) : CutLines (keepLinesGo s cur) := by
  fun_induction keepLinesGo s cur with
  | case1 cur h => exact .nil
  | case2 cur h => exact .last cur hcur (by simpa using h)
  | case3 cs cur ih => exact .crlf cur hcur _ (ih (by simp))
  | case4 c cs cur hne h ih =>
    refine .one cur hcur c h _ ?_ (ih (by simp))
    intro e t ht
    rw [keepLinesGo_flatten, List.nil_append] at ht
    exact hne _ e ht
  | case5 c cs cur _ h ih =>
    refine ih ?_
    intro x hx
    rcases List.mem_append.1 hx with hx | hx
    · exact hcur x hx
    · simp only [List.mem_singleton] at hx; subst hx; simpa using h

theorem strip_ne_nil (l : Str) : strip l ≠ [] ↔ l.any (fun c => !isSpace c) = true := by
  constructor
  · intro h
    refine Classical.byContradiction fun hn => h ?_
    unfold strip
    rw [lstrip_all_space l]
    · rfl
    intro c hc
    simp only [List.any_eq_true, Bool.not_eq_true', not_exists, not_and, Bool.not_eq_false] at hn
    exact hn c hc
  · intro h e
    obtain ⟨a, b, hs, ha, hb, _⟩ := strip_decomp l
    rw [e, List.append_nil] at hs
    obtain ⟨c, hc, hn⟩ := List.any_eq_true.1 h
    rw [hs] at hc
    rcases List.mem_append.1 hc with hc | hc
    · simp [ha c hc] at hn
    · simp [hb c hc] at hn

theorem cut_ne_nil (ls : List Str) (h : CutLines ls) : ∀ l ∈ ls, l ≠ [] := by
  induction h with
  | nil => simp
  | last b hb h => intro l hl; simp only [List.mem_singleton] at hl; subst hl; exact h
  | crlf b hb ls _ ih =>
    intro l hl
    rcases List.mem_cons.1 hl with rfl | hl
    · simp
    · exact ih l hl
  | one b hb c hc ls hr _ ih =>
    intro l hl
    rcases List.mem_cons.1 hl with rfl | hl
    · simp
    · exact ih l hl

/-- indentation of a line -/
def tabbed (l : Str) : Str := if l.any (fun c => !isSpace c) = true then '\t' :: l else l

theorem tabbed_cut (ls : List Str) (h : CutLines ls) : CutLines (ls.map tabbed) := by
  have ht : isLineEnd '\t' = false := by decide
  have hbody : ∀ b : Str, (∀ c ∈ b, isLineEnd c = false) → ∀ c ∈ '\t' :: b, isLineEnd c = false := by
    intro b hb c hc
    rcases List.mem_cons.1 hc with rfl | hc
    · exact ht
    · exact hb c hc
  induction h with
  | nil => exact .nil
  | last b hb h =>
    simp only [List.map_cons, List.map_nil]
    unfold tabbed
    split
    · exact .last _ (hbody b hb) (by simp)
    · exact .last _ hb h
  | crlf b hb ls _ ih =>
    simp only [List.map_cons]
    conv => arg 1; arg 1; unfold tabbed
    split
    · exact .crlf ('\t' :: b) (hbody b hb) _ ih
    · exact .crlf b hb _ ih
  | one b hb c hc ls hr hls ih =>
    have hr' : c = '\r' → ∀ t, (ls.map tabbed).flatten ≠ '\n' :: t := by
      intro e t
      cases ls with
      | nil => simp
      | cons l ls =>
        cases l with
        | nil =>
          exact absurd rfl (cut_ne_nil _ hls [] (by simp))
        | cons x l =>
          have hx : x ≠ '\n' := fun ex => hr e (l ++ ls.flatten) (by simp [ex])
          simp only [List.map_cons, List.flatten_cons]
          unfold tabbed
          split
          · simp
          · intro e2
            cases e2
            exact hx rfl
    simp only [List.map_cons]
    conv => arg 1; arg 1; unfold tabbed
    split
    · exact .one ('\t' :: b) (hbody b hb) c hc _ hr' ih
    · exact .one b hb c hc _ hr' ih

theorem indentTab_eq (s : Str) : indentTab s = ((keepLines s).map tabbed).flatten := by
  unfold indentTab
  rw [List.flatMap]
  congr 2
  funext l
  unfold tabbed
  simp only [strip_ne_nil]

theorem unindent_indent (s : Str) : unindent (indentTab s) = s := by
  rw [indentTab_eq]
  unfold unindent
  rw [keepLines_cut _ (tabbed_cut (keepLines s) (keepLinesGo_isCut s [] (by simp))), List.flatMap, List.map_map]
  have e : ((fun l : Str => if (l.any fun c => !isSpace c) = true then List.drop 1 l else l) ∘ tabbed) = id := by
    funext l
    by_cases h : (l.any fun c => !isSpace c) = true
    · have t : tabbed l = '\t' :: l := if_pos h
      simp only [Function.comp, id, t]
      rw [if_pos (by simp only [List.any_cons, h, Bool.or_true])]; rfl
    · have t : tabbed l = l := if_neg h
      simp only [Function.comp, id, t]
      rw [if_neg h]
  rw [e, List.map_id]
  exact keepLinesGo_flatten s []

end Verif
