import Verif.Lemmas.Rg
/-! # Lemmas for C100 -/
set_option autoImplicit false

namespace Verif
open Spec

/-! ## Blanks at the end of a row -/

theorem brstrip_split (s : Str) : ∃ b, s = brstrip s ++ b ∧ ∀ c ∈ b, isBSpace c = true := by
  refine ⟨(s.reverse.takeWhile isBSpace).reverse, ?_, ?_⟩
  · unfold brstrip
    rw [← List.reverse_append, List.takeWhile_append_dropWhile, List.reverse_reverse]
  · intro c hc
    rw [List.mem_reverse] at hc
    exact List.all_eq_true.1 List.all_takeWhile c hc

theorem brstrip_prefix (s : Str) : brstrip s <+: s := by
  obtain ⟨b, h, -⟩ := brstrip_split s
  exact ⟨b, h.symm⟩

/-- what ends with a character that is not a blank is kept -/
theorem prefix_brstrip (p s : Str) (x : Char) (hx : isBSpace x = false) (h : p ++ [x] <+: s) : p ++ [x] <+: brstrip s := by
  obtain ⟨b, hs, hb⟩ := brstrip_split s
  rcases Nat.lt_or_ge p.length (brstrip s).length with hl | hl
  · exact List.prefix_of_prefix_length_le h (brstrip_prefix s) (by simp; omega)
  · exfalso
    have hget : s[p.length]? = some x := by
      obtain ⟨t, rfl⟩ := h
      simp
    rw [hs, List.getElem?_append_right hl] at hget
    have := hb x (List.mem_of_getElem? hget)
    rw [hx] at this; cases this

theorem prefix_brstrip_iff (p s : Str) (x : Char) (hx : isBSpace x = false) : p ++ [x] <+: brstrip s ↔ p ++ [x] <+: s :=
  ⟨fun h => h.trans (brstrip_prefix s), prefix_brstrip p s x hx⟩

theorem infix_brstrip_iff (p s : Str) (x : Char) (hx : isBSpace x = false) : p ++ [x] <:+: brstrip s ↔ p ++ [x] <:+: s := by
  constructor
  · exact fun h => h.trans (brstrip_prefix s).isInfix
  · rintro ⟨u, v, h⟩
    have hp : (u ++ p) ++ [x] <+: s := ⟨v, by simpa [List.append_assoc] using h⟩
    obtain ⟨w, hw⟩ := prefix_brstrip _ _ _ hx hp
    exact ⟨u, w, by simpa [List.append_assoc] using hw⟩

theorem brstrip_append (p s : Str) (x : Char) (hx : isBSpace x = false) : brstrip (p ++ x :: s) = p ++ x :: brstrip s := by
  unfold brstrip
  have hr : (p ++ x :: s).reverse = s.reverse ++ (x :: p.reverse) := by simp
  rw [hr, List.dropWhile_append]
  split
  · next h =>
    have he : s.reverse.dropWhile isBSpace = [] := by simpa using h
    rw [he, List.dropWhile_cons_of_neg (by simp [hx])]
    simp
  · simp

theorem rowOf_brstrip (a : Arch) (row name : Str) : RowOf a (brstrip row) name ↔ RowOf a row name := by
  constructor
  · rintro ⟨pre, stem, d, ws, x, rest, h1, h2, h3, h4, h5⟩
    obtain ⟨b, hs, -⟩ := brstrip_split row
    exact ⟨pre, stem, d, ws, x, rest ++ b, h1, h2, h3, h4, by rw [hs, h5]; simp [List.append_assoc]⟩
  · rintro ⟨pre, stem, d, ws, x, rest, h1, h2, h3, h4, h5⟩
    have hx : isBSpace x = false := by rcases h4 with rfl | rfl <;> decide
    refine ⟨pre, stem, d, ws, x, brstrip rest, h1, h2, h3, h4, ?_⟩
    have : row = (pre ++ cs!":" ++ stem ++ cs!"_DEFINE" ++ [d] ++ ws ++ cs!"(" ++ name) ++ x :: rest := by
      rw [h5]; simp [List.append_assoc]
    rw [this, brstrip_append _ _ _ hx]
    simp [List.append_assoc]

theorem grepKey_brstrip (a : Arch) (row : Str) : grepKey a (brstrip row) = grepKey a row := by
  have h1 : startsWith (brstrip row) cs!"arch" = startsWith row cs!"arch" := by
    rw [Bool.eq_iff_iff, startsWith_iff, startsWith_iff]
    exact prefix_brstrip_iff cs!"arc" row 'h' (by decide)
  have h2 : isInfix cs!"COMPAT" (brstrip row) = isInfix cs!"COMPAT" row := by
    rw [Bool.eq_iff_iff, isInfix_iff, isInfix_iff]
    exact infix_brstrip_iff cs!"COMPA" row 'T' (by decide)
  have h3 : isInfix cs!"SYSCALL32" (brstrip row) = isInfix cs!"SYSCALL32" row := by
    rw [Bool.eq_iff_iff, isInfix_iff, isInfix_iff]
    exact infix_brstrip_iff cs!"SYSCALL3" row '2' (by decide)
  simp only [grepKey, h1, h2, h3]

theorem splitChar_head (sep : Char) (g r : Str) : ∃ t, splitChar sep (g ++ sep :: r) = g.takeWhile (fun c => c ≠ sep) :: t := by
  induction g with
  | nil => exact ⟨_, by simp [splitChar]; rfl⟩
  | cons c g ih =>
    obtain ⟨t, ht⟩ := ih
    by_cases hc : c = sep
    · exact ⟨_, by simp [splitChar, hc]; rfl⟩
    · refine ⟨t, ?_⟩
      simp [splitChar, hc, ht]

/-- only what is before the second colon counts -/
theorem rowLocation_text (kdir : Path) (f g r r' : Str) (hf : ':' ∉ f) :
    rowLocation kdir (f ++ ':' :: (g ++ ':' :: r)) = rowLocation kdir (f ++ ':' :: (g ++ ':' :: r')) := by
  unfold rowLocation
  rw [splitChar_append _ _ _ hf, splitChar_append _ _ _ hf]
  obtain ⟨t, ht⟩ := splitChar_head ':' g r
  obtain ⟨t', ht'⟩ := splitChar_head ':' g r'
  rw [ht, ht']

/-- a row with the two colons -/
def RowShape (row : Str) : Prop := ∃ f g r, ':' ∉ f ∧ row = f ++ ':' :: (g ++ ':' :: r)

theorem first_split (sep : Char) (s : Str) (h : sep ∈ s) : ∃ u v, sep ∉ u ∧ s = u ++ sep :: v := by
  induction s with
  | nil => cases h
  | cons c s ih =>
    by_cases hc : c = sep
    · exact ⟨[], s, by simp, by simp [hc]⟩
    · obtain ⟨u, v, hu, rfl⟩ := ih ((List.mem_cons.1 h).resolve_left fun e => hc e.symm)
      refine ⟨c :: u, v, ?_, rfl⟩
      intro hm
      exact (List.mem_cons.1 hm).elim (fun e => hc e.symm) hu

theorem rowShape_mk (p : Str) (n : Nat) (text : Str) : RowShape (p ++ cs!":" ++ natRepr n ++ cs!":" ++ text) := by
  by_cases h : ':' ∈ p
  · obtain ⟨u, v, hu, rfl⟩ := first_split ':' p h
    refine ⟨u, v ++ ':' :: natRepr n, text, hu, ?_⟩
    simp [List.append_assoc]
  · exact ⟨p, natRepr n, text, h, by simp [List.append_assoc]⟩

theorem rowLocation_brstrip (kdir : Path) (row : Str) (h : RowShape row) : rowLocation kdir (brstrip row) = rowLocation kdir row := by
  obtain ⟨f, g, r, hf, rfl⟩ := h
  rw [brstrip_append f _ ':' (by decide), brstrip_append g _ ':' (by decide)]
  exact rowLocation_text kdir f g _ _ hf

theorem grepMatch_brstrip (a : Arch) (kdir : Path) (rows : List Str) (todo : List Ref)
    (hid : ∀ r ∈ todo, Ident r.2.origname) (h : ∀ row ∈ rows, RowShape row) :
    grepMatch a kdir (rows.map brstrip) todo = grepMatch a kdir rows todo := by
  induction rows generalizing todo with
  | nil => rfl
  | cons row rows ih =>
    have hh : ∀ r ∈ todo, hits a (brstrip row) r = hits a row r := by
      intro r hr
      rw [Bool.eq_iff_iff]
      rw [syscallGrepRe_search a _ _ (hid r hr).2, syscallGrepRe_search a _ _ (hid r hr).2]
      exact rowOf_brstrip a row _
    have hf : todo.find? (hits a (brstrip row)) = todo.find? (hits a row) := by
      clear ih
      induction todo with
      | nil => rfl
      | cons r rs ih' =>
        simp only [List.find?_cons, hh r (by simp)]
        rw [ih' (fun x hx => hid x (by simp [hx])) fun x hx => hh x (by simp [hx])]
    have he : todo.eraseP (hits a (brstrip row)) = todo.eraseP (hits a row) := by
      clear ih hf
      induction todo with
      | nil => rfl
      | cons r rs ih' =>
        simp only [List.eraseP_cons, hh r (by simp)]
        rw [ih' (fun x hx => hid x (by simp [hx])) fun x hx => hh x (by simp [hx])]
    rw [List.map_cons, grepMatch_cons, grepMatch_cons, hf, he, rowLocation_brstrip kdir row (h row (by simp)),
      ih todo hid fun x hx => h x (by simp [hx]),
      ih _ (fun r hr => hid r (List.mem_of_mem_eraseP hr)) fun x hx => h x (by simp [hx])]

/-! ## splitlines -/

theorem splitLinesGo_line (l rest cur : Str) (h : ∀ c ∈ l, isLineEnd c = false) :
    splitLinesGo (l ++ '\n' :: rest) cur = (cur ++ l) :: splitLinesGo rest [] := by
  induction l generalizing cur with
  | nil =>
    rw [List.nil_append, splitLinesGo]
    · simp [isLineEnd]
    · intro cs h; cases h
  | cons c l ih =>
    have hc := h c (by simp)
    rw [List.cons_append, splitLinesGo]
    · rw [hc]
      simp only [Bool.false_eq_true, if_false]
      rw [ih _ fun x hx => h x (by simp [hx])]
      simp
    · intro cs e; cases e; simp [isLineEnd] at hc

theorem splitLines_lines (ls : List Str) (h : ∀ l ∈ ls, ∀ c ∈ l, isLineEnd c = false) :
    splitLines (ls.flatMap fun l => l ++ ['\n']) = ls := by
  unfold splitLines
  induction ls with
  | nil => rfl
  | cons l ls ih =>
    rw [List.flatMap_cons, List.append_assoc, List.singleton_append, splitLinesGo_line _ _ _ (h l (by simp)),
      ih fun x hx => h x (by simp [hx]), List.nil_append]

end Verif
