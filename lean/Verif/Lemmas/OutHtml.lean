import Verif.Lemmas.OutText
/-! # Lemmas about the HTML output (C72) -/
set_option autoImplicit false

namespace Verif
open Spec

/-- the cells read from a text, with a cell already begun -/
def rd (cur : Option (Nat × Str)) (x : Str) : List (Nat × Str) := readCells cur (tokens none x)

theorem rd_text (n : Nat) (s x r : Str) (h : '<' ∉ x) : rd (some (n, s)) (x ++ r) = rd (some (n, s ++ x)) r := by
  induction x generalizing s with
  | nil => simp
  | cons c x ih =>
    have hc : c ≠ '<' := fun e => h (by simp [e])
    have := ih (s ++ [c]) (fun hm => h (List.mem_cons_of_mem _ hm))
    rw [List.append_assoc, List.singleton_append] at this
    rw [← this]
    simp only [rd, List.cons_append, tokens, if_neg hc, readCells]

theorem rd_skip (x r : Str) (h : '<' ∉ x) : rd none (x ++ r) = rd none r := by
  induction x with
  | nil => rfl
  | cons c x ih =>
    have hc : c ≠ '<' := fun e => h (by simp [e])
    rw [← ih (fun hm => h (List.mem_cons_of_mem _ hm))]
    simp only [rd, List.cons_append, tokens, if_neg hc, readCells]

theorem tokens_tag (t0 t r : Str) (h : '>' ∉ t) : tokens (some t0) (t ++ '>' :: r) = .tag (t0 ++ t) :: tokens none r := by
  induction t generalizing t0 with
  | nil => simp [tokens]
  | cons c t ih =>
    have hc : c ≠ '>' := fun e => h (by simp [e])
    simp only [List.cons_append, tokens, if_neg hc]
    rw [ih _ (fun hm => h (List.mem_cons_of_mem _ hm))]
    simp

theorem rd_tag (cur : Option (Nat × Str)) (t r : Str) (h : '>' ∉ t) :
    rd cur ('<' :: (t ++ '>' :: r)) = readCells cur (.tag t :: tokens none r) := by
  simp only [rd, tokens, if_true]
  rw [tokens_tag _ _ _ h]
  rfl

theorem rd_open (t r : Str) (h : '>' ∉ t) (ho : opensCell t = true) :
    rd none ('<' :: (t ++ '>' :: r)) = rd (some (columns t, [])) r := by
  rw [rd_tag _ _ _ h]
  simp only [readCells, ho, if_true]
  rfl

theorem rd_other (cur : Option (Nat × Str)) (t r : Str) (h : '>' ∉ t) (ho : opensCell t = false) (hc : closesCell t = false) :
    rd cur ('<' :: (t ++ '>' :: r)) = rd cur r := by
  rw [rd_tag _ _ _ h]
  cases cur <;> simp [readCells, ho, hc, rd]

theorem rd_close (n : Nat) (s t r : Str) (h : '>' ∉ t) (ho : opensCell t = false) (hc : closesCell t = true) :
    rd (some (n, s)) ('<' :: (t ++ '>' :: r)) = (n, s) :: rd none r := by
  rw [rd_tag _ _ _ h]
  simp [readCells, ho, hc, rd]

/-! ## Escaping -/

theorem htmlEscape_safe (s : Str) : '<' ∉ htmlEscape s ∧ '>' ∉ htmlEscape s := by
  have key : ∀ c, '<' ∉ htmlEscapeChar c ∧ '>' ∉ htmlEscapeChar c := by
    intro c
    unfold htmlEscapeChar
    split; · decide
    split; · decide
    split; · decide
    split; · decide
    split; · decide
    · next h1 h2 h3 _ _ => simp; exact ⟨fun e => h3 e.symm, fun e => h2 e.symm⟩
  constructor
  · intro h
    obtain ⟨c, _, hc⟩ := List.mem_flatMap.1 h
    exact (key c).1 hc
  · intro h
    obtain ⟨c, _, hc⟩ := List.mem_flatMap.1 h
    exact (key c).2 hc

theorem decodeRefs_escape (s r : Str) : decodeRefs 0 (htmlEscape s ++ r) = s ++ decodeRefs 0 r := by
  induction s with
  | nil => rfl
  | cons c s ih =>
    have : htmlEscape (c :: s) = htmlEscapeChar c ++ htmlEscape s := rfl
    rw [this, List.append_assoc, List.cons_append, ← ih]
    generalize htmlEscape s ++ r = t
    unfold htmlEscapeChar
    split; · next h => subst h; rfl
    split; · next h => subst h; rfl
    split; · next h => subst h; rfl
    split; · next h => subst h; rfl
    split; · next h => subst h; rfl
    · next h _ _ _ _ =>
      have hp : ∀ p : Str, List.isPrefixOf ('&' :: p) (c :: t) = false := by
        intro p
        simp [List.isPrefixOf]
        intro e; exact absurd e.symm h
      simp only [List.singleton_append, decodeRefs, hp]
      rfl

theorem decodeRefs_htmlEscape (s : Str) : decodeRefs 0 (htmlEscape s) = s := by
  have := decodeRefs_escape s []
  simpa [decodeRefs] using this

theorem decodeRefs_plain (s : Str) (h : '&' ∉ s) (r : Str) : decodeRefs 0 (s ++ r) = s ++ decodeRefs 0 r := by
  induction s with
  | nil => rfl
  | cons c s ih =>
    have hc : c ≠ '&' := fun e => h (by simp [e])
    have hp : ∀ p : Str, List.isPrefixOf ('&' :: p) (c :: (s ++ r)) = false := by
      intro p
      simp [List.isPrefixOf]
      intro e; exact absurd e.symm hc
    rw [List.cons_append, List.cons_append, ← ih (fun hm => h (List.mem_cons_of_mem _ hm))]
    simp only [decodeRefs, hp]
    rfl

theorem digits_safe (n : Nat) : '<' ∉ natRepr n ∧ '>' ∉ natRepr n ∧ '&' ∉ natRepr n := by
  refine ⟨fun h => ?_, fun h => ?_, fun h => ?_⟩ <;>
    (have := natRepr_all_digits n _ h; simp [isDigit] at this)

theorem hexStr_safe (n : Nat) : '<' ∉ hexStr n := by
  intro h
  rcases List.mem_append.1 h with h | h
  · simp at h
  · have := toDigits16_hex n _ h
    simp [isHexDigit] at this

/-! ## Columns -/

/-- HTML columns of `colspan="n"` -/
def spanOf (n : Nat) : Nat := if n = 0 then 1 else n

theorem columns_colspan (n : Nat) (rest : Str) (hr : ∀ c t, rest = c :: t → isDigit c = false) :
    columns (cs!"td colspan=\"" ++ natRepr n ++ rest) = spanOf n := by
  have h : colspanAttr (cs!"td colspan=\"" ++ natRepr n ++ rest) = some n := by
    have e : cs!"td colspan=\"" ++ natRepr n ++ rest = 't' :: 'd' :: ' ' :: (cs!"colspan=\"" ++ (natRepr n ++ rest)) := by simp
    rw [e, colspanAttr, if_neg (by simp), colspanAttr, if_neg (by simp), colspanAttr, if_neg (by simp)]
    rw [show cs!"colspan=\"" ++ (natRepr n ++ rest) = 'c' :: (cs!"olspan=\"" ++ (natRepr n ++ rest)) from rfl, colspanAttr]
    rw [if_pos (by simp)]
    have : List.drop 9 ('c' :: (cs!"olspan=\"" ++ (natRepr n ++ rest))) = natRepr n ++ rest := rfl
    rw [this, takeWhile_append_stop isDigit _ _ (natRepr_all_digits n) (fun x xs h => hr x xs h), natOfDigits_natRepr]
  rw [columns, h]
  cases n <;> simp [spanOf]

/-! ## Pieces of a row -/

/-- a piece of HTML outside of any cell that contains the given cells -/
def Reads (piece : Str) (cells : List (Nat × Str)) : Prop := ∀ rest, rd none (piece ++ rest) = cells ++ rd none rest

theorem Reads.append {a b : Str} {ca cb : List (Nat × Str)} (ha : Reads a ca) (hb : Reads b cb) : Reads (a ++ b) (ca ++ cb) := by
  intro rest
  rw [List.append_assoc, ha, hb, List.append_assoc]

theorem Reads.nil : Reads [] [] := fun _ => rfl

theorem Reads.text {x : Str} (h : '<' ∉ x) : Reads x [] := fun rest => rd_skip x rest h

theorem Reads.whole {x : Str} {cells : List (Nat × Str)} (h : Reads x cells) : cellsOfRow x = cells := by
  have := h []
  rw [List.append_nil] at this
  unfold cellsOfRow
  rw [show readCells none (tokens none x) = rd none x from rfl, this]
  simp [rd, tokens, readCells]

theorem Reads.other {t : Str} (h : '>' ∉ t) (ho : opensCell t = false) (hc : closesCell t = false) :
    Reads ('<' :: t ++ cs!">") [] := by
  intro rest
  have := rd_other none t rest h ho hc
  simpa using this

/-- a body of a cell: text and tags that are not cells -/
inductive Body : Str → Str → Prop where
  | nil : Body [] []
  | text {x b v : Str} : '<' ∉ x → Body b v → Body (x ++ b) (x ++ v)
  | tag {t b v : Str} : '>' ∉ t → opensCell t = false → closesCell t = false → Body b v → Body (('<' :: (t ++ cs!">")) ++ b) v

theorem Body.append {a b va vb : Str} (ha : Body a va) (hb : Body b vb) : Body (a ++ b) (va ++ vb) := by
  induction ha with
  | nil => exact hb
  | text h _ ih => rw [List.append_assoc, List.append_assoc]; exact .text h ih
  | tag h1 h2 h3 _ ih => rw [List.append_assoc]; exact .tag h1 h2 h3 ih

theorem Body.of {x : Str} (h : '<' ∉ x) : Body x x := by
  have := Body.text h .nil
  simpa using this

theorem Body.of_tag {t : Str} (h : '>' ∉ t) (ho : opensCell t = false) (hc : closesCell t = false) : Body ('<' :: (t ++ cs!">")) [] := by
  have := Body.tag h ho hc .nil
  simpa using this

theorem rd_body {b v : Str} (h : Body b v) (n : Nat) (s r : Str) : rd (some (n, s)) (b ++ r) = rd (some (n, s ++ v)) r := by
  induction h generalizing s with
  | nil => simp
  | text hx _ ih => rw [List.append_assoc, rd_text _ _ _ _ hx, ih, List.append_assoc]
  | @tag t b v h1 h2 h3 _ ih =>
    rw [List.append_assoc, ← ih]
    have := rd_other (some (n, s)) t (b ++ r) h1 h2 h3
    simpa using this

theorem reads_cell (ind t body v : Str) (hi : '<' ∉ ind) (ht : '>' ∉ t) (ho : opensCell t = true) (hb : Body body v) :
    Reads (ind ++ ('<' :: (t ++ cs!">")) ++ body ++ cs!"</td>\n") [(columns t, v)] := by
  intro rest
  have e : ind ++ ('<' :: (t ++ cs!">")) ++ body ++ cs!"</td>\n" ++ rest
      = ind ++ ('<' :: (t ++ '>' :: (body ++ ('<' :: (cs!"/td" ++ '>' :: ('\n' :: rest)))))) := by simp
  rw [e, rd_skip _ _ hi, rd_open _ _ ht ho, rd_body hb, List.nil_append, rd_close _ _ _ _ (by decide) (by decide) (by decide)]
  have := rd_skip cs!"\n" rest (by decide)
  rw [show '\n' :: rest = cs!"\n" ++ rest from rfl, this]
  rfl

theorem reads_hcell (ind t body v : Str) (hi : '<' ∉ ind) (ht : '>' ∉ t) (ho : opensCell t = true) (hb : Body body v) :
    Reads (ind ++ ('<' :: (t ++ cs!">")) ++ body ++ cs!"</th>\n") [(columns t, v)] := by
  intro rest
  have e : ind ++ ('<' :: (t ++ cs!">")) ++ body ++ cs!"</th>\n" ++ rest
      = ind ++ ('<' :: (t ++ '>' :: (body ++ ('<' :: (cs!"/th" ++ '>' :: ('\n' :: rest)))))) := by simp
  rw [e, rd_skip _ _ hi, rd_open _ _ ht ho, rd_body hb, List.nil_append, rd_close _ _ _ _ (by decide) (by decide) (by decide)]
  have := rd_skip cs!"\n" rest (by decide)
  rw [show '\n' :: rest = cs!"\n" ++ rest from rfl, this]
  rfl

/-- the indentation of the cells -/
abbrev ind5 : Str := cs!"\t\t\t\t\t"

/-! ## Arguments -/

theorem reads_arg (arg : Str) : ∃ v, Reads (htmlArg arg) [(1, v)] ∧ decodeRefs 0 v = arg := by
  refine ⟨htmlEscape (arg.take (argCut arg)) ++ htmlEscape (arg.drop (argCut arg)), ?_, ?_⟩
  · have hb : Body (('<' :: (cs!"span class=\"argtype\"" ++ cs!">")) ++ (htmlEscape (arg.take (argCut arg)) ++ (('<' :: (cs!"/span" ++ cs!">")) ++
        (('<' :: (cs!"span class=\"argname\"" ++ cs!">")) ++ (htmlEscape (arg.drop (argCut arg)) ++ ('<' :: (cs!"/span" ++ cs!">")))))))
        ([] ++ (htmlEscape (arg.take (argCut arg)) ++ ([] ++ ([] ++ (htmlEscape (arg.drop (argCut arg)) ++ []))))) :=
      (Body.of_tag (by decide) (by decide) (by decide)).append ((Body.of (htmlEscape_safe _).1).append
        ((Body.of_tag (by decide) (by decide) (by decide)).append ((Body.of_tag (by decide) (by decide) (by decide)).append
          ((Body.of (htmlEscape_safe _).1).append (Body.of_tag (by decide) (by decide) (by decide))))))
    have := reads_cell ind5 cs!"td" _ _ (by decide) (by decide) (by decide) hb
    have hcol : columns cs!"td" = 1 := by decide
    rw [hcol] at this
    have e : htmlArg arg = ind5 ++ ('<' :: (cs!"td" ++ cs!">")) ++ (('<' :: (cs!"span class=\"argtype\"" ++ cs!">")) ++ (htmlEscape (arg.take (argCut arg)) ++ (('<' :: (cs!"/span" ++ cs!">")) ++
        (('<' :: (cs!"span class=\"argname\"" ++ cs!">")) ++ (htmlEscape (arg.drop (argCut arg)) ++ ('<' :: (cs!"/span" ++ cs!">"))))))) ++ cs!"</td>\n" := by
      simp [htmlArg]
    rw [e]
    simpa using this
  · rw [decodeRefs_escape, decodeRefs_htmlEscape, List.take_append_drop]

theorem reads_args (sig : List Str) :
    ∃ cells, Reads (sig.flatMap htmlArg) cells ∧ cells.map (fun c => (c.1, decodeRefs 0 c.2)) = sig.map fun arg => (1, arg) := by
  induction sig with
  | nil => exact ⟨[], .nil, rfl⟩
  | cons a sig ih =>
    obtain ⟨cells, hr, hm⟩ := ih
    obtain ⟨v, hv, hd⟩ := reads_arg a
    refine ⟨[(1, v)] ++ cells, ?_, ?_⟩
    · rw [List.flatMap_cons]; exact hv.append hr
    · simp [hm, hd]

theorem sum_of_map {cells : List (Nat × Str)} {sig : List Str}
    (h : cells.map (fun c => (c.1, decodeRefs 0 c.2)) = sig.map fun arg => (1, arg)) :
    (cells.map Prod.fst).sum = sig.length ∧ cells.length = sig.length := by
  have hl : cells.length = sig.length := by simpa using congrArg List.length h
  refine ⟨?_, hl⟩
  have h2 := congrArg (List.map Prod.fst) h
  simp only [List.map_map, Function.comp_def] at h2
  have h3 : (cells.map Prod.fst) = sig.map fun _ => 1 := h2
  rw [h3, List.map_const', List.sum_replicate_nat]
  simp

theorem reads_signature (m : Nat) (sc : Syscall) (hm : ∀ sig, sc.signature = some sig → sig.length ≤ m) :
    ∃ cells, Reads (htmlSignature m sc) cells ∧ SignatureCells sc cells ∧
      (cells.map Prod.fst).sum = if sc.signature = none ∨ sc.signature = some [] then spanOf m else m := by
  cases hs : sc.signature with
  | none =>
    have hcol := columns_colspan m cs!"\" class=\"unknown\"" (by intro c t h; injection h with h _; subst h; rfl)
    have hg : '>' ∉ cs!"td colspan=\"" ++ natRepr m ++ cs!"\" class=\"unknown\"" := by
      simp [(digits_safe m).2.1]
    have := reads_cell ind5 (cs!"td colspan=\"" ++ natRepr m ++ cs!"\" class=\"unknown\"") cs!"unknown signature" _ (by decide) hg rfl
      (Body.of (by decide))
    rw [hcol] at this
    refine ⟨[(spanOf m, cs!"unknown signature")], ?_, ⟨fun _ => rfl, fun h => ?_, fun sig h => ?_⟩, ?_⟩
    · simp only [htmlSignature, hs]
      simpa using this
    · rw [hs] at h; cases h
    · rw [hs] at h; cases h
    · simp
  | some sig =>
    cases sig with
    | nil =>
      have hcol := columns_colspan m cs!"\"" (by intro c t h; injection h with h _; subst h; rfl)
      have hg : '>' ∉ cs!"td colspan=\"" ++ natRepr m ++ cs!"\"" := by simp [(digits_safe m).2.1]
      have hb : Body (('<' :: (cs!"span class=\"argtype\"" ++ cs!">")) ++ (cs!"void" ++ ('<' :: (cs!"/span" ++ cs!">")))) ([] ++ (cs!"void" ++ [])) :=
        (Body.of_tag (by decide) (by decide) (by decide)).append ((Body.of (by decide)).append
          (Body.of_tag (by decide) (by decide) (by decide)))
      have := reads_cell ind5 (cs!"td colspan=\"" ++ natRepr m ++ cs!"\"") _ _ (by decide) hg rfl hb
      rw [hcol] at this
      refine ⟨[(spanOf m, cs!"void")], ?_, ⟨fun h => ?_, fun _ => rfl, fun sig h hne => ?_⟩, ?_⟩
      · simp only [htmlSignature, hs]
        simpa using this
      · rw [hs] at h; cases h
      · rw [hs] at h; injection h with h; exact absurd h.symm hne
      · simp
    | cons a as =>
      obtain ⟨cells, hr, hmap⟩ := reads_args (a :: as)
      obtain ⟨hsum, hlen⟩ := sum_of_map hmap
      have hle := hm _ hs
      have hsig : htmlSignature m sc = (a :: as).flatMap htmlArg ++
          (if (a :: as).length < m then
            cs!"\t\t\t\t\t<td colspan=\"" ++ natRepr (m - (a :: as).length) ++ cs!"\"></td>\n"
          else []) := by simp only [htmlSignature, hs]
      rw [hsig]
      have hne : ¬ (some (a :: as) = none ∨ some (a :: as) = some []) := by simp
      rw [if_neg hne]
      by_cases hlt : (a :: as).length < m
      · rw [if_pos hlt]
        have hcol := columns_colspan (m - (a :: as).length) cs!"\"" (by intro c t h; injection h with h _; subst h; rfl)
        have hg : '>' ∉ cs!"td colspan=\"" ++ natRepr (m - (a :: as).length) ++ cs!"\"" := by
          simp only [List.mem_append, not_or]
          exact ⟨⟨by decide, (digits_safe _).2.1⟩, by decide⟩
        have := reads_cell ind5 (cs!"td colspan=\"" ++ natRepr (m - (a :: as).length) ++ cs!"\"") [] [] (by decide) hg rfl .nil
        rw [hcol] at this
        have hspan : spanOf (m - (a :: as).length) = m - (a :: as).length := if_neg (by omega)
        rw [hspan] at this
        refine ⟨cells ++ [(m - (a :: as).length, [])], hr.append ?_, ⟨fun h => ?_, fun h => ?_, fun sig h _ => ?_⟩, ?_⟩
        · have e : cs!"\t\t\t\t\t<td colspan=\"" ++ natRepr (m - (a :: as).length) ++ cs!"\"></td>\n"
              = ind5 ++ ('<' :: ((cs!"td colspan=\"" ++ natRepr (m - (a :: as).length) ++ cs!"\"") ++ cs!">")) ++ [] ++ cs!"</td>\n" := by
            simp
          rw [e]; exact this
        · rw [hs] at h; cases h
        · rw [hs] at h; cases h
        · rw [hs] at h; injection h with h; subst h
          refine ⟨[(m - (a :: as).length, [])], ?_, Or.inr ⟨_, rfl⟩, ?_⟩
          · rw [← hlen, List.take_left]
          · rw [← hlen, List.take_left]; exact hmap
        · rw [List.map_append, List.sum_append, hsum]; simp only [List.map_cons, List.map_nil, List.sum_cons, List.sum_nil]; omega
      · rw [if_neg hlt]
        refine ⟨cells, by simpa using hr, ⟨fun h => ?_, fun h => ?_, fun sig h _ => ?_⟩, ?_⟩
        · rw [hs] at h; cases h
        · rw [hs] at h; cases h
        · rw [hs] at h; injection h with h; subst h
          refine ⟨[], ?_, Or.inl rfl, ?_⟩
          · rw [← hlen]; simp
          · rw [← hlen, List.take_length]; exact hmap
        · rw [hsum]; omega

/-! ## Location -/

theorem body_place (tag : Str) (f : Path) (anchor shown : Str) (ha : '>' ∉ anchor) (hs : '<' ∉ shown ∧ '&' ∉ shown) :
    ∃ v, Body (htmlPlace tag f anchor shown) v ∧
      ∀ r, decodeRefs 0 (v ++ r) = cs!"\t\t\t\t\t\t" ++ (f.str ++ cs!":" ++ shown) ++ cs!"\n" ++ decodeRefs 0 r := by
  have hv : ∀ r, decodeRefs 0 (cs!"\t\t\t\t\t\t" ++ (htmlEscape f.str ++ (cs!":" ++ (shown ++ cs!"\n"))) ++ r)
      = cs!"\t\t\t\t\t\t" ++ (f.str ++ cs!":" ++ shown) ++ cs!"\n" ++ decodeRefs 0 r := by
    intro r
    simp only [List.append_assoc]
    rw [decodeRefs_plain _ (by decide), decodeRefs_escape, decodeRefs_plain _ (by decide), decodeRefs_plain _ hs.2,
      decodeRefs_plain _ (by decide)]
  unfold htmlPlace
  split
  · refine ⟨_, ?_, hv⟩
    have : cs!"\t\t\t\t\t\t" ++ htmlEscape f.str ++ cs!":" ++ shown ++ cs!"\n"
        = cs!"\t\t\t\t\t\t" ++ (htmlEscape f.str ++ (cs!":" ++ (shown ++ cs!"\n"))) := by simp
    rw [this]
    exact (Body.of (by decide)).append ((Body.of (htmlEscape_safe _).1).append ((Body.of (by decide)).append
      ((Body.of hs.1).append (Body.of (by decide)))))
  · refine ⟨_, ?_, hv⟩
    let t := cs!"a target=\"_blank\" href=\"https://elixir.bootlin.com/linux/" ++ (htmlEscape tag ++ (cs!"/source/" ++
      (htmlEscape f.str ++ (anchor ++ cs!"\""))))
    have ht : '>' ∉ t := by
      simp only [t, List.mem_append, not_or]
      exact ⟨by decide, (htmlEscape_safe _).2, by decide, (htmlEscape_safe _).2, ha, by decide⟩
    have e : cs!"\t\t\t\t\t\t<a target=\"_blank\" href=\"https://elixir.bootlin.com/linux/" ++ htmlEscape tag ++ cs!"/source/" ++
        htmlEscape f.str ++ anchor ++ cs!"\">" ++ htmlEscape f.str ++ cs!":" ++ shown ++ cs!"</a>\n"
        = cs!"\t\t\t\t\t\t" ++ (('<' :: (t ++ cs!">")) ++ (htmlEscape f.str ++ (cs!":" ++ (shown ++
          (('<' :: (cs!"/a" ++ cs!">")) ++ cs!"\n"))))) := by
      simp [t]
    rw [e]
    have hb := (Body.of (x := cs!"\t\t\t\t\t\t") (by decide)).append ((Body.of_tag (t := t) ht rfl rfl).append
      ((Body.of (htmlEscape_safe f.str).1).append ((Body.of (x := cs!":") (by decide)).append ((Body.of hs.1).append
        ((Body.of_tag (t := cs!"/a") (by decide) (by decide) (by decide)).append (Body.of (x := cs!"\n") (by decide)))))))
    simpa using hb

theorem place_text {sc : Syscall} {v place : Str}
    (hv : ∀ r, decodeRefs 0 (v ++ r) = cs!"\t\t\t\t\t\t" ++ place ++ cs!"\n" ++ decodeRefs 0 r)
    (h0 : sc.file ≠ none) (h1 : ∀ f, sc.file = some f → sc.line = none → place = f.str ++ cs!":??")
    (h2 : ∀ f l, sc.file = some f → sc.line = some l → place = f.str ++ cs!":" ++ natRepr l) :
    HtmlPlace sc (decodeRefs 0 (cs!"\n" ++ (v ++ ind5))) := by
  refine ⟨cs!"\n\t\t\t\t\t\t", place, cs!"\n" ++ ind5, ?_, by decide, by decide, fun h => absurd h h0, h1, h2⟩
  have : decodeRefs 0 ind5 = ind5 := by decide
  rw [decodeRefs_plain _ (by decide), hv, this]
  simp

theorem reads_location (tag : Str) (sc : Syscall) :
    ∃ v, Reads (htmlLocation tag sc) [(1, v)] ∧ HtmlPlace sc (decodeRefs 0 v) := by
  cases hf : sc.file with
  | none =>
    refine ⟨cs!"unknown", ?_, ⟨[], cs!"unknown", [], by decide, by simp, by simp, fun _ => rfl, fun f h => ?_, fun f l h => ?_⟩⟩
    · have := reads_cell ind5 cs!"td class=\"unknown\"" cs!"unknown" _ (by decide) (by decide) (by decide) (Body.of (by decide))
      have hc : columns cs!"td class=\"unknown\"" = 1 := by decide
      rw [hc] at this
      simp only [htmlLocation, hf]
      exact this
    · rw [hf] at h; cases h
    · rw [hf] at h; cases h
  | some f =>
    have key : ∀ (t anchor shown : Str), '>' ∉ t → opensCell t = true → columns t = 1 → '>' ∉ anchor → '<' ∉ shown ∧ '&' ∉ shown →
        (∀ f', sc.file = some f' → sc.line = none → f.str ++ cs!":" ++ shown = f'.str ++ cs!":??") →
        (∀ f' l, sc.file = some f' → sc.line = some l → f.str ++ cs!":" ++ shown = f'.str ++ cs!":" ++ natRepr l) →
        ∃ v, Reads ((ind5 ++ ('<' :: (t ++ cs!">\n"))) ++ htmlPlace tag f anchor shown ++ cs!"\t\t\t\t\t</td>\n") [(1, v)] ∧
          HtmlPlace sc (decodeRefs 0 v) := by
      intro t anchor shown ht ho hcol ha hs h1 h2
      obtain ⟨v, hb, hv⟩ := body_place tag f anchor shown ha hs
      refine ⟨cs!"\n" ++ (v ++ ind5), ?_, place_text hv (by simp [hf]) h1 h2⟩
      have hb' := (Body.of (x := cs!"\n") (by decide)).append (hb.append (Body.of (x := ind5) (by decide)))
      have := reads_cell ind5 t _ _ (by decide) ht ho hb'
      rw [hcol] at this
      have e : (ind5 ++ ('<' :: (t ++ cs!">\n"))) ++ htmlPlace tag f anchor shown ++ cs!"\t\t\t\t\t</td>\n"
          = ind5 ++ '<' :: (t ++ cs!">") ++ (cs!"\n" ++ (htmlPlace tag f anchor shown ++ ind5)) ++ cs!"</td>\n" := by simp
      rw [e]; exact this
    cases hl : sc.line with
    | none =>
      have := key cs!"td class=\"bad\" title=\"The syscall definition could not be located within this file, the identified location may be inaccurate\""
        [] cs!"??" (by decide) (by decide) (by decide) (by decide) (by decide)
        (fun f' h _ => by rw [hf] at h; injection h with h; rw [h]; simp) (fun f' l _ h => by rw [hl] at h; cases h)
      obtain ⟨v, h1, h2⟩ := this
      refine ⟨v, ?_, h2⟩
      simp only [htmlLocation, hf, hl]
      exact h1
    | some l =>
      have key' := fun t ht ho hc => key t (cs!"#L" ++ natRepr l) (natRepr l) ht ho hc
        (by simp [(digits_safe l).2.1]) ⟨(digits_safe l).1, (digits_safe l).2.2⟩
        (fun f' h h' => by rw [hl] at h'; cases h')
        (fun f' l' h h' => by rw [hf] at h; rw [hl] at h'; injection h with h; injection h' with h'; rw [h, h'])
      simp only [htmlLocation, hf, hl]
      split
      · obtain ⟨v, h1, h2⟩ := key' cs!"td class=\"bad\" title=\"The identified location may be inaccurate (non-standard definition or missing kernel sources)\""
          (by decide) (by decide) (by decide)
        exact ⟨v, h1, h2⟩
      split
      · obtain ⟨v, h1, h2⟩ := key' cs!"td class=\"bad\" title=\"This syscall definition was found through grepping, the identified location may be inaccurate\""
          (by decide) (by decide) (by decide)
        exact ⟨v, h1, h2⟩
      · obtain ⟨v, h1, h2⟩ := key' cs!"td" (by decide) (by decide) (by decide)
        exact ⟨v, h1, h2⟩

/-! ## Rows -/

theorem reads_tr : Reads cs!"\t\t\t\t<tr>\n" [] := by
  have := (Reads.text (x := cs!"\t\t\t\t") (by decide)).append ((Reads.other (t := cs!"tr") (by decide) (by decide) (by decide)).append
    (Reads.text (x := cs!"\n") (by decide)))
  exact this

theorem reads_tr_end : Reads cs!"\t\t\t\t</tr>\n" [] := by
  have := (Reads.text (x := cs!"\t\t\t\t") (by decide)).append ((Reads.other (t := cs!"/tr") (by decide) (by decide) (by decide)).append
    (Reads.text (x := cs!"\n") (by decide)))
  exact this

theorem reads_td (body v : Str) (hb : Body body v) : Reads (cs!"\t\t\t\t\t<td>" ++ body ++ cs!"</td>\n") [(1, v)] := by
  have := reads_cell ind5 cs!"td" body v (by decide) (by decide) (by decide) hb
  have hc : columns cs!"td" = 1 := by decide
  rw [hc] at this
  exact this

theorem reads_row (tag : Str) (m : Nat) (sc : Syscall) (hm : ∀ sig, sc.signature = some sig → sig.length ≤ m) :
    HtmlRow sc (htmlRow tag m sc) ∧
    width (htmlRow tag m sc) = 6 + if sc.signature = none ∨ sc.signature = some [] then spanOf m else m := by
  obtain ⟨loc, hloc, hplace⟩ := reads_location tag sc
  obtain ⟨sig, hsig, hcells, hsum⟩ := reads_signature m sc hm
  have hnum := reads_td (natRepr sc.number) _ (Body.of (digits_safe _).1)
  have hhex := reads_td (hexStr sc.number) _ (Body.of (hexStr_safe _))
  have hname : Reads (cs!"\t\t\t\t\t<td" ++
      (if sc.esoteric then cs!" class=\"esoteric\" title=\"This syscall has an esoteric implementation\"" else []) ++ cs!">" ++
      htmlEscape sc.name ++ cs!"</td>\n") [(1, htmlEscape sc.name)] := by
    cases sc.esoteric with
    | false => exact reads_td _ _ (Body.of (htmlEscape_safe _).1)
    | true =>
      have := reads_cell ind5 cs!"td class=\"esoteric\" title=\"This syscall has an esoteric implementation\"" _ _ (by decide) (by decide) (by decide)
        (Body.of (htmlEscape_safe sc.name).1)
      have hc : columns cs!"td class=\"esoteric\" title=\"This syscall has an esoteric implementation\"" = 1 := by decide
      rw [hc] at this
      exact this
  have hsym := reads_td (htmlEscape sc.symbol.name) _ (Body.of (htmlEscape_safe _).1)
  have hkc := reads_td (htmlKconfig sc) (htmlKconfig sc) (Body.of (by
    unfold htmlKconfig
    split
    · simp
    · split
      · simp
      · exact (htmlEscape_safe _).1))
  have hall : Reads (htmlRow tag m sc)
      ([(1, natRepr sc.number), (1, hexStr sc.number), (1, htmlEscape sc.name), (1, htmlEscape sc.symbol.name), (1, loc),
        (1, htmlKconfig sc)] ++ sig) := by
    have := reads_tr.append (hnum.append (hhex.append (hname.append (hsym.append (hloc.append (hkc.append (hsig.append reads_tr_end)))))))
    have e : htmlRow tag m sc = cs!"\t\t\t\t<tr>\n" ++ (cs!"\t\t\t\t\t<td>" ++ natRepr sc.number ++ cs!"</td>\n" ++
        (cs!"\t\t\t\t\t<td>" ++ hexStr sc.number ++ cs!"</td>\n" ++ (cs!"\t\t\t\t\t<td" ++
      (if sc.esoteric then cs!" class=\"esoteric\" title=\"This syscall has an esoteric implementation\"" else []) ++ cs!">" ++
      htmlEscape sc.name ++ cs!"</td>\n" ++ (cs!"\t\t\t\t\t<td>" ++ htmlEscape sc.symbol.name ++ cs!"</td>\n" ++
        (htmlLocation tag sc ++ (cs!"\t\t\t\t\t<td>" ++ htmlKconfig sc ++ cs!"</td>\n" ++ (htmlSignature m sc ++ cs!"\t\t\t\t</tr>\n"))))))) := by
      simp [htmlRow]
    rw [e]
    simpa using this
  have hc := hall.whole
  refine ⟨⟨_, _, _, _, _, _, _, hc, natRepr_ne_nil _, natRepr_all_digits _, natOfDigits_natRepr _, hexStr_cell _, decodeRefs_htmlEscape _,
    decodeRefs_htmlEscape _, hplace, ?_, ?_, hcells⟩, ?_⟩
  · intro h; simp [htmlKconfig, h]
  · intro opt h hn
    have hne : cs!"CONFIG_" ++ opt ≠ [] := by simp
    simp only [htmlKconfig, h, if_neg hne]
    rw [decodeRefs_htmlEscape, replaceAll_match _ _ _ (by simp), replaceAll_none _ _ _ (by simp) hn]
    rfl
  · rw [width, hc, List.map_append, List.sum_append, hsum]
    simp

/-! ## Header -/

theorem regAt_safe (regs : Option (List Str)) (i : Nat) : '<' ∉ regAt regs i := by
  unfold regAt
  split
  · simp
  · split
    · exact (htmlEscape_safe _).1
    · simp

theorem reads_header_args (regs : Option (List Str)) (l : List Nat) :
    Reads (l.flatMap fun i => cs!"\t\t\t\t\t<th>Arg " ++ natRepr (i + 1) ++ cs!" (" ++ regAt regs i ++ cs!")</th>\n")
      (l.map fun i => (1, cs!"Arg " ++ natRepr (i + 1) ++ cs!" (" ++ regAt regs i ++ cs!")")) := by
  induction l with
  | nil => exact .nil
  | cons i l ih =>
    have hb : Body (cs!"Arg " ++ natRepr (i + 1) ++ cs!" (" ++ regAt regs i ++ cs!")") _ := Body.of (by
      simp only [List.mem_append, not_or]
      exact ⟨⟨⟨⟨by decide, (digits_safe _).1⟩, by decide⟩, regAt_safe _ _⟩, by decide⟩)
    have := reads_hcell ind5 cs!"th" _ _ (by decide) (by decide) (by decide) hb
    have hc : columns cs!"th" = 1 := by decide
    rw [hc] at this
    rw [List.flatMap_cons, List.map_cons]
    refine Reads.append (ca := [_]) ?_ ih
    have e : cs!"\t\t\t\t\t<th>Arg " ++ natRepr (i + 1) ++ cs!" (" ++ regAt regs i ++ cs!")</th>\n"
        = ind5 ++ ('<' :: (cs!"th" ++ cs!">")) ++ (cs!"Arg " ++ natRepr (i + 1) ++ cs!" (" ++ regAt regs i ++ cs!")") ++ cs!"</th>\n" := by simp
    rw [e]; exact this

set_option maxRecDepth 8000 in
theorem cells_header (a : Arch) (m : Nat) : cellsOfRow (htmlHeader a m) =
    [(2, cs!"Number" ++ numRegText a), (1, cs!"Name"), (1, cs!"Symbol"), (1, cs!"Definition location"), (1, cs!"Kconfig")] ++
      (List.range m).map fun i => (1, cs!"Arg " ++ natRepr (i + 1) ++ cs!" (" ++ regAt a.argRegs i ++ cs!")") := by
  have hargs := reads_header_args a.argRegs (List.range m)
  have hnr : '<' ∉ numRegText a := by
    unfold numRegText
    split
    · simp
    · split
      · simp
      · simp [(htmlEscape_safe _).1]
  have h1 := reads_hcell ind5 cs!"th class=\"sortable ascending\" colspan=\"2\"" (cs!"Number" ++ numRegText a) _ (by decide) (by decide) (by decide)
    (Body.of (by simp only [List.mem_append, not_or]; exact ⟨by decide, hnr⟩))
  have hc1 : columns cs!"th class=\"sortable ascending\" colspan=\"2\"" = 2 := by decide
  have hc2 : columns cs!"th class=\"sortable\"" = 1 := by decide
  rw [hc1] at h1
  have h2 := fun x hx => reads_hcell ind5 cs!"th class=\"sortable\"" x x (by decide) (by decide) (by decide) (Body.of hx)
  simp only [hc2] at h2
  have hall := reads_tr.append (h1.append ((h2 cs!"Name" (by decide)).append ((h2 cs!"Symbol" (by decide)).append
    ((h2 cs!"Definition location" (by decide)).append ((h2 cs!"Kconfig" (by decide)).append (hargs.append reads_tr_end))))))
  have e : htmlHeader a m = cs!"\t\t\t\t<tr>\n" ++ (ind5 ++ '<' :: (cs!"th class=\"sortable ascending\" colspan=\"2\"" ++ cs!">") ++
      (cs!"Number" ++ numRegText a) ++ cs!"</th>\n" ++
      (ind5 ++ '<' :: (cs!"th class=\"sortable\"" ++ cs!">") ++ cs!"Name" ++ cs!"</th>\n" ++
      (ind5 ++ '<' :: (cs!"th class=\"sortable\"" ++ cs!">") ++ cs!"Symbol" ++ cs!"</th>\n" ++
      (ind5 ++ '<' :: (cs!"th class=\"sortable\"" ++ cs!">") ++ cs!"Definition location" ++ cs!"</th>\n" ++
      (ind5 ++ '<' :: (cs!"th class=\"sortable\"" ++ cs!">") ++ cs!"Kconfig" ++ cs!"</th>\n" ++
      (((List.range m).flatMap fun i => cs!"\t\t\t\t\t<th>Arg " ++ natRepr (i + 1) ++ cs!" (" ++ regAt a.argRegs i ++ cs!")</th>\n") ++
      cs!"\t\t\t\t</tr>\n")))))) := by
    unfold htmlHeader
    simp only [List.cons_append, List.nil_append, List.append_assoc]
  rw [e, hall.whole]
  simp

theorem width_header (a : Arch) (m : Nat) : width (htmlHeader a m) = 6 + m := by
  rw [width, cells_header]
  have : ∀ l : List Nat, ((l.map fun i => ((1 : Nat), cs!"Arg " ++ natRepr (i + 1) ++ cs!" (" ++ regAt a.argRegs i ++ cs!")")).map Prod.fst).sum = l.length := by
    intro l
    induction l with
    | nil => rfl
    | cons i l ih => simp only [List.map_cons, List.sum_cons, ih, List.length_cons]; omega
  rw [List.map_append, List.sum_append, this]
  simp

end Verif
