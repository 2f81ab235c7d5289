import Verif.Lemmas.OutHtml
import Verif.Spec.Marks
/-! # Lemmas about marks, links and headings of the HTML page (C105) -/
set_option autoImplicit false

namespace Verif
open Spec

/-- a piece of HTML with the given tags -/
def HasTags (piece : Str) (tags : List Str) : Prop := ∀ rest, tagsOf (piece ++ rest) = tags ++ tagsOf rest

theorem HasTags.append {a b : Str} {ta tb : List Str} (ha : HasTags a ta) (hb : HasTags b tb) : HasTags (a ++ b) (ta ++ tb) := by
  intro rest
  rw [List.append_assoc, ha, hb, List.append_assoc]

theorem HasTags.nil : HasTags [] [] := fun _ => rfl

theorem HasTags.text {x : Str} (h : '<' ∉ x) : HasTags x [] := by
  intro rest
  induction x with
  | nil => rfl
  | cons c x ih =>
    have hc : c ≠ '<' := fun e => h (by simp [e])
    have := ih (fun hm => h (List.mem_cons_of_mem _ hm))
    simp only [tagsOf, List.cons_append, tokens, if_neg hc, List.filterMap_cons] at this ⊢
    exact this

theorem HasTags.tag (t : Str) (h : '>' ∉ t) : HasTags ('<' :: (t ++ cs!">")) [t] := by
  intro rest
  have e : '<' :: (t ++ cs!">") ++ rest = '<' :: (t ++ '>' :: rest) := by simp
  rw [e]
  simp only [tagsOf, tokens, if_true]
  rw [tokens_tag _ _ _ h]
  rfl

theorem HasTags.whole {x : Str} {tags : List Str} (h : HasTags x tags) : tagsOf x = tags := by
  have := h []
  rw [List.append_nil] at this
  rw [this]
  simp [tagsOf, tokens]

/-- a cell with text only -/
theorem hasTags_cell (t body : Str) (ht : '>' ∉ t) (hb : '<' ∉ body) :
    HasTags (ind5 ++ (('<' :: (t ++ cs!">")) ++ (body ++ (('<' :: (cs!"/td" ++ cs!">")) ++ cs!"\n")))) [t, cs!"/td"] := by
  have := (HasTags.text (x := ind5) (by decide)).append ((HasTags.tag t ht).append ((HasTags.text hb).append
    ((HasTags.tag cs!"/td" (by decide)).append (HasTags.text (x := cs!"\n") (by decide)))))
  exact this

theorem hasTags_td (body : Str) (hb : '<' ∉ body) : HasTags (cs!"\t\t\t\t\t<td>" ++ body ++ cs!"</td>\n") [cs!"td", cs!"/td"] := by
  have := hasTags_cell cs!"td" body (by decide) hb
  have e : cs!"\t\t\t\t\t<td>" ++ body ++ cs!"</td>\n"
      = ind5 ++ (('<' :: (cs!"td" ++ cs!">")) ++ (body ++ (('<' :: (cs!"/td" ++ cs!">")) ++ cs!"\n"))) := by simp
  rw [e]; exact this

theorem htmlEscape_quote (s : Str) : '"' ∉ htmlEscape s := by
  intro h
  simp only [htmlEscape, List.mem_flatMap] at h
  obtain ⟨c, -, hc⟩ := h
  unfold htmlEscapeChar at hc
  split at hc
  · revert hc; decide
  split at hc
  · revert hc; decide
  split at hc
  · revert hc; decide
  split at hc
  · revert hc; decide
  split at hc
  · revert hc; decide
  · next h => simp at hc; exact h hc.symm

theorem takeWhile_quote (x rest : Str) (h : '"' ∉ x) : (x ++ '"' :: rest).takeWhile (· ≠ '"') = x := by
  induction x with
  | nil => simp
  | cons c x ih =>
    have hc : c ≠ '"' := fun e => h (by simp [e])
    rw [List.cons_append, List.takeWhile_cons, if_pos (by simpa using hc), ih (fun hm => h (List.mem_cons_of_mem _ hm))]

/-! ## Location -/

/-- the tag of a link -/
def linkTag (tag : Str) (f : Path) (anchor : Str) : Str :=
  cs!"a target=\"_blank\" href=\"" ++ ((cs!"https://elixir.bootlin.com/linux/" ++ (htmlEscape tag ++ (cs!"/source/" ++
    (htmlEscape f.str ++ anchor)))) ++ cs!"\"")

theorem href_link (tag : Str) (f : Path) (anchor : Str) (ha : '"' ∉ anchor ∧ '&' ∉ anchor) :
    attrOf cs!"href" (linkTag tag f anchor) = some (cs!"https://elixir.bootlin.com/linux/" ++ (tag ++ (cs!"/source/" ++ (f.str ++ anchor)))) := by
  have h1 : attrOf cs!"href" (linkTag tag f anchor) = some (decodeRefs 0 (((cs!"https://elixir.bootlin.com/linux/" ++ (htmlEscape tag ++ (cs!"/source/" ++
    (htmlEscape f.str ++ anchor)))) ++ cs!"\"").takeWhile (· ≠ '"'))) := rfl
  rw [h1, takeWhile_quote _ [] (by
    simp only [List.mem_append, not_or]
    exact ⟨by decide, htmlEscape_quote _, by decide, htmlEscape_quote _, ha.1⟩)]
  rw [decodeRefs_plain _ (by decide), decodeRefs_escape, decodeRefs_plain _ (by decide), decodeRefs_escape]
  have h2 : decodeRefs 0 anchor = anchor := by
    have := decodeRefs_plain anchor ha.2 []
    simpa [decodeRefs] using this
  rw [h2]

theorem hasTags_place (tag : Str) (f : Path) (anchor shown : Str) (ha : '>' ∉ anchor) (hs : '<' ∉ shown) :
    HasTags (htmlPlace tag f anchor shown) (if f.abs then [] else [linkTag tag f anchor, cs!"/a"]) := by
  unfold htmlPlace
  split
  · refine HasTags.text ?_
    simp only [List.mem_append, not_or]
    exact ⟨⟨⟨⟨by decide, (htmlEscape_safe _).1⟩, by decide⟩, hs⟩, by decide⟩
  · have ht : '>' ∉ linkTag tag f anchor := by
      simp only [linkTag, List.mem_append, not_or]
      exact ⟨by decide, ⟨by decide, (htmlEscape_safe _).2, by decide, (htmlEscape_safe _).2, ha⟩, by decide⟩
    have := (HasTags.text (x := cs!"\t\t\t\t\t\t") (by decide)).append ((HasTags.tag _ ht).append
      ((HasTags.text (htmlEscape_safe f.str).1).append ((HasTags.text (x := cs!":") (by decide)).append ((HasTags.text hs).append
        ((HasTags.tag cs!"/a" (by decide)).append (HasTags.text (x := cs!"\n") (by decide)))))))
    have e : cs!"\t\t\t\t\t\t<a target=\"_blank\" href=\"https://elixir.bootlin.com/linux/" ++ htmlEscape tag ++ cs!"/source/" ++
        htmlEscape f.str ++ anchor ++ cs!"\">" ++ htmlEscape f.str ++ cs!":" ++ shown ++ cs!"</a>\n"
        = cs!"\t\t\t\t\t\t" ++ (('<' :: (linkTag tag f anchor ++ cs!">")) ++ (htmlEscape f.str ++ (cs!":" ++ (shown ++
          (('<' :: (cs!"/a" ++ cs!">")) ++ cs!"\n"))))) := by
      simp [linkTag]
    rw [e]
    exact this

/-- the opening tag of the location cell, by standing -/
def standingTag : Standing → Str
  | .unknown => cs!"td class=\"unknown\""
  | .noLine => cs!"td class=\"bad\" title=\"The syscall definition could not be located within this file, the identified location may be inaccurate\""
  | .doubtful => cs!"td class=\"bad\" title=\"The identified location may be inaccurate (non-standard definition or missing kernel sources)\""
  | .searched => cs!"td class=\"bad\" title=\"This syscall definition was found through grepping, the identified location may be inaccurate\""
  | .good => cs!"td"

theorem standingTag_mark (s : Standing) : (attrOf cs!"class" (standingTag s), attrOf cs!"title" (standingTag s)) = s.mark := by
  cases s <;> decide +kernel

theorem standing_unique {sc : Syscall} {s s' : Standing} (h : StandingOf sc s) (h' : StandingOf sc s') : s = s' := by
  cases h <;> cases h' <;> simp_all

/-- the standing exists -/
theorem standing_exists (sc : Syscall) : ∃ s, StandingOf sc s := by
  cases hf : sc.file with
  | none => exact ⟨_, .unknown hf⟩
  | some f =>
    cases hl : sc.line with
    | none => exact ⟨_, .noLine f hf hl⟩
    | some l =>
      cases hg : sc.goodLocation with
      | false => exact ⟨_, .doubtful f l hf hl hg⟩
      | true =>
        cases hq : sc.greppedLocation with
        | false => exact ⟨_, .good f l hf hl hg hq⟩
        | true => exact ⟨_, .searched f l hf hl hg hq⟩

theorem hasTags_location (tag : Str) (sc : Syscall) (s : Standing) (h : StandingOf sc s) :
    ∃ links, HasTags (htmlLocation tag sc) (standingTag s :: (links ++ [cs!"/td"])) ∧ links.filter opensCell = [] ∧
      LinksFor tag sc (links.filterMap fun t => if t.take 2 = cs!"a " then attrOf cs!"href" t else none) := by
  cases hf : sc.file with
  | none =>
    have : s = .unknown := standing_unique h (.unknown hf)
    subst this
    refine ⟨[], ?_, rfl, fun _ => rfl, fun f h => (by rw [hf] at h; cases h), fun f h => (by rw [hf] at h; cases h)⟩
    have := hasTags_cell cs!"td class=\"unknown\"" cs!"unknown" (by decide) (by decide)
    simp only [htmlLocation, hf]
    exact this
  | some f =>
    have key : ∀ (anchor shown : Str), '>' ∉ anchor → '"' ∉ anchor ∧ '&' ∉ anchor → '<' ∉ shown →
        (sc.line = none → anchor = []) → (∀ l, sc.line = some l → anchor = cs!"#L" ++ natRepr l) →
        ∃ links, HasTags ((ind5 ++ ('<' :: (standingTag s ++ cs!">\n"))) ++ htmlPlace tag f anchor shown ++ cs!"\t\t\t\t\t</td>\n")
          (standingTag s :: (links ++ [cs!"/td"])) ∧ links.filter opensCell = [] ∧
          LinksFor tag sc (links.filterMap fun t => if t.take 2 = cs!"a " then attrOf cs!"href" t else none) := by
      intro anchor shown ha hq hs h1 h2
      refine ⟨if f.abs then [] else [linkTag tag f anchor, cs!"/a"], ?_, ?_, fun e => (by rw [hf] at e; cases e), ?_, ?_⟩
      · have ht : '>' ∉ standingTag s := by cases s <;> decide
        have := (HasTags.text (x := ind5) (by decide)).append ((HasTags.tag _ ht).append ((HasTags.text (x := cs!"\n") (by decide)).append
          ((hasTags_place tag f anchor shown ha hs).append ((HasTags.text (x := ind5) (by decide)).append
            ((HasTags.tag cs!"/td" (by decide)).append (HasTags.text (x := cs!"\n") (by decide)))))))
        have e : (ind5 ++ ('<' :: (standingTag s ++ cs!">\n"))) ++ htmlPlace tag f anchor shown ++ cs!"\t\t\t\t\t</td>\n"
            = ind5 ++ (('<' :: (standingTag s ++ cs!">")) ++ (cs!"\n" ++ (htmlPlace tag f anchor shown ++ (ind5 ++
              (('<' :: (cs!"/td" ++ cs!">")) ++ cs!"\n"))))) := by simp
        rw [e]
        simpa using this
      · split
        · rfl
        · rfl
      · intro f' e habs
        rw [hf] at e
        cases e
        simp [habs]
      · intro f' e habs
        rw [hf] at e
        cases e
        have hl : (if f.abs = true then [] else [linkTag tag f anchor, cs!"/a"]).filterMap (fun t => if t.take 2 = cs!"a " then attrOf cs!"href" t else none)
            = [cs!"https://elixir.bootlin.com/linux/" ++ (tag ++ (cs!"/source/" ++ (f.str ++ anchor)))] := by
          rw [if_neg (by simp [habs])]
          have e1 : (linkTag tag f anchor).take 2 = cs!"a " := rfl
          have e2 : ¬ (cs!"/a".take 2 = cs!"a ") := by decide
          rw [List.filterMap_cons, if_pos e1, href_link _ _ _ hq, List.filterMap_cons, if_neg e2]
          rfl
        rw [hl]
        refine ⟨fun h => ?_, fun l h => ?_⟩
        · rw [h1 h]; simp
        · rw [h2 l h]; simp
    cases hl : sc.line with
    | none =>
      have : s = .noLine := standing_unique h (.noLine f hf hl)
      subst this
      obtain ⟨links, k1, k2, k3⟩ := key [] cs!"??" (by decide) (by decide) (by decide) (fun _ => rfl) (fun l e => by rw [hl] at e; cases e)
      refine ⟨links, ?_, k2, k3⟩
      simp only [htmlLocation, hf, hl]
      exact k1
    | some l =>
      obtain ⟨links, k1, k2, k3⟩ := key (cs!"#L" ++ natRepr l) (natRepr l) (by simp [(digits_safe l).2.1])
        ⟨by
          simp only [List.mem_append, not_or]
          refine ⟨by decide, fun hm => ?_⟩
          have := natRepr_all_digits l _ hm
          revert this; decide, by simp [(digits_safe l).2.2]⟩
        (digits_safe l).1 (fun e => by rw [hl] at e; cases e) (fun l' e => by rw [hl] at e; cases e; rfl)
      refine ⟨links, ?_, k2, k3⟩
      simp only [htmlLocation, hf, hl]
      cases hg : sc.goodLocation with
      | false =>
        have : s = .doubtful := standing_unique h (.doubtful f l hf hl hg)
        subst this
        exact k1
      | true =>
        cases hq : sc.greppedLocation with
        | false =>
          have : s = .good := standing_unique h (.good f l hf hl hg hq)
          subst this
          exact k1
        | true =>
          have : s = .searched := standing_unique h (.searched f l hf hl hg hq)
          subst this
          exact k1

/-! ## Signature -/

theorem class_colspan (n : Nat) : attrOf cs!"class" (cs!"td colspan=\"" ++ natRepr n ++ cs!"\"") = none ∧
    attrOf cs!"class" (cs!"td colspan=\"" ++ natRepr n ++ cs!"\" class=\"unknown\"") = some cs!"unknown" := by
  have key : ∀ (x rest : Str), (∀ c ∈ x, isDigit c = true) → attrOf cs!"class" (x ++ rest) = attrOf cs!"class" rest := by
    intro x rest hx
    induction x with
    | nil => rfl
    | cons c x ih =>
      have hc : c ≠ 'c' := by
        intro e
        have := hx c (List.mem_cons_self ..)
        rw [e] at this
        revert this; decide
      have hp : (cs!"class" ++ cs!"=\"").isPrefixOf (c :: (x ++ rest)) = false := by
        show (('c' == c) && _) = false
        have : ('c' == c) = false := by simpa using fun e => hc e.symm
        rw [this]; rfl
      rw [List.cons_append, attrOf, if_neg (by rw [hp]; simp)]
      exact ih (fun d hd => hx d (List.mem_cons_of_mem _ hd))
  have step : ∀ rest, attrOf cs!"class" (cs!"td colspan=\"" ++ natRepr n ++ rest) = attrOf cs!"class" (natRepr n ++ rest) := by
    intro rest
    rw [List.append_assoc]
    show attrOf cs!"class" ('t' :: 'd' :: ' ' :: 'c' :: 'o' :: _) = _
    rfl
  rw [step, step, key _ _ (natRepr_all_digits n), key _ _ (natRepr_all_digits n)]
  decide

theorem hasTags_arg (arg : Str) : HasTags (htmlArg arg)
    [cs!"td", cs!"span class=\"argtype\"", cs!"/span", cs!"span class=\"argname\"", cs!"/span", cs!"/td"] := by
  have := (HasTags.text (x := ind5) (by decide)).append ((HasTags.tag cs!"td" (by decide)).append
    ((HasTags.tag cs!"span class=\"argtype\"" (by decide)).append ((HasTags.text (htmlEscape_safe (arg.take (argCut arg))).1).append
      ((HasTags.tag cs!"/span" (by decide)).append ((HasTags.tag cs!"span class=\"argname\"" (by decide)).append
        ((HasTags.text (htmlEscape_safe (arg.drop (argCut arg))).1).append ((HasTags.tag cs!"/span" (by decide)).append
          ((HasTags.tag cs!"/td" (by decide)).append (HasTags.text (x := cs!"\n") (by decide))))))))))
  have e : htmlArg arg = ind5 ++ (('<' :: (cs!"td" ++ cs!">")) ++ (('<' :: (cs!"span class=\"argtype\"" ++ cs!">")) ++
      (htmlEscape (arg.take (argCut arg)) ++ (('<' :: (cs!"/span" ++ cs!">")) ++ (('<' :: (cs!"span class=\"argname\"" ++ cs!">")) ++
        (htmlEscape (arg.drop (argCut arg)) ++ (('<' :: (cs!"/span" ++ cs!">")) ++ (('<' :: (cs!"/td" ++ cs!">")) ++ cs!"\n")))))))) := by
    simp [htmlArg]
  rw [e]
  exact this

/-- tags in which no link and only cells of the given class occur -/
def SigTags (cls : Option Str) (ts : List Str) : Prop :=
  (ts.filterMap fun t => if t.take 2 = cs!"a " then attrOf cs!"href" t else none) = [] ∧
  ∀ t ∈ ts.filter opensCell, attrOf cs!"class" t = cls

theorem SigTags.append {cls : Option Str} {a b : List Str} (ha : SigTags cls a) (hb : SigTags cls b) : SigTags cls (a ++ b) := by
  refine ⟨by rw [List.filterMap_append, ha.1, hb.1]; rfl, fun t ht => ?_⟩
  rw [List.filter_append, List.mem_append] at ht
  exact ht.elim (ha.2 t) (hb.2 t)

theorem hasTags_args (sig : List Str) : ∃ ts, HasTags (sig.flatMap htmlArg) ts ∧ SigTags none ts := by
  induction sig with
  | nil => exact ⟨[], .nil, rfl, fun t ht => by cases ht⟩
  | cons a sig ih =>
    obtain ⟨ts, h1, h2⟩ := ih
    refine ⟨_, (by rw [List.flatMap_cons]; exact (hasTags_arg a).append h1), SigTags.append ⟨by decide, by decide⟩ h2⟩

theorem hasTags_signature (m : Nat) (sc : Syscall) : ∃ ts, HasTags (htmlSignature m sc) ts ∧
    SigTags (if sc.signature = none then some cs!"unknown" else none) ts := by
  have hd : ∀ n, '>' ∉ natRepr n := fun n => (digits_safe n).2.1
  have one : ∀ (t : Str) (cls : Option Str), t.take 2 = cs!"td" → attrOf cs!"class" t = cls → SigTags cls [t, cs!"/td"] := by
    intro t cls h2 hcls
    have n1 : ¬ (t.take 2 = cs!"a ") := by rw [h2]; decide
    have o1 : opensCell t = true := by simp [opensCell, h2]
    refine ⟨?_, fun t' ht' => ?_⟩
    · rw [List.filterMap_cons, if_neg n1]; decide
    · have : [t, cs!"/td"].filter opensCell = [t] := by
        rw [List.filter_cons, if_pos o1]; rfl
      rw [this] at ht'
      cases List.mem_singleton.1 ht'
      exact hcls
  cases hs : sc.signature with
  | none =>
    have hg : '>' ∉ cs!"td colspan=\"" ++ natRepr m ++ cs!"\" class=\"unknown\"" := by simp [hd m]
    refine ⟨_, ?_, by rw [if_pos rfl]; exact one _ _ rfl (class_colspan m).2⟩
    have := hasTags_cell _ cs!"unknown signature" hg (by decide)
    simp only [htmlSignature, hs]
    simpa using this
  | some sig =>
    rw [if_neg (by simp)]
    cases sig with
    | nil =>
      have hg : '>' ∉ cs!"td colspan=\"" ++ natRepr m ++ cs!"\"" := by simp [hd m]
      have := (HasTags.text (x := ind5) (by decide)).append ((HasTags.tag _ hg).append
        ((HasTags.tag cs!"span class=\"argtype\"" (by decide)).append ((HasTags.text (x := cs!"void") (by decide)).append
          ((HasTags.tag cs!"/span" (by decide)).append ((HasTags.tag cs!"/td" (by decide)).append (HasTags.text (x := cs!"\n") (by decide)))))))
      refine ⟨[cs!"td colspan=\"" ++ natRepr m ++ cs!"\"", cs!"span class=\"argtype\"", cs!"/span", cs!"/td"], ?_, ?_⟩
      · simp only [htmlSignature, hs]
        simpa using this
      · have := (one (cs!"td colspan=\"" ++ natRepr m ++ cs!"\"") _ rfl (class_colspan m).1)
        refine ⟨?_, fun t ht => this.2 t ?_⟩
        · have h1 := this.1
          rw [List.filterMap_cons] at h1 ⊢
          split at h1
          · decide
          · next e => cases h1
        · rw [List.filter_cons] at ht ⊢
          exact ht
    | cons a as =>
      obtain ⟨ts, h1, h2⟩ := hasTags_args (a :: as)
      have hsig : htmlSignature m sc = (a :: as).flatMap htmlArg ++
          (if (a :: as).length < m then
            cs!"\t\t\t\t\t<td colspan=\"" ++ natRepr (m - (a :: as).length) ++ cs!"\"></td>\n"
          else []) := by simp only [htmlSignature, hs]
      rw [hsig]
      split
      · have hg : '>' ∉ cs!"td colspan=\"" ++ natRepr (m - (a :: as).length) ++ cs!"\"" := by
          simp only [List.mem_append, not_or]
          exact ⟨⟨by decide, hd _⟩, by decide⟩
        have h3 := hasTags_cell _ [] hg (by decide)
        refine ⟨_, h1.append (b := cs!"\t\t\t\t\t<td colspan=\"" ++ natRepr (m - (a :: as).length) ++ cs!"\"></td>\n")
          (tb := [cs!"td colspan=\"" ++ natRepr (m - (a :: as).length) ++ cs!"\"", cs!"/td"]) ?_, h2.append (one _ _ rfl (class_colspan _).1)⟩
        simpa using h3
      · exact ⟨ts, by simpa using h1, h2⟩

/-! ## Rows -/

theorem hasTags_row (tag : Str) (m : Nat) (sc : Syscall) : RowMarks tag sc (htmlRow tag m sc) := by
  obtain ⟨s, hs⟩ := standing_exists sc
  obtain ⟨links, hloc, hcell, hlinks⟩ := hasTags_location tag sc s hs
  obtain ⟨ts, hsig, hst⟩ := hasTags_signature m sc
  have hnum := hasTags_td (natRepr sc.number) (digits_safe _).1
  have hhex := hasTags_td (hexStr sc.number) (hexStr_safe _)
  have hsym := hasTags_td (htmlEscape sc.symbol.name) (htmlEscape_safe _).1
  have hkc := hasTags_td (htmlKconfig sc) (by
    unfold htmlKconfig
    split
    · simp
    · split
      · simp
      · exact (htmlEscape_safe _).1)
  have hname : HasTags (cs!"\t\t\t\t\t<td" ++
      (if sc.esoteric then cs!" class=\"esoteric\" title=\"This syscall has an esoteric implementation\"" else []) ++ cs!">" ++
      htmlEscape sc.name ++ cs!"</td>\n")
      [if sc.esoteric then cs!"td class=\"esoteric\" title=\"This syscall has an esoteric implementation\"" else cs!"td", cs!"/td"] := by
    cases sc.esoteric with
    | false => exact hasTags_td _ (htmlEscape_safe _).1
    | true =>
      have := hasTags_cell cs!"td class=\"esoteric\" title=\"This syscall has an esoteric implementation\"" (htmlEscape sc.name) (by decide)
        (htmlEscape_safe _).1
      exact this
  have htr : HasTags cs!"\t\t\t\t<tr>\n" [cs!"tr"] := (HasTags.text (x := cs!"\t\t\t\t") (by decide)).append
    ((HasTags.tag cs!"tr" (by decide)).append (HasTags.text (x := cs!"\n") (by decide)))
  have hend : HasTags cs!"\t\t\t\t</tr>\n" [cs!"/tr"] := (HasTags.text (x := cs!"\t\t\t\t") (by decide)).append
    ((HasTags.tag cs!"/tr" (by decide)).append (HasTags.text (x := cs!"\n") (by decide)))
  have hall := htr.append (hnum.append (hhex.append (hname.append (hsym.append (hloc.append (hkc.append (hsig.append hend)))))))
  have e : htmlRow tag m sc = cs!"\t\t\t\t<tr>\n" ++ (cs!"\t\t\t\t\t<td>" ++ natRepr sc.number ++ cs!"</td>\n" ++
      (cs!"\t\t\t\t\t<td>" ++ hexStr sc.number ++ cs!"</td>\n" ++ (cs!"\t\t\t\t\t<td" ++
    (if sc.esoteric then cs!" class=\"esoteric\" title=\"This syscall has an esoteric implementation\"" else []) ++ cs!">" ++
    htmlEscape sc.name ++ cs!"</td>\n" ++ (cs!"\t\t\t\t\t<td>" ++ htmlEscape sc.symbol.name ++ cs!"</td>\n" ++
      (htmlLocation tag sc ++ (cs!"\t\t\t\t\t<td>" ++ htmlKconfig sc ++ cs!"</td>\n" ++ (htmlSignature m sc ++ cs!"\t\t\t\t</tr>\n"))))))) := by
    simp [htmlRow]
  rw [← e] at hall
  have ht := hall.whole
  generalize hnt : (if sc.esoteric then cs!"td class=\"esoteric\" title=\"This syscall has an esoteric implementation\"" else cs!"td") = nt at ht
  have hno : opensCell nt = true := by rw [← hnt]; split <;> decide
  have hna : ¬ (nt.take 2 = cs!"a ") := by rw [← hnt]; split <;> decide
  have hlo : opensCell (standingTag s) = true := by cases s <;> decide
  have hla : ¬ ((standingTag s).take 2 = cs!"a ") := by cases s <;> decide
  refine ⟨cs!"td", cs!"td", nt, cs!"td", standingTag s, cs!"td", ts.filter opensCell, ?_, by decide, ?_, ?_, ?_, hst.2, ?_⟩
  · have c1 : opensCell cs!"tr" = false := by decide
    have c2 : opensCell cs!"td" = true := by decide
    have c3 : opensCell cs!"/td" = false := by decide
    have c4 : opensCell cs!"/tr" = false := by decide
    rw [cellTags, ht]
    simp only [List.filter_append, List.filter_cons, List.filter_nil, c1, c2, c3, c4, hno, hlo, hcell, if_true, Bool.false_eq_true, if_false,
      List.cons_append, List.nil_append, List.append_nil]
  · intro h; rw [← hnt, h]; decide
  · intro h; rw [← hnt, h]; decide
  · intro s' hs'; rw [standing_unique hs' hs]; exact standingTag_mark s
  · have c1 : ¬ (cs!"tr".take 2 = cs!"a ") := by decide
    have c2 : ¬ (cs!"td".take 2 = cs!"a ") := by decide
    have c3 : ¬ (cs!"/td".take 2 = cs!"a ") := by decide
    have c4 : ¬ (cs!"/tr".take 2 = cs!"a ") := by decide
    rw [linksOf, ht]
    simp only [List.filterMap_append, List.filterMap_cons, List.filterMap_nil, if_neg c1, if_neg c2, if_neg c3, if_neg c4, if_neg hna, if_neg hla,
      hst.1, List.nil_append, List.append_nil]
    exact hlinks

/-! ## Headings -/

/-- texts read from HTML, with an element already begun -/
def rt (name : Str) (cur : Option Str) (x : Str) : List Str := readTexts name cur (tokens none x)

theorem rt_text (name s x r : Str) (h : '<' ∉ x) : rt name (some s) (x ++ r) = rt name (some (s ++ x)) r := by
  induction x generalizing s with
  | nil => simp
  | cons c x ih =>
    have hc : c ≠ '<' := fun e => h (by simp [e])
    have := ih (s ++ [c]) (fun hm => h (List.mem_cons_of_mem _ hm))
    rw [List.append_assoc, List.singleton_append] at this
    rw [← this]
    simp only [rt, List.cons_append, tokens, if_neg hc, readTexts]

theorem rt_skip (name x r : Str) (h : '<' ∉ x) : rt name none (x ++ r) = rt name none r := by
  induction x with
  | nil => rfl
  | cons c x ih =>
    have hc : c ≠ '<' := fun e => h (by simp [e])
    rw [← ih (fun hm => h (List.mem_cons_of_mem _ hm))]
    simp only [rt, List.cons_append, tokens, if_neg hc, readTexts]

theorem rt_tag (name : Str) (cur : Option Str) (t r : Str) (h : '>' ∉ t) :
    rt name cur ('<' :: (t ++ '>' :: r)) = readTexts name cur (.tag t :: tokens none r) := by
  simp only [rt, tokens, if_true]
  rw [tokens_tag _ _ _ h]
  rfl

/-- a piece of HTML with the given elements, outside of any other -/
def HasTexts (name piece : Str) (texts : List Str) : Prop := ∀ rest, rt name none (piece ++ rest) = texts ++ rt name none rest

theorem HasTexts.append {name a b : Str} {ta tb : List Str} (ha : HasTexts name a ta) (hb : HasTexts name b tb) : HasTexts name (a ++ b) (ta ++ tb) := by
  intro rest
  rw [List.append_assoc, ha, hb, List.append_assoc]

theorem HasTexts.text {name x : Str} (h : '<' ∉ x) : HasTexts name x [] := fun rest => rt_skip name x rest h

theorem HasTexts.other {name t : Str} (h : '>' ∉ t) (hn : t ≠ name) : HasTexts name ('<' :: (t ++ cs!">")) [] := by
  intro rest
  have e : '<' :: (t ++ cs!">") ++ rest = '<' :: (t ++ '>' :: rest) := by simp
  rw [e, rt_tag _ _ _ _ h]
  simp [readTexts, hn, rt]

/-- an element with text only: seen if it has the name looked for -/
theorem HasTexts.elem {name t body : Str} (h : '>' ∉ t) (hb : '<' ∉ body) (ht : '/' :: t ≠ name) :
    HasTexts name (('<' :: (t ++ cs!">")) ++ (body ++ ('<' :: (('/' :: t) ++ cs!">")))) (if t = name then [decodeRefs 0 body] else []) := by
  intro rest
  have hg : '>' ∉ '/' :: t := by simp [h]
  have e : ('<' :: (t ++ cs!">")) ++ (body ++ ('<' :: (('/' :: t) ++ cs!">"))) ++ rest
      = '<' :: (t ++ '>' :: (body ++ ('<' :: (('/' :: t) ++ '>' :: rest)))) := by simp
  rw [e, rt_tag _ _ _ _ h]
  simp only [readTexts, List.nil_append]
  split
  · next hn =>
    subst hn
    have : readTexts t (some []) (tokens none (body ++ ('<' :: (('/' :: t) ++ '>' :: rest))))
        = rt t (some []) (body ++ ('<' :: (('/' :: t) ++ '>' :: rest))) := rfl
    rw [this, rt_text _ _ _ _ hb, rt_tag _ _ _ _ hg]
    simp only [readTexts, List.nil_append, if_true, if_neg ht]
    rfl
  · have : readTexts name none (tokens none (body ++ ('<' :: (('/' :: t) ++ '>' :: rest))))
        = rt name none (body ++ ('<' :: (('/' :: t) ++ '>' :: rest))) := rfl
    rw [this, rt_skip _ _ _ hb, rt_tag _ _ _ _ hg]
    simp only [readTexts, List.nil_append, if_neg ht]
    rfl

theorem HasTexts.whole {name x : Str} {texts : List Str} (h : HasTexts name x texts) : elements name x = texts := by
  have := h []
  rw [List.append_nil] at this
  show rt name none x = texts
  rw [this]
  simp [rt, tokens, readTexts]

set_option maxRecDepth 8000 in
theorem before_pieces (css tag : Str) (a : Arch) (compat abits bits : Str) (hco : (if a.compat then cs!"compat " else []) = compat)
    (hab : (if a.abiBits32 then cs!"32" else cs!"64") = abits) (hbi : (if a.bits32 then cs!"32" else cs!"64") = bits) :
    htmlBefore css tag a =
      ('<' :: (cs!"!DOCTYPE html" ++ cs!">") ++ cs!"\n") ++ (
      ('<' :: (cs!"html lang=\"en\"" ++ cs!">") ++ cs!"\n\t") ++ (
      ('<' :: (cs!"head" ++ cs!">") ++ cs!"\n\t\t") ++ (
      ((('<' :: (cs!"title" ++ cs!">")) ++ ((cs!"Linux " ++ (htmlEscape tag ++ (cs!" " ++ (htmlEscape a.kind.name ++ (cs!" " ++ (bits ++ (cs!"-bit, " ++
        (compat ++ (abits ++ (cs!"-bit " ++ (htmlEscape a.abi ++ cs!" syscall table"))))))))))) ++ ('<' :: (('/' :: cs!"title") ++ cs!">")))) ++ cs!"\n\t\t") ++ (
      ('<' :: (cs!"meta charset=\"UTF-8\"" ++ cs!">") ++ cs!"\n\t\t") ++ (
      ('<' :: (cs!"meta name=\"viewport\" content=\"width=device-width, initial-scale=1\"" ++ cs!">") ++ cs!"\n\t\t") ++ (
      ('<' :: (cs!"style" ++ cs!">") ++ css) ++ (
      ('<' :: (cs!"/style" ++ cs!">") ++ cs!"\n\t") ++ (
      ('<' :: (cs!"/head" ++ cs!">") ++ cs!"\n\t") ++ (
      ('<' :: (cs!"body" ++ cs!">") ++ cs!"\n\t\t") ++ (
      ((('<' :: (cs!"h1" ++ cs!">")) ++ ((cs!"Linux " ++ (htmlEscape tag ++ cs!" syscall table")) ++ ('<' :: (('/' :: cs!"h1") ++ cs!">")))) ++ cs!"\n\t\t") ++ (
      ((('<' :: (cs!"h2" ++ cs!">")) ++ ((cs!"Architecture: " ++ (htmlEscape a.kind.name ++ (cs!" " ++ (bits ++ cs!"-bit")))) ++
        ('<' :: (('/' :: cs!"h2") ++ cs!">")))) ++ cs!"\n\t\t") ++ (
      ((('<' :: (cs!"h2" ++ cs!">")) ++ ((cs!"ABI: " ++ (compat ++ (abits ++ (cs!"-bit " ++ htmlEscape a.abi)))) ++
        ('<' :: (('/' :: cs!"h2") ++ cs!">")))) ++ cs!"\n\t\t") ++ (
      ('<' :: (cs!"table" ++ cs!">") ++ cs!"\n\t\t\t") ++ (
      ('<' :: (cs!"tbody" ++ cs!">") ++ cs!"\n"))))))))))))))) := by
  have hb : ∀ b : Bool, natRepr (bitsOf b) = if b then cs!"32" else cs!"64" := by intro b; cases b <;> decide +kernel
  unfold htmlBefore
  rw [hb, hb, hco, hab, hbi]
  simp only [List.append_assoc]
  rfl

/-- the part of the page above the table, piece by piece -/
theorem hasTexts_before (css tag : Str) (a : Arch) (hcss : '<' ∉ css) (name : Str)
    (hname : name = cs!"title" ∨ name = cs!"h1" ∨ name = cs!"h2") :
    elements name (htmlBefore css tag a) =
      (if cs!"title" = name then [cs!"Linux " ++ tag ++ cs!" " ++ archWords a ++ cs!", " ++ abiWords a ++ cs!" syscall table"] else []) ++
      ((if cs!"h1" = name then [cs!"Linux " ++ tag ++ cs!" syscall table"] else []) ++
      ((if cs!"h2" = name then [cs!"Architecture: " ++ archWords a] else []) ++
       (if cs!"h2" = name then [cs!"ABI: " ++ abiWords a] else []))) := by
  have hb : ∀ b : Bool, natRepr (bitsOf b) = if b then cs!"32" else cs!"64" := by intro b; cases b <;> decide +kernel
  generalize hco : (if a.compat then cs!"compat " else []) = compat
  have hc1 : '<' ∉ compat ∧ '&' ∉ compat := by rw [← hco]; split <;> decide
  generalize hab : (if a.abiBits32 then cs!"32" else cs!"64") = abits
  have ha1 : '<' ∉ abits ∧ '&' ∉ abits := by rw [← hab]; split <;> decide
  generalize hbi : (if a.bits32 then cs!"32" else cs!"64") = bits
  have hb1 : '<' ∉ bits ∧ '&' ∉ bits := by rw [← hbi]; split <;> decide
  have hbits : (if a.bits32 then cs!" 32" else cs!" 64") = cs!" " ++ bits := by rw [← hbi]; cases a.bits32 <;> rfl
  have nh : ∀ t : Str, t ∈ [cs!"/title", cs!"/h1", cs!"/h2", cs!"/style", cs!"!DOCTYPE html", cs!"html lang=\"en\"", cs!"head", cs!"meta charset=\"UTF-8\"",
      cs!"meta name=\"viewport\" content=\"width=device-width, initial-scale=1\"", cs!"style", cs!"/head", cs!"body", cs!"table", cs!"tbody"] → t ≠ name := by
    intro t ht e
    subst e
    revert hname
    revert t
    decide
  have esc := fun (s : Str) => (htmlEscape_safe s).1
  let title := cs!"Linux " ++ (htmlEscape tag ++ (cs!" " ++ (htmlEscape a.kind.name ++ (cs!" " ++ (bits ++ (cs!"-bit, " ++ (compat ++ (abits ++ (cs!"-bit " ++
    (htmlEscape a.abi ++ cs!" syscall table"))))))))))
  let h1 := cs!"Linux " ++ (htmlEscape tag ++ cs!" syscall table")
  let h2 := cs!"Architecture: " ++ (htmlEscape a.kind.name ++ (cs!" " ++ (bits ++ cs!"-bit")))
  let h3 := cs!"ABI: " ++ (compat ++ (abits ++ (cs!"-bit " ++ htmlEscape a.abi)))
  have s0 : '<' ∉ title := by
    simp only [title, List.mem_append, not_or]
    exact ⟨by decide, esc _, by decide, esc _, by decide, hb1.1, by decide, hc1.1, ha1.1, by decide, esc _, by decide⟩
  have s1 : '<' ∉ h1 := by
    simp only [h1, List.mem_append, not_or]
    exact ⟨by decide, esc _, by decide⟩
  have s2 : '<' ∉ h2 := by
    simp only [h2, List.mem_append, not_or]
    exact ⟨by decide, esc _, by decide, hb1.1, by decide⟩
  have s3 : '<' ∉ h3 := by
    simp only [h3, List.mem_append, not_or]
    exact ⟨by decide, hc1.1, ha1.1, by decide, esc _⟩
  have d0 : decodeRefs 0 title = cs!"Linux " ++ tag ++ cs!" " ++ archWords a ++ cs!", " ++ abiWords a ++ cs!" syscall table" := by
    simp only [title]
    rw [decodeRefs_plain _ (by decide), decodeRefs_escape, decodeRefs_plain _ (by decide), decodeRefs_escape, decodeRefs_plain _ (by decide),
      decodeRefs_plain _ hb1.2, decodeRefs_plain _ (by decide), decodeRefs_plain _ hc1.2, decodeRefs_plain _ ha1.2, decodeRefs_plain _ (by decide),
      decodeRefs_escape, show decodeRefs 0 cs!" syscall table" = cs!" syscall table" by decide]
    simp only [archWords, abiWords, hco, hab, hbits]
    simp
  have d1 : decodeRefs 0 h1 = cs!"Linux " ++ tag ++ cs!" syscall table" := by
    simp only [h1]
    rw [decodeRefs_plain _ (by decide), decodeRefs_escape, show decodeRefs 0 cs!" syscall table" = cs!" syscall table" by decide]
    simp
  have d2 : decodeRefs 0 h2 = cs!"Architecture: " ++ archWords a := by
    simp only [h2]
    rw [decodeRefs_plain _ (by decide), decodeRefs_escape, decodeRefs_plain _ (by decide), decodeRefs_plain _ hb1.2,
      show decodeRefs 0 cs!"-bit" = cs!"-bit" by decide]
    simp only [archWords, hbits]
    simp
  have d3 : decodeRefs 0 h3 = cs!"ABI: " ++ abiWords a := by
    simp only [h3]
    rw [decodeRefs_plain _ (by decide), decodeRefs_plain _ hc1.2, decodeRefs_plain _ ha1.2, decodeRefs_plain _ (by decide), decodeRefs_htmlEscape]
    simp only [abiWords, hco, hab]
    simp
  have w1 : ∀ t : Str, '>' ∉ t → t ∈ [cs!"/title", cs!"/h1", cs!"/h2", cs!"/style", cs!"!DOCTYPE html", cs!"html lang=\"en\"", cs!"head", cs!"meta charset=\"UTF-8\"",
      cs!"meta name=\"viewport\" content=\"width=device-width, initial-scale=1\"", cs!"style", cs!"/head", cs!"body", cs!"table", cs!"tbody"] →
      ∀ x : Str, '<' ∉ x → HasTexts name (('<' :: (t ++ cs!">")) ++ x) [] := fun t h1 h2 x hx =>
    (HasTexts.other h1 (nh t h2)).append (HasTexts.text hx)
  have e0 := HasTexts.elem (name := name) (t := cs!"title") (by decide) s0 (nh _ (by decide))
  have e1 := HasTexts.elem (name := name) (t := cs!"h1") (by decide) s1 (nh _ (by decide))
  have e2 := HasTexts.elem (name := name) (t := cs!"h2") (by decide) s2 (nh _ (by decide))
  have e3 := HasTexts.elem (name := name) (t := cs!"h2") (by decide) s3 (nh _ (by decide))
  rw [d0] at e0
  rw [d1] at e1
  rw [d2] at e2
  rw [d3] at e3
  have hall := (w1 cs!"!DOCTYPE html" (by decide) (by decide) cs!"\n" (by decide)).append (
    (w1 cs!"html lang=\"en\"" (by decide) (by decide) cs!"\n\t" (by decide)).append (
    (w1 cs!"head" (by decide) (by decide) cs!"\n\t\t" (by decide)).append (
    (e0.append (HasTexts.text (x := cs!"\n\t\t") (by decide))).append (
    (w1 cs!"meta charset=\"UTF-8\"" (by decide) (by decide) cs!"\n\t\t" (by decide)).append (
    (w1 cs!"meta name=\"viewport\" content=\"width=device-width, initial-scale=1\"" (by decide) (by decide) cs!"\n\t\t" (by decide)).append (
    (w1 cs!"style" (by decide) (by decide) css hcss).append (
    (w1 cs!"/style" (by decide) (by decide) cs!"\n\t" (by decide)).append (
    (w1 cs!"/head" (by decide) (by decide) cs!"\n\t" (by decide)).append (
    (w1 cs!"body" (by decide) (by decide) cs!"\n\t\t" (by decide)).append (
    (e1.append (HasTexts.text (x := cs!"\n\t\t") (by decide))).append (
    (e2.append (HasTexts.text (x := cs!"\n\t\t") (by decide))).append (
    (e3.append (HasTexts.text (x := cs!"\n\t\t") (by decide))).append (
    (w1 cs!"table" (by decide) (by decide) cs!"\n\t\t\t" (by decide)).append (
    (w1 cs!"tbody" (by decide) (by decide) cs!"\n" (by decide))))))))))))))))
  have hx := before_pieces css tag a compat abits bits hco hab hbi
  have hw := HasTexts.whole (x := htmlBefore css tag a) (hx.symm ▸ hall)
  exact hw.trans (by simp only [List.nil_append, List.append_nil, List.append_assoc])

end Verif
