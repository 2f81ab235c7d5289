import Verif.Lemmas.Signature
import Verif.Props.Elf
/-! Lemmas on signatures: whole texts, macros, metadata. -/
set_option autoImplicit false

namespace Verif
open Spec

/-! ## characters -/

theorem replaceGo_mem (old new : Str) (s : Str) : ∀ (n : Nat) (c : Char), c ∈ replaceGo old new n s → c ∈ new ∨ c ∈ s := by
  induction s with
  | nil => intro n c h; cases n <;> simp [replaceGo] at h
  | cons x s ih =>
    intro n c h
    cases n with
    | zero =>
      simp only [replaceGo] at h
      split at h
      · rcases List.mem_append.1 h with h | h
        · exact .inl h
        · rcases ih _ _ h with h | h
          · exact .inl h
          · exact .inr (by simp [h])
      · rcases List.mem_cons.1 h with h | h
        · exact .inr (by simp [h])
        · rcases ih _ _ h with h | h
          · exact .inl h
          · exact .inr (by simp [h])
    | succ n =>
      simp only [replaceGo] at h
      rcases ih _ _ h with h | h
      · exact .inl h
      · exact .inr (by simp [h])

theorem replaceAll_mem (old new s : Str) (c : Char) (h : c ∈ replaceAll s old new) : c ∈ new ∨ c ∈ s :=
  replaceGo_mem old new s 0 c h

theorem strip_infix (s : Str) : strip s <:+: s := by
  obtain ⟨a, b, h, -⟩ := strip_decomp s
  exact ⟨a, b, h.symm⟩

theorem collapse_mem (s : Str) (c : Char) (h : c ∈ collapse s) : c = ' ' ∨ c ∈ s := by
  rw [collapse_eq] at h
  exact squeeze_mem s c ((strip_infix _).subset h)

theorem cleanSig_mem (s : Str) (c : Char) (h : c ∈ cleanSig s) : c = ' ' ∨ c = '*' ∨ c ∈ s := by
  rcases replaceAll_mem _ _ _ _ h with h | h
  · simp at h; exact .inr (.inl h)
  · have h : c ∈ collapse (replaceAll s cs!" __user" []) := h
    rcases collapse_mem _ _ h with h | h
    · exact .inl h
    · rcases replaceAll_mem _ _ _ _ h with h | h
      · simp at h
      · exact .inr (.inr h)

theorem splitChar_infix (sep : Char) (s f : Str) (h : f ∈ splitChar sep s) : f <:+: s := by
  suffices H : (∃ w ws, splitChar sep s = w :: ws ∧ w <+: s) ∧ ∀ f ∈ splitChar sep s, f <:+: s from H.2 f h
  clear h f
  induction s with
  | nil => simp [splitChar]
  | cons c s ih =>
    obtain ⟨⟨w, ws, e, hp⟩, ha⟩ := ih
    simp only [splitChar, e]
    split
    · refine ⟨⟨_, _, rfl, by simp⟩, ?_⟩
      intro f hf
      rcases List.mem_cons.1 hf with rfl | hf
      · simp
      · exact (ha f (by rw [e]; exact hf)).trans (List.suffix_cons _ _).isInfix
    · refine ⟨⟨_, _, rfl, List.cons_prefix_cons.2 ⟨rfl, hp⟩⟩, ?_⟩
      intro f hf
      rcases List.mem_cons.1 hf with rfl | hf
      · exact (List.cons_prefix_cons.2 ⟨rfl, hp⟩).isInfix
      · exact (ha f (by rw [e]; simp [hf])).trans (List.suffix_cons _ _).isInfix

/-- blanks around a text do not matter if it does not start with the annotation -/
theorem cleanSig_trim (a x b : Str) (ha : ∀ c ∈ a, isSpace c = true) (hb : ∀ c ∈ b, isSpace c = true)
    (hx : ¬ cs!"__user" <+: x ++ b) : cleanSig (a ++ x ++ b) = cleanSig x := by
  have e : replaceAll (a ++ x ++ b) cs!" __user" [] = a ++ replaceAll x cs!" __user" [] ++ b := by
    have hb' : 'r' ∉ b := fun h => by have := hb _ h; revert this; decide
    have r := replaceAll_right cs!" __use" 'r' [] x b hb'
    simp only [List.cons_append, List.nil_append] at r
    rw [List.append_assoc, replaceUser_blanks a _ ha hx, r, List.append_assoc]
  unfold cleanSig
  rw [e]
  have s1 : ∀ y : Str, splitWs (a ++ y ++ b) = splitWs y := by
    intro y
    unfold splitWs
    rw [List.append_assoc, splitWsGo_blanks a _ ha]
    generalize ([] : Str) = cur
    induction y generalizing cur with
    | nil =>
      cases b with
      | nil => rfl
      | cons c b =>
        have hbb := splitWsGo_blanks b [] (fun z hz => hb z (by simp [hz]))
        simp only [List.append_nil] at hbb
        simp only [List.nil_append, splitWsGo, hb c (by simp), if_true, hbb]
        cases cur <;> simp
    | cons c y ih =>
      simp only [List.cons_append, splitWsGo]
      rw [ih, ih]
  rw [s1]

/-! ## find and rfind -/

theorem findChar_none (c : Char) (s : Str) (h : c ∉ s) : findChar c s = none := by
  induction s with
  | nil => rfl
  | cons x s ih =>
    have : x ≠ c := fun e => h (by simp [e])
    simp only [findChar, this, if_false]
    rw [ih (fun h' => h (by simp [h']))]; rfl

theorem findChar_append (c : Char) (a b : Str) (h : c ∉ a) : findChar c (a ++ c :: b) = some a.length := by
  induction a with
  | nil => simp [findChar]
  | cons x a ih =>
    have : x ≠ c := fun e => h (by simp [e])
    simp only [List.cons_append, findChar, this, if_false]
    rw [ih (fun h' => h (by simp [h']))]; rfl

theorem rfindChar_last (c : Char) (a : Str) : rfindChar c (a ++ [c]) = some a.length := by
  induction a with
  | nil => simp [rfindChar]
  | cons x a ih => simp [rfindChar, ih]

theorem sliceToR_last (c : Char) (a b : Str) (n : Nat) (h : n = a.length) : sliceToR (a ++ b ++ [c]) n c = b := by
  unfold sliceToR
  rw [rfindChar_last]
  simp only [List.take_left', h, List.drop_left']

/-! ## macros -/

theorem noprefix_of_none (s : Str) (pxs : List Str) (h : ∀ p ∈ pxs, ¬ p <+: s) : noprefix s pxs = s := by
  rcases noprefix_cases s pxs with ⟨-, h2⟩ | ⟨pre, p, post, rfl, -, h3⟩
  · exact h2
  · exact absurd ⟨_, h3⟩ (h p (by simp))

theorem expandField_plain (big : Bool) (f : Str) (h : ∀ p ∈ macroPrefixes, ¬ p <+: f) : expandField big f = .ok [f] := by
  unfold expandField
  simp [noprefix_of_none f _ h]

theorem noprefix_wide (m x : Str) (hm : m ∈ wideMacros) : noprefix (m ++ cs!"(" ++ x) macroPrefixes = x := by
  simp only [wideMacros, List.mem_cons, List.not_mem_nil, or_false] at hm
  rcases hm with rfl | rfl | rfl | rfl <;>
    simp [noprefix, macroPrefixes, startsWith]

theorem expandField_wide (big : Bool) (m x : Str) (hm : m ∈ wideMacros) :
    expandField big (m ++ cs!"(" ++ x ++ cs!")") =
      .ok (cs!"u32" :: (halves big x)[0]?.getD [] :: cs!"u32" :: (halves big x)[1]?.getD [] :: []) := by
  have e := noprefix_wide m (x ++ cs!")") hm
  rw [show m ++ cs!"(" ++ x ++ cs!")" = m ++ cs!"(" ++ (x ++ cs!")") by simp]
  unfold expandField
  simp only [e]
  rw [if_neg (by
    intro h
    have := congrArg List.length h
    simp at this
    omega), List.getLast?_append]
  cases big <;> simp [pyAssert, sliceToNeg, halves, bind, Except.bind]

/-! ## items -/

/-- the fields an item contributes after expansion -/
def Spec.Item.out (big : Bool) : Item → List Str
  | .arg ty name => [glue ty, name]
  | .wide _ x => [cs!"u32", (halves big x)[0]?.getD [], cs!"u32", (halves big x)[1]?.getD []]

theorem glue_mem (ws : List Str) (c : Char) (h : c ∈ glue ws) : c = ' ' ∨ ∃ w ∈ ws, c ∈ w := by
  induction ws with
  | nil => simp [glue] at h
  | cons w ws ih =>
    cases ws with
    | nil => exact .inr ⟨w, by simp, h⟩
    | cons v ws =>
      simp only [glue] at h
      split at h
      · rcases List.mem_append.1 h with h | h
        · exact .inr ⟨w, by simp, h⟩
        · rcases ih h with h | ⟨x, hx, hc⟩
          · exact .inl h
          · exact .inr ⟨x, by simp [hx], hc⟩
      · rcases List.mem_append.1 h with h | h
        · exact .inr ⟨w, by simp, h⟩
        · rcases List.mem_cons.1 h with h | h
          · exact .inl h
          · rcases ih h with h | ⟨x, hx, hc⟩
            · exact .inl h
            · exact .inr ⟨x, by simp [hx], hc⟩

theorem glue_ne_nil (ws : List Str) (h : ws ≠ []) (hw : ∀ w ∈ ws, w ≠ []) : glue ws ≠ [] := by
  cases ws with
  | nil => exact absurd rfl h
  | cons w ws =>
    have := hw w (by simp)
    cases ws with
    | nil => exact this
    | cons v ws => simp only [glue]; split <;> simp [this]

theorem glue_no_paren (ws : List Str) (hw : ∀ w ∈ ws, CleanWord w) : '(' ∉ glue ws ∧ ')' ∉ glue ws := by
  constructor <;> intro h
  · rcases glue_mem ws _ h with h | ⟨w, hm, hc⟩
    · revert h; decide
    · exact ((hw w hm).2.1 _ hc).2.2.1 rfl
  · rcases glue_mem ws _ h with h | ⟨w, hm, hc⟩
    · revert h; decide
    · exact ((hw w hm).2.1 _ hc).2.2.2 rfl

theorem plain_of_no_paren (f : Str) (h : '(' ∉ f) : ∀ p ∈ macroPrefixes, ¬ p <+: f := by
  intro p hp hpre
  have hin : '(' ∈ p := by
    revert p
    simp only [macroPrefixes, List.mem_cons, List.not_mem_nil, or_false]
    rintro p (rfl | rfl | rfl | rfl) - <;> decide
  exact h (hpre.subset hin)

theorem wide_wordish (m x : Str) (hm : m ∈ wideMacros) (hx : CleanWord x) : Wordish (m ++ cs!"(" ++ x ++ cs!")") := by
  refine ⟨by simp, ?_, ?_⟩
  · intro c hc
    simp only [List.mem_append] at hc
    rcases hc with ((hc | hc) | hc) | hc
    · revert c
      simp only [wideMacros, List.mem_cons, List.not_mem_nil, or_false] at hm
      rcases hm with rfl | rfl | rfl | rfl <;> decide
    · simp at hc; rw [hc]; decide
    · exact (hx.2.1 c hc).1
    · simp at hc; rw [hc]; decide
  · simp only [wideMacros, List.mem_cons, List.not_mem_nil, or_false] at hm
    rcases hm with rfl | rfl | rfl | rfl <;> · intro hp; exact absurd (List.cons_prefix_cons.1 hp).1 (by decide)

theorem noTriple_single (w : Str) : NoTriple [w] := by
  intro pre a c post h
  have := congrArg List.length h
  simp at this
  omega

theorem item_fields_ok (it : Item) (h : it.WF) : ∀ ws ∈ it.fields, (∀ w ∈ ws, Wordish w) ∧ NoTriple ws := by
  cases it with
  | arg ty name =>
    obtain ⟨-, h2, h3, h4⟩ := h
    intro ws hws
    simp [Item.fields] at hws
    rcases hws with rfl | rfl
    · exact ⟨fun w hw => (h2 w hw).wordish, h3⟩
    · exact ⟨by simpa using h4.wordish, noTriple_single _⟩
  | wide m x =>
    intro ws hws
    simp [Item.fields] at hws
    subst hws
    have := wide_wordish m x h.1 h.2
    refine ⟨by simpa using this, noTriple_single _⟩

theorem expandMacros_append (big : Bool) (a b x : List Str) (ha : expandMacros big a = .ok x) :
    expandMacros big (a ++ b) = (expandMacros big b).map (x ++ ·) := by
  induction a generalizing x with
  | nil =>
    simp [expandMacros] at ha; subst ha
    rw [List.nil_append]
    cases expandMacros big b <;> rfl
  | cons f fs ih =>
    simp only [expandMacros, bind, Except.bind, List.cons_append] at ha ⊢
    cases hf : expandField big f with
    | error e => rw [hf] at ha; simp at ha
    | ok y =>
      rw [hf] at ha
      cases hfs : expandMacros big fs with
      | error e => rw [hfs] at ha; simp at ha
      | ok z =>
        rw [hfs] at ha
        simp at ha
        subst ha
        rw [ih z hfs]
        cases expandMacros big b with
        | error e => rfl
        | ok w => simp [Except.map]

theorem expandMacros_item (big : Bool) (it : Item) (h : it.WF) :
    expandMacros big (it.fields.map glue) = .ok (it.out big) := by
  cases it with
  | arg ty name =>
    obtain ⟨-, h2, -, h4⟩ := h
    have p1 := expandField_plain big (glue ty) (plain_of_no_paren _ (glue_no_paren ty h2).1)
    have p2 := expandField_plain big name (plain_of_no_paren _ fun hc => (h4.2.1 _ hc).2.2.1 rfl)
    simp [Item.fields, expandMacros, p1, glue, p2, bind, Except.bind, Item.out]
  | wide m x =>
    have p := expandField_wide big m x h.1
    simp only [Item.fields, List.map_cons, List.map_nil, glue, expandMacros, p, bind, Except.bind, Item.out,
      List.append_nil]

theorem expandMacros_items (big : Bool) (items : List Item) (h : ∀ it ∈ items, it.WF) :
    expandMacros big ((items.flatMap Item.fields).map glue) = .ok (items.flatMap (Item.out big)) := by
  induction items with
  | nil => rfl
  | cons it items ih =>
    rw [List.flatMap_cons, List.map_append, expandMacros_append _ _ _ _ (expandMacros_item big it (h it (by simp))),
      ih fun x hx => h x (by simp [hx])]
    rfl

theorem items_plain_out (big : Bool) (items : List Item) (h : ∀ it ∈ items, it.WF)
    (hp : ∀ m x, Item.wide m x ∉ items) :
    (items.flatMap Item.fields).map glue = items.flatMap (Item.out big) := by
  induction items with
  | nil => rfl
  | cons it items ih =>
    rw [List.flatMap_cons, List.map_append, List.flatMap_cons, ih (fun x hx => h x (by simp [hx]))
      (fun m x hm => hp m x (by simp [hm]))]
    cases it with
    | arg ty name => simp [Item.fields, Item.out, glue]
    | wide m x => exact absurd (by simp) (hp m x)

theorem fmtArg_ok (t n : Str) (h : t ≠ []) : fmtArg t n = .ok (argText t n) := by
  unfold fmtArg argText
  cases hl : t.getLast? with
  | none => simp at hl; exact absurd hl h
  | some c =>
    by_cases hc : c = '*'
    · simp [hc]
    · simp [hc]

theorem fmtArgs_items (big : Bool) (items : List Item) (h : ∀ it ∈ items, it.WF) :
    fmtArgs (items.flatMap (Item.out big)) = .ok (items.flatMap (Item.sig big)) ∧
    (items.flatMap (Item.out big)).length = 2 * (items.flatMap (Item.sig big)).length := by
  induction items with
  | nil => exact ⟨rfl, rfl⟩
  | cons it items ih =>
    obtain ⟨i1, i2⟩ := ih fun x hx => h x (by simp [hx])
    have hw := h it (by simp)
    cases it with
    | arg ty name =>
      have hne := glue_ne_nil ty hw.1 fun w hm => (hw.2.1 w hm).1
      simp only [List.flatMap_cons, Item.out, Item.sig, List.cons_append, List.nil_append, fmtArgs,
        fmtArg_ok _ _ hne, i1, bind, Except.bind]
      refine ⟨trivial, ?_⟩
      simp only [List.length_cons, i2]; omega
    | wide m x =>
      have hu : ∀ n, fmtArg cs!"u32" n = .ok (argText cs!"u32" n) := fun n => fmtArg_ok _ n (by simp)
      simp only [List.flatMap_cons, Item.out, Item.sig, List.cons_append, List.nil_append, fmtArgs,
        hu, i1, bind, Except.bind]
      refine ⟨by cases big <;> rfl, ?_⟩
      cases big <;> simp [halves, i2] <;> omega

theorem forall2_map_eq {α β γ : Type} (R : α → β → Prop) (f : α → γ) (g : β → γ) (as : List α) (bs : List β)
    (h : List.Forall₂ R as bs) (he : ∀ a b, a ∈ as → R a b → g b = f a) : bs.map g = as.map f := by
  induction h with
  | nil => rfl
  | cons hr _ ih =>
    simp only [List.map_cons]
    rw [he _ _ (by simp) hr, ih fun a b ha hr' => he a b (by simp [ha]) hr']

theorem forall2_right {α β : Type} {R : α → β → Prop} {as : List α} {bs : List β} (h : List.Forall₂ R as bs)
    (b : β) (hb : b ∈ bs) : ∃ a ∈ as, R a b := by
  induction h with
  | nil => simp at hb
  | cons hr _ ih =>
    rcases List.mem_cons.1 hb with rfl | hb
    · exact ⟨_, by simp, hr⟩
    · obtain ⟨a, ha, hR⟩ := ih hb; exact ⟨a, by simp [ha], hR⟩

theorem Spec.Rest.mem {ws : List Str} {r : Str} (h : Rest ws r) (c : Char) (hc : c ∈ r) :
    isSpace c = true ∨ c ∈ cs!"__user" ∨ ∃ w ∈ ws, c ∈ w := by
  induction h with
  | done b hb => exact .inl (hb c hc)
  | word b w rest ws hne hb hr ih =>
    simp only [List.mem_append] at hc
    rcases hc with (hc | hc) | hc
    · exact .inl (hb c hc)
    · exact .inr (.inr ⟨w, by simp, hc⟩)
    · rcases ih hc with h | h | ⟨x, hx, hcx⟩
      · exact .inl h
      · exact .inr (.inl h)
      · exact .inr (.inr ⟨x, by simp [hx], hcx⟩)
  | user b rest ws hb hr ih =>
    simp only [List.mem_append] at hc
    rcases hc with (hc | hc) | hc
    · exact .inl (hb c hc)
    · rcases List.mem_cons.1 hc with rfl | hc
      · exact .inl (by decide)
      · exact .inr (.inl hc)
    · exact ih hc

theorem Spec.FieldText.mem {ws : List Str} {f : Str} (h : FieldText ws f) (c : Char) (hc : c ∈ f) :
    isSpace c = true ∨ c ∈ cs!"__user" ∨ ∃ w ∈ ws, c ∈ w := by
  cases h with
  | mk b w rest ws hb hr =>
    simp only [List.mem_append] at hc
    rcases hc with (hc | hc) | hc
    · exact .inl (hb c hc)
    · exact .inr (.inr ⟨w, by simp, hc⟩)
    · rcases hr.mem c hc with h | h | ⟨x, hx, hcx⟩
      · exact .inl h
      · exact .inr (.inl h)
      · exact .inr (.inr ⟨x, by simp [hx], hcx⟩)

theorem FieldText_nomem {ws : List Str} {f : Str} (h : FieldText ws f) (c : Char) (h1 : isSpace c = false)
    (h2 : c ∉ cs!"__user") (h3 : ∀ w ∈ ws, c ∉ w) : c ∉ f := by
  intro hc
  rcases h.mem c hc with h | h | ⟨w, hw, hcw⟩
  · rw [h1] at h; exact absurd h (by decide)
  · exact h2 h
  · exact h3 w hw hcw

theorem joinWith_mem (sep : Str) (fs : List Str) (c : Char) (h : c ∈ joinWith sep fs) : c ∈ sep ∨ ∃ f ∈ fs, c ∈ f := by
  induction fs with
  | nil => simp [joinWith] at h
  | cons f fs ih =>
    cases fs with
    | nil => exact .inr ⟨f, by simp, h⟩
    | cons g fs =>
      simp only [joinWith, List.mem_append] at h
      rcases h with (h | h) | h
      · exact .inr ⟨f, by simp, h⟩
      · exact .inl h
      · rcases ih h with h | ⟨x, hx, hc⟩
        · exact .inl h
        · exact .inr ⟨x, by simp [hx], hc⟩

/-- the fields of a laid out list are the glued words -/
theorem fields_of_layout (wss : List (List Str)) (texts : List Str) (h : List.Forall₂ FieldText wss texts) (hne : wss ≠ [])
    (hok : ∀ ws ∈ wss, (∀ w ∈ ws, Wordish w ∧ ',' ∉ w) ∧ NoTriple ws) :
    (splitChar ',' (cleanSig (joinWith cs!"," texts))).map strip = wss.map glue := by
  rw [fields_cleanSig, splitChar_join ',' texts (by
    intro he; subst he; cases h; exact hne rfl)
    (by
      intro f hf
      obtain ⟨ws, hws, ht⟩ := forall2_right h f hf
      exact FieldText_nomem ht ',' (by decide) (by decide) fun w hw => ((hok ws hws).1 w hw).2)]
  exact forall2_map_eq FieldText glue cleanField wss texts h fun ws f hws ht =>
    cleanField_text ht (fun w hw => ((hok ws hws).1 w hw).1) (hok ws hws).2

theorem item_no_comma (it : Item) (h : it.WF) : ∀ ws ∈ it.fields, ∀ w ∈ ws, ',' ∉ w := by
  cases it with
  | arg ty name =>
    obtain ⟨-, h2, -, h4⟩ := h
    intro ws hws
    simp [Item.fields] at hws
    rcases hws with rfl | rfl
    · exact fun w hw hc => ((h2 w hw).2.1 _ hc).2.1 rfl
    · intro w hw hc; simp at hw; subst hw; exact (h4.2.1 _ hc).2.1 rfl
  | wide m x =>
    intro ws hws w hw
    simp [Item.fields] at hws
    subst hws
    simp at hw
    subst hw
    intro hc
    have hm := h.1
    have hx : ',' ∉ x := fun hc => (h.2.2.1 _ hc).2.1 rfl
    simp only [wideMacros, List.mem_cons, List.not_mem_nil, or_false] at hm
    rcases hm with rfl | rfl | rfl | rfl <;> simp [hx] at hc

theorem parseSignature_items (big : Bool) (items : List Item) (texts : List Str) (hne : items ≠ [])
    (hw : ∀ it ∈ items, it.WF) (ht : List.Forall₂ FieldText (items.flatMap Item.fields) texts) :
    parseSignature (cleanSig (joinWith cs!"," texts)) big = .ok (items.flatMap (Item.out big)) := by
  have hok : ∀ ws ∈ items.flatMap Item.fields, (∀ w ∈ ws, Wordish w ∧ ',' ∉ w) ∧ NoTriple ws := by
    intro ws hws
    obtain ⟨it, hit, hws⟩ := List.mem_flatMap.1 hws
    obtain ⟨h1, h2⟩ := item_fields_ok it (hw it hit) ws hws
    exact ⟨fun w hm => ⟨h1 w hm, item_no_comma it (hw it hit) ws hws w hm⟩, h2⟩
  have hfne : items.flatMap Item.fields ≠ [] := by
    cases items with
    | nil => exact absurd rfl hne
    | cons it items => cases it <;> simp [Item.fields]
  have hfields := fields_of_layout _ texts ht hfne hok
  unfold parseSignature
  simp only [hfields]
  by_cases hm : macroWords.all (fun x => !isInfix x (cleanSig (joinWith cs!"," texts))) = true
  · rw [if_pos hm]
    -- no macro word: no wide item
    have hno : ∀ m x, Item.wide m x ∉ items := by
      intro m x hin
      have hmem : m ++ cs!"(" ++ x ++ cs!")" ∈ (splitChar ',' (cleanSig (joinWith cs!"," texts))).map strip := by
        rw [hfields]
        exact List.mem_map.2 ⟨[m ++ cs!"(" ++ x ++ cs!")"], List.mem_flatMap.2 ⟨_, hin, by simp [Item.fields]⟩, by simp [glue]⟩
      obtain ⟨f, hf, he⟩ := List.mem_map.1 hmem
      have hinf : m ++ cs!"(" ++ x ++ cs!")" <:+: cleanSig (joinWith cs!"," texts) := by
        rw [← he]; exact (strip_infix f).trans (splitChar_infix _ _ _ hf)
      have hmw : ∃ q ∈ macroWords, q <+: m := by
        have := (hw _ hin).1
        simp only [wideMacros, List.mem_cons, List.not_mem_nil, or_false] at this
        rcases this with rfl | rfl | rfl | rfl
        · exact ⟨cs!"SC_ARG64", by decide, by decide⟩
        · exact ⟨cs!"arg_u32p", by decide, by decide⟩
        · exact ⟨cs!"compat_arg_u64", by decide, by decide⟩
        · exact ⟨cs!"compat_arg_u64", by decide, by decide⟩
      obtain ⟨q, hq, hqm⟩ := hmw
      have := List.all_eq_true.1 hm q hq
      rw [Bool.not_eq_true'] at this
      have h2 : isInfix q (cleanSig (joinWith cs!"," texts)) = true := by
        rw [isInfix_iff]
        have : q <+: m ++ cs!"(" ++ x ++ cs!")" := by
          rw [List.append_assoc, List.append_assoc]; exact hqm.trans (List.prefix_append _ _)
        exact this.isInfix.trans hinf
      rw [h2] at this
      exact absurd this (by decide)
    have hpar : ∀ c, c = '(' ∨ c = ')' → c ∉ cleanSig (joinWith cs!"," texts) := by
      intro c hc hmem
      have hcs : isSpace c = false ∧ c ∉ cs!"__user" ∧ c ≠ ' ' ∧ c ≠ '*' ∧ c ∉ cs!"," := by
        rcases hc with rfl | rfl <;> decide
      rcases cleanSig_mem _ _ hmem with h | h | h
      · exact hcs.2.2.1 h
      · exact hcs.2.2.2.1 h
      · rcases joinWith_mem _ _ _ h with h | ⟨f, hf, hcf⟩
        · exact hcs.2.2.2.2 h
        · obtain ⟨ws, hws, hft⟩ := forall2_right ht f hf
          refine FieldText_nomem hft c hcs.1 hcs.2.1 ?_ hcf
          intro w hww hcw
          obtain ⟨it, hit, hws⟩ := List.mem_flatMap.1 hws
          cases it with
          | wide m x => exact hno m x hit
          | arg ty name =>
            obtain ⟨-, h2, -, h4⟩ := hw _ hit
            have hcl : CleanWord w := by
              simp [Item.fields] at hws
              rcases hws with rfl | rfl
              · exact h2 w hww
              · simp at hww; subst hww; exact h4
            have := hcl.2.1 c hcw
            rcases hc with rfl | rfl
            · exact this.2.2.1 rfl
            · exact this.2.2.2 rfl
    have h1 : (cleanSig (joinWith cs!"," texts)).contains '(' = false := by
      have := hpar '(' (by simp); simpa using this
    have h2 : (cleanSig (joinWith cs!"," texts)).contains ')' = false := by
      have := hpar ')' (by simp); simpa using this
    simp only [h1, h2, pyAssert, Bool.not_false, Bool.and_self, if_true, bind, Except.bind]
    rw [items_plain_out big items hw hno]
  · rw [if_neg hm]
    exact expandMacros_items big items hw

/-! ## whole texts -/

theorem noprefix_define (kw rest : Str) (hk : kw ∈ defineMacros) : noprefix (kw ++ rest) definePrefixes = rest := by
  simp only [defineMacros, List.mem_cons, List.not_mem_nil, or_false] at hk
  rcases hk with rfl | rfl | rfl | rfl | rfl <;> simp [noprefix, definePrefixes, startsWith]

theorem define_ne (kw rest : Str) (hk : kw ∈ defineMacros) : kw ++ rest ≠ rest := by
  intro h
  have := congrArg List.length h
  simp at this
  subst this
  revert hk; decide

theorem digit_facts : ∀ n, n ≤ 6 → isDigit (digitChar10 n) = true ∧ natOfDigits [digitChar10 n] = n ∧ digitChar10 n ≠ ',' := by
  decide

theorem signatureOfText_define (big : Bool) (kw scname : Str) (items : List Item) (texts : List Str)
    (hk : kw ∈ defineMacros) (hname : ',' ∉ scname) (hne : items ≠ []) (hw : ∀ it ∈ items, it.WF)
    (ht : List.Forall₂ FieldText (items.flatMap Item.fields) texts) (hn : (items.flatMap (Item.sig big)).length ≤ 6) :
    signatureOfText (kw ++ digitChar10 (items.flatMap (Item.sig big)).length :: cs!"(" ++ scname ++ cs!"," ++
      joinWith cs!"," texts ++ cs!")") big = .ok (some (items.flatMap (Item.sig big))) := by
  generalize hd : (items.flatMap (Item.sig big)).length = n at hn
  obtain ⟨d1, d2, d3⟩ := digit_facts n hn
  have e : kw ++ digitChar10 n :: cs!"(" ++ scname ++ cs!"," ++ joinWith cs!"," texts ++ cs!")" =
      kw ++ ((digitChar10 n :: cs!"(" ++ scname ++ cs!",") ++ joinWith cs!"," texts ++ [')']) := by simp
  rw [e]
  unfold signatureOfText
  rw [noprefix_define kw _ hk]
  simp only
  rw [if_pos (define_ne kw _ hk)]
  have hfind : findAfter ',' ((digitChar10 n :: cs!"(" ++ scname ++ cs!",") ++ joinWith cs!"," texts ++ [')']) =
      (digitChar10 n :: cs!"(" ++ scname ++ cs!",").length := by
    unfold findAfter
    have := findChar_append ',' (digitChar10 n :: cs!"(" ++ scname) (joinWith cs!"," texts ++ [')']) (by
      simp [hname, d3, Ne.symm d3])
    rw [show (digitChar10 n :: cs!"(" ++ scname ++ cs!",") ++ joinWith cs!"," texts ++ [')'] =
      (digitChar10 n :: cs!"(" ++ scname) ++ ',' :: (joinWith cs!"," texts ++ [')']) by simp, this]
    simp
  have hsl := sliceToR_last ')' (digitChar10 n :: cs!"(" ++ scname ++ cs!",") (joinWith cs!"," texts) _ rfl
  obtain ⟨f1, f2⟩ := fmtArgs_items big items hw
  unfold signatureOfDefine
  rw [hfind]
  simp only [hsl, parseSignature_items big items texts hne hw ht]
  simp only [List.cons_append, d1, if_true, d2]
  have a1 : decide (n ≤ 6) = true := by simpa using hn
  have a2 : decide ((items.flatMap (Item.out big)).length % 2 = 0 ∧ (items.flatMap (Item.out big)).length / 2 = n) = true := by
    rw [f2, hd, decide_eq_true_eq]; omega
  rw [a1]
  rw [if_neg (by simp)]
  simp only [pyAssert, if_true, bind, Except.bind, a2, f1, Except.map]

theorem signatureOfText_define0 (big : Bool) (kw scname : Str) (hk : kw ∈ defineMacros) (hname : ',' ∉ scname) :
    signatureOfText (kw ++ '0' :: cs!"(" ++ scname ++ cs!")") big = .ok (some []) := by
  have e : kw ++ '0' :: cs!"(" ++ scname ++ cs!")" = kw ++ ('0' :: cs!"(" ++ scname ++ [')']) := by simp
  rw [e]
  unfold signatureOfText
  rw [noprefix_define kw _ hk]
  simp only
  rw [if_pos (define_ne kw _ hk)]
  have hfind : findAfter ',' ('0' :: cs!"(" ++ scname ++ [')']) = 0 := by
    unfold findAfter
    rw [findChar_none _ _ (by simp [hname])]
  unfold signatureOfDefine
  rw [hfind]
  rfl

theorem fieldText_start {ws : List Str} {f : Str} (h : FieldText ws f) (hw : ∀ w ∈ ws, CleanWord w) :
    ∃ b w rest, f = b ++ w ++ rest ∧ (∀ c ∈ b, isSpace c = true) ∧ w ∈ ws ∧ (∀ c t, rest = c :: t → isSpace c = true) := by
  cases h with
  | mk b w rest ws hb hr => exact ⟨b, w, rest, rfl, hb, by simp, hr.head⟩

theorem signatureOfText_asmlinkage (big : Bool) (mid : Str) (args : List (List Str)) (texts : List Str) (hne : args ≠ [])
    (hmid : '(' ∉ mid) (hvoid : args ≠ [[cs!"void"]])
    (hw : ∀ ws ∈ args, (∀ w ∈ ws, CleanWord w) ∧ NoTriple ws) (ht : List.Forall₂ FieldText args texts)
    (hn : args.length ≤ 7) :
    signatureOfText (cs!"asmlinkage" ++ mid ++ cs!"(" ++ joinWith cs!"," texts ++ cs!")") big = .ok (some (args.map glue)) := by
  unfold signatureOfText
  have hnp : noprefix (cs!"asmlinkage" ++ mid ++ cs!"(" ++ joinWith cs!"," texts ++ cs!")") definePrefixes =
      cs!"asmlinkage" ++ mid ++ cs!"(" ++ joinWith cs!"," texts ++ cs!")" := by
    apply noprefix_of_none
    intro p hp hpre
    simp only [definePrefixes, List.mem_cons, List.not_mem_nil, or_false] at hp
    rcases hp with rfl | rfl | rfl | rfl | rfl <;> exact absurd (List.cons_prefix_cons.1 hpre).1 (by decide)
  rw [hnp]
  simp only [ne_eq, not_true_eq_false, if_false]
  have hsw : startsWith (cs!"asmlinkage" ++ mid ++ cs!"(" ++ joinWith cs!"," texts ++ cs!")") cs!"asmlinkage" = true := by
    rw [startsWith_iff]; simp only [List.append_assoc]; exact List.prefix_append _ _
  rw [hsw, if_pos rfl]
  have hfind : findAfter '(' (cs!"asmlinkage" ++ mid ++ cs!"(" ++ joinWith cs!"," texts ++ cs!")") =
      (cs!"asmlinkage" ++ mid ++ cs!"(").length := by
    unfold findAfter
    have := findChar_append '(' (cs!"asmlinkage" ++ mid) (joinWith cs!"," texts ++ [')']) (by simp [hmid])
    rw [show cs!"asmlinkage" ++ mid ++ cs!"(" ++ joinWith cs!"," texts ++ cs!")" =
      (cs!"asmlinkage" ++ mid) ++ '(' :: (joinWith cs!"," texts ++ [')']) by simp, this]
    simp
  have hsl := sliceToR_last ')' (cs!"asmlinkage" ++ mid ++ cs!"(") (joinWith cs!"," texts) _ rfl
  unfold signatureOfAsmlinkage
  rw [hfind, hsl]
  -- the trimmed list
  have hclean : cleanSig (strip (joinWith cs!"," texts)) = cleanSig (joinWith cs!"," texts) ∧
      strip (joinWith cs!"," texts) ≠ [] := by
    obtain ⟨a, b, h1, h2, h3, h4⟩ := strip_decomp (joinWith cs!"," texts)
    have hstart : ∃ w, CleanWord w ∧ ∃ rest, (∀ c t, rest = c :: t → isSpace c = true ∨ c = ',') ∧
        lstrip (joinWith cs!"," texts) = w ++ rest := by
      cases ht with
      | nil => exact absurd rfl hne
      | @cons ws f wss fs hf hfs =>
        obtain ⟨bb, w, rest, e, hb, hm, hr⟩ := fieldText_start hf (hw ws (by simp)).1
        have cw := (hw ws (by simp)).1 w hm
        have hl : ∀ t : Str, lstrip (bb ++ (w ++ t)) = w ++ t := by
          intro t
          rw [lstrip_append_spaces bb _ hb]
          cases w with
          | nil => exact absurd rfl cw.1
          | cons c w => exact lstrip_of_head _ _ (cw.2.1 c (by simp)).1
        cases fs with
        | nil =>
          refine ⟨w, cw, rest, fun c t h => .inl (hr c t h), ?_⟩
          simp only [joinWith]
          rw [e, List.append_assoc, hl]
        | cons g gs =>
          refine ⟨w, cw, rest ++ ',' :: joinWith cs!"," (g :: gs), ?_, ?_⟩
          · intro c t h
            cases rest with
            | nil => simp at h; exact .inr h.1.symm
            | cons d rest => simp at h; exact .inl (by rw [← h.1]; exact hr d rest rfl)
          · rw [← hl]
            simp only [joinWith]
            rw [e]; simp
    obtain ⟨w, cw, rest, hr, hlst⟩ := hstart
    -- lstrip is strip followed by the trailing blanks
    have hl2 : lstrip (joinWith cs!"," texts) = strip (joinWith cs!"," texts) ++ b := by
      conv => lhs; rw [h1]
      rw [List.append_assoc, lstrip_append_spaces a _ h2]
      cases hs : strip (joinWith cs!"," texts) with
      | nil =>
        exfalso
        rw [hs] at h1
        simp only [List.append_nil] at h1
        have : lstrip (joinWith cs!"," texts) = [] := by
          rw [h1]
          exact lstrip_all_space _ (by
            intro c hc
            rcases List.mem_append.1 hc with h | h
            · exact h2 c h
            · exact h3 c h)
        rw [this] at hlst
        have := List.append_eq_nil_iff.1 hlst.symm
        exact cw.1 this.1
      | cons c s =>
        rw [hs] at h4
        exact lstrip_of_head _ _ (h4.1 c (by simp))
    have hne' : strip (joinWith cs!"," texts) ≠ [] := by
      intro hs
      rw [hs, List.nil_append] at hl2
      rw [hl2] at hlst
      cases w with
      | nil => exact cw.1 rfl
      | cons c w =>
        have := h3 c (by rw [hlst]; simp)
        rw [(cw.2.1 c (by simp)).1] at this
        exact absurd this (by decide)
    refine ⟨?_, hne'⟩
    conv => rhs; rw [h1]
    refine (cleanSig_trim a _ b h2 h3 ?_).symm
    rw [← hl2, hlst]
    intro hp
    by_cases hlen : (cs!"__user").length ≤ w.length
    · exact cw.2.2 (List.prefix_of_prefix_length_le hp (List.prefix_append _ _) hlen)
    · cases rest with
      | nil => simp at hp; exact cw.2.2 hp
      | cons c t =>
        have : w ++ [c] <+: cs!"__user" := by
          refine List.prefix_of_prefix_length_le (l₃ := w ++ c :: t) ?_ hp (by simp at hlen ⊢; omega)
          rw [show w ++ c :: t = (w ++ [c]) ++ t by simp]
          exact List.prefix_append _ _
        have hm : c ∈ cs!"__user" := this.subset (by simp)
        have hc := hr c t rfl
        revert hc
        simp only [List.mem_cons, List.not_mem_nil, or_false] at hm
        rcases hm with rfl | rfl | rfl | rfl | rfl | rfl <;> decide
  have hok : ∀ ws ∈ args, (∀ w ∈ ws, Wordish w ∧ ',' ∉ w) ∧ NoTriple ws := fun ws hws =>
    ⟨fun w hm => ⟨((hw ws hws).1 w hm).wordish, fun hc => (((hw ws hws).1 w hm).2.1 _ hc).2.1 rfl⟩, (hw ws hws).2⟩
  have hfields := fields_of_layout args texts ht hne hok
  have hnv : strip (joinWith cs!"," texts) ≠ cs!"void" := by
    intro hv
    have e : (splitChar ',' (cleanSig cs!"void")).map strip = args.map glue := by
      rw [← hfields, ← hclean.1, hv]
    have e2 : (splitChar ',' (cleanSig cs!"void")).map strip = [cs!"void"] := by decide +kernel
    rw [e2] at e
    cases args with
    | nil => exact hne rfl
    | cons ws args =>
      cases args with
      | cons => simp at e
      | nil =>
        simp only [List.map_cons, List.map_nil, List.cons.injEq, and_true] at e
        cases ws with
        | nil => simp [glue] at e
        | cons v ws =>
          cases ws with
          | nil => simp only [glue] at e; exact hvoid (by rw [← e])
          | cons u us =>
            simp only [glue] at e
            split at e
            · rename_i hst
              have : '*' ∈ v := List.mem_of_getLast? hst.1
              have : '*' ∈ cs!"void" := by rw [e]; exact List.mem_append_left _ this
              revert this; decide
            · have : ' ' ∈ cs!"void" := by rw [e]; simp
              revert this; decide
  have hpar : ∀ c, c = '(' ∨ c = ')' → c ∉ cleanSig (joinWith cs!"," texts) := by
    intro c hc hmem
    have hcs : isSpace c = false ∧ c ∉ cs!"__user" ∧ c ≠ ' ' ∧ c ≠ '*' ∧ c ∉ cs!"," := by
      rcases hc with rfl | rfl <;> decide
    rcases cleanSig_mem _ _ hmem with h | h | h
    · exact hcs.2.2.1 h
    · exact hcs.2.2.2.1 h
    · rcases joinWith_mem _ _ _ h with h | ⟨f, hf, hcf⟩
      · exact hcs.2.2.2.2 h
      · obtain ⟨ws, hws, hft⟩ := forall2_right ht f hf
        refine FieldText_nomem hft c hcs.1 hcs.2.1 ?_ hcf
        intro w hww hcw
        have := ((hw ws hws).1 w hww).2.1 c hcw
        rcases hc with rfl | rfl
        · exact this.2.2.1 rfl
        · exact this.2.2.2 rfl
  have h1 : (cleanSig (joinWith cs!"," texts)).contains '(' = false := by
    have := hpar '(' (by simp); simpa using this
  have h2 : (cleanSig (joinWith cs!"," texts)).contains ')' = false := by
    have := hpar ')' (by simp); simpa using this
  simp only
  rw [if_neg (by
    rintro (h | h)
    · exact hclean.2 h
    · exact hnv h)]
  rw [hclean.1, hfields, h1, h2]
  have a1 : decide ((args.map glue).length ≤ 7) = true := by simpa using hn
  simp only [a1, pyAssert, Bool.not_false, Bool.and_self, if_true, bind, Except.bind, Except.map]

theorem signatureOfText_asmlinkage_void (big : Bool) (mid inner : Str) (hmid : '(' ∉ mid)
    (hin : strip inner = [] ∨ strip inner = cs!"void") :
    signatureOfText (cs!"asmlinkage" ++ mid ++ cs!"(" ++ inner ++ cs!")") big = .ok (some []) := by
  unfold signatureOfText
  have hnp : noprefix (cs!"asmlinkage" ++ mid ++ cs!"(" ++ inner ++ cs!")") definePrefixes =
      cs!"asmlinkage" ++ mid ++ cs!"(" ++ inner ++ cs!")" := by
    apply noprefix_of_none
    intro p hp hpre
    simp only [definePrefixes, List.mem_cons, List.not_mem_nil, or_false] at hp
    rcases hp with rfl | rfl | rfl | rfl | rfl <;> exact absurd (List.cons_prefix_cons.1 hpre).1 (by decide)
  rw [hnp]
  simp only [ne_eq, not_true_eq_false, if_false]
  have hsw : startsWith (cs!"asmlinkage" ++ mid ++ cs!"(" ++ inner ++ cs!")") cs!"asmlinkage" = true := by
    rw [startsWith_iff]; simp only [List.append_assoc]; exact List.prefix_append _ _
  rw [hsw, if_pos rfl]
  have hfind : findAfter '(' (cs!"asmlinkage" ++ mid ++ cs!"(" ++ inner ++ cs!")") =
      (cs!"asmlinkage" ++ mid ++ cs!"(").length := by
    unfold findAfter
    have := findChar_append '(' (cs!"asmlinkage" ++ mid) (inner ++ [')']) (by simp [hmid])
    rw [show cs!"asmlinkage" ++ mid ++ cs!"(" ++ inner ++ cs!")" =
      (cs!"asmlinkage" ++ mid) ++ '(' :: (inner ++ [')']) by simp, this]
    simp
  have hsl := sliceToR_last ')' (cs!"asmlinkage" ++ mid ++ cs!"(") inner _ rfl
  unfold signatureOfAsmlinkage
  rw [hfind, hsl]
  simp only
  rw [if_pos hin]
  rfl

end Verif
