import Verif.Spec.Page
import Verif.Lemmas.OutHtml
/-! # Lemmas about the script of the HTML page (C97) -/
set_option autoImplicit false

namespace Verif
open Spec

/-! ## Values -/

/-- the values of column `k`: numbers in the first, strings in the others -/
def GoodVal (k : Nat) (v : JsVal) : Prop := if k = 0 then ∃ n, v = .num (some n) else ∃ s, v = .str s

theorem listNat_lt_trans_not {a b c : List Nat} (h1 : ¬ b < a) (h2 : ¬ c < b) : ¬ c < a := by
  exact List.not_lt.2 (List.le_trans (List.not_lt.1 h1) (List.not_lt.1 h2))

theorem JsVal.le_trans {k : Nat} {a b c : JsVal} (ha : GoodVal k a) (hb : GoodVal k b) (hc : GoodVal k c)
    (h1 : b.lt a = false) (h2 : c.lt b = false) : c.lt a = false := by
  unfold GoodVal at ha hb hc
  split at ha
  · next h =>
    simp only [h, if_true] at hb hc
    obtain ⟨x, rfl⟩ := ha; obtain ⟨y, rfl⟩ := hb; obtain ⟨z, rfl⟩ := hc
    simp only [JsVal.lt, decide_eq_false_iff_not] at h1 h2 ⊢
    omega
  · next h =>
    simp only [h, if_false] at hb hc
    obtain ⟨x, rfl⟩ := ha; obtain ⟨y, rfl⟩ := hb; obtain ⟨z, rfl⟩ := hc
    simp only [JsVal.lt, decide_eq_false_iff_not] at h1 h2 ⊢
    exact listNat_lt_trans_not h1 h2

theorem JsVal.lt_asymm {k : Nat} {a b : JsVal} (ha : GoodVal k a) (hb : GoodVal k b) (h : a.lt b = true) : b.lt a = false := by
  unfold GoodVal at ha hb
  split at ha
  · next hk =>
    simp only [hk, if_true] at hb
    obtain ⟨x, rfl⟩ := ha; obtain ⟨y, rfl⟩ := hb
    simp only [JsVal.lt, decide_eq_false_iff_not, decide_eq_true_eq] at h ⊢
    omega
  · next hk =>
    simp only [hk, if_false] at hb
    obtain ⟨x, rfl⟩ := ha; obtain ⟨y, rfl⟩ := hb
    simp only [JsVal.lt, decide_eq_false_iff_not, decide_eq_true_eq] at h ⊢
    exact fun h' => List.lt_irrefl _ (List.lt_trans h h')

theorem compareValues_le (a b : JsVal) (desc : Bool) :
    decide (compareValues desc a b ≤ 0) = if desc then !a.lt b else !b.lt a := by
  cases desc
  · simp only [compareValues, Bool.false_eq_true, if_false]
    cases h : b.lt a
    · simp only [Bool.false_eq_true, if_false]; split <;> rfl
    · rfl
  · simp only [compareValues, if_true]
    cases h : a.lt b
    · simp only [Bool.false_eq_true, if_false]; split <;> rfl
    · rfl

/-! ## One click -/

theorem mapRes_ok_map {α β : Type} (f : α → Res β) (g : α → β) (l : List α) (h : ∀ x ∈ l, f x = .ok (g x)) : mapRes f l = .ok (l.map g) := by
  induction l with
  | nil => rfl
  | cons x l ih =>
    simp only [mapRes, h x (List.mem_cons_self ..), ih (fun y hy => h y (List.mem_cons_of_mem _ hy)), bind, Except.bind, List.map_cons]

/-- how the page looks like in a view -/
structure Display (opened : Page) (base : Nat → Tr) (p : Page) (v : View) : Prop where
  rows : p.rows = v.order.map fun i => { base i with highlight := v.lit i }
  len : p.ths.length = opened.ths.length
  ths : ∀ k h, p.ths[k]? = some h → h.ascending = (decide (k = v.col) && !v.desc) ∧ h.descending = (decide (k = v.col) && v.desc)
  sortable : ∀ k : Nat, (p.ths[k]?).map Th.sortable = (opened.ths[k]?).map Th.sortable

theorem rowValue_highlight (k : Nat) (r : Tr) (b : Bool) : rowValue k { r with highlight := b } = rowValue k r := rfl

theorem sortTable_display (opened : Page) (base : Nat → Tr) (less : Nat → Nat → Nat → Prop) (len n k : Nat) (hk : k < n)
    (hkn : k < opened.ths.length) (val : Nat → JsVal) (hgood : ∀ i, GoodVal k (val i))
    (hval : ∀ i, i < len → rowValue k (base i) = .ok (val i))
    (hless : ∀ i j, i < len → j < len → ((val i).lt (val j) = true ↔ less k i j))
    (p : Page) (v : View) (hd : Display opened base p v) (hp : ∀ i ∈ v.order, i < len) (hne : v.order ≠ []) :
    ∃ p' v', sortTable k p = .ok p' ∧ Seen less n v (.header k) v' ∧ Display opened base p' v' := by
  have hk' : k < p.ths.length := by rw [hd.len]; exact hkn
  have hget : p.ths[k]? = some p.ths[k] := List.getElem?_eq_getElem hk'
  have hasc := (hd.ths k _ hget).1
  have hrows : p.rows.isEmpty = false := by
    rw [hd.rows]
    cases ho : v.order with
    | nil => exact absurd ho hne
    | cons _ _ => rfl
  let desc := p.ths[k].ascending
  let f : Nat → JsVal × Tr := fun i => (val i, { base i with highlight := v.lit i })
  let r : Nat → Nat → Bool := fun i j => decide (compareValues desc (val i) (val j) ≤ 0)
  have hr : ∀ i j, r i j = if desc then !(val i).lt (val j) else !(val j).lt (val i) := fun i j => compareValues_le (val i) (val j) desc
  have htrans : ∀ a b c, r a b = true → r b c = true → r a c = true := by
    intro a b c h1 h2
    rw [hr] at h1 h2 ⊢
    cases hdesc : desc
    · simp only [hdesc, Bool.false_eq_true, if_false, Bool.not_eq_true'] at h1 h2 ⊢
      exact JsVal.le_trans (hgood a) (hgood b) (hgood c) h1 h2
    · simp only [hdesc, if_true, Bool.not_eq_true'] at h1 h2 ⊢
      exact JsVal.le_trans (hgood c) (hgood b) (hgood a) h2 h1
  have htotal : ∀ a b, (r a b || r b a) = true := by
    intro a b
    rw [hr, hr]
    cases hdesc : desc
    · simp only [Bool.false_eq_true, if_false, Bool.or_eq_true, Bool.not_eq_true']
      cases h : (val b).lt (val a)
      · exact .inl rfl
      · exact .inr (JsVal.lt_asymm (hgood b) (hgood a) h)
    · simp only [if_true, Bool.or_eq_true, Bool.not_eq_true']
      cases h : (val a).lt (val b)
      · exact .inl rfl
      · exact .inr (JsVal.lt_asymm (hgood a) (hgood b) h)
  have hkeyed : mapRes (fun x => (rowValue k x).map fun w => (w, x)) p.rows = .ok (v.order.map f) := by
    rw [hd.rows]
    have : mapRes (fun x => (rowValue k x).map fun w => (w, x)) (v.order.map fun i => { base i with highlight := v.lit i }) =
        mapRes (fun i => (rowValue k { base i with highlight := v.lit i }).map fun w => (w, { base i with highlight := v.lit i })) v.order := by
      generalize v.order = l
      induction l with
      | nil => rfl
      | cons x l ih => simp only [mapRes, List.map_cons, ih]
    rw [this]
    refine mapRes_ok_map _ _ _ fun i hi => ?_
    simp only [rowValue_highlight, hval i (hp i hi), Except.map, f]
  have hsorted : (v.order.map f).mergeSort (fun a b => decide (compareValues desc a.1 b.1 ≤ 0)) = (v.order.mergeSort r).map f :=
    (List.map_mergeSort (f := f) (r := r) (s := fun a b => decide (compareValues desc a.1 b.1 ≤ 0)) fun _ _ _ _ => rfl).symm
  have hperm : (v.order.mergeSort r).Perm v.order := List.mergeSort_perm _ _
  refine ⟨⟨(p.ths.map fun h => { h with ascending := false, descending := false }).modify k fun h =>
      if desc then { h with descending := true } else { h with ascending := true }, ((v.order.mergeSort r).map f).map Prod.snd⟩,
    { v with order := v.order.mergeSort r, col := k, desc := desc }, ?_, ?_, ?_⟩
  · rw [← hsorted]
    simp only [sortTable, hget, hrows, Bool.false_eq_true, if_false, hkeyed, bind, Except.bind]
    rfl
  · refine .sort v k desc _ hk ?_ hperm ?_ ?_
    · show p.ths[k].ascending = true ↔ _
      rw [hasc, Bool.and_eq_true, decide_eq_true_eq, Bool.not_eq_true', eq_comm]
    · have := List.pairwise_mergeSort htrans htotal v.order
      refine (List.Pairwise.imp_of_mem ?_ this)
      intro i j hi hj h
      have hi' := hp i (hperm.mem_iff.1 hi)
      have hj' := hp j (hperm.mem_iff.1 hj)
      rw [hr] at h
      cases hdesc : desc
      · simp only [hdesc, Bool.false_eq_true, if_false, Bool.not_eq_true'] at h ⊢
        rw [← hless j i hj' hi', h]; simp
      · simp only [hdesc, if_true, Bool.not_eq_true'] at h ⊢
        rw [← hless i j hi' hj', h]; simp
    · intro i j hs h1 h2
      have hi' := hp i (hs.subset (by simp))
      have hj' := hp j (hs.subset (by simp))
      rw [← hless i j hi' hj', Bool.not_eq_true] at h1
      rw [← hless j i hj' hi', Bool.not_eq_true] at h2
      refine List.pair_sublist_mergeSort htrans htotal ?_ hs
      rw [hr, h1, h2]
      simp
  · constructor
    · simp only [List.map_map]
      rfl
    · simp [hd.len]
    · intro j h hj
      rw [List.getElem?_modify] at hj
      simp only [List.getElem?_map] at hj
      cases hpj : p.ths[j]? with
      | none => rw [hpj] at hj; simp at hj
      | some t =>
        rw [hpj] at hj
        by_cases e : k = j
        · subst e
          simp only [Option.map_some, Option.map_eq_map, if_true, Option.some.injEq] at hj
          subst hj
          cases hdesc : desc <;> simp
        · simp only [Option.map_some, Option.map_eq_map, if_neg e, Option.some.injEq] at hj
          subst hj
          simp [Ne.symm e]
    · intro j
      rw [List.getElem?_modify, ← hd.sortable j]
      simp only [List.getElem?_map]
      cases p.ths[j]? with
      | none => simp
      | some t =>
        by_cases e : k = j
        · simp only [Option.map_some, Option.map_eq_map, e, if_true]; split <;> rfl
        · simp only [Option.map_some, Option.map_eq_map, if_neg e]

theorem highlight_display (opened : Page) (base : Nat → Tr) (less : Nat → Nat → Nat → Prop) (n i : Nat)
    (p : Page) (v : View) (hd : Display opened base p v) (hnd : v.order.Nodup) :
    ∃ v', Seen less n v (.row i) v' ∧ Display opened base (highlightRow i p) v' ∧ v'.order = v.order := by
  cases ho : v.order[i]? with
  | none =>
    refine ⟨v, .beside v i ho, ⟨?_, hd.len, hd.ths, hd.sortable⟩, rfl⟩
    have : p.rows.length ≤ i := by
      rw [hd.rows, List.length_map]
      exact List.getElem?_eq_none_iff.1 ho
    simp only [highlightRow]
    rw [List.modify_eq_self this, hd.rows]
  | some x =>
    refine ⟨_, .light v i x ho, ⟨?_, hd.len, hd.ths, hd.sortable⟩, rfl⟩
    simp only [highlightRow]
    refine List.ext_getElem? fun j => ?_
    rw [List.getElem?_modify, hd.rows]
    simp only [List.getElem?_map]
    cases hj : v.order[j]? with
    | none => simp
    | some y =>
      simp only [Option.map_some]
      by_cases e : i = j
      · subst e
        rw [ho] at hj
        cases hj
        simp
      · have : y ≠ x := by
          intro h
          subst h
          obtain ⟨h1, e1⟩ := List.getElem?_eq_some_iff.1 ho
          obtain ⟨h2, e2⟩ := List.getElem?_eq_some_iff.1 hj
          exact e ((List.getElem_inj hnd).1 (e1.trans e2.symm))
        simp [if_neg e, if_neg this]

/-! ## All clicks -/

theorem clicks_display (opened : Page) (base : Nat → Tr) (less : Nat → Nat → Nat → Prop) (len n : Nat) (hlen : 0 < len)
    (hn : n ≤ opened.ths.length) (hsort : ∀ k h, opened.ths[k]? = some h → h.sortable = decide (k < n))
    (hval : ∀ k, k < n → ∃ val : Nat → JsVal, (∀ i, GoodVal k (val i)) ∧ (∀ i, i < len → rowValue k (base i) = .ok (val i)) ∧
      ∀ i j, i < len → j < len → ((val i).lt (val j) = true ↔ less k i j))
    (cs : List Click) (p : Page) (v : View) (hd : Display opened base p v) (hp : v.order.Perm (List.range len)) :
    ∃ p' v', clicks p cs = .ok p' ∧ SeenAll less n v cs v' ∧ Display opened base p' v' ∧ v'.order.Perm (List.range len) := by
  induction cs generalizing p v with
  | nil => exact ⟨p, v, rfl, .nil v, hd, hp⟩
  | cons c cs ih =>
    have step : ∃ p' v', click p c = .ok p' ∧ Seen less n v c v' ∧ Display opened base p' v' ∧ v'.order.Perm (List.range len) := by
      cases c with
      | row i =>
        obtain ⟨v', h1, h2, h3⟩ := highlight_display opened base less n i p v hd (hp.nodup_iff.2 List.nodup_range)
        exact ⟨_, v', rfl, h1, h2, h3 ▸ hp⟩
      | header k =>
        have hs := hd.sortable k
        by_cases hk : k < n
        · have hko : k < opened.ths.length := by omega
          have hkp : k < p.ths.length := by rw [hd.len]; exact hko
          rw [List.getElem?_eq_getElem hkp, List.getElem?_eq_getElem hko] at hs
          simp only [Option.map_some, Option.some.injEq] at hs
          rw [hsort k _ (List.getElem?_eq_getElem hko), decide_eq_true hk] at hs
          obtain ⟨val, hg, hv, hl⟩ := hval k hk
          obtain ⟨p', v', h1, h2, h3⟩ := sortTable_display opened base less len n k hk hko val hg hv hl p v hd
            (fun i hi => List.mem_range.1 (hp.mem_iff.1 hi)) (by
              intro h
              rw [h] at hp
              have := hp.length_eq
              simp at this
              omega)
          refine ⟨p', v', ?_, h2, h3, ?_⟩
          · simp only [click, List.getElem?_eq_getElem hkp, hs, if_true, h1]
          · cases h2 with
            | sort _ _ _ _ _ hperm _ _ => exact hperm.trans hp
            | plain _ h => omega
        · refine ⟨p, v, ?_, .plain v k (by omega), hd, hp⟩
          simp only [click]
          cases hpk : p.ths[k]? with
          | none => rfl
          | some h =>
            rw [hpk] at hs
            cases hok : opened.ths[k]? with
            | none => rw [hok] at hs; simp at hs
            | some t =>
              rw [hok] at hs
              simp only [Option.map_some, Option.some.injEq] at hs
              rw [hsort k t hok, decide_eq_false hk] at hs
              simp [hs]
    obtain ⟨p1, v1, h1, h2, h3, h4⟩ := step
    obtain ⟨p2, v2, g1, g2, g3, g4⟩ := ih p1 v1 h3 h4
    refine ⟨p2, v2, ?_, .cons h2 g2, g3, g4⟩
    simp only [clicks, h1, bind, Except.bind, g1]

/-! ## Numbers -/

theorem digits_hex_order (a b : Str) (ha : ∀ c ∈ a, isDigit c = true) (hb : ∀ c ∈ b, isDigit c = true) :
    (natOfDigits a < natOfDigits b ↔ natOfHex a < natOfHex b) ∧ (natOfDigits a = natOfDigits b ↔ natOfHex a = natOfHex b) := by
  have dig : ∀ (l : Str) (c : Char), natOfDigits (l ++ [c]) = 10 * natOfDigits l + (c.toNat - 48) := by
    intro l c; simp [natOfDigits, List.foldl_append]
  have hex : ∀ (l : Str) (c : Char), isDigit c = true → natOfHex (l ++ [c]) = 16 * natOfHex l + (c.toNat - 48) ∧ c.toNat - 48 < 10 := by
    intro l c h
    simp only [isDigit, Bool.and_eq_true, decide_eq_true_eq] at h
    constructor
    · simp [natOfHex, List.foldl_append, hexVal, h]
    · omega
  have zero : natOfDigits [] = 0 ∧ natOfHex [] = 0 := ⟨rfl, rfl⟩
  generalize hn : a.length + b.length = n
  induction n using Nat.strongRecOn generalizing a b with
  | ind n ih =>
    rcases List.eq_nil_or_concat a with rfl | ⟨a', d, rfl⟩ <;> rcases List.eq_nil_or_concat b with rfl | ⟨b', e, rfl⟩
    · simp [zero]
    · have hb' : ∀ c ∈ b', isDigit c = true := fun c hc => hb c (by simp [hc])
      have i2 := ih (b'.length) (by simp at hn; omega) [] b' (by simp) hb' (by simp)
      obtain ⟨h1, h2⟩ := hex b' e (hb e (by simp))
      rw [List.concat_eq_append, dig, h1]
      simp only [zero] at i2 ⊢
      omega
    · have ha' : ∀ c ∈ a', isDigit c = true := fun c hc => ha c (by simp [hc])
      have i2 := ih (a'.length) (by simp at hn; omega) a' [] ha' (by simp) (by simp)
      obtain ⟨h1, h2⟩ := hex a' d (ha d (by simp))
      rw [List.concat_eq_append, dig, h1]
      simp only [zero] at i2 ⊢
      omega
    · have ha' : ∀ c ∈ a', isDigit c = true := fun c hc => ha c (by simp [hc])
      have hb' : ∀ c ∈ b', isDigit c = true := fun c hc => hb c (by simp [hc])
      have i2 := ih (a'.length + b'.length) (by simp at hn; omega) a' b' ha' hb' rfl
      obtain ⟨h1, h2⟩ := hex a' d (ha d (by simp))
      obtain ⟨h3, h4⟩ := hex b' e (hb e (by simp))
      rw [List.concat_eq_append, List.concat_eq_append, dig, dig, h1, h3]
      omega

theorem parseInt16_digits (s : Str) (hne : s ≠ []) (h : ∀ c ∈ s, isDigit c = true) : parseInt16 s = some (natOfHex s : Int) := by
  have hd : ∀ c, isDigit c = true → isSpace c = false ∧ isHexDigit c = true ∧ c ≠ '-' ∧ c ≠ '+' ∧ c ≠ 'x' ∧ c ≠ 'X' := by
    intro c hc
    simp only [isDigit, Bool.and_eq_true, decide_eq_true_eq] at hc
    have ne : ∀ d : Char, (d.toNat < 48 ∨ 57 < d.toNat) → c ≠ d := by
      intro d hd e; subst e; omega
    refine ⟨?_, ?_, ne _ (by decide), ne _ (by decide), ne _ (by decide), ne _ (by decide)⟩
    · simp only [isSpace, Bool.or_eq_false_iff, Bool.and_eq_false_iff, decide_eq_false_iff_not, beq_eq_false_iff_ne]
      omega
    · simp [isHexDigit, hc]
  cases s with
  | nil => exact absurd rfl hne
  | cons c s =>
    obtain ⟨h1, h2, h3, h4, -⟩ := hd c (h c (List.mem_cons_self ..))
    have hall : ∀ d ∈ c :: s, isHexDigit d = true := fun d hd' => (hd d (h d hd')).2.1
    have hpre : ¬ ((c :: s).take 2 = cs!"0x" ∨ (c :: s).take 2 = cs!"0X") := by
      cases s with
      | nil => simp
      | cons d s =>
        obtain ⟨-, -, -, -, h5, h6⟩ := hd d (h d (by simp))
        simp [h5, h6]
    have e1 : (c :: s).dropWhile isSpace = c :: s := by simp [h1]
    have e2 : (c :: s).takeWhile isHexDigit = c :: s := by
      have := takeWhile_append_stop isHexDigit (c :: s) [] hall (by simp)
      simpa using this
    simp only [parseInt16, e1, List.head?_cons, Option.some.injEq, h3, h4, or_self, if_false, if_neg hpre, e2, decide_false, Bool.false_eq_true]

/-! ## The page as written -/

/-- a piece of HTML with the given header tags -/
def Tags (piece : Str) (tags : List Str) : Prop := ∀ rest, thTags (piece ++ rest) = tags ++ thTags rest

theorem Tags.append {a b : Str} {ta tb : List Str} (ha : Tags a ta) (hb : Tags b tb) : Tags (a ++ b) (ta ++ tb) := by
  intro rest
  rw [List.append_assoc, ha, hb, List.append_assoc]

theorem Tags.text {x : Str} (h : '<' ∉ x) : Tags x [] := by
  intro rest
  induction x with
  | nil => rfl
  | cons c x ih =>
    have hc : c ≠ '<' := fun e => h (by simp [e])
    have := ih (fun hm => h (List.mem_cons_of_mem _ hm))
    simp only [thTags, List.cons_append, tokens, if_neg hc, List.filterMap_cons] at this ⊢
    exact this

theorem Tags.tag (t : Str) (h : '>' ∉ t) : Tags ('<' :: (t ++ cs!">")) (if t.take 2 = cs!"th" then [t] else []) := by
  intro rest
  have e : '<' :: (t ++ cs!">") ++ rest = '<' :: (t ++ '>' :: rest) := by simp
  rw [e]
  simp only [thTags, tokens, if_true]
  rw [tokens_tag _ _ _ h]
  simp only [List.filterMap_cons, List.nil_append]
  split <;> split <;> simp_all

theorem Tags.whole {x : Str} {tags : List Str} (h : Tags x tags) : thTags x = tags := by
  have := h []
  rw [List.append_nil] at this
  rw [this]
  simp [thTags, tokens]

theorem tags_th (t body : Str) (ht : '>' ∉ t) (h2 : t.take 2 = cs!"th") (hb : '<' ∉ body) :
    Tags (ind5 ++ ('<' :: (t ++ cs!">")) ++ body ++ cs!"</th>\n") [t] := by
  have h1 := Tags.tag t ht
  rw [if_pos h2] at h1
  have h3 : Tags cs!"</th>\n" [] := (Tags.tag cs!"/th" (by decide)).append (Tags.text (x := cs!"\n") (by decide))
  have := (((Tags.text (x := ind5) (by decide)).append h1).append (Tags.text hb)).append h3
  simpa using this

set_option maxRecDepth 8000 in
theorem thTags_header (a : Arch) (m : Nat) : thTags (htmlHeader a m) =
    cs!"th class=\"sortable ascending\" colspan=\"2\"" :: (List.replicate 4 cs!"th class=\"sortable\"" ++ List.replicate m cs!"th") := by
  have hnr : '<' ∉ numRegText a := by
    unfold numRegText
    split
    · simp
    · split
      · simp
      · simp [(htmlEscape_safe _).1]
  have h1 := tags_th cs!"th class=\"sortable ascending\" colspan=\"2\"" (cs!"Number" ++ numRegText a) (by decide) (by decide)
    (by simp only [List.mem_append, not_or]; exact ⟨by decide, hnr⟩)
  have h2 := fun x hx => tags_th cs!"th class=\"sortable\"" x (by decide) (by decide) hx
  have htr : Tags cs!"\t\t\t\t<tr>\n" [] :=
    (Tags.text (x := cs!"\t\t\t\t") (by decide)).append ((Tags.tag cs!"tr" (by decide)).append (Tags.text (x := cs!"\n") (by decide)))
  have htr' : Tags cs!"\t\t\t\t</tr>\n" [] :=
    (Tags.text (x := cs!"\t\t\t\t") (by decide)).append ((Tags.tag cs!"/tr" (by decide)).append (Tags.text (x := cs!"\n") (by decide)))
  have hargs : ∀ l : List Nat, Tags (l.flatMap fun i => cs!"\t\t\t\t\t<th>Arg " ++ natRepr (i + 1) ++ cs!" (" ++ regAt a.argRegs i ++ cs!")</th>\n")
      (List.replicate l.length cs!"th") := by
    intro l
    induction l with
    | nil => exact fun _ => rfl
    | cons i l ih =>
      have := (tags_th cs!"th" (cs!"Arg " ++ natRepr (i + 1) ++ cs!" (" ++ regAt a.argRegs i ++ cs!")") (by decide) (by decide) (by
        simp only [List.mem_append, not_or]
        exact ⟨⟨⟨⟨by decide, (digits_safe _).1⟩, by decide⟩, regAt_safe _ _⟩, by decide⟩)).append ih
      rw [List.flatMap_cons]
      have e : cs!"\t\t\t\t\t<th>Arg " ++ natRepr (i + 1) ++ cs!" (" ++ regAt a.argRegs i ++ cs!")</th>\n"
          = ind5 ++ ('<' :: (cs!"th" ++ cs!">")) ++ (cs!"Arg " ++ natRepr (i + 1) ++ cs!" (" ++ regAt a.argRegs i ++ cs!")") ++ cs!"</th>\n" := by simp
      rw [e]
      exact this
  have hall := htr.append (h1.append ((h2 cs!"Name" (by decide)).append ((h2 cs!"Symbol" (by decide)).append
    ((h2 cs!"Definition location" (by decide)).append ((h2 cs!"Kconfig" (by decide)).append ((hargs (List.range m)).append htr'))))))
  have e : htmlHeader a m = cs!"\t\t\t\t<tr>\n" ++ (ind5 ++ '<' :: (cs!"th class=\"sortable ascending\" colspan=\"2\"" ++ cs!">") ++
      (cs!"Number" ++ numRegText a) ++ cs!"</th>\n" ++
      (ind5 ++ '<' :: (cs!"th class=\"sortable\"" ++ cs!">") ++ cs!"Name" ++ cs!"</th>\n" ++
      (ind5 ++ '<' :: (cs!"th class=\"sortable\"" ++ cs!">") ++ cs!"Symbol" ++ cs!"</th>\n" ++
      (ind5 ++ '<' :: (cs!"th class=\"sortable\"" ++ cs!">") ++ cs!"Definition location" ++ cs!"</th>\n" ++
      (ind5 ++ '<' :: (cs!"th class=\"sortable\"" ++ cs!">") ++ cs!"Kconfig" ++ cs!"</th>\n" ++
      (((List.range m).flatMap fun i => cs!"\t\t\t\t\t<th>Arg " ++ natRepr (i + 1) ++ cs!" (" ++ regAt a.argRegs i ++ cs!")</th>\n") ++
      cs!"\t\t\t\t</tr>\n")))))) := by
    unfold htmlHeader
    simp only [List.cons_append, List.nil_append, List.append_assoc]
  rw [e, hall.whole]
  simp [List.replicate]

/-! ## Clicks on a page as written -/

theorem cellBelow_text (header row : Str) (num : Str) (args : List (Nat × Str)) (sc : Syscall)
    (hh : cellsOfRow header = [(2, num), (1, cs!"Name"), (1, cs!"Symbol"), (1, cs!"Definition location"), (1, cs!"Kconfig")] ++ args)
    (hr : HtmlRow sc row) (k : Nat) (h0 : 0 < k) (h5 : k < 5) :
    ∃ t, cellBelow header row k = some t ∧ (textsOf row)[k + 1]? = some t := by
  obtain ⟨c0, c1, c2, c3, c4, c5, sig, hc, -⟩ := hr
  have : k = 1 ∨ k = 2 ∨ k = 3 ∨ k = 4 := by omega
  rcases this with rfl | rfl | rfl | rfl
  all_goals
    simp only [cellBelow, hh, hc, columnOf, textsOf]
    simp [cellAt]

theorem number_text (row : Str) (sc : Syscall) (hr : HtmlRow sc row) :
    ∃ t, (textsOf row)[0]? = some t ∧ t ≠ [] ∧ (∀ c ∈ t, isDigit c = true) ∧ natOfDigits t = sc.number := by
  obtain ⟨c0, c1, c2, c3, c4, c5, sig, hc, h1, h2, h3, -⟩ := hr
  refine ⟨c0, ?_, h1, h2, h3⟩
  have hp : '&' ∉ c0 := fun h => absurd (h2 _ h) (by decide)
  have := decodeRefs_plain c0 hp []
  rw [List.append_nil, decodeRefs, List.append_nil] at this
  simp [textsOf, hc, this]

/-- the clicks on a page whose header and rows are as they should be -/
theorem page_clicks (scs : List Syscall) (header : Str) (rows : List Str) (num : Str) (args : List (Nat × Str))
    (hh : cellsOfRow header = [(2, num), (1, cs!"Name"), (1, cs!"Symbol"), (1, cs!"Definition location"), (1, cs!"Kconfig")] ++ args)
    (hth : ∃ m, thTags header = cs!"th class=\"sortable ascending\" colspan=\"2\"" ::
      (List.replicate 4 cs!"th class=\"sortable\"" ++ List.replicate m cs!"th"))
    (hlen : rows.length = scs.length) (hne : scs ≠ [])
    (hrows : ∀ (i : Nat) sc, scs[i]? = some sc → ∃ row, rows[i]? = some row ∧ HtmlRow sc row) (cs : List Click) :
    ∃ p v, clicks (openPage header rows) cs = .ok p ∧ SeenAll (LessIn scs header rows) 5 (firstView rows.length) cs v ∧
      Shows (openPage header rows) p v ∧ v.order.Perm (List.range rows.length) := by
  obtain ⟨m, hth⟩ := hth
  have hpos : 0 < rows.length := by
    rw [hlen]
    cases scs with
    | nil => exact absurd rfl hne
    | cons _ _ => simp
  have hrow : ∀ i, i < rows.length → ∃ sc row, scs[i]? = some sc ∧ rows[i]? = some row ∧ HtmlRow sc row := by
    intro i hi
    have hi' : i < scs.length := by omega
    obtain ⟨row, h1, h2⟩ := hrows i _ (List.getElem?_eq_getElem hi')
    exact ⟨_, row, List.getElem?_eq_getElem hi', h1, h2⟩
  let base : Nat → Tr := fun i => { cells := textsOf (rows[i]?.getD []) }
  have hths : (openPage header rows).ths =
      ⟨true, true, false⟩ :: (List.replicate 4 ⟨true, false, false⟩ ++ List.replicate m ⟨false, false, false⟩) := by
    have h1 : ∀ name, hasClass name cs!"th" = false := by intro name; simp [hasClass, classAttr, splitWs, splitWsGo]
    have h2 : hasClass cs!"sortable" cs!"th class=\"sortable\"" = true ∧ hasClass cs!"ascending" cs!"th class=\"sortable\"" = false ∧
      hasClass cs!"descending" cs!"th class=\"sortable\"" = false := by decide +kernel
    have h3 : hasClass cs!"sortable" cs!"th class=\"sortable ascending\" colspan=\"2\"" = true ∧
      hasClass cs!"ascending" cs!"th class=\"sortable ascending\" colspan=\"2\"" = true ∧
      hasClass cs!"descending" cs!"th class=\"sortable ascending\" colspan=\"2\"" = false := by decide +kernel
    simp only [openPage, hth, List.map_cons, List.map_append, List.map_replicate, h1, h2, h3]
  have hd : Display (openPage header rows) base (openPage header rows) (firstView rows.length) := by
    refine ⟨?_, rfl, ?_, fun _ => rfl⟩
    · simp only [openPage, firstView]
      refine List.ext_getElem? fun i => ?_
      simp only [List.getElem?_map]
      by_cases hi : i < rows.length
      · simp [List.getElem?_eq_getElem hi, base, List.getElem?_range hi]
      · rw [List.getElem?_eq_none (by omega), List.getElem?_eq_none (by simp; omega)]
        rfl
    · intro k h hk
      rw [hths] at hk
      cases k with
      | zero => simp only [List.getElem?_cons_zero, Option.some.injEq] at hk; subst hk; simp [firstView]
      | succ k =>
        rw [List.getElem?_cons_succ] at hk
        have := List.mem_of_getElem? hk
        rw [List.mem_append, List.mem_replicate, List.mem_replicate] at this
        rcases this with ⟨-, rfl⟩ | ⟨-, rfl⟩ <;> simp [firstView]
  have hval : ∀ k, k < 5 → ∃ val : Nat → JsVal, (∀ i, GoodVal k (val i)) ∧
      (∀ i, i < rows.length → rowValue k (base i) = .ok (val i)) ∧
      ∀ i j, i < rows.length → j < rows.length → ((val i).lt (val j) = true ↔ LessIn scs header rows k i j) := by
    intro k hk
    by_cases h0 : k = 0
    · subst h0
      refine ⟨fun i => .num (some (natOfHex ((textsOf (rows[i]?.getD [])).head?.getD []))), fun i => by simp [GoodVal], ?_, ?_⟩
      · intro i hi
        obtain ⟨sc, row, h1, h2, h3⟩ := hrow i hi
        obtain ⟨t, g1, g2, g3, g4⟩ := number_text row sc h3
        simp only [rowValue, base, h2, Option.getD_some, if_true, g1, parseInt16_digits t g2 g3, List.head?_eq_getElem?]
      · intro i j hi hj
        obtain ⟨sc, row, h1, h2, h3⟩ := hrow i hi
        obtain ⟨t, g1, g2, g3, g4⟩ := number_text row sc h3
        obtain ⟨sc', row', h1', h2', h3'⟩ := hrow j hj
        obtain ⟨t', g1', g2', g3', g4'⟩ := number_text row' sc' h3'
        simp only [h2, h2', Option.getD_some, List.head?_eq_getElem?, g1, g1', JsVal.lt, decide_eq_true_eq, LessIn, if_true, h1, h1',
          Option.some.injEq]
        have := (digits_hex_order t t' g3 g3').1
        rw [g4, g4'] at this
        constructor
        · intro h; exact ⟨sc, sc', rfl, rfl, this.2 (by omega)⟩
        · rintro ⟨a, b, rfl, rfl, h⟩; have := this.1 h; omega
    · refine ⟨fun i => .str ((textsOf (rows[i]?.getD []))[k + 1]?.getD []), fun i => by simp [GoodVal, h0], ?_, ?_⟩
      · intro i hi
        obtain ⟨sc, row, h1, h2, h3⟩ := hrow i hi
        obtain ⟨t, g1, g2⟩ := cellBelow_text header row num args sc hh h3 k (by omega) hk
        simp only [rowValue, base, h2, Option.getD_some, if_neg h0, g2]
      · intro i j hi hj
        obtain ⟨sc, row, h1, h2, h3⟩ := hrow i hi
        obtain ⟨t, g1, g2⟩ := cellBelow_text header row num args sc hh h3 k (by omega) hk
        obtain ⟨sc', row', h1', h2', h3'⟩ := hrow j hj
        obtain ⟨t', g1', g2'⟩ := cellBelow_text header row' num args sc' hh h3' k (by omega) hk
        simp only [h2, h2', Option.getD_some, g2, g2', JsVal.lt, decide_eq_true_eq, LessIn, if_neg h0, Option.some.injEq]
        constructor
        · intro h; exact ⟨row, row', t, t', rfl, rfl, g1, g1', h⟩
        · rintro ⟨a, b, s, s', rfl, rfl, e1, e2, h⟩
          rw [g1] at e1; rw [g1'] at e2; cases e1; cases e2; exact h
  obtain ⟨p, v, h1, h2, h3, h4⟩ := clicks_display (openPage header rows) base (LessIn scs header rows) rows.length 5 hpos
    (by rw [hths]; simp) (by
      intro k h hk
      rw [hths] at hk
      cases k with
      | zero => simp only [List.getElem?_cons_zero, Option.some.injEq] at hk; subst hk; rfl
      | succ k =>
        rw [List.getElem?_cons_succ, List.getElem?_append] at hk
        split at hk
        · next hlt =>
          have := List.mem_of_getElem? hk
          rw [List.mem_replicate] at this
          rw [this.2]
          simp at hlt ⊢
          omega
        · next hlt =>
          have := List.mem_of_getElem? hk
          rw [List.mem_replicate] at this
          rw [this.2]
          simp at hlt ⊢
          omega) hval cs (openPage header rows) (firstView rows.length) hd (.refl _)
  refine ⟨p, v, h1, h2, ⟨?_, h3.len, h3.ths⟩, h4⟩
  rw [h3.rows, List.map_map]
  refine List.map_congr_left fun i hi => ?_
  have hi' : i < rows.length := List.mem_range.1 (h4.mem_iff.1 hi)
  simp [openPage, List.getElem?_eq_getElem hi', base]

end Verif
