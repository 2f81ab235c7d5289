import Verif.Model.Pattern
import Verif.Props.Regex
/-! # Expressions that mean the same, and the reader on texts with a name in them -/
set_option autoImplicit false

namespace Verif
open Spec

/-! ## Same meaning -/

/-- the expression without its groups -/
def Re.bare : Re → Re
  | .eps => .eps
  | .chr p => .chr p
  | .star p => .star p
  | .seq a b => .seq a.bare b.bare
  | .alt a b => .alt a.bare b.bare
  | .grp _ r => r.bare
  | .bol => .bol
  | .eol => .eol
  | .wordB => .wordB

/-- what is matched one after the other -/
def Re.factors : Re → List Re
  | .eps => []
  | .chr p => [.chr p]
  | .star p => [.star p]
  | .seq a b => a.factors ++ b.factors
  | .alt a b => [.alt (catAll a.factors) (catAll b.factors)]
  | .grp n r => [.grp n (catAll r.factors)]
  | .bol => [.bol]
  | .eol => [.eol]
  | .wordB => [.wordB]

theorem ways_catAll_append (l l' : List Re) (st : St) (caps : Caps) :
    ways (catAll (l ++ l')) st caps = (ways (catAll l) st caps).flatMap fun x => ways (catAll l') x.1 x.2 := by
  induction l generalizing st caps with
  | nil => simp [catAll, ways]
  | cons r rs ih => simp only [List.cons_append, catAll, ways, ih, List.flatMap_assoc]

theorem ways_single (r : Re) (st : St) (caps : Caps) : ways (catAll [r]) st caps = ways r st caps := by
  simp [catAll, ways]

theorem ways_factors (r : Re) (st : St) (caps : Caps) : ways (catAll r.factors) st caps = ways r st caps := by
  induction r generalizing st caps with
  | eps => rfl
  | chr | star | bol | eol | wordB => exact ways_single ..
  | seq a b iha ihb => simp only [Re.factors, ways_catAll_append, iha, ihb, ways]
  | alt a b iha ihb => simp only [Re.factors, ways_single, ways, iha, ihb]
  | grp n r ih => simp only [Re.factors, ways_single, ways, ih]

theorem ways_of_factors {r r' : Re} (h : r.factors = r'.factors) (st : St) (caps : Caps) : ways r st caps = ways r' st caps := by
  rw [← ways_factors, h, ways_factors]

theorem ways_bare (r : Re) (st : St) (caps caps' : Caps) :
    (ways r.bare st caps').map Prod.fst = (ways r st caps).map Prod.fst := by
  induction r generalizing st caps caps' with
  | eps => rfl
  | chr p =>
    unfold Re.bare ways
    cases st.rest with
    | nil => rfl
    | cons c cs => simp only; split <;> rfl
  | star p => simp [Re.bare, ways]
  | seq a b iha ihb =>
    simp only [Re.bare, ways, List.map_flatMap]
    have h1 : ∀ (l : List (St × Caps)),
        (l.flatMap fun x => (ways b.bare x.1 x.2).map Prod.fst) = (l.map Prod.fst).flatMap fun s => (ways b s []).map Prod.fst := by
      intro l
      rw [List.flatMap_map]
      exact congrArg (fun f => l.flatMap f) (funext fun x => ihb x.1 [] x.2)
    have h2 : ∀ (l : List (St × Caps)),
        (l.flatMap fun x => (ways b x.1 x.2).map Prod.fst) = (l.map Prod.fst).flatMap fun s => (ways b s []).map Prod.fst := by
      intro l
      rw [List.flatMap_map]
      exact congrArg (fun f => l.flatMap f) (funext fun x => (ihb x.1 x.2 []).symm.trans (ihb x.1 [] []))
    rw [h1, h2, iha]
  | alt a b iha ihb => simp only [Re.bare, ways, List.map_append, iha st caps caps', ihb st caps caps']
  | grp n r ih => simp only [Re.bare, ways, List.map_map]; exact ih st caps caps'
  | bol | eol | wordB => unfold Re.bare ways; split <;> rfl

theorem head_isSome {α β : Type} (f : α → β) (l : List α) : l.head?.isSome = (l.map f).head?.isSome := by
  cases l <;> rfl

/-- two expressions find the same, up to groups -/
def Alike (r r' : Re) : Prop := r.bare.factors = r'.bare.factors

theorem Alike.ways {r r' : Re} (h : Alike r r') (st : St) (caps : Caps) :
    (Spec.ways r st caps).map Prod.fst = (Spec.ways r' st caps).map Prod.fst := by
  rw [← ways_bare r st caps caps, ways_of_factors h, ways_bare]

theorem Alike.match {r r' : Re} (h : Alike r r') (s : Str) : (r.match? s).isSome = (r'.match? s).isSome := by
  rw [match_is_first, match_is_first, Option.isSome_map, Option.isSome_map, head_isSome Prod.fst, h.ways, ← head_isSome]

theorem findSome_isSome {α β : Type} (l : List α) (f g : α → Option β) (h : ∀ x, (f x).isSome = (g x).isSome) :
    (l.findSome? f).isSome = (l.findSome? g).isSome := by
  induction l with
  | nil => rfl
  | cons a as ih =>
    have := h a
    rw [List.findSome?_cons, List.findSome?_cons]
    cases hf : f a <;> cases hg : g a <;> rw [hf, hg] at this
    · exact ih
    · cases this
    · cases this
    · rfl

theorem Alike.search {r r' : Re} (h : Alike r r') (s : Str) : (r.search s).isSome = (r'.search s).isSome := by
  rw [search_is_leftmost, search_is_leftmost, Option.isSome_map, Option.isSome_map]
  refine findSome_isSome _ _ _ fun n => ?_
  rw [head_isSome Prod.fst, h.ways, ← head_isSome]

theorem match_of_factors {r r' : Re} (h : r.factors = r'.factors) (s : Str) : r.match? s = r'.match? s := by
  rw [match_is_first, match_is_first, ways_of_factors h]

theorem searchFrom_of_factors {r r' : Re} (h : r.factors = r'.factors) (prev : Option Char) (s : Str) :
    r.searchFrom prev s = r'.searchFrom prev s := by
  rw [searchFrom_first, searchFrom_first]
  simp only [ways_of_factors h]

theorem findIter_of_factors {r r' : Re} (h : r.factors = r'.factors) (fuel : Nat) (st : St) :
    r.findIter fuel st = r'.findIter fuel st := by
  induction fuel generalizing st with
  | zero => rfl
  | succ n ih =>
    unfold Re.findIter
    rw [searchFrom_of_factors h]
    cases r'.searchFrom st.prev st.rest with
    | none => rfl
    | some x => simp only [ih]

/-! ## The reader -/

/-- the items of a name -/
def nameItems (name : Str) : List Re :=
  name.map fun c => if c = '.' then .chr notNewline else if c = '$' then .eol else .chr fun x => x == c

theorem factors_nameRe (name : Str) : (nameRe name).bare.factors = nameItems name := by
  induction name with
  | nil => rfl
  | cons c cs ih =>
    unfold nameRe nameItems
    simp only [Re.bare, Re.factors, List.map_cons, ih]
    split
    · rfl
    · split <;> rfl

theorem run_append (s : Reader) (a b : Str) :
    s.run (a ++ b) = match s.run a with
      | .error e => .error e
      | .ok s' => s'.run b := by
  induction a generalizing s with
  | nil => rfl
  | cons c cs ih =>
    simp only [List.cons_append, Reader.run]
    cases s.step c with
    | error e => rfl
    | ok s' => exact ih s'

theorem plain_word (s : Reader) (c : Char) (h : isWord c = true) : s.plain c = .ok (s.push (.chr fun x => x == c)) := by
  have key : ∀ d : Char, isWord d = false → c ≠ d := fun d hd hc => by rw [← hc, h] at hd; cases hd
  unfold Reader.plain
  simp only [key '\\' rfl, key '[' rfl, key '(' rfl, key ')' rfl, key '|' rfl, key '*' rfl, key '+' rfl, key '?' rfl, key '{' rfl,
    key '.' rfl, key '^' rfl, key '$' rfl, if_false]

theorem run_name (name : Str) (h : Spliced name) (groups : Nat) (top : Frame) (outer : List Frame) :
    Reader.run ⟨.plain, groups, top, outer⟩ name =
      .ok ⟨.plain, groups, { top with items := (nameItems name).reverse ++ top.items }, outer⟩ := by
  induction name generalizing top with
  | nil => rfl
  | cons c cs ih =>
    have hcs : Spliced cs := fun d hd => h d (List.mem_cons_of_mem _ hd)
    have hstep : Reader.step ⟨.plain, groups, top, outer⟩ c = .ok ⟨.plain, groups, top.push
        (if c = '.' then .chr notNewline else if c = '$' then .eol else .chr fun x => x == c), outer⟩ := by
      rcases h c List.mem_cons_self with hw | rfl | rfl
      · have h1 : c ≠ '.' := fun e => by rw [e] at hw; cases hw
        have h2 : c ≠ '$' := fun e => by rw [e] at hw; cases hw
        rw [if_neg h1, if_neg h2]
        exact plain_word _ c hw
      · rfl
      · rfl
    unfold Reader.run
    rw [hstep]
    simp only [ih hcs, Frame.push, nameItems, List.map_cons, List.reverse_cons, List.append_assoc, List.singleton_append]

/-- the factors of items, the latest first -/
def flatItems : List Re → List Re
  | [] => []
  | r :: rs => flatItems rs ++ r.bare.factors

theorem factors_catAll (l l' : List Re) : (catAll (l ++ l')).bare.factors = (catAll l).bare.factors ++ (catAll l').bare.factors := by
  induction l with
  | nil => rfl
  | cons r rs ih => simp only [List.cons_append, catAll, Re.bare, Re.factors, ih, List.append_assoc]

theorem factors_items (l : List Re) : (catAll l.reverse).bare.factors = flatItems l := by
  induction l with
  | nil => rfl
  | cons r rs ih =>
    rw [List.reverse_cons, factors_catAll, ih]
    simp only [catAll, Re.bare, Re.factors, List.append_nil, flatItems]

theorem flatItems_name (name : Str) (l : List Re) :
    flatItems ((nameItems name).reverse ++ l) = flatItems l ++ nameItems name := by
  rw [← factors_items, List.reverse_append, List.reverse_reverse, factors_catAll, factors_items]
  congr 1
  induction name with
  | nil => rfl
  | cons c cs ih =>
    simp only [nameItems, List.map_cons, catAll, Re.bare, Re.factors] at ih ⊢
    rw [ih]
    split
    · rfl
    · split <;> rfl

/-- a piece of text, read as these factors -/
def Piece (text : Str) (fs : List Re) : Prop :=
  ∀ (groups : Nat) (num : Nat) (alts items : List Re) (outer : List Frame), ∃ items' groups',
    Reader.run ⟨.plain, groups, ⟨num, alts, items⟩, outer⟩ text = .ok ⟨.plain, groups', ⟨num, alts, items'⟩, outer⟩ ∧
    flatItems items' = flatItems items ++ fs

theorem Piece.append {a b : Str} {fs gs : List Re} (ha : Piece a fs) (hb : Piece b gs) : Piece (a ++ b) (fs ++ gs) := by
  intro groups num alts items outer
  obtain ⟨i1, g1, h1, f1⟩ := ha groups num alts items outer
  obtain ⟨i2, g2, h2, f2⟩ := hb g1 num alts i1 outer
  refine ⟨i2, g2, ?_, by rw [f2, f1, List.append_assoc]⟩
  rw [run_append, h1]
  exact h2

theorem Piece.name {name : Str} (h : Spliced name) : Piece name (nameRe name).bare.factors := by
  intro groups num alts items outer
  exact ⟨_, _, run_name name h groups _ outer, by rw [flatItems_name, factors_nameRe]⟩

theorem Piece.alike {text : Str} {r : Re} (h : Piece text r.bare.factors) : ∃ r', compileRe text = .ok r' ∧ Alike r' r := by
  obtain ⟨i, g, h1, h2⟩ := h 0 0 [] [] []
  refine ⟨catAll i.reverse, ?_, (factors_items i).trans h2⟩
  unfold compileRe Reader.init
  rw [h1]
  rfl

theorem Piece.or {a b : Str} {r q : Re} (ha : Piece a r.bare.factors) (hb : Piece b q.bare.factors) :
    ∃ r', compileRe (a ++ cs!"|" ++ b) = .ok r' ∧ Alike r' (.alt r q) := by
  obtain ⟨i1, g1, h1, f1⟩ := ha 0 0 [] [] []
  obtain ⟨i2, g2, h2, f2⟩ := hb g1 0 [catAll i1.reverse] [] []
  refine ⟨.alt (catAll i1.reverse) (catAll i2.reverse), ?_, ?_⟩
  · unfold compileRe Reader.init
    rw [run_append, run_append, h1]
    have : Reader.run ⟨.plain, g1, ⟨0, [], i1⟩, []⟩ cs!"|" = .ok ⟨.plain, g1, ⟨0, [catAll i1.reverse], []⟩, []⟩ := rfl
    simp only [this, h2]
    rfl
  · unfold Alike
    simp only [Re.bare, Re.factors, factors_items]
    rw [f1, f2]
    rfl

/-- texts that begin with a backslash -/
def Slash (text : Str) : Prop := ∃ t, text = '\\' :: t

theorem Slash.append {a : Str} (h : Slash a) (b : Str) : Slash (a ++ b) := by
  obtain ⟨t, rfl⟩ := h
  exact ⟨t ++ b, rfl⟩

theorem Slash.opened {text : Str} (h : Slash text) (groups : Nat) (top : Frame) (outer : List Frame) :
    Reader.run ⟨.opened, groups, top, outer⟩ text = Reader.run ⟨.plain, groups, top, outer⟩ text := by
  obtain ⟨t, rfl⟩ := h
  rfl

theorem run_bar (groups num : Nat) (alts items : List Re) (outer : List Frame) :
    Reader.run ⟨.plain, groups, ⟨num, alts, items⟩, outer⟩ cs!"|" =
      .ok ⟨.plain, groups, ⟨num, catAll items.reverse :: alts, []⟩, outer⟩ := rfl

theorem Piece.group2 {a b : Str} {r q : Re} (ha : Piece a r.bare.factors) (hb : Piece b q.bare.factors) (hs : Slash a) :
    Piece (cs!"(" ++ (a ++ (cs!"|" ++ (b ++ cs!")")))) (Re.alt r q).bare.factors := by
  intro groups num alts items outer
  obtain ⟨i1, g1, h1, f1⟩ := ha (groups + 1) (groups + 1) [] [] (⟨num, alts, items⟩ :: outer)
  obtain ⟨i2, g2, h2, f2⟩ := hb g1 (groups + 1) [catAll i1.reverse] [] (⟨num, alts, items⟩ :: outer)
  refine ⟨.grp (groups + 1) (.alt (catAll i1.reverse) (catAll i2.reverse)) :: items, g2, ?_, ?_⟩
  · have h0 : Reader.run ⟨.plain, groups, ⟨num, alts, items⟩, outer⟩ cs!"(" =
        .ok ⟨.opened, groups + 1, ⟨groups + 1, [], []⟩, ⟨num, alts, items⟩ :: outer⟩ := rfl
    rw [run_append, h0]
    simp only [(hs.append _).opened]
    rw [run_append, h1]
    simp only
    rw [run_append, run_bar]
    simp only
    rw [run_append, h2]
    rfl
  · simp only [flatItems, Re.bare, Re.factors, factors_items, f1, f2, List.nil_append]

theorem Piece.group3 {a b c : Str} {r q p : Re} (ha : Piece a r.bare.factors) (hb : Piece b q.bare.factors)
    (hc : Piece c p.bare.factors) (hs : Slash a) :
    Piece (cs!"(" ++ (a ++ (cs!"|" ++ (b ++ (cs!"|" ++ (c ++ cs!")")))))) (Re.alt r (.alt q p)).bare.factors := by
  intro groups num alts items outer
  obtain ⟨i1, g1, h1, f1⟩ := ha (groups + 1) (groups + 1) [] [] (⟨num, alts, items⟩ :: outer)
  obtain ⟨i2, g2, h2, f2⟩ := hb g1 (groups + 1) [catAll i1.reverse] [] (⟨num, alts, items⟩ :: outer)
  obtain ⟨i3, g3, h3, f3⟩ := hc g2 (groups + 1) [catAll i2.reverse, catAll i1.reverse] [] (⟨num, alts, items⟩ :: outer)
  refine ⟨.grp (groups + 1) (.alt (catAll i1.reverse) (.alt (catAll i2.reverse) (catAll i3.reverse))) :: items, g3, ?_, ?_⟩
  · have h0 : Reader.run ⟨.plain, groups, ⟨num, alts, items⟩, outer⟩ cs!"(" =
        .ok ⟨.opened, groups + 1, ⟨groups + 1, [], []⟩, ⟨num, alts, items⟩ :: outer⟩ := rfl
    rw [run_append, h0]
    simp only [(hs.append _).opened]
    rw [run_append, h1]
    simp only
    rw [run_append, run_bar]
    simp only
    rw [run_append, h2]
    simp only
    rw [run_append, run_bar]
    simp only
    rw [run_append, h3]
    rfl
  · simp only [flatItems, Re.bare, Re.factors, factors_items, f1, f2, f3, List.nil_append]

end Verif
