import Verif.Lemmas.Rg2
/-! # Lemmas for C100: the walk of ripgrep -/
set_option autoImplicit false

namespace Verif
open Spec

/-! ## Globs -/

theorem wild_lit (p s : Str) (h : '*' ∉ p) : wild p s = true ↔ s = p := by
  induction p generalizing s with
  | nil => simp [wild]
  | cons c p ih =>
    have hc : c ≠ '*' := fun e => h (by simp [e])
    have hp : '*' ∉ p := fun e => h (by simp [e])
    cases s with
    | nil => simp [wild, hc]
    | cons d s =>
      rw [wild, if_neg hc, Bool.and_eq_true, ih s hp, beq_iff_eq]
      constructor
      · rintro ⟨rfl, rfl⟩; rfl
      · intro e; cases e; exact ⟨rfl, rfl⟩

theorem wild_star (p s : Str) (h : '*' ∉ p) : wild ('*' :: p) s = true ↔ p <:+ s := by
  induction s with
  | nil =>
    rw [wild]
    simp only [beq_self_eq_true, Bool.true_and, wild_lit p [] h]
    constructor
    · intro e; rw [← e]; exact List.suffix_refl _
    · intro e; exact (List.suffix_nil.1 e).symm
  | cons c s ih =>
    rw [wild, if_pos rfl, Bool.or_eq_true, wild_lit p _ h, ih, List.suffix_cons_iff]
    constructor
    · rintro (e | e)
      · exact .inl e.symm
      · exact .inr e
    · rintro (e | e)
      · exact .inl e.symm
      · exact .inr e

theorem wild_any (s : Str) : wild cs!"*" s = true := (wild_star [] s (by simp)).2 (List.nil_suffix)

theorem name_plain (k : Kind) : '*' ∉ k.name ∧ '/' ∉ k.name ∧ k.name ≠ [] ∧ isHidden k.name = false := by
  cases k <;> decide

theorem wildAll_one (p : Str) (hp : '*' ∉ p) (rel : List Str) : wildAll [p, cs!"*"] rel = true ↔ ∃ x, rel = [p, x] := by
  match rel with
  | [] => simp [wildAll]
  | [y] => simp [wildAll]
  | [y, x] =>
    simp only [wildAll, wild_any, Bool.and_true, wild_lit p y hp]
    constructor
    · rintro rfl; exact ⟨x, rfl⟩
    · rintro ⟨x, e⟩; cases e; rfl
  | y :: x :: z :: t => simp [wildAll]

theorem globHits_top (p : Str) (hp : '*' ∉ p) (hs : '/' ∉ p) (rel : List Str) :
    globHits (p ++ cs!"/*") rel = true ↔ ∃ x, rel = [p, x] := by
  have hc : (p ++ cs!"/*").contains '/' = true := by simp
  have hsp : splitChar '/' (p ++ cs!"/*") = [p, cs!"*"] := by
    rw [show p ++ cs!"/*" = p ++ '/' :: cs!"*" from rfl, splitChar_append _ _ _ hs]
    rfl
  unfold globHits
  rw [if_pos hc, hsp]
  exact wildAll_one p hp rel

theorem globHits_arch (k : Kind) (rel : List Str) : globHits (cs!"arch/" ++ k.name) rel = true ↔ rel = [cs!"arch", k.name] := by
  have hc : (cs!"arch/" ++ k.name).contains '/' = true := by simp
  have hsp : splitChar '/' (cs!"arch/" ++ k.name) = [cs!"arch", k.name] := by
    rw [show cs!"arch/" ++ k.name = cs!"arch" ++ '/' :: k.name from rfl, splitChar_append _ _ _ (by decide),
      splitChar_none _ _ (name_plain k).2.1]
  unfold globHits
  rw [if_pos hc, hsp]
  match rel with
  | [] => simp [wildAll]
  | [y] => simp [wildAll]
  | [y, x] =>
    simp only [wildAll, Bool.and_true, Bool.and_eq_true, wild_lit cs!"arch" y (by decide), wild_lit _ x (name_plain k).1]
    constructor
    · rintro ⟨rfl, rfl⟩; rfl
    · intro e; cases e; exact ⟨rfl, rfl⟩
  | y :: x :: z :: t => simp [wildAll]

theorem globHits_c (rel : List Str) : globHits cs!"*.c" rel = true ↔ NamedC rel := by
  have hc : (cs!"*.c" : Str).contains '/' = false := by decide
  unfold globHits NamedC
  rw [if_neg (by rw [hc]; simp)]
  cases rel.getLast? with
  | none => simp
  | some last =>
    simp only [Option.some.injEq, exists_eq_left']
    exact wild_star cs!".c" last (by decide)

theorem inTop_iff (rel : List Str) : InTop rel ↔
    ((((((((∃ x, rel = [cs!"arch", x]) ∨ ∃ x, rel = [cs!"usr", x]) ∨ ∃ x, rel = [cs!"tools", x]) ∨ ∃ x, rel = [cs!"sound", x]) ∨
      ∃ x, rel = [cs!"samples", x]) ∨ ∃ x, rel = [cs!"lib", x]) ∨ ∃ x, rel = [cs!"drivers", x]) ∨ ∃ x, rel = [cs!"Documentation", x]) := by
  unfold InTop excludedTops
  constructor
  · rintro ⟨top, x, h, rfl⟩
    simp only [List.mem_cons, List.not_mem_nil, or_false] at h
    rcases h with (rfl | rfl | rfl | rfl | rfl | rfl | rfl) | rfl <;> simp
  · rintro (((((((⟨x, rfl⟩ | ⟨x, rfl⟩) | ⟨x, rfl⟩) | ⟨x, rfl⟩) | ⟨x, rfl⟩) | ⟨x, rfl⟩) | ⟨x, rfl⟩) | ⟨x, rfl⟩) <;>
    exact ⟨_, x, by simp, rfl⟩

/-- what the globs say -/
theorem rgVerdict_eq (a : Arch) (rel : List Str) [Decidable (NamedC rel)] [Decidable (InTop rel)] :
    rgVerdict (rgGlobs a) rel =
      if NamedC rel then some true else if rel = [cs!"arch", a.kind.name] then some true
      else if InTop rel then some false else none := by
  have hn : globSign (cs!"arch/" ++ a.kind.name) = (true, cs!"arch/" ++ a.kind.name) := rfl
  have hr : ((rgGlobs a).map globSign).reverse = [(true, cs!"*.c"), (true, cs!"arch/" ++ a.kind.name), (false, cs!"arch" ++ cs!"/*"),
      (false, cs!"usr" ++ cs!"/*"), (false, cs!"tools" ++ cs!"/*"), (false, cs!"sound" ++ cs!"/*"), (false, cs!"samples" ++ cs!"/*"),
      (false, cs!"lib" ++ cs!"/*"), (false, cs!"drivers" ++ cs!"/*"), (false, cs!"Documentation" ++ cs!"/*")] := rfl
  unfold rgVerdict
  rw [hr]
  by_cases hc : NamedC rel
  · rw [if_pos hc]; simp only [List.find?_cons, (globHits_c rel).2 hc]; rfl
  rw [if_neg hc, List.find?_cons, Bool.eq_false_iff.2 fun h => hc ((globHits_c rel).1 h)]
  simp only
  by_cases ha : rel = [cs!"arch", a.kind.name]
  · rw [if_pos ha]; simp only [List.find?_cons, (globHits_arch _ rel).2 ha]; rfl
  rw [if_neg ha, List.find?_cons, Bool.eq_false_iff.2 fun h => ha ((globHits_arch _ rel).1 h)]
  simp only
  by_cases ht : InTop rel
  · rw [if_pos ht]
    have hex : ∃ g ∈ ([(false, cs!"arch" ++ cs!"/*"),
      (false, cs!"usr" ++ cs!"/*"), (false, cs!"tools" ++ cs!"/*"), (false, cs!"sound" ++ cs!"/*"), (false, cs!"samples" ++ cs!"/*"),
      (false, cs!"lib" ++ cs!"/*"), (false, cs!"drivers" ++ cs!"/*"), (false, cs!"Documentation" ++ cs!"/*")] : List (Bool × Str)),
        globHits g.2 rel = true := by
      rcases (inTop_iff rel).1 ht with (((((((h | h) | h) | h) | h) | h) | h) | h) <;>
      (refine ⟨(false, _ ++ cs!"/*"), ?_, (globHits_top _ (by decide) (by decide) rel).2 h⟩; simp)
    cases hf : List.find? (fun g : Bool × Str => globHits g.2 rel) [(false, cs!"arch" ++ cs!"/*"),
      (false, cs!"usr" ++ cs!"/*"), (false, cs!"tools" ++ cs!"/*"), (false, cs!"sound" ++ cs!"/*"), (false, cs!"samples" ++ cs!"/*"),
      (false, cs!"lib" ++ cs!"/*"), (false, cs!"drivers" ++ cs!"/*"), (false, cs!"Documentation" ++ cs!"/*")] with
    | none =>
      obtain ⟨g, hg, hh⟩ := hex
      exact absurd hh (List.find?_eq_none.1 hf g hg)
    | some g =>
      have hm := List.mem_of_find?_eq_some hf
      simp only [List.mem_cons, List.not_mem_nil, or_false] at hm
      rcases hm with rfl | rfl | rfl | rfl | rfl | rfl | rfl | rfl <;> rfl
  · rw [if_neg ht, List.find?_eq_none.2]
    · rfl
    · intro g hg hh
      refine ht ((inTop_iff rel).2 ?_)
      simp only [List.mem_cons, List.not_mem_nil, or_false] at hg
      rcases hg with rfl | rfl | rfl | rfl | rfl | rfl | rfl | rfl <;>
      (have := (globHits_top _ (by decide) (by decide) rel).1 hh; simp only [this, true_or, or_true])

theorem namedHidden_iff (rel : List Str) :
    (match rel.getLast? with | some name => isHidden name | none => false) = true ↔ NamedHidden rel := by
  unfold NamedHidden
  cases rel.getLast? with
  | none => simp
  | some last =>
    simp only [Option.some.injEq, exists_eq_left']
    exact startsWith_iff _ _

theorem rgEnters_iff (a : Arch) (ignored : List Str → Bool) (rel : List Str) :
    rgEnters (rgGlobs a) ignored rel = true ↔ RgEnters a ignored rel := by
  classical
  unfold rgEnters RgEnters
  rw [rgVerdict_eq]
  by_cases hc : NamedC rel
  · simp [hc]
  by_cases ha : rel = [cs!"arch", a.kind.name]
  · rw [if_neg hc, if_pos ha]; simp [ha]
  by_cases ht : InTop rel
  · rw [if_neg hc, if_neg ha, if_pos ht]; simp [hc, ha, ht]
  · rw [if_neg hc, if_neg ha, if_neg ht]
    simp only [hc, ha, ht, false_or, not_false_eq_true, true_and, Bool.not_eq_true', rgSkips, Bool.or_eq_false_iff]
    rw [and_comm]
    refine and_congr_left fun _ => ?_
    rw [Bool.eq_false_iff, ne_eq]
    exact not_congr (namedHidden_iff rel)

theorem rgReads_iff (a : Arch) (ignored : List Str → Bool) (rel : List Str) :
    rgReads (rgGlobs a) ignored rel = true ↔ NamedC rel ∨ rel = [cs!"arch", a.kind.name] := by
  classical
  unfold rgReads
  rw [rgVerdict_eq]
  by_cases hc : NamedC rel
  · simp [hc]
  by_cases ha : rel = [cs!"arch", a.kind.name]
  · rw [if_neg hc, if_pos ha]; simp [ha]
  have hany : ((rgGlobs a).any fun g => (globSign g).1) = true := by
    rw [List.any_eq_true]
    exact ⟨cs!"*.c", by simp [rgGlobs], rfl⟩
  by_cases ht : InTop rel
  · rw [if_neg hc, if_neg ha, if_pos ht]; simp [hc, ha]
  · rw [if_neg hc, if_neg ha, if_neg ht]; simp [hc, ha, hany]

/-! ## The walk -/

theorem numberFrom_mem {α : Type} (ls : List α) (n k : Nat) (l : α) : (k, l) ∈ numberFrom n ls ↔ ∃ i, k = n + i ∧ ls[i]? = some l := by
  induction ls generalizing n k with
  | nil => simp [numberFrom]
  | cons x xs ih =>
    simp only [numberFrom, List.mem_cons, ih]
    constructor
    · rintro (e | ⟨i, e1, e2⟩)
      · cases e; exact ⟨0, rfl, rfl⟩
      · exact ⟨i + 1, by omega, by simpa using e2⟩
    · rintro ⟨i, e1, e2⟩
      cases i with
      | zero => left; simp at e2; rw [e1, e2]; rfl
      | succ i => right; exact ⟨i, by omega, by simpa using e2⟩

theorem rgFile_mem (exp : Re) (rel : List Str) (lines : List Str) (row : Str) :
    row ∈ rgFile exp rel lines ↔ ∃ i l, lines[i]? = some l ∧ (exp.search l).isSome = true ∧
      row = Path.str ⟨false, rel⟩ ++ cs!":" ++ natRepr (i + 1) ++ cs!":" ++ rgLine l := by
  unfold rgFile
  rw [List.mem_filterMap]
  constructor
  · rintro ⟨⟨k, l⟩, hm, h⟩
    obtain ⟨i, rfl, hl⟩ := (numberFrom_mem _ _ _ _).1 hm
    split at h
    · next hs => cases h; exact ⟨i, l, hl, hs, by rw [Nat.add_comm 1 i]⟩
    · cases h
  · rintro ⟨i, l, hl, hs, rfl⟩
    refine ⟨(1 + i, l), (numberFrom_mem _ _ _ _).2 ⟨i, rfl, hl⟩, ?_⟩
    simp only [hs, if_true, Nat.add_comm 1 i]

theorem brstrip_rgLine (l : Str) : brstrip (rgLine l) = brstrip l := by
  unfold rgLine
  split
  · next h =>
    have hne : l ≠ [] := by rintro rfl; cases h
    have hl : l = l.dropLast ++ ['\n'] := by
      have := List.dropLast_append_getLast hne
      rw [List.getLast?_eq_some_getLast hne] at h
      rw [← Option.some.inj h]; exact this.symm
    conv => rhs; rw [hl]
    simp [brstrip, isBSpace]
  · rfl

theorem rgFile_brstrip (exp : Re) (rel : List Str) (lines : List Str) :
    (rgFile exp rel lines).map brstrip = grepFile exp rel lines := by
  unfold rgFile grepFile
  rw [List.map_filterMap]
  congr 1
  funext p
  split
  · simp only [Option.map_some, Option.some.injEq]
    have h : ∀ t : Str, Path.str ⟨false, rel⟩ ++ cs!":" ++ natRepr p.1 ++ cs!":" ++ t =
        (Path.str ⟨false, rel⟩ ++ cs!":" ++ natRepr p.1) ++ ':' :: t := by intro t; simp [List.append_assoc]
    rw [h, h, brstrip_append _ _ _ (by decide), brstrip_rgLine]
  · rfl

theorem Spec.At.pos {children : List (Str × Node)} {path : List Str} {node : Node} (h : At children path node) : 0 < path.length := by
  cases h <;> simp

theorem Spec.At.mono {children children' : List (Str × Node)} (hs : ∀ x ∈ children, x ∈ children') {path : List Str} {node : Node}
    (h : At children path node) : At children' path node := by
  cases h with
  | here _ _ _ hm => exact .here _ _ _ (hs _ hm)
  | inside _ _ sub _ _ hm ha => exact .inside _ _ sub _ _ (hs _ hm) ha

/-- what is above a node is a directory -/
theorem at_take {children : List (Str × Node)} {path : List Str} {node : Node} (h : At children path node) (k : Nat) (hk : 0 < k)
    (hk' : k < path.length) : ∃ sub, At children (path.take k) (.dir sub) := by
  induction h generalizing k with
  | here _ _ _ _ => simp at hk'; omega
  | inside children name sub p n hm ha ih =>
    cases k with
    | zero => omega
    | succ k =>
      by_cases h0 : k = 0
      · subst h0; exact ⟨sub, by simpa using At.here _ _ _ hm⟩
      · obtain ⟨s, hs⟩ := ih k (by omega) (by simpa using hk')
        exact ⟨s, by simpa using At.inside _ _ sub _ _ hm hs⟩

mutual
theorem rgDir_mem (exp : Re) (en rd : List Str → Bool) (rel : List Str) (children : List (Str × Node)) (row : Str) :
    row ∈ rgDir exp en rd rel children ↔ ∃ path lines, At children path (.file lines) ∧ rd (rel ++ path) = true ∧
      (∀ k, 0 < k → k < path.length → en (rel ++ path.take k) = true) ∧ row ∈ rgFile exp (rel ++ path) lines := by
  match children with
  | [] =>
    simp only [rgDir, List.not_mem_nil, false_iff]
    rintro ⟨path, lines, hat, -⟩
    cases hat with
    | here _ _ _ h => cases h
    | inside _ _ _ _ _ h => cases h
  | (name, node) :: rest =>
    rw [rgDir, List.mem_append, rgDir_mem exp en rd rel rest row, rgNode_mem exp en rd (rel ++ [name]) node row]
    constructor
    · rintro (h | ⟨path, lines, hat, h⟩)
      · rcases h with ⟨lines, rfl, hc, hr⟩ | ⟨sub, rfl, hex, path, lines, hat, h1, h3, h4⟩
        · exact ⟨[name], lines, .here _ _ _ (by simp), hc, by intro k h0 h1; simp at h1; omega, hr⟩
        · refine ⟨name :: path, lines, .inside _ _ sub _ _ (by simp) hat, by simpa using h1, ?_, by simpa using h4⟩
          intro k hk hk'
          cases k with
          | zero => omega
          | succ k =>
            by_cases hk0 : k = 0
            · subst hk0; simpa using hex
            · have := h3 k (by omega) (by simpa using hk')
              simpa using this
      · exact ⟨path, lines, hat.mono (by simp_all), h⟩
    · rintro ⟨path, lines, hat, h1, h3, h4⟩
      cases hat with
      | here _ nm _ hm =>
        rcases List.mem_cons.1 hm with e | hm
        · cases e
          exact .inl (.inl ⟨lines, rfl, h1, h4⟩)
        · exact .inr ⟨[nm], lines, .here _ _ _ hm, h1, h3, h4⟩
      | inside _ nm sub p _ hm ha =>
        rcases List.mem_cons.1 hm with e | hm
        · cases e
          have hp := ha.pos
          refine .inl (.inr ⟨sub, rfl, by simpa using h3 1 (by omega) (by simp; omega), p, lines, ha, by simpa using h1, ?_, by simpa using h4⟩)
          intro k hk hk'
          have := h3 (k + 1) (by omega) (by simpa using hk')
          simpa using this
        · exact .inr ⟨nm :: p, lines, .inside _ _ sub _ _ hm ha, h1, h3, h4⟩
theorem rgNode_mem (exp : Re) (en rd : List Str → Bool) (rel : List Str) (node : Node) (row : Str) :
    row ∈ rgNode exp en rd rel node ↔
      (∃ lines, node = .file lines ∧ rd rel = true ∧ row ∈ rgFile exp rel lines) ∨
      (∃ sub, node = .dir sub ∧ en rel = true ∧ ∃ path lines, At sub path (.file lines) ∧ rd (rel ++ path) = true ∧
        (∀ k, 0 < k → k < path.length → en (rel ++ path.take k) = true) ∧ row ∈ rgFile exp (rel ++ path) lines) := by
  match node with
  | .file lines =>
    simp only [rgNode]
    cases rd rel <;> simp
  | .dir sub =>
    simp only [rgNode]
    have hd := rgDir_mem exp en rd rel sub row
    cases hex : en rel
    · simp
    · simp only [if_true]
      rw [hd]
      constructor
      · intro h; exact .inr ⟨sub, rfl, trivial, h⟩
      · rintro (⟨_, h, _⟩ | ⟨s, h, -, h'⟩)
        · cases h
        · cases h; exact h'
  | .other => simp [rgNode]
end

/-- the last component -/
def lastHidden (path : List Str) : Bool := match path.getLast? with | some name => isHidden name | none => false
def lastC (path : List Str) : Bool := match path.getLast? with | some name => isCFile name | none => false

/-- both walks treat what is at a path the same way -/
def AgreeAt (ex en rd : List Str → Bool) (rel : List Str) : Node → Prop
  | .file _ => rd rel = (!lastHidden rel && lastC rel)
  | .dir sub => en rel = (!lastHidden rel && !ex rel) ∨
      ((lastHidden rel || ex rel) = true ∧ ∀ name node, (name, node) ∈ sub →
        match node with
        | .file _ => rd (rel ++ [name]) = false
        | .dir _ => en (rel ++ [name]) = false
        | .other => True)
  | .other => True

theorem rgDir_nil (exp : Re) (en rd : List Str → Bool) (rel : List Str) (children : List (Str × Node))
    (h : ∀ name node, (name, node) ∈ children →
        match node with
        | .file _ => rd (rel ++ [name]) = false
        | .dir _ => en (rel ++ [name]) = false
        | .other => True) : rgDir exp en rd rel children = [] := by
  induction children with
  | nil => rfl
  | cons x rest ih =>
    obtain ⟨name, node⟩ := x
    rw [rgDir, ih fun n nd hn => h n nd (by simp [hn]), List.append_nil]
    have := h name node (by simp)
    cases node with
    | file lines => simp only at this; simp [rgNode, this]
    | dir sub => simp only at this; simp [rgNode, this]
    | other => rfl

mutual
theorem rgDir_agree (exp : Re) (ex en rd : List Str → Bool) (rel : List Str) (children : List (Str × Node))
    (h : ∀ path node, At children path node → (∀ k, 0 < k → k < path.length → ex (rel ++ path.take k) = false) →
      AgreeAt ex en rd (rel ++ path) node) :
    (rgDir exp en rd rel children).map brstrip = grepDir exp ex rel children := by
  match children with
  | [] => simp [rgDir, grepDir]
  | (name, node) :: rest =>
    rw [rgDir, grepDir, List.map_append, rgDir_agree exp ex en rd rel rest fun p n hp => h p n (hp.mono (by simp_all))]
    congr 1
    have hself := h [name] node (.here _ _ _ (by simp)) (by intro k h0 h1; simp at h1; omega)
    have hlh : lastHidden (rel ++ [name]) = isHidden name := by simp [lastHidden]
    have hlc : lastC (rel ++ [name]) = isCFile name := by simp [lastC]
    rw [← hlh, ← hlc]
    exact rgNode_agree exp ex en rd (rel ++ [name]) node hself fun sub hsub hex p n hp hk => by
      subst hsub
      have hl := hp.pos
      have := h (name :: p) n (.inside _ _ sub _ _ (by simp) hp) (by
        intro k hk0 hk1
        cases k with
        | zero => omega
        | succ k =>
          by_cases hk0' : k = 0
          · subst hk0'; simpa using hex
          · have := hk k (by omega) (by simpa using hk1)
            simpa using this)
      simpa using this
theorem rgNode_agree (exp : Re) (ex en rd : List Str → Bool) (rel : List Str) (node : Node) (hself : AgreeAt ex en rd rel node)
    (h : ∀ sub, node = .dir sub → ex rel = false → ∀ path n, At sub path n →
      (∀ k, 0 < k → k < path.length → ex (rel ++ path.take k) = false) → AgreeAt ex en rd (rel ++ path) n) :
    (rgNode exp en rd rel node).map brstrip =
      if lastHidden rel = true then [] else grepNode exp ex rel (lastC rel) node := by
  match node with
  | .file lines =>
    simp only [AgreeAt] at hself
    simp only [rgNode, grepNode, hself]
    cases lastHidden rel <;> cases lastC rel <;> simp [rgFile_brstrip]
  | .dir sub =>
    simp only [rgNode, grepNode]
    rcases hself with hs | ⟨hs, hn⟩
    · rw [hs]
      cases hh : lastHidden rel with
      | true => simp
      | false =>
        cases hx : ex rel with
        | true => simp
        | false => simpa using rgDir_agree exp ex en rd rel sub (h sub rfl hx)
    · have : (if lastHidden rel = true then ([] : List Str) else if ex rel = true then [] else grepDir exp ex rel sub) = [] := by
        rcases Bool.or_eq_true_iff.1 hs with e | e <;> simp [e]
      rw [this, rgDir_nil exp en rd rel sub hn]
      simp
  | .other => simp [rgNode, grepNode]
end

theorem excluded_cases (a : Arch) (archs : List Str) (rel : List Str) (h : excluded a archs rel = true) :
    (∃ top ∈ excludedTops, rel = [top]) ∨ ∃ x, rel = [cs!"arch", x] := by
  unfold excluded at h
  split at h
  · next d => exact .inl ⟨d, by simpa using h, rfl⟩
  · next d x =>
    simp only [Bool.and_eq_true, beq_iff_eq] at h
    exact .inr ⟨x, by rw [h.1.1]⟩
  · cases h

/-- in a plain tree both walks agree -/
theorem plain_agree (a : Arch) (ignored : List Str → Bool) (tree archs : List (Str × Node)) (hp : PlainTree a ignored tree)
    (harch : dget cs!"arch" tree = some (.dir archs)) (path : List Str) (node : Node) (hat : At tree path node)
    (hk : ∀ k, 0 < k → k < path.length → excluded a (archs.map Prod.fst) (path.take k) = false) :
    AgreeAt (excluded a (archs.map Prod.fst)) (rgEnters (rgGlobs a) ignored) (rgReads (rgGlobs a) ignored) path node := by
  have hlast : ∀ p : List Str, lastHidden p = true ↔ NamedHidden p := fun p => namedHidden_iff p
  have hlc : ∀ p : List Str, lastC p = true ↔ NamedC p := by
    intro p
    unfold lastC NamedC
    cases p.getLast? with
    | none => simp
    | some last => simp only [Option.some.injEq, exists_eq_left']; exact endsWith_iff _ _
  match node, hat with
  | .other, _ => trivial
  | .file lines, hat =>
    show rgReads (rgGlobs a) ignored path = _
    rw [Bool.eq_iff_iff, rgReads_iff, Bool.and_eq_true, Bool.not_eq_true', Bool.eq_false_iff, ne_eq, hlast, hlc]
    constructor
    · rintro (h | rfl)
      · exact ⟨fun hh => hp.hidden _ _ hat hh h, h⟩
      · exact absurd hat (hp.archDir lines)
    · rintro ⟨-, h⟩; exact .inl h
  | .dir sub, hat =>
    obtain ⟨hnc, hni⟩ := hp.dirs _ _ hat
    by_cases htop : ∃ top ∈ excludedTops, path = [top]
    · right
      obtain ⟨top, ht, rfl⟩ := htop
      have hex : excluded a (archs.map Prod.fst) [top] = true := by simpa [excluded] using ht
      refine ⟨by simp [hex], ?_⟩
      intro name node hm
      have hat' : At tree ([top] ++ [name]) node := by
        cases hat with
        | here _ _ _ h => exact .inside _ _ sub _ _ h (.here _ _ _ hm)
        | inside _ _ _ _ _ _ h => cases h
      match node, hat' with
      | .other, _ => trivial
      | .file lines, hat' =>
        show rgReads _ _ _ = false
        rw [Bool.eq_false_iff, ne_eq, rgReads_iff]
        rintro (h | h)
        · exact hp.tops top name lines ht hat' h
        · simp only [List.cons_append, List.nil_append, List.cons.injEq] at h
          rw [h.1] at ht
          revert ht; decide
      | .dir s, hat' =>
        show rgEnters _ _ _ = false
        rw [Bool.eq_false_iff, ne_eq, rgEnters_iff]
        rintro (h | h | h)
        · exact (hp.dirs _ _ hat').1 h
        · simp only [List.cons_append, List.nil_append, List.cons.injEq] at h
          rw [h.1] at ht
          revert ht; decide
        · exact h.1 ⟨top, name, .inl ht, rfl⟩
    · left
      rw [Bool.eq_iff_iff, rgEnters_iff, Bool.and_eq_true, Bool.not_eq_true', Bool.not_eq_true', Bool.eq_false_iff, ne_eq, hlast]
      have hen : RgEnters a ignored path ↔ path = [cs!"arch", a.kind.name] ∨ (¬ InTop path ∧ ¬ NamedHidden path) := by
        unfold RgEnters
        simp [hnc, hni]
      rw [hen]
      constructor
      · rintro (rfl | ⟨h1, h2⟩)
        · refine ⟨?_, by simp [excluded]⟩
          rintro ⟨last, e1, e2⟩
          simp only [List.getLast?_cons_cons, List.getLast?_singleton, Option.some.injEq] at e1
          subst e1
          have := (name_plain a.kind).2.2.2
          rw [show isHidden a.kind.name = startsWith a.kind.name cs!"." from rfl, (startsWith_iff _ _).2 e2] at this
          cases this
        · refine ⟨h2, ?_⟩
          refine Bool.eq_false_iff.2 fun hd => ?_
          rcases excluded_cases _ _ _ hd with h | ⟨x, rfl⟩
          · exact htop h
          · exact h1 ⟨_, x, .inr rfl, rfl⟩
      · rintro ⟨h1, h2⟩
        by_cases hit : InTop path
        · left
          obtain ⟨top, x, ht, rfl⟩ := hit
          rcases ht with ht | rfl
          · have := hk 1 (by omega) (by simp)
            simp only [List.take_succ_cons, List.take_zero] at this
            rw [show excluded a (archs.map Prod.fst) [top] = excludedTops.contains top from rfl, List.contains_iff_mem.2 ht] at this
            cases this
          · have hx : x ∈ archs.map Prod.fst := by
              have hat2 : ∃ s, (cs!"arch", Node.dir s) ∈ tree ∧ (x, Node.dir sub) ∈ s := by
                cases hat with
                | inside _ _ s _ _ hm ha =>
                  cases ha with
                  | here _ _ _ h => exact ⟨s, hm, h⟩
                  | inside _ _ _ _ _ _ h => cases h
              obtain ⟨s, hs, hxs⟩ := hat2
              have : dget cs!"arch" tree = some (.dir s) := dget_of_mem hp.nodup hs
              rw [harch] at this
              cases this
              exact List.mem_map.2 ⟨_, hxs, rfl⟩
            simp only [excluded, beq_self_eq_true, Bool.true_and, List.contains_iff_mem.2 hx, bne_eq_false_iff_eq] at h2
            rw [h2]
        · exact .inr ⟨hit, h1⟩

end Verif
