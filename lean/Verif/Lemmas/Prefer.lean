import Verif.Spec.Prefer
import Verif.Lemmas.Choice
import Verif.Lemmas.Main4
/-! # Lemmas: which symbol is preferred (C108) -/
set_option autoImplicit false

namespace Verif
open Spec

/-- the first name is taken, when it comes after the second one -/
def pick (ws : List Wish) (x y : Str) : Bool :=
  decide (rankOf ws x < rankOf ws y) || (decide (rankOf ws x = rankOf ws y) && takesLast ws x)

/-- every name is in a class -/
def Covers (ws : List Wish) : Prop := ∀ n, ∃ w ∈ ws, w.fits n = true

theorem rankOf_lt {ws : List Wish} (h : Covers ws) (n : Str) : rankOf ws n < ws.length :=
  List.findIdx_lt_length.2 (h n)

theorem rankOf_cons (w : Wish) (ws : List Wish) (n : Str) : rankOf (w :: ws) n = if w.fits n then 0 else rankOf ws n + 1 := by
  unfold rankOf
  rw [List.findIdx_cons]
  cases w.fits n <;> rfl

theorem takesLast_cons (w : Wish) (ws : List Wish) (n : Str) :
    takesLast (w :: ws) n = if w.fits n then w.last else takesLast ws n := by
  unfold takesLast
  rw [List.find?_cons]
  cases w.fits n <;> rfl

theorem takesLast_congr (ws : List Wish) (x y : Str) (h : rankOf ws x = rankOf ws y) : takesLast ws x = takesLast ws y := by
  induction ws with
  | nil => rfl
  | cons w ws ih =>
    rw [rankOf_cons, rankOf_cons] at h
    rw [takesLast_cons, takesLast_cons]
    by_cases hx : w.fits x = true <;> by_cases hy : w.fits y = true <;> simp_all

theorem pick_cons (p : Str → Bool) (ws : List Wish) (x y : Str) :
    pick (⟨p, true⟩ :: ws) x y = if p x then true else if p y then false else pick ws x y := by
  unfold pick
  simp only [rankOf_cons, takesLast_cons]
  by_cases hx : p x = true <;> by_cases hy : p y = true <;> simp [hx, hy]

theorem pick_any (x y : Str) : pick [anyName] x y = false := by
  unfold pick
  simp only [rankOf_cons, takesLast_cons, anyName, if_true]
  simp

theorem rankOf_among (q : Str → Bool) (w1 w2 : List Wish) (h : Covers w1) (n : Str) :
    rankOf (among q w1 ++ w2) n = if q n then rankOf w1 n else w1.length + rankOf w2 n := by
  unfold rankOf among
  by_cases hq : q n = true
  · rw [if_pos hq, List.findIdx_append, List.length_map, List.findIdx_map, if_pos]
    · congr 1; funext w; simp [hq]
    · have := rankOf_lt h n
      unfold rankOf at this
      simpa [Function.comp_def, hq] using this
  · simp only [Bool.not_eq_true] at hq
    rw [if_neg (by simp [hq]), List.findIdx_append, List.length_map]
    have : (List.map (fun w : Wish => (⟨fun n => q n && w.fits n, w.last⟩ : Wish)) w1).findIdx (fun w => w.fits n) = w1.length := by
      rw [List.findIdx_eq_length_of_false, List.length_map]
      intro w hw
      obtain ⟨v, -, rfl⟩ := List.mem_map.1 hw
      simp [hq]
    rw [this, if_neg (by simp)]
    omega

theorem takesLast_among (q : Str → Bool) (w1 w2 : List Wish) (h : Covers w1) (n : Str) :
    takesLast (among q w1 ++ w2) n = if q n then takesLast w1 n else takesLast w2 n := by
  have key : ∀ w1 : List Wish, (∃ w ∈ w1, w.fits n = true) →
      takesLast (among q w1 ++ w2) n = if q n then takesLast w1 n else takesLast w2 n := by
    intro w1 h
    induction w1 with
    | nil => obtain ⟨w, hw, -⟩ := h; cases hw
    | cons w ws ih =>
      show takesLast ((⟨fun n => q n && w.fits n, w.last⟩ : Wish) :: (among q ws ++ w2)) n = _
      simp only [takesLast_cons]
      by_cases hq : q n = true
      · by_cases hf : w.fits n = true
        · simp [hq, hf]
        · have : ∃ w ∈ ws, w.fits n = true := by
            obtain ⟨v, hv, hvf⟩ := h
            rcases List.mem_cons.1 hv with rfl | hv
            · exact absurd hvf hf
            · exact ⟨v, hv, hvf⟩
          simp only [hf, hq, Bool.and_false, Bool.false_eq_true, if_false, if_true]
          rw [ih this, if_pos hq]
      · simp only [hq, Bool.false_and, Bool.false_eq_true, if_false]
        clear ih h
        induction ws with
        | nil => rfl
        | cons v vs ih2 =>
          show takesLast ((⟨fun n => q n && v.fits n, v.last⟩ : Wish) :: (among q vs ++ w2)) n = _
          rw [takesLast_cons]
          simp only [hq, Bool.false_and, Bool.false_eq_true, if_false]
          exact ih2
  exact key w1 (h n)

theorem pick_among (q : Str → Bool) (w1 w2 : List Wish) (h : Covers w1) (x y : Str) :
    pick (among q w1 ++ w2) x y = if q x then (if q y then pick w1 x y else true) else if q y then false else pick w2 x y := by
  unfold pick
  rw [rankOf_among q w1 w2 h, rankOf_among q w1 w2 h, takesLast_among q w1 w2 h]
  have h1 := rankOf_lt h x
  have h2 := rankOf_lt h y
  by_cases hx : q x = true <;> by_cases hy : q y = true <;> simp only [hx, hy, if_true, if_false, Bool.false_eq_true]
  · simp; omega
  · simp; omega
  · simp

theorem covers_cons (w : Wish) (ws : List Wish) (h : Covers ws) : Covers (w :: ws) := by
  intro n
  obtain ⟨v, h1, h2⟩ := h n
  exact ⟨v, by simp [h1], h2⟩

theorem covers_append (v ws : List Wish) (h : Covers ws) : Covers (v ++ ws) := by
  intro n
  obtain ⟨v, h1, h2⟩ := h n
  exact ⟨v, by simp [h1], h2⟩

theorem covers_any : Covers [anyName] := fun _ => ⟨anyName, by simp, rfl⟩

theorem covers_basic : Covers basicWishes := covers_cons _ _ (covers_cons _ _ covers_any)

theorem covers_lower : Covers lowerFirst := covers_append _ _ covers_any

theorem prefix_startsWith (p n : Str) : decide (p <+: n) = startsWith n p := by
  by_cases h : p <+: n
  · simp [h, (startsWith_iff n p).2 h]
  · simp [h, startsWith_false h]

theorem pick_prefixed (p : Str) (ws : List Wish) (x y : Str) :
    pick (prefixed p :: ws) x y = if startsWith x p then true else if startsWith y p then false else pick ws x y := by
  unfold prefixed
  rw [pick_cons, prefix_startsWith, prefix_startsWith]

/-- the choice made with the wishes -/
def Picks (f : Symbol → Symbol → Symbol) (ws : List Wish) : Prop := ∀ a b, f a b = if pick ws a.name b.name then a else b

theorem picks_basic : Picks basePreferred basicWishes := by
  intro a b
  unfold basicWishes basePreferred
  simp only [pick_prefixed, pick_any]
  repeat' split
  all_goals simp_all

theorem picks_compat (f : Symbol → Symbol → Symbol) (ws : List Wish) (hc : Covers ws) (h : Picks f ws) (c : Bool) :
    Picks (fun a b => match preferCompat c a b with | some x => x | none => f a b) (compatSide c ws) := by
  intro a b
  have hi : ∀ n, isCompatName n = isInfix cs!"compat" n := by
    intro n
    unfold isCompatName
    by_cases h : cs!"compat" <:+: n
    · rw [(isInfix_iff _ _).2 h]; exact decide_eq_true h
    · have : isInfix cs!"compat" n = false := by
        cases hx : isInfix cs!"compat" n with
        | false => rfl
        | true => exact absurd ((isInfix_iff _ _).1 hx) h
      rw [this]; exact decide_eq_false h
  unfold compatSide preferCompat
  rw [pick_among _ _ _ hc]
  simp only [hi, h a b]
  cases isInfix cs!"compat" a.name <;> cases isInfix cs!"compat" b.name <;> cases c <;> simp

theorem picks_prefixed (f : Symbol → Symbol → Symbol) (ws : List Wish) (p : Str) (h : Picks f ws) :
    Picks (fun a b => if startsWith a.name p then a else if startsWith b.name p then b else f a b) (prefixed p :: ws) := by
  intro a b
  simp only [pick_prefixed, h a b]
  repeat' split
  all_goals simp_all

/-- the two ways of saying that a name has letters and no capital ones -/
theorem isLower_name (n : Str) : isLower n = isLowerName n := by
  unfold isLower isLowerName
  rw [Bool.eq_iff_iff]
  simp only [Bool.and_eq_true, Bool.not_eq_true', List.any_eq_false, List.any_eq_true, decide_eq_true_eq]
  rfl

theorem picks_lower : Picks (fun a b => if !isLower a.name then b else if !isLower b.name then a else basePreferred a b) lowerFirst := by
  intro a b
  unfold lowerFirst
  rw [pick_among _ _ _ covers_basic, pick_any]
  simp only [isLower_name, picks_basic a b]
  cases isLowerName a.name <;> cases isLowerName b.name <;> simp

/-- what is preferred is what the wishes say -/
theorem preferred_picks (ar : Arch) : Picks ar.preferredSymbol (wishes ar) := by
  intro a b
  unfold Arch.preferredSymbol wishes
  cases ar.kind <;> simp only
  · exact picks_compat _ _ covers_basic picks_basic ar.compat a b
  · exact picks_compat _ _ (covers_cons _ _ covers_basic) (picks_prefixed _ _ _ picks_basic) ar.compat a b
  · exact picks_compat _ _ covers_basic picks_basic ar.compat a b
  · unfold ppcPreferred
    split
    · exact picks_basic a b
    · rw [pick_among _ _ _ (covers_cons _ _ (covers_cons _ _ covers_any))]
      simp only [prefix_startsWith, pick_prefixed, pick_any, picks_basic a b]
      cases startsWith a.name cs!"." <;> cases startsWith b.name cs!"." <;> simp
      repeat' split
      all_goals simp_all
  · exact picks_compat _ _ (covers_cons _ _ covers_basic) (picks_prefixed _ _ _ picks_basic) ar.compat a b
  · unfold x86Preferred
    have hl := picks_lower a b
    simp only at hl
    have hrest : (if startsWith a.name cs!"__ia32_" then b else if startsWith b.name cs!"__ia32_" then a
        else if !isLower a.name then b else if !isLower b.name then a else basePreferred a b) =
        if pick (among (fun n => !decide (cs!"__ia32_" <+: n)) lowerFirst ++ [anyName]) a.name b.name then a else b := by
      rw [pick_among _ _ _ covers_lower, pick_any, hl]
      simp only [prefix_startsWith]
      cases startsWith a.name cs!"__ia32_" <;> cases startsWith b.name cs!"__ia32_" <;> simp
    by_cases h1 : ar.abi = cs!"ia32"
    · simp only [h1, if_true, pick_prefixed, hl]
      cases startsWith a.name cs!"__ia32_" <;> cases startsWith b.name cs!"__ia32_" <;>
        cases startsWith a.name cs!"__x64_" <;> cases startsWith b.name cs!"__x64_" <;> simp
    · simp only [h1, if_false]
      by_cases h2 : ar.abi = cs!"x32"
      · simp only [h2, if_true, true_and, List.cons_append, List.nil_append, pick_prefixed, hrest]
        cases startsWith a.name cs!"__x32_" <;> cases startsWith b.name cs!"__x32_" <;>
          cases startsWith a.name cs!"__x64_" <;> cases startsWith b.name cs!"__x64_" <;> simp
      · simp only [h2, if_false, false_and, List.nil_append, pick_prefixed, hrest]
        cases startsWith a.name cs!"__x64_" <;> cases startsWith b.name cs!"__x64_" <;> simp

/-! ## The choice among all symbols at an address -/

theorem before_of_strLe (s t : Str) (h : strLe s t = true) (hne : s ≠ t) : Before s t := by
  induction s generalizing t with
  | nil =>
    cases t with
    | nil => exact absurd rfl hne
    | cons c r => exact .inl ⟨c, r, rfl⟩
  | cons x xs ih =>
    cases t with
    | nil => simp [strLe] at h
    | cons y ys =>
      simp only [strLe] at h
      by_cases hxy : x = y
      · subst hxy
        rw [if_pos rfl] at h
        rcases ih ys h (fun e => hne (by rw [e])) with ⟨c, r, e⟩ | ⟨p, a, b, s', t', e1, e2, e3⟩
        · exact .inl ⟨c, r, by rw [e]; rfl⟩
        · exact .inr ⟨x :: p, a, b, s', t', by rw [e1]; rfl, by rw [e2]; rfl, e3⟩
      · rw [if_neg hxy] at h
        exact .inr ⟨[], x, y, xs, ys, rfl, rfl, of_decide_eq_true h⟩

theorem best_snoc (ar : Arch) (l : List Symbol) (s t : Symbol) (h : BestNamed ar l s) (ht : ∀ u ∈ l, Before u.name t.name) :
    BestNamed ar (l ++ [t]) (ar.preferredSymbol t s) := by
  rw [preferred_picks ar t s]
  unfold pick
  have hs := ht s h.mem
  by_cases h1 : rankOf (wishes ar) t.name < rankOf (wishes ar) s.name
  · simp only [h1, decide_true, Bool.true_or, if_true]
    refine ⟨by simp, ?_, ?_⟩
    · intro u hu
      rcases List.mem_append.1 hu with hu | hu
      · have := h.best u hu; omega
      · rw [List.mem_singleton.1 hu]
    · intro u hu hne he
      rcases List.mem_append.1 hu with hu | hu
      · have := h.best u hu; omega
      · exact absurd (List.mem_singleton.1 hu) hne
  · by_cases h2 : rankOf (wishes ar) t.name = rankOf (wishes ar) s.name
    · by_cases h3 : takesLast (wishes ar) t.name = true
      · simp only [h2, h3, decide_true, Bool.and_true, Bool.or_true, if_true]
        refine ⟨by simp, ?_, ?_⟩
        · intro u hu
          rcases List.mem_append.1 hu with hu | hu
          · have := h.best u hu; omega
          · rw [List.mem_singleton.1 hu]
        · intro u hu hne he
          rcases List.mem_append.1 hu with hu | hu
          · rw [if_pos h3]; exact ht u hu
          · exact absurd (List.mem_singleton.1 hu) hne
      · have h3' : takesLast (wishes ar) s.name = false := by
          rw [← takesLast_congr _ _ _ h2]; simpa using h3
        simp only [h2, h3, Nat.lt_irrefl, decide_false, Bool.false_or, decide_true, Bool.true_and, Bool.false_eq_true, if_false]
        refine ⟨by simp [h.mem], ?_, ?_⟩
        · intro u hu
          rcases List.mem_append.1 hu with hu | hu
          · exact h.best u hu
          · rw [List.mem_singleton.1 hu]; omega
        · intro u hu hne he
          rcases List.mem_append.1 hu with hu | hu
          · exact h.tie u hu hne he
          · rw [List.mem_singleton.1 hu, h3']; exact hs
    · simp only [h1, h2, decide_false, Bool.false_and, Bool.or_false, Bool.false_eq_true, if_false]
      refine ⟨by simp [h.mem], ?_, ?_⟩
      · intro u hu
        rcases List.mem_append.1 hu with hu | hu
        · exact h.best u hu
        · rw [List.mem_singleton.1 hu]; omega
      · intro u hu hne he
        rcases List.mem_append.1 hu with hu | hu
        · exact h.tie u hu hne he
        · rw [List.mem_singleton.1 hu] at he; omega

/-- the choice so far -/
def ChosenAmong (ar : Arch) (l : List Symbol) (va : Nat) : Option Symbol → Prop
  | none => l.filter (fun s => decide (s.vaddr = va)) = []
  | some s => s.vaddr = va ∧ BestNamed ar (l.filter fun s => decide (s.vaddr = va)) s

/-- the loop over the sorted symbols, for an address without ni_syscall -/
theorem choose_best (ar : Arch) (ni : List Symbol) (va : Nat) (hni : ∀ s ∈ ni, s.vaddr ≠ va) (l done : List Symbol) (o : Option Symbol)
    (hp : (done ++ l).Pairwise fun s t => Before s.name t.name ∧ s ≠ t)
    (ho : ChosenAmong ar done va o) : ChosenAmong ar (done ++ l) va (l.foldl (chooseAt ar ni va) o) := by
  induction l generalizing done o with
  | nil => simpa using ho
  | cons t l ih =>
    rw [List.foldl_cons]
    have := ih (done ++ [t]) (chooseAt ar ni va o t) (by simpa using hp) ?_
    · simpa using this
    · unfold chooseAt
      by_cases hv : t.vaddr = va
      · rw [if_pos hv]
        have hb : ∀ u ∈ done, Before u.name t.name ∧ u ≠ t := by
          intro u hu
          exact (List.pairwise_append.1 hp).2.2 u hu t (by simp)
        have hf : (done ++ [t]).filter (fun s => decide (s.vaddr = va)) = done.filter (fun s => decide (s.vaddr = va)) ++ [t] := by
          rw [List.filter_append]; simp [hv]
        cases o with
        | none =>
          have ho' : done.filter (fun s => decide (s.vaddr = va)) = [] := ho
          refine ⟨hv, ?_⟩
          rw [hf, ho']
          refine ⟨by simp, ?_, ?_⟩
          · intro u hu
            have : u = t := by simpa using hu
            rw [this]
          · intro u hu hne; exact absurd (by simpa using hu) hne
        | some s =>
          simp only
          obtain ⟨hsv, hs⟩ := ho
          have hsd := (List.mem_filter.1 hs.mem).1
          have hne : t ≠ s := fun e => (hb s hsd).2 e.symm
          have hsni : ni.contains s = false := by
            cases hc : ni.contains s with
            | false => rfl
            | true => exact absurd hsv (hni s (by simpa using hc))
          rw [if_neg hne, hsni]
          simp only [Bool.false_and, Bool.false_eq_true, if_false]
          show _ ∧ BestNamed ar _ _
          rw [hf]
          refine ⟨?_, best_snoc ar _ s t hs fun u hu => (hb u (List.mem_filter.1 hu).1).1⟩
          rw [preferred_picks ar t s]
          split <;> assumption
      · rw [if_neg hv]
        have hf : (done ++ [t]).filter (fun s => decide (s.vaddr = va)) = done.filter (fun s => decide (s.vaddr = va)) := by
          rw [List.filter_append]; simp [hv]
        cases o with
        | none => exact hf.trans ho
        | some s => exact ⟨ho.1, by rw [hf]; exact ho.2⟩

theorem sorted_before (e : Elf) (hd : DistinctNames e) : e.sortedSyms.Pairwise fun s t => Before s.name t.name ∧ s ≠ t := by
  have h1 := sortedSyms_pairwise e
  have h2 : e.sortedSyms.Pairwise fun s t => s.name ≠ t.name := by
    have : (e.sortedSyms.map Symbol.name).Nodup := ((sortedSyms_perm e).map Symbol.name).nodup_iff.2 hd
    exact List.pairwise_map.1 this
  exact (h1.and h2).imp fun {s t} h => ⟨before_of_strLe _ _ h.1 h.2, fun e => h.2 (by rw [e])⟩

theorem strLe_of_before (s t : Str) (h : Before s t) : strLe s t = true ∧ s ≠ t := by
  rcases h with ⟨c, r, rfl⟩ | ⟨p, x, y, s', t', rfl, rfl, hlt⟩
  · refine ⟨?_, fun e => ?_⟩
    · induction s with
      | nil => rfl
      | cons x s ih => simp only [List.cons_append, strLe, if_true]; exact ih
    · have := congrArg List.length e
      simp at this
  · have hne : x ≠ y := fun e => by rw [e] at hlt; omega
    refine ⟨?_, fun e => hne (List.cons.inj (List.append_cancel_left e)).1⟩
    induction p with
    | nil => simp only [List.nil_append, strLe, hne, if_false]; exact decide_eq_true hlt
    | cons z p ih => simp only [List.cons_append, strLe, if_true]; exact ih

theorem before_asymm (s t : Str) (h1 : Before s t) (h2 : Before t s) : False := by
  obtain ⟨a, b⟩ := strLe_of_before _ _ h1
  exact b (strLe_antisymm _ _ a (strLe_of_before _ _ h2).1)

/-- there is only one best name -/
theorem best_unique (ar : Arch) (l : List Symbol) (s t : Symbol) (hs : BestNamed ar l s) (ht : BestNamed ar l t) : s = t := by
  apply Classical.byContradiction
  intro hne
  have h1 := hs.best t ht.mem
  have h2 := ht.best s hs.mem
  have he : rankOf (wishes ar) t.name = rankOf (wishes ar) s.name := by omega
  have g1 := hs.tie t ht.mem (fun e => hne e.symm) he
  have g2 := ht.tie s hs.mem hne he.symm
  rw [takesLast_congr _ _ _ he] at g2
  split at g1
  · next h => rw [if_pos h] at g2; exact before_asymm _ _ g1 g2
  · next h => rw [if_neg h] at g2; exact before_asymm _ _ g1 g2

end Verif
