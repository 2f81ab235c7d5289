import Verif.Lemmas.Table
import Verif.Lemmas.Arch
import Verif.Props.Arch
/-! # Lemmas on the choice of symbols -/
set_option autoImplicit false

namespace Verif
open Spec

/-! ## Sorting -/

theorem insertBy_perm {α : Type} (le : α → α → Bool) (x : α) (l : List α) : (insertBy le x l).Perm (x :: l) := by
  induction l with
  | nil => exact .refl _
  | cons y ys ih =>
    simp only [insertBy]
    split
    · exact .refl _
    · exact (List.Perm.cons y ih).trans (List.Perm.swap x y ys)

theorem sortBy_perm {α : Type} (le : α → α → Bool) (l : List α) : (sortBy le l).Perm l := by
  induction l with
  | nil => exact .refl _
  | cons x xs ih => exact (insertBy_perm le x _).trans (List.Perm.cons x ih)

theorem insertBy_pairwise {α : Type} (le : α → α → Bool) (htot : ∀ a b, le a b = true ∨ le b a = true)
    (htr : ∀ a b c, le a b = true → le b c = true → le a c = true) (x : α) (l : List α)
    (h : l.Pairwise fun a b => le a b = true) : (insertBy le x l).Pairwise fun a b => le a b = true := by
  induction l with
  | nil => simp [insertBy]
  | cons y ys ih =>
    rw [List.pairwise_cons] at h
    simp only [insertBy]
    split
    · next hxy =>
      rw [List.pairwise_cons, List.pairwise_cons]
      refine ⟨?_, h.1, h.2⟩
      intro z hz
      rcases List.mem_cons.1 hz with rfl | hz
      · exact hxy
      · exact htr _ _ _ hxy (h.1 z hz)
    · next hxy =>
      rw [List.pairwise_cons]
      refine ⟨?_, ih h.2⟩
      intro z hz
      rcases List.mem_cons.1 ((insertBy_perm le x ys).mem_iff.1 hz) with rfl | hz
      · rcases htot y z with h' | h'
        · exact h'
        · exact absurd h' hxy
      · exact h.1 z hz

theorem sortBy_pairwise {α : Type} (le : α → α → Bool) (htot : ∀ a b, le a b = true ∨ le b a = true)
    (htr : ∀ a b c, le a b = true → le b c = true → le a c = true) (l : List α) :
    (sortBy le l).Pairwise fun a b => le a b = true := by
  induction l with
  | nil => exact .nil
  | cons x xs ih => exact insertBy_pairwise le htot htr x _ ih

theorem strLe_total (a b : Str) : strLe a b = true ∨ strLe b a = true := by
  induction a generalizing b with
  | nil => left; rfl
  | cons x xs ih =>
    cases b with
    | nil => right; rfl
    | cons y ys =>
      simp only [strLe]
      by_cases h : x = y
      · subst h; simpa using ih ys
      · have h' : ¬ y = x := fun e => h e.symm
        simp only [h, h', if_false, decide_eq_true_eq]
        have : x.toNat ≠ y.toNat := fun e => h (Char.toNat_inj.1 e)
        omega

theorem strLe_trans (a b c : Str) (h1 : strLe a b = true) (h2 : strLe b c = true) : strLe a c = true := by
  induction a generalizing b c with
  | nil => rfl
  | cons x xs ih =>
    cases b with
    | nil => simp [strLe] at h1
    | cons y ys =>
      cases c with
      | nil => simp [strLe] at h2
      | cons z zs =>
        simp only [strLe] at h1 h2 ⊢
        by_cases hxy : x = y
        · subst hxy
          by_cases hxz : x = z
          · subst hxz; simp only [if_true] at h1 h2 ⊢; exact ih _ _ h1 h2
          · simpa [hxz] using h2
        · by_cases hyz : y = z
          · subst hyz; simpa [hxy] using h1
          · simp only [hxy, hyz, if_false, decide_eq_true_eq] at h1 h2
            have hxz : x ≠ z := by rintro rfl; omega
            simp only [hxz, if_false, decide_eq_true_eq]
            omega

theorem strLe_antisymm (a b : Str) (h1 : strLe a b = true) (h2 : strLe b a = true) : a = b := by
  induction a generalizing b with
  | nil =>
    cases b with
    | nil => rfl
    | cons y ys => simp [strLe] at h2
  | cons x xs ih =>
    cases b with
    | nil => simp [strLe] at h1
    | cons y ys =>
      simp only [strLe] at h1 h2
      by_cases h : x = y
      · subst h
        simp only [if_true] at h1 h2
        rw [ih ys h1 h2]
      · have h' : ¬ y = x := fun e => h e.symm
        simp only [h, h', if_false, decide_eq_true_eq] at h1 h2
        omega

theorem sortedSyms_pairwise (e : Elf) : e.sortedSyms.Pairwise fun a b => strLe a.name b.name = true :=
  sortBy_pairwise (fun a b : Symbol => strLe a.name b.name) (fun a b => strLe_total a.name b.name)
    (fun a b c => strLe_trans a.name b.name c.name) e.syms

theorem pairwise_ne_inj {α β : Type} (f : α → β) (l : List α) (h : l.Pairwise fun a b => f a ≠ f b) (a b : α)
    (ha : a ∈ l) (hb : b ∈ l) (he : f a = f b) : a = b := by
  induction l with
  | nil => simp at ha
  | cons x l ih =>
    rw [List.pairwise_cons] at h
    rcases List.mem_cons.1 ha with rfl | ha
    · rcases List.mem_cons.1 hb with rfl | hb
      · rfl
      · exact absurd he (h.1 b hb)
    · rcases List.mem_cons.1 hb with rfl | hb
      · exact absurd he.symm (h.1 a (by assumption))
      · exact ih h.2 (by assumption) hb

theorem sortedSyms_perm (e : Elf) : e.sortedSyms.Perm e.syms := sortBy_perm _ _

/-- the sorted list only depends on the set of symbols when names are distinct -/
theorem sortedSyms_congr (e e' : Elf) (hp : e.syms.Perm e'.syms)
    (hn : ∀ s ∈ e.syms, ∀ t ∈ e.syms, s.name = t.name → s = t) : e.sortedSyms = e'.sortedSyms := by
  refine List.Perm.eq_of_pairwise (le := fun a b => strLe a.name b.name = true) ?_
    (sortedSyms_pairwise e) (sortedSyms_pairwise e')
    (((sortedSyms_perm e).trans hp).trans (sortedSyms_perm e').symm)
  intro s t hs ht h1 h2
  exact hn s ((sortedSyms_perm e).mem_iff.1 hs) t (hp.mem_iff.2 ((sortedSyms_perm e').mem_iff.1 ht))
    (strLe_antisymm _ _ h1 h2)

/-! ## One address -/

/-- the loop restricted to one address -/
def chooseAt (a : Arch) (ni : List Symbol) (va : Nat) (o : Option Symbol) (sym : Symbol) : Option Symbol :=
  if sym.vaddr = va then
    match o with
    | none => some sym
    | some other =>
      if sym = other then some other
      else if ni.contains other && !ni.contains sym then some other
      else some (a.preferredSymbol sym other)
  else o

theorem chooseStep_get (a : Arch) (ni : List Symbol) (seen : List Nat) (d : Dict Nat Symbol) (sym : Symbol) (va : Nat)
    (hva : va ∈ seen) : dget va (chooseStep a ni seen d sym) = chooseAt a ni va (dget va d) sym := by
  unfold chooseStep chooseAt
  by_cases hs : sym.vaddr = va
  · subst hs
    have : seen.contains sym.vaddr = true := by simpa using hva
    simp only [this, Bool.not_true, Bool.false_eq_true, if_false, if_true]
    cases ho : dget sym.vaddr d with
    | none => simp
    | some other =>
      simp only
      split
      · exact ho
      · split
        · exact ho
        · simp
  · simp only [hs, if_false]
    have hs' : va ≠ sym.vaddr := fun e => hs e.symm
    split
    · rfl
    · split
      · exact dget_dset_ne _ _ hs'
      · split
        · rfl
        · split
          · rfl
          · exact dget_dset_ne _ _ hs'

theorem choose_foldl (a : Arch) (ni : List Symbol) (seen : List Nat) (va : Nat) (hva : va ∈ seen) (l : List Symbol)
    (d : Dict Nat Symbol) :
    dget va (l.foldl (chooseStep a ni seen) d) = l.foldl (chooseAt a ni va) (dget va d) := by
  induction l generalizing d with
  | nil => rfl
  | cons s l ih => simp only [List.foldl_cons, ih, chooseStep_get a ni seen d s va hva]

theorem symbolsByVaddr_get (a : Arch) (e : Elf) (niOrder : List Symbol) (seen : List Nat) (va : Nat) (hva : va ∈ seen) :
    dget va (symbolsByVaddr a e niOrder seen) =
      e.sortedSyms.foldl (chooseAt a e.niSyscalls va) (dget va (initialByVaddr niOrder)) :=
  choose_foldl _ _ _ _ hva _ _

/-- addresses that are not in the table keep the initial value -/
theorem chooseStep_get_unseen (a : Arch) (ni : List Symbol) (seen : List Nat) (d : Dict Nat Symbol) (sym : Symbol) (va : Nat)
    (hva : va ∉ seen) : dget va (chooseStep a ni seen d sym) = dget va d := by
  unfold chooseStep
  by_cases hs : sym.vaddr = va
  · subst hs
    have : seen.contains sym.vaddr = false := by simpa using hva
    simp only [this, Bool.not_false, if_true]
  · have hs' : va ≠ sym.vaddr := fun e => hs e.symm
    split
    · rfl
    · split
      · exact dget_dset_ne _ _ hs'
      · split
        · rfl
        · split
          · rfl
          · exact dget_dset_ne _ _ hs'

theorem initialByVaddr_get (l : List Symbol) (va : Nat) :
    (∀ s, dget va (initialByVaddr l) = some s → s ∈ l ∧ s.vaddr = va) ∧
    ((dget va (initialByVaddr l)).isSome = true ↔ ∃ s ∈ l, s.vaddr = va) := by
  unfold initialByVaddr
  induction l using List.reverseRecOn with
  | nil => constructor <;> simp
  | append_singleton l x ih =>
    rw [List.foldl_append, List.foldl_cons, List.foldl_nil, dget_dset]
    by_cases h : va = x.vaddr
    · simp only [h, if_true, Option.some.injEq, Option.isSome_some]
      constructor
      · rintro s rfl; simp
      · simp only [List.mem_append, List.mem_singleton, true_iff]
        exact ⟨x, .inr rfl, rfl⟩
    · simp only [h, if_false]
      constructor
      · intro s hs
        have := ih.1 s hs
        exact ⟨by simp [this.1], this.2⟩
      · rw [ih.2]
        constructor
        · rintro ⟨s, h1, h2⟩; exact ⟨s, by simp [h1], h2⟩
        · rintro ⟨s, h1, h2⟩
          rcases List.mem_append.1 h1 with h1 | h1
          · exact ⟨s, h1, h2⟩
          · rw [List.mem_singleton.1 h1] at h2
            exact absurd h2.symm h

/-- invariant of the fold at one address -/
theorem chooseAt_foldl (a : Arch) (ni : List Symbol) (va : Nat) (l : List Symbol) (o : Option Symbol) (P : Symbol → Prop)
    (hl : ∀ s ∈ l, s.vaddr = va → P s) (ho : ∀ s, o = some s → P s) :
    (∀ s, l.foldl (chooseAt a ni va) o = some s → P s) ∧
    ((l.foldl (chooseAt a ni va) o).isSome = true ↔ o.isSome = true ∨ ∃ s ∈ l, s.vaddr = va) := by
  induction l generalizing o with
  | nil => exact ⟨ho, by simp⟩
  | cons x l ih =>
    have hstep : ∀ s, chooseAt a ni va o x = some s → P s := by
      intro s hs
      unfold chooseAt at hs
      split at hs
      · next hx =>
        have hPx := hl x (by simp) hx
        split at hs
        · cases hs; exact hPx
        · next other =>
          have hPo := ho other rfl
          split at hs
          · cases hs; exact hPo
          · split at hs
            · cases hs; exact hPo
            · simp only [Option.some.injEq] at hs
              rcases C28_one_of_two a x other with h | h
              · rw [h] at hs; rw [← hs]; exact hPx
              · rw [h] at hs; rw [← hs]; exact hPo
      · exact ho s hs
    have hsome : (chooseAt a ni va o x).isSome = true ↔ o.isSome = true ∨ x.vaddr = va := by
      unfold chooseAt
      by_cases hx : x.vaddr = va
      · simp only [hx, if_true, or_true, iff_true]
        cases o with
        | none => rfl
        | some other =>
          simp only
          split
          · rfl
          · split <;> rfl
      · simp [hx]
    have := ih (chooseAt a ni va o x) (fun s hs => hl s (by simp [hs])) hstep
    refine ⟨this.1, ?_⟩
    simp only [List.foldl_cons]
    rw [this.2, hsome]
    constructor
    · rintro ((h | h) | ⟨s, h1, h2⟩)
      · exact .inl h
      · exact .inr ⟨x, by simp, h⟩
      · exact .inr ⟨s, by simp [h1], h2⟩
    · rintro (h | ⟨s, h1, h2⟩)
      · exact .inl (.inl h)
      · rcases List.mem_cons.1 h1 with rfl | h1
        · exact .inl (.inr h2)
        · exact .inr ⟨s, h1, h2⟩

/-- once a ni symbol is chosen it can only be replaced by another one -/
theorem chooseAt_ni (a : Arch) (ni : List Symbol) (va : Nat) (l : List Symbol) (s0 : Symbol) (h0 : s0 ∈ ni) :
    ∃ s ∈ ni, l.foldl (chooseAt a ni va) (some s0) = some s := by
  induction l generalizing s0 with
  | nil => exact ⟨s0, h0, rfl⟩
  | cons x l ih =>
    simp only [List.foldl_cons]
    have : ∃ s ∈ ni, chooseAt a ni va (some s0) x = some s := by
      unfold chooseAt
      split
      · simp only
        split
        · exact ⟨s0, h0, rfl⟩
        · have h0' : ni.contains s0 = true := by simpa using h0
          simp only [h0', Bool.true_and, Bool.not_eq_true']
          split
          · exact ⟨s0, h0, rfl⟩
          · next hx =>
            have hx' : x ∈ ni := by simpa using hx
            rcases C28_one_of_two a x s0 with h | h
            · rw [h]; exact ⟨x, hx', rfl⟩
            · rw [h]; exact ⟨s0, h0, rfl⟩
      · exact ⟨s0, h0, rfl⟩
    obtain ⟨s, hs, he⟩ := this
    rw [he]
    exact ih s hs

/-- only the members of the ni set matter for the loop -/
theorem chooseAt_congr (a : Arch) (ni ni' : List Symbol) (va : Nat) (h : ∀ s, s ∈ ni ↔ s ∈ ni') :
    chooseAt a ni va = chooseAt a ni' va := by
  have hc : ∀ s, ni.contains s = ni'.contains s := by
    intro s
    rw [Bool.eq_iff_iff]
    simpa using h s
  funext o s
  unfold chooseAt
  simp only [hc]

theorem mem_niSyscalls (e : Elf) (s : Symbol) :
    s ∈ e.niSyscalls ↔ s ∈ e.functions.map Prod.snd ∧ symbolIsNi s = true := by
  unfold Elf.niSyscalls
  rw [List.mem_eraseDups, List.mem_filter]

/-! ## Permuted rows -/

theorem extractSymbols_nodup (machine : Nat) (lines : List Str) :
    DNodup (extractSymbols machine lines).1 ∧ DNodup (extractSymbols machine lines).2 := by
  unfold extractSymbols
  induction lines using List.reverseRecOn with
  | nil => exact ⟨List.nodup_nil, List.nodup_nil⟩
  | append_singleton l a ih =>
    rw [List.foldl_append, List.foldl_cons, List.foldl_nil]
    cases hp : parseSymbolLine machine a with
    | none => exact ih
    | some sym =>
      simp only
      refine ⟨ih.1.dset _ _, ?_⟩
      split
      · exact ih.2.dset _ _
      · exact ih.2

theorem mem_symbols_of_distinct (machine : Nat) (lines : List Str)
    (hd : (lines.filterMap (parseSymbolLine machine)).Pairwise fun s t => s.name ≠ t.name) (s : Symbol) :
    (s ∈ (extractSymbols machine lines).1.map Prod.snd ↔ s ∈ lines.filterMap (parseSymbolLine machine)) ∧
    (s ∈ (extractSymbols machine lines).2.map Prod.snd ↔
      s ∈ lines.filterMap (parseSymbolLine machine) ∧ s.type = cs!"FUNC") := by
  have hone : ∀ s ∈ lines.filterMap (parseSymbolLine machine),
      ∀ t ∈ lines.filterMap (parseSymbolLine machine), t.name = s.name → t = s := by
    intro s hs t ht he
    exact pairwise_ne_inj Symbol.name _ hd t s ht hs he
  have hget := extractSymbols_get machine lines
  have hmem := extractSymbols_mem machine lines
  constructor
  · constructor
    · intro h
      obtain ⟨p, hp, rfl⟩ := List.mem_map.1 h
      obtain ⟨l, hl, h1, -⟩ := hmem.1 p hp
      exact List.mem_filterMap.2 ⟨l, hl, h1⟩
    · intro h
      have h2 := (hget s.name).1
      cases hg : ((lines.filterMap (parseSymbolLine machine)).filter (fun t => decide (t.name = s.name))).getLast? with
      | none =>
        rw [List.getLast?_eq_none_iff, List.filter_eq_nil_iff] at hg
        exact absurd (decide_eq_true rfl) (hg s h)
      | some t =>
        have ht := List.mem_of_getLast? hg
        rw [List.mem_filter] at ht
        have := hone s h t ht.1 (by simpa using ht.2)
        subst this
        rw [hg] at h2
        exact List.mem_map.2 ⟨_, dget_mem h2, rfl⟩
  · constructor
    · intro h
      obtain ⟨p, hp, rfl⟩ := List.mem_map.1 h
      obtain ⟨l, hl, h1, -, h3⟩ := hmem.2 p hp
      exact ⟨List.mem_filterMap.2 ⟨l, hl, h1⟩, h3⟩
    · rintro ⟨h, hf⟩
      have h2 := (hget s.name).2
      cases hg : ((lines.filterMap (parseSymbolLine machine)).filter
          (fun t => decide (t.name = s.name ∧ t.type = cs!"FUNC"))).getLast? with
      | none =>
        rw [List.getLast?_eq_none_iff, List.filter_eq_nil_iff] at hg
        exact absurd (decide_eq_true (And.intro rfl hf)) (hg s h)
      | some t =>
        have ht := List.mem_of_getLast? hg
        rw [List.mem_filter, decide_eq_true_eq] at ht
        have := hone s h t ht.1 ht.2.1
        subst this
        rw [hg] at h2
        exact List.mem_map.2 ⟨_, dget_mem h2, rfl⟩

theorem snd_nodup (d : Dict Str Symbol) (hd : DNodup d) (hk : ∀ p ∈ d, p.1 = p.2.name) : (d.map Prod.snd).Nodup := by
  have h : (d.map Prod.snd).map Symbol.name = d.map Prod.fst := by
    rw [List.map_map]
    exact List.map_congr_left fun p hp => (hk p hp).symm
  have h2 : ((d.map Prod.snd).map Symbol.name).Nodup := by rw [h]; exact hd
  rw [List.Nodup, List.pairwise_map] at h2
  exact h2.imp fun {a b} hne e => hne (by rw [e])

end Verif
