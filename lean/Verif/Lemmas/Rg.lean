import Verif.Lemmas.Locate3
import Verif.Lemmas.Choice
import Verif.Spec.Rg
/-! # Lemmas for C100, C101 -/
set_option autoImplicit false

namespace Verif
open Spec

/-! ## Order of the rows -/

/-- the row can be given to the syscall -/
abbrev hits (a : Arch) (row : Str) (r : Ref) : Bool := ((syscallGrepRe a r.2.origname).search row).isSome

theorem takeMatch_eq (a : Arch) (row : Str) (l : List Ref) :
    takeMatch a row l = (l.find? (hits a row)).map fun r => (r, l.eraseP (hits a row)) := by
  induction l with
  | nil => rfl
  | cons x xs ih =>
    simp only [takeMatch, List.find?_cons, List.eraseP_cons]
    by_cases hx : hits a row x = true
    · rw [if_pos hx, hx]; rfl
    · have hf : hits a row x = false := by simpa using hx
      rw [if_neg hx, hf, ih]
      cases h : xs.find? (hits a row) with
      | none => rfl
      | some r => rfl

/-- removing an element that does not satisfy `q` does not change the first one that does -/
theorem find?_eraseP_disjoint {α : Type} (p q : α → Bool) (l : List α) (h : ∀ x ∈ l, p x = true → q x = false) :
    (l.eraseP p).find? q = l.find? q := by
  induction l with
  | nil => rfl
  | cons x xs ih =>
    rw [List.eraseP_cons]
    by_cases hp : p x = true
    · rw [hp]
      simp only [cond_true, List.find?_cons, h x (by simp) hp]
    · have hf : p x = false := by simpa using hp
      rw [hf]
      simp only [cond_false, List.find?_cons]
      rw [ih fun y hy => h y (by simp [hy])]

theorem eraseP_comm_disjoint {α : Type} (p q : α → Bool) (l : List α) (h : ∀ x ∈ l, ¬ (p x = true ∧ q x = true)) :
    (l.eraseP p).eraseP q = (l.eraseP q).eraseP p := by
  induction l with
  | nil => rfl
  | cons x xs ih =>
    have hx := h x (by simp)
    have ih' := ih fun y hy => h y (by simp [hy])
    simp only [List.eraseP_cons]
    cases hp : p x <;> cases hq : q x
    · simp only [cond_false, List.eraseP_cons, hp, hq, ih']
    · simp only [cond_false, cond_true, List.eraseP_cons, hp, hq]
    · simp only [cond_false, cond_true, List.eraseP_cons, hp, hq]
    · exact absurd ⟨hp, hq⟩ hx

/-- results of grepping that are the same up to the order -/
def SameFound (x y : Res (List (Ref × Option (Path × Nat)))) : Prop :=
  match x, y with
  | .ok a, .ok b => a.Perm b
  | .error e, .error f => e = f
  | _, _ => False

theorem SameFound.refl (x : Res (List (Ref × Option (Path × Nat)))) : SameFound x x := by
  cases x with
  | ok a => exact List.Perm.refl a
  | error e => exact rfl

theorem SameFound.symm {x y : Res (List (Ref × Option (Path × Nat)))} (h : SameFound x y) : SameFound y x := by
  cases x <;> cases y
  · exact Eq.symm h
  · cases h
  · cases h
  · exact List.Perm.symm h

theorem SameFound.trans {x y z : Res (List (Ref × Option (Path × Nat)))} (h : SameFound x y) (h' : SameFound y z) :
    SameFound x z := by
  cases x <;> cases y <;> cases z <;> first | exact Eq.trans h h' | exact List.Perm.trans h h' | exact False.elim h | exact False.elim h'

theorem rowLocation_error (kdir : Path) (row : Str) (e : Exc) (h : rowLocation kdir row = .error e) : e = .value := by
  unfold rowLocation at h
  split at h
  · split at h
    · cases h
    · cases h; rfl
  · cases h; rfl

/-- the only exception of the loop -/
theorem grepMatch_error (a : Arch) (kdir : Path) (rows : List Str) (todo : List Ref) (e : Exc)
    (h : grepMatch a kdir rows todo = .error e) : e = .value := by
  induction rows generalizing todo with
  | nil => cases h
  | cons row rows ih =>
    simp only [grepMatch] at h
    split at h
    · exact ih _ h
    · simp only [bind, Except.bind] at h
      split at h
      · next e' he' => cases h; exact rowLocation_error _ _ _ he'
      · split at h
        · next he' => cases h; exact ih _ he'
        · cases h

theorem grepMatch_cons (a : Arch) (kdir : Path) (row : Str) (rows : List Str) (todo : List Ref) :
    grepMatch a kdir (row :: rows) todo =
      match todo.find? (hits a row) with
      | none => grepMatch a kdir rows todo
      | some r =>
        (rowLocation kdir row).bind fun loc =>
          (grepMatch a kdir rows (todo.eraseP (hits a row))).bind fun out => .ok ((r, some loc) :: out) := by
  rw [grepMatch, takeMatch_eq]
  cases todo.find? (hits a row) with
  | none => rfl
  | some r => rfl

theorem SameFound.step {x y : Res (List (Ref × Option (Path × Nat)))} (l : Res (Path × Nat)) (r : Ref)
    (h : SameFound x y) :
    SameFound (l.bind fun loc => x.bind fun out => .ok ((r, some loc) :: out))
      (l.bind fun loc => y.bind fun out => .ok ((r, some loc) :: out)) := by
  cases l with
  | error e => exact rfl
  | ok loc =>
    cases x <;> cases y
    · exact h
    · cases h
    · cases h
    · exact List.Perm.cons _ h

/-- the same rows first give the same -/
theorem grepMatch_congr (a : Arch) (kdir : Path) (row : Str) (rows rows' : List Str) (todo : List Ref)
    (h : ∀ todo', todo'.Sublist todo → SameFound (grepMatch a kdir rows todo') (grepMatch a kdir rows' todo')) :
    SameFound (grepMatch a kdir (row :: rows) todo) (grepMatch a kdir (row :: rows') todo) := by
  rw [grepMatch_cons, grepMatch_cons]
  cases todo.find? (hits a row) with
  | none => exact h _ (List.Sublist.refl _)
  | some r => exact SameFound.step _ _ (h _ List.eraseP_sublist)

/-- two rows for different syscalls can be swapped -/
theorem grepMatch_swap (a : Arch) (kdir : Path) (x y : Str) (rows : List Str) (todo : List Ref)
    (h : ∀ r ∈ todo, ¬ (hits a x r = true ∧ hits a y r = true)) :
    SameFound (grepMatch a kdir (x :: y :: rows) todo) (grepMatch a kdir (y :: x :: rows) todo) := by
  have hxy : ∀ r ∈ todo, hits a x r = true → hits a y r = false := by
    intro r hr hx
    cases hy : hits a y r with
    | false => rfl
    | true => exact absurd ⟨hx, hy⟩ (h r hr)
  have hyx : ∀ r ∈ todo, hits a y r = true → hits a x r = false := by
    intro r hr hy
    cases hx : hits a x r with
    | false => rfl
    | true => exact absurd ⟨hx, hy⟩ (h r hr)
  have e1 := find?_eraseP_disjoint (hits a x) (hits a y) todo hxy
  have e2 := find?_eraseP_disjoint (hits a y) (hits a x) todo hyx
  have e3 := eraseP_comm_disjoint (hits a x) (hits a y) todo h
  simp only [grepMatch_cons, e1, e2, e3]
  cases hx : todo.find? (hits a x) with
  | none =>
    cases hy : todo.find? (hits a y) with
    | none => exact SameFound.refl _
    | some s => exact SameFound.refl _
  | some r =>
    cases hy : todo.find? (hits a y) with
    | none => exact SameFound.refl _
    | some s =>
      simp only
      cases hlx : rowLocation kdir x with
      | error e =>
        have := rowLocation_error _ _ _ hlx
        subst this
        cases hly : rowLocation kdir y with
        | error e => have := rowLocation_error _ _ _ hly; subst this; exact rfl
        | ok ly => exact rfl
      | ok lx =>
        cases hly : rowLocation kdir y with
        | error e => exact rfl
        | ok ly =>
          cases grepMatch a kdir rows ((todo.eraseP (hits a y)).eraseP (hits a x)) with
          | error e => exact rfl
          | ok out => exact List.Perm.swap _ _ _

/-- moving a row to the front -/
theorem grepMatch_front (a : Arch) (kdir : Path) (x : Str) (u v : List Str) (todo : List Ref)
    (h : ∀ y ∈ u, ∀ r ∈ todo, ¬ (hits a y r = true ∧ hits a x r = true)) :
    SameFound (grepMatch a kdir (u ++ x :: v) todo) (grepMatch a kdir (x :: (u ++ v)) todo) := by
  induction u generalizing todo with
  | nil => exact SameFound.refl _
  | cons y u ih =>
    refine SameFound.trans ?_ (grepMatch_swap a kdir y x (u ++ v) todo fun r hr => h y (by simp) r hr)
    exact grepMatch_congr a kdir y _ _ todo fun todo' ht => ih todo' fun z hz r hr => h z (by simp [hz]) r (ht.subset hr)

/-- lists in an order that are permutations of each other give the same, if rows that rank the same are for different
syscalls -/
theorem grepMatch_sorted (a : Arch) (kdir : Path) (le : Str → Str → Prop) (l1 : List Str) :
    ∀ (l2 : List Str) (todo : List Ref), l1.Perm l2 → l1.Pairwise le → l2.Pairwise le →
    (∀ x ∈ l1, ∀ y ∈ l1, x ≠ y → le x y → le y x → ∀ r ∈ todo, ¬ (hits a x r = true ∧ hits a y r = true)) →
    SameFound (grepMatch a kdir l1 todo) (grepMatch a kdir l2 todo) := by
  induction l1 with
  | nil => intro l2 todo hp _ _ _; rw [List.nil_perm.1 hp]; exact SameFound.refl _
  | cons x t ih =>
    intro l2 todo hp h1 h2 hc
    have hx : x ∈ l2 := hp.mem_iff.1 (by simp)
    obtain ⟨u, v, hxu, rfl, -⟩ := List.exists_erase_eq hx
    have hpt : t.Perm (u ++ v) := by
      have := hp.trans (List.perm_middle (a := x) (l₁ := u) (l₂ := v))
      exact (List.perm_cons x).1 this
    rw [List.pairwise_cons] at h1
    have h2' : (u ++ v).Pairwise le := h2.sublist (List.Sublist.append_left (List.sublist_cons_self x v) u)
    refine SameFound.trans ?_ (grepMatch_front a kdir x u v todo ?_).symm
    · exact grepMatch_congr a kdir x _ _ todo fun todo' ht =>
        ih (u ++ v) todo' hpt h1.2 h2' fun y hy z hz hyz l l' r hr =>
          hc y (by simp [hy]) z (by simp [hz]) hyz l l' r (ht.subset hr)
    · intro y hy r hr
      have hyt : y ∈ t := hpt.mem_iff.2 (by simp [hy])
      have hne : y ≠ x := by rintro rfl; exact hxu hy
      refine hc y (by simp [hyt]) x (by simp) hne ?_ (h1.1 y hyt) r hr
      exact (List.pairwise_append.1 h2).2.2 y hy x (by simp)

end Verif
