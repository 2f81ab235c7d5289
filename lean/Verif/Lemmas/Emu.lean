import Verif.Spec.X86Emu
import Mathlib.Tactic.ByContra
/-! # Lemmas about the passes of the switch analysis: growth and termination -/
set_option autoImplicit false

namespace Verif
open Spec

theorem nrs_add_true (m : Nrs) (a : Nat) (s : Nat → Bool) (x n : Nat) :
    m.add a s x n = true ↔ m x n = true ∨ (x = a ∧ s n = true) := by
  unfold Nrs.add
  split <;> simp [*]

theorem subsetB_iff (s t : Nat → Bool) : subsetB s t = true ↔ ∀ n, n < nrMax → s n = true → t n = true := by
  unfold subsetB
  rw [List.all_eq_true]
  constructor
  · intro h n hn hs
    have := h n (List.mem_range.2 hn)
    simpa [hs] using this
  · intro h n hn
    cases hs : s n
    · rfl
    · simp [h n (List.mem_range.1 hn) hs]

theorem subsetB_false (s t : Nat → Bool) (h : subsetB s t = false) : ∃ n, n < nrMax ∧ s n = true ∧ t n = false := by
  by_contra hc
  have : subsetB s t = true := by
    rw [subsetB_iff]
    intro n hn hs
    by_contra ht
    exact hc ⟨n, hn, hs, by simpa using ht⟩
  rw [this] at h
  exact absurd h (by decide)

theorem branchTo_grows (start stop : Nat) (st : Pass) (i : Insn) (tk nt : Nat → Bool) :
    (∀ x n, st.nrs x n = true → (branchTo start stop st i tk nt).nrs x n = true) ∧
    ((branchTo start stop st i tk nt).keep = true → st.keep = true ∨
      ∃ n, n < nrMax ∧ st.nrs i.target n = false ∧ (branchTo start stop st i tk nt).nrs i.target n = true) := by
  constructor
  · intro x n h
    simp only [branchTo, nrs_add_true]
    exact .inl (.inl h)
  · intro h
    simp only [branchTo, Bool.or_eq_true, Bool.and_eq_true, Bool.not_eq_true', decide_eq_true_eq] at h
    rcases h with h | ⟨_, h⟩
    · exact .inl h
    · obtain ⟨n, hn, hs, ht⟩ := subsetB_false _ _ h
      refine .inr ⟨n, hn, ht, ?_⟩
      simp only [branchTo, nrs_add_true]
      exact .inl (.inr ⟨by first | rfl | trivial, hs⟩)

/-- any step keeps what is known, and asks for another pass only when the numbers at its target have grown -/
theorem insnStep_grows (start stop r : Nat) (st st' : Pass) (i : Insn) (h : insnStep start stop r st i = some st') :
    (∀ x n, st.nrs x n = true → st'.nrs x n = true) ∧
    (st'.keep = true → st.keep = true ∨ ∃ n, n < nrMax ∧ st.nrs i.target n = false ∧ st'.nrs i.target n = true) := by
  unfold insnStep at h
  simp only at h
  split at h
  · exact absurd h (by simp)
  split at h
  · obtain rfl := Option.some.inj h
    exact ⟨fun _ _ h => h, fun h => .inl h⟩
  · split at h
    · obtain rfl := Option.some.inj h
      exact ⟨fun x n h => (nrs_add_true _ _ _ _ _).2 (.inl h), fun h => .inl h⟩
    · exact absurd h (by simp)
  · split at h
    · split at h
      · exact absurd h (by simp)
      · obtain rfl := Option.some.inj h
        exact ⟨fun x n h => (nrs_add_true _ _ _ _ _).2 (.inl h), fun h => .inl h⟩
    · exact absurd h (by simp)
  · obtain rfl := Option.some.inj h
    exact branchTo_grows start stop { st with prev := _ } i _ _
  · split at h
    · exact absurd h (by simp)
    · split at h
      · exact absurd h (by simp)
      · obtain rfl := Option.some.inj h
        split
        · exact branchTo_grows start stop { st with prev := _ } i _ _
        · exact branchTo_grows start stop { st with prev := _ } i _ _
  · split at h
    · exact absurd h (by simp)
    · obtain rfl := Option.some.inj h
      exact branchTo_grows start stop { st with prev := _ } i _ _
  · obtain rfl := Option.some.inj h
    exact ⟨fun x n h => (nrs_add_true _ _ _ _ _).2 (.inl h), fun h => .inl h⟩

theorem insnLoop_grows (start stop r : Nat) : ∀ (is : List Insn) (st st' : Pass), insnLoop start stop r is st = some st' →
    (∀ x n, st.nrs x n = true → st'.nrs x n = true) ∧
    (st'.keep = true → st.keep = true ∨
      ∃ i ∈ is, ∃ n, n < nrMax ∧ st.nrs i.target n = false ∧ st'.nrs i.target n = true) := by
  intro is
  induction is with
  | nil =>
    intro st st' h
    obtain rfl := Option.some.inj h
    exact ⟨fun _ _ h => h, fun h => .inl h⟩
  | cons i is ih =>
    intro st st' h
    unfold insnLoop at h
    split at h
    · exact absurd h (by simp)
    · rename_i st1 h1
      obtain ⟨g1, k1⟩ := insnStep_grows _ _ _ _ _ _ h1
      obtain ⟨g2, k2⟩ := ih _ _ h
      refine ⟨fun x n hx => g2 x n (g1 x n hx), fun hk => ?_⟩
      rcases k2 hk with hk | ⟨j, hj, n, hn, hf, ht⟩
      · rcases k1 hk with hk | ⟨n, hn, hf, ht⟩
        · exact .inl hk
        · exact .inr ⟨i, by simp, n, hn, hf, g2 _ _ ht⟩
      · refine .inr ⟨j, by simp [hj], n, hn, ?_, ht⟩
        cases hc : st.nrs j.target n
        · rfl
        · rw [g1 _ _ hc] at hf
          exact absurd hf (by decide)

theorem insnStep_keep (start stop r : Nat) (st st' : Pass) (i : Insn) (h : insnStep start stop r st i = some st')
    (hk : st.keep = true) : st'.keep = true := by
  unfold insnStep at h
  simp only at h
  split at h
  · exact absurd h (by simp)
  repeat' split at h
  all_goals first
    | (obtain rfl := Option.some.inj h; split <;> simp [branchTo, hk])
    | (obtain rfl := Option.some.inj h; simp [branchTo, hk])
    | exact absurd h (by simp)

theorem insnLoop_keep (start stop r : Nat) : ∀ (is : List Insn) (st st' : Pass), insnLoop start stop r is st = some st' →
    st.keep = true → st'.keep = true := by
  intro is
  induction is with
  | nil =>
    intro st st' h hk
    obtain rfl := Option.some.inj h
    exact hk
  | cons i is ih =>
    intro st st' h hk
    unfold insnLoop at h
    split at h
    · exact absurd h (by simp)
    · rename_i st1 h1
      exact ih _ _ h (insnStep_keep _ _ _ _ _ _ h1 hk)

theorem countP_lt {α : Type} (p q : α → Bool) : ∀ (l : List α), (∀ x, p x = true → q x = true) →
    (∃ x ∈ l, p x = false ∧ q x = true) → l.countP p < l.countP q := by
  intro l hpq
  have hle : ∀ l : List α, l.countP p ≤ l.countP q := fun l => List.countP_mono_left fun x _ => hpq x
  induction l with
  | nil => rintro ⟨x, hx, _⟩; simp at hx
  | cons a l ih =>
    rintro ⟨x, hx, h1, h2⟩
    rw [List.countP_cons, List.countP_cons]
    rcases List.mem_cons.1 hx with rfl | hx
    · have := hle l
      simp only [h1, h2, if_true]
      simp
      omega
    · have := ih ⟨x, hx, h1, h2⟩
      by_cases ha : p a = true
      · rw [if_pos ha, if_pos (hpq a ha)]; omega
      · rw [if_neg ha]; omega

/-- the pairs of a target and a number -/
def targetPairs (insns : List Insn) : List (Nat × Nat) := insns.flatMap fun i => (List.range nrMax).map fun n => (i.target, n)

def weight (insns : List Insn) (nrs : Nrs) : Nat := (targetPairs insns).countP fun q => nrs q.1 q.2

theorem targetPairs_length (insns : List Insn) : (targetPairs insns).length = insns.length * nrMax := by
  unfold targetPairs
  induction insns with
  | nil => simp
  | cons i is ih =>
    rw [List.flatMap_cons, List.length_append, ih]
    simp [Nat.succ_mul]
    omega

theorem weight_le (insns : List Insn) (nrs : Nrs) : weight insns nrs ≤ insns.length * nrMax := by
  rw [← targetPairs_length]
  exact List.countP_le_length

/-- with enough fuel the loop over the passes ends, and more fuel changes nothing -/
theorem passLoop_ends (start stop r : Nat) (insns : List Insn) : ∀ (fuel : Nat) (nrs : Nrs) (cands : List Insn),
    insns.length * nrMax < fuel + weight insns nrs →
    ∃ res, ∀ fuel', fuel ≤ fuel' → passLoop start stop r insns fuel' nrs cands = .ok res := by
  intro fuel
  induction fuel with
  | zero =>
    intro nrs cands h
    have := weight_le insns nrs
    omega
  | succ fuel ih =>
    intro nrs cands h
    cases hl : insnLoop start stop r insns ⟨nrs, cands, false, none, none, false⟩ with
    | none =>
      refine ⟨none, fun fuel' hf => ?_⟩
      obtain ⟨f, rfl⟩ : ∃ f, fuel' = f + 1 := ⟨fuel' - 1, by omega⟩
      simp only [passLoop, hl]
    | some st =>
      obtain ⟨g, k⟩ := insnLoop_grows _ _ _ _ _ _ hl
      cases hk : st.keep with
      | false =>
        refine ⟨some (st.nrs, st.cands), fun fuel' hf => ?_⟩
        obtain ⟨f, rfl⟩ : ∃ f, fuel' = f + 1 := ⟨fuel' - 1, by omega⟩
        simp [passLoop, hl, hk]
      | true =>
        have hw : weight insns nrs < weight insns st.nrs := by
          rcases k hk with hk | ⟨i, hi, n, hn, hf, ht⟩
          · exact absurd hk (by simp)
          · refine countP_lt _ _ _ (fun x => g x.1 x.2) ⟨(i.target, n), ?_, hf, ht⟩
            unfold targetPairs
            rw [List.mem_flatMap]
            exact ⟨i, hi, List.mem_map.2 ⟨n, List.mem_range.2 hn, rfl⟩⟩
        obtain ⟨res, hres⟩ := ih st.nrs st.cands (by omega)
        refine ⟨res, fun fuel' hf => ?_⟩
        obtain ⟨f, rfl⟩ : ∃ f, fuel' = f + 1 := ⟨fuel' - 1, by omega⟩
        simp only [passLoop, hl, hk, if_true]
        exact hres f (by omega)

end Verif
