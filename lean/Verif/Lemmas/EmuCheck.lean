import Verif.Spec.X86Emu
/-! # Checkers for the hypotheses about concrete dispatch functions (used by the examples) -/
set_option autoImplicit false

namespace Verif
open Spec

def contiguousB : Nat → Nat → List Insn → Bool
  | start, stop, [] => decide (start = stop)
  | start, stop, i :: is => decide (i.ip = start) && decide (i.ip < i.nextIp) && contiguousB i.nextIp stop is

theorem contiguousB_ok : ∀ (is : List Insn) (start stop : Nat), contiguousB start stop is = true → Contiguous start stop is := by
  intro is
  induction is with
  | nil =>
    intro start stop h
    unfold contiguousB at h
    unfold Contiguous
    exact of_decide_eq_true h
  | cons i is ih =>
    intro start stop h
    simp only [contiguousB, Bool.and_eq_true, decide_eq_true_eq] at h
    exact ⟨h.1.1, h.1.2, ih _ _ h.2⟩

def isCompare (i : Insn) : Bool := decide (i.mnem = .cmp ∨ i.mnem = .test)

def supportedOne (r start stop : Nat) (seen : Bool) (i : Insn) (post : List Insn) : Bool :=
  match i.mnem with
  | .cmp => match i.ops with | [.reg q, .imm _] => decide (q = r) | _ => false
  | .test => decide (i.ops = [.reg r, .reg r]) &&
    match post with | j :: _ => decide (j.mnem = .jcc .e ∨ j.mnem = .jcc .ne) | [] => true
  | .jcc c => decide (c ≠ .other) && seen
  | .call => decide (¬ (start ≤ i.target ∧ i.target < stop))
  | _ => true

def supportedB (r start stop : Nat) : Bool → List Insn → Bool
  | _, [] => true
  | seen, i :: is => supportedOne r start stop seen i is && supportedB r start stop (seen || isCompare i) is

theorem supportedB_at (r start stop : Nat) : ∀ (is pre : List Insn) (seen : Bool) (i : Insn) (post : List Insn),
    supportedB r start stop seen is = true → is = pre ++ i :: post →
    supportedOne r start stop (seen || pre.any isCompare) i post = true := by
  intro is
  induction is with
  | nil => intro pre seen i post _ h; simp at h
  | cons a is ih =>
    intro pre seen i post h e
    simp only [supportedB, Bool.and_eq_true] at h
    cases pre with
    | nil =>
      simp only [List.nil_append, List.cons.injEq] at e
      obtain ⟨rfl, rfl⟩ := e
      simpa using h.1
    | cons b pre =>
      simp only [List.cons_append, List.cons.injEq] at e
      obtain ⟨rfl, e⟩ := e
      have := ih pre _ i post h.2 e
      simpa [Bool.or_assoc] using this

theorem supportedB_ok (r start stop : Nat) (is : List Insn) (h : supportedB r start stop false is = true)
    (hc : is.any isCompare = true) : Supported r start stop is := by
  constructor
  · obtain ⟨i, hi, h⟩ := List.any_eq_true.1 hc
    exact ⟨i, hi, by simpa [isCompare] using h⟩
  · intro pre i post e
    have := supportedB_at r start stop is pre false i post h e
    simp only [Bool.false_or] at this
    unfold supportedOne at this
    refine ⟨fun hm => ?_, fun hm => ?_, fun c hm => ?_, fun hm => ?_⟩
    · simp only [hm] at this
      split at this
      · rename_i q v ho
        exact ⟨v, by rw [ho]; simpa using this⟩
      · exact absurd this (by decide)
    · simp only [hm, Bool.and_eq_true, decide_eq_true_eq] at this
      refine ⟨this.1, fun j post' hp => ?_⟩
      have h2 := this.2
      rw [hp] at h2
      simpa using h2
    · simp only [hm, Bool.and_eq_true, decide_eq_true_eq] at this
      obtain ⟨k, hk, h2⟩ := List.any_eq_true.1 this.2
      exact ⟨this.1, k, hk, by simpa [isCompare] using h2⟩
    · simp only [hm, decide_eq_true_eq] at this
      exact this

def freshB : List Insn → Bool
  | [] => true
  | i :: is =>
    match i.mnem with
    | .cmp | .test | .jmp | .call | .ret => true
    | .jcc _ => false
    | .other => freshB is

theorem freshB_ok : ∀ (is : List Insn), freshB is = true → Fresh is := by
  intro is
  induction is with
  | nil => intro _; trivial
  | cons i is ih =>
    intro h
    unfold freshB at h
    unfold Fresh
    split at h <;> simp_all

/-- all places with address `t` -/
def freshAt (t : Nat) : List Insn → Bool
  | [] => true
  | i :: is => (decide (i.ip ≠ t) || freshB (i :: is)) && freshAt t is

theorem freshAt_ok (t : Nat) : ∀ (is pre : List Insn) (i : Insn) (post : List Insn), freshAt t is = true → is = pre ++ i :: post →
    i.ip = t → Fresh (i :: post) := by
  intro is
  induction is with
  | nil => intro pre i post _ h; simp at h
  | cons a is ih =>
    intro pre i post h e hip
    simp only [freshAt, Bool.and_eq_true, Bool.or_eq_true, decide_eq_true_eq] at h
    cases pre with
    | nil =>
      simp only [List.nil_append, List.cons.injEq] at e
      obtain ⟨rfl, rfl⟩ := e
      rcases h.1 with h | h
      · exact absurd hip h
      · exact freshB_ok _ h
    | cons b pre =>
      simp only [List.cons_append, List.cons.injEq] at e
      exact ih pre i post h.2 e.2 hip

theorem freshTargets_ok (is : List Insn) (h : is.all (fun j => freshAt j.target is) = true) : FreshTargets is := by
  intro j hj _ pre i post e hip
  exact freshAt_ok j.target is pre i post (List.all_eq_true.1 h j hj) e hip

end Verif
