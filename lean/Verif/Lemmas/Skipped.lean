import Verif.Model.Skipped
import Verif.Spec.Skipped
/-! # Lemmas about skipped instructions -/
set_option autoImplicit false

namespace Verif
open Spec

/-- the count of a key -/
def countAt (k : Nat) : List (Insn × Nat) → Nat
  | [] => 0
  | (j, n) :: cs => if j.key = k then n else countAt k cs

def countKeys (cs : List (Insn × Nat)) : List Nat := cs.map fun c => c.1.key

theorem countInsn_at (i : Insn) (k : Nat) : ∀ cs, countAt k (countInsn i cs) = countAt k cs + if k = i.key then 1 else 0 := by
  intro cs
  induction cs with
  | nil =>
    show (if i.key = k then 1 else 0) = 0 + _
    by_cases h : i.key = k
    · rw [if_pos h, if_pos h.symm]
    · rw [if_neg h, if_neg (fun e => h e.symm)]
  | cons c cs ih =>
    obtain ⟨j, n⟩ := c
    unfold countInsn
    by_cases h : j.key = i.key
    · rw [if_pos h]
      unfold countAt
      by_cases h2 : j.key = k
      · rw [if_pos h2, if_pos h2, if_pos (by rw [← h2, h])]
      · rw [if_neg h2, if_neg h2, if_neg (fun e => h2 (by rw [h, e]))]
        rfl
    · rw [if_neg h]
      unfold countAt
      by_cases h2 : j.key = k
      · rw [if_pos h2, if_pos h2, if_neg (fun e => h (by rw [h2, e]))]
        rfl
      · rw [if_neg h2, if_neg h2, ih]

theorem countInsn_keys (i : Insn) : ∀ cs, countKeys (countInsn i cs) =
    if i.key ∈ countKeys cs then countKeys cs else countKeys cs ++ [i.key] := by
  intro cs
  induction cs with
  | nil => rfl
  | cons c cs ih =>
    obtain ⟨j, n⟩ := c
    unfold countInsn
    by_cases h : j.key = i.key
    · rw [if_pos h, if_pos (by simp [countKeys, h])]
      rfl
    · rw [if_neg h]
      have h' : ¬ i.key = j.key := fun e => h e.symm
      unfold countKeys at ih ⊢
      simp only [List.map_cons, List.mem_cons, h', false_or, ih]
      split <;> rfl

theorem countAt_mem (cs : List (Insn × Nat)) (h : (countKeys cs).Nodup) : ∀ c ∈ cs, c.2 = countAt c.1.key cs := by
  induction cs with
  | nil => simp
  | cons d cs ih =>
    obtain ⟨j, n⟩ := d
    unfold countKeys at h ih
    rw [List.map_cons, List.nodup_cons] at h
    intro c hc
    unfold countAt
    rcases List.mem_cons.1 hc with rfl | hc
    · rw [if_pos rfl]
    · rw [if_neg (fun e => h.1 (by rw [e]; exact List.mem_map.2 ⟨c, hc, rfl⟩))]
      exact ih h.2 c hc

/-- occurrences of a key -/
def occ (isNop : Insn → Bool) (insns : List Insn) (k : Nat) : Nat :=
  (insns.filter fun j => j.mnem = .other ∧ isNop j = false ∧ j.key = k).length

theorem skipped_foldl (isNop : Insn → Bool) : ∀ (insns : List Insn) (cs : List (Insn × Nat)), (countKeys cs).Nodup →
    let r := insns.foldl (fun cs i => if i.mnem = .other ∧ isNop i = false then countInsn i cs else cs) cs
    (countKeys r).Nodup ∧ (∀ k, countAt k r = countAt k cs + occ isNop insns k) ∧
    ∀ k, k ∈ countKeys r ↔ k ∈ countKeys cs ∨ ∃ i, SkippedIn isNop insns i ∧ i.key = k := by
  intro insns
  induction insns with
  | nil => intro cs h; exact ⟨h, fun k => rfl, fun k => by simp [SkippedIn]⟩
  | cons i insns ih =>
    intro cs h
    simp only [List.foldl_cons]
    by_cases hs : i.mnem = .other ∧ isNop i = false
    · rw [if_pos hs]
      have hn : (countKeys (countInsn i cs)).Nodup := by
        rw [countInsn_keys]
        split
        · exact h
        · rename_i hm
          rw [List.nodup_append]
          exact ⟨h, by simp, fun a ha b hb e => hm (by simp at hb; rw [← hb, ← e]; exact ha)⟩
      obtain ⟨h1, h2, h3⟩ := ih (countInsn i cs) hn
      refine ⟨h1, fun k => ?_, fun k => ?_⟩
      · rw [h2, countInsn_at]
        unfold occ
        rw [List.filter_cons]
        by_cases hk : k = i.key
        · rw [if_pos hk, if_pos (by simp [hs, hk]), List.length_cons]
          omega
        · rw [if_neg hk, if_neg (by simp; intro _ _ e; exact hk e.symm)]
          omega
      · rw [h3, countInsn_keys]
        have : (∃ j, SkippedIn isNop (i :: insns) j ∧ j.key = k) ↔ i.key = k ∨ ∃ j, SkippedIn isNop insns j ∧ j.key = k := by
          constructor
          · rintro ⟨j, ⟨hj, hj2⟩, rfl⟩
            rcases List.mem_cons.1 hj with rfl | hj
            · exact .inl rfl
            · exact .inr ⟨j, ⟨hj, hj2⟩, rfl⟩
          · rintro (e | ⟨j, ⟨hj, hj2⟩, e⟩)
            · exact ⟨i, ⟨by simp, hs⟩, e⟩
            · exact ⟨j, ⟨by simp [hj], hj2⟩, e⟩
        rw [this]
        split
        · rename_i hm
          constructor
          · rintro (h | h)
            · exact .inl h
            · exact .inr (.inr h)
          · rintro (h | rfl | h)
            · exact .inl h
            · exact .inl hm
            · exact .inr h
        · rw [List.mem_append, List.mem_singleton, or_assoc, eq_comm (a := k)]
    · rw [if_neg hs]
      obtain ⟨h1, h2, h3⟩ := ih cs h
      refine ⟨h1, fun k => ?_, fun k => ?_⟩
      · rw [h2]
        unfold occ
        rw [List.filter_cons, if_neg (by simp; intro a b; exact absurd ⟨a, b⟩ hs)]
      · rw [h3]
        have : ∀ j, SkippedIn isNop (i :: insns) j ↔ SkippedIn isNop insns j := by
          intro j
          constructor
          · rintro ⟨hj, hj2⟩
            rcases List.mem_cons.1 hj with rfl | hj
            · exact absurd hj2 hs
            · exact ⟨hj, hj2⟩
          · rintro ⟨hj, hj2⟩
            exact ⟨by simp [hj], hj2⟩
        simp only [this]

theorem hasTie_iff : ∀ cs : List (Insn × Nat), (countKeys cs).Nodup →
    (hasTie cs = true ↔ ∃ c ∈ cs, ∃ d ∈ cs, c.1.key ≠ d.1.key ∧ c.2 = d.2) := by
  intro cs
  induction cs with
  | nil => simp [hasTie]
  | cons x cs ih =>
    obtain ⟨j, n⟩ := x
    intro hn
    unfold countKeys at hn ih
    rw [List.map_cons, List.nodup_cons] at hn
    have hne : ∀ c ∈ cs, j.key ≠ c.1.key := fun c hc e => hn.1 (by rw [e]; exact List.mem_map.2 ⟨c, hc, rfl⟩)
    unfold hasTie
    rw [Bool.or_eq_true, ih hn.2, List.any_eq_true]
    constructor
    · rintro (⟨c, hc, e⟩ | ⟨c, hc, d, hd, h⟩)
      · exact ⟨(j, n), by simp, c, by simp [hc], hne c hc, by simpa using (of_decide_eq_true e).symm⟩
      · exact ⟨c, by simp [hc], d, by simp [hd], h⟩
    · rintro ⟨c, hc, d, hd, hk, e⟩
      rcases List.mem_cons.1 hc with rfl | hc
      · rcases List.mem_cons.1 hd with rfl | hd
        · exact absurd rfl hk
        · exact .inl ⟨d, hd, decide_eq_true e.symm⟩
      · rcases List.mem_cons.1 hd with rfl | hd
        · exact .inl ⟨c, hc, decide_eq_true e⟩
        · exact .inr ⟨c, hc, d, hd, hk, e⟩

/-- a tie among the counts is two different skipped instructions occurring equally often -/
theorem tie_iff (isNop : Insn → Bool) (insns : List Insn) : hasTie (skippedInsns isNop insns) = true ↔ EquallyOften isNop insns := by
  obtain ⟨h1, h2, h3⟩ := skipped_foldl isNop insns [] (by simp [countKeys])
  change (countKeys (skippedInsns isNop insns)).Nodup at h1
  change ∀ k, countAt k (skippedInsns isNop insns) = _ at h2
  change ∀ k, k ∈ countKeys (skippedInsns isNop insns) ↔ _ at h3
  rw [hasTie_iff _ h1]
  have key : ∀ k, k ∈ countKeys (skippedInsns isNop insns) ↔ ∃ i, SkippedIn isNop insns i ∧ i.key = k := fun k => by
    rw [h3]
    simp [countKeys]
  have cnt : ∀ c ∈ skippedInsns isNop insns, c.2 = occ isNop insns c.1.key := fun c hc => by
    rw [countAt_mem _ h1 c hc]
    have := h2 c.1.key
    rw [show countAt c.1.key [] = 0 from rfl, Nat.zero_add] at this
    exact this
  constructor
  · rintro ⟨c, hc, d, hd, hk, e⟩
    obtain ⟨i, hi, hik⟩ := (key c.1.key).1 (List.mem_map.2 ⟨c, hc, rfl⟩)
    obtain ⟨j, hj, hjk⟩ := (key d.1.key).1 (List.mem_map.2 ⟨d, hd, rfl⟩)
    refine ⟨i, j, hi, hj, by rw [hik, hjk]; exact hk, ?_⟩
    rw [cnt c hc, cnt d hd, ← hik, ← hjk] at e
    exact e
  · rintro ⟨i, j, hi, hj, hk, e⟩
    obtain ⟨c, hc, hck⟩ := List.mem_map.1 ((key i.key).2 ⟨i, hi, rfl⟩)
    obtain ⟨d, hd, hdk⟩ := List.mem_map.1 ((key j.key).2 ⟨j, hj, rfl⟩)
    refine ⟨c, hc, d, hd, ?_, ?_⟩
    · rw [hck, hdk]; exact hk
    · rw [cnt c hc, cnt d hd, hck, hdk]; exact e

end Verif
