import Verif.Model.Kernel
import Verif.Spec.Kernel
import Verif.Lemmas.Regex
import Verif.Lemmas.Utils
/-! # Lemmas on version strings -/
set_option autoImplicit false

namespace Verif
open Spec

theorem digits_iff (s : Str) : Digits s ↔ s ≠ [] ∧ ∀ c ∈ s, isDigit c = true := by
  simp only [Digits, isDigit_iff]

theorem noDigit_iff (s : Str) : NoDigit s ↔ ∀ c cs, s = c :: cs → isDigit c = false := by
  simp only [NoDigit, ← isDigit_iff, Bool.not_eq_true]

theorem decimal_eq (s : Str) : decimal s = natOfDigits s := rfl

theorem digits_natRepr (n : Nat) : Digits (natRepr n) :=
  (digits_iff _).2 ⟨natRepr_ne_nil n, natRepr_all_digits n⟩

theorem decimal_natRepr (n : Nat) : decimal (natRepr n) = n := natOfDigits_natRepr n

theorem noDigit_dot (s : Str) : NoDigit ('.' :: s) := by
  intro c cs h
  simp only [List.cons.injEq] at h
  rw [← h.1]; decide

theorem version_three (da db dc rest : Str) (ha : Digits da) (hb : Digits db) (hc : Digits dc) (hr : NoDigit rest) :
    versionFromStr (da ++ '.' :: (db ++ '.' :: (dc ++ rest))) = some [decimal da, decimal db, decimal dc] := by
  rw [digits_iff] at ha hb hc
  rw [noDigit_iff] at hr
  have hdot : ∀ (s : Str) c cs, '.' :: s = c :: cs → isDigit c = false := (fun s => (noDigit_iff _).1 (noDigit_dot s))
  have h : ∃ r, versionRe.match? (da ++ '.' :: (db ++ '.' :: (dc ++ rest))) =
      some ([(3, '.' :: dc), (4, dc), (2, db), (1, da)], r) := by
    refine ⟨rest, ?_⟩
    simp only [versionRe, Re.match?, Re.cat, Re.go]
    refine Re.go_plus_greedy _ _ _ _ _ _ _ ha.1 ha.2 (hdot _) ?_
    have := Re.go_lit (α := Caps × Str) cs!"." (db ++ '.' :: (dc ++ rest))
    simp only [List.cons_append, List.nil_append] at this
    rw [this]
    refine Re.go_plus_greedy _ _ _ _ _ _ _ hb.1 hb.2 (hdot _) ?_
    simp only [Re.opt, Re.go]
    have h2 := Re.go_lit (α := Caps × Str) cs!"." (dc ++ rest)
    simp only [List.cons_append, List.nil_append] at h2
    rw [h2]
    rw [Re.go_plus_greedy isDigit _ dc rest _ _ _ hc.1 hc.2 hr rfl]
    have e : List.take (dc.length + rest.length + 1 - rest.length) ('.' :: (dc ++ rest)) = '.' :: dc := by
      rw [show dc.length + rest.length + 1 - rest.length = dc.length + 1 by omega]
      simp
    simp [e]
  obtain ⟨r, h⟩ := h
  unfold versionFromStr
  rw [h]
  rfl

theorem version_two (da db rest : Str) (ha : Digits da) (hb : Digits db) (hr : NoDigit rest)
    (hr2 : ∀ s, rest = '.' :: s → NoDigit s) :
    versionFromStr (da ++ '.' :: (db ++ rest)) = some [decimal da, decimal db] := by
  rw [digits_iff] at ha hb
  rw [noDigit_iff] at hr
  have hdot : ∀ (s : Str) c cs, '.' :: s = c :: cs → isDigit c = false := (fun s => (noDigit_iff _).1 (noDigit_dot s))
  have h : ∃ r, versionRe.match? (da ++ '.' :: (db ++ rest)) = some ([(2, db), (1, da)], r) := by
    refine ⟨rest, ?_⟩
    simp only [versionRe, Re.match?, Re.cat]
    rw [Re.go_seq]
    simp only [Re.go.eq_6]
    refine Re.go_plus_greedy _ _ _ _ _ _ _ ha.1 ha.2 (hdot _) ?_
    have := Re.go_lit (α := Caps × Str) cs!"." (db ++ rest)
    simp only [List.cons_append, List.nil_append] at this
    rw [Re.go_seq, this, Re.go_seq]
    simp only [Re.go.eq_6]
    refine Re.go_plus_greedy _ _ _ _ _ _ _ hb.1 hb.2 hr ?_
    rw [Re.opt, Re.go.eq_5]
    generalize hg : Re.go _ _ _ _ = g
    cases g with
    | none => simp [Re.go]
    | some x =>
      exfalso
      obtain ⟨st', caps', hM, -⟩ := Re.go_sound _ _ _ _ _ hg
      simp only [Re.M] at hM
      obtain ⟨cm, ⟨m, c1, h1, cm2, h2, -⟩, -⟩ := hM
      rw [Re.M_lit] at h1
      rw [Re.M_plus] at h2
      obtain ⟨h1, -⟩ := h1
      obtain ⟨a, hne, had, hm, -⟩ := h2
      have := (noDigit_iff _).1 (hr2 m.rest h1)
      cases a with
      | nil => exact hne rfl
      | cons c a =>
        have h3 := this c (a ++ st'.rest) (by simpa using hm)
        rw [had c (by simp)] at h3
        cases h3
  obtain ⟨r, h⟩ := h
  unfold versionFromStr
  rw [h]
  rfl

/-- splitting a string at its leading digits -/
theorem digits_split (s : Str) : ∃ d r, s = d ++ r ∧ (∀ c ∈ d, isDigit c = true) ∧ NoDigit r := by
  induction s with
  | nil => exact ⟨[], [], rfl, by simp, by intro c cs h; cases h⟩
  | cons c cs ih =>
    by_cases hc : isDigit c = true
    · obtain ⟨d, r, h1, h2, h3⟩ := ih
      refine ⟨c :: d, r, by simp [h1], ?_, h3⟩
      intro x hx
      rcases List.mem_cons.1 hx with rfl | hx
      · exact hc
      · exact h2 x hx
    · refine ⟨[], c :: cs, rfl, by simp, ?_⟩
      rw [noDigit_iff]
      intro x xs hx
      simp only [List.cons.injEq] at hx
      rw [← hx.1]; simpa using hc

/-- every string is of one of the three shapes -/
theorem version_shapes (s : Str) :
    (∃ da db dc rest, Digits da ∧ Digits db ∧ Digits dc ∧ NoDigit rest ∧ s = da ++ '.' :: (db ++ '.' :: (dc ++ rest))) ∨
    (∃ da db rest, Digits da ∧ Digits db ∧ NoDigit rest ∧ (∀ t, rest = '.' :: t → NoDigit t) ∧ s = da ++ '.' :: (db ++ rest)) ∨
    ¬ ∃ da db rest, Digits da ∧ Digits db ∧ s = da ++ '.' :: (db ++ rest) := by
  by_cases h : ∃ da db rest, Digits da ∧ Digits db ∧ s = da ++ '.' :: (db ++ rest)
  · obtain ⟨da, db, rest, ha, hb, rfl⟩ := h
    obtain ⟨d, r, hs, hd, hr⟩ := digits_split rest
    subst hs
    have hb' : Digits (db ++ d) := by
      rw [digits_iff] at hb ⊢
      refine ⟨by simp [hb.1], ?_⟩
      intro c hc
      rcases List.mem_append.1 hc with hc | hc
      · exact hb.2 c hc
      · exact hd c hc
    by_cases h2 : ∀ t, r = '.' :: t → NoDigit t
    · exact .inr (.inl ⟨da, db ++ d, r, ha, hb', hr, h2, by simp⟩)
    · left
      simp only [not_forall] at h2
      obtain ⟨t, rfl, ht⟩ := h2
      obtain ⟨d3, r3, rfl, hd3, hr3⟩ := digits_split t
      refine ⟨da, db ++ d, d3, r3, ha, hb', ?_, hr3, by simp⟩
      rw [digits_iff]
      refine ⟨?_, hd3⟩
      rintro rfl
      exact ht hr3
  · exact .inr (.inr h)

theorem version_none (s : Str) (h : ¬ ∃ da db rest, Digits da ∧ Digits db ∧ s = da ++ '.' :: (db ++ rest)) :
    versionFromStr s = none := by
  unfold versionFromStr
  generalize hg : versionRe.match? s = g
  cases g with
  | none => rfl
  | some x =>
    exfalso
    apply h
    obtain ⟨st', caps', hM⟩ := (Re.match?_isSome_iff versionRe s).1 (by rw [hg]; rfl)
    simp only [versionRe, Re.cat, Re.M, Re.M_lit, Re.M_plus] at hM
    obtain ⟨m1, c1, ⟨c1', ⟨a, ha, had, hs, -⟩, -⟩, m2, c2, ⟨hm, -⟩, m3, c3, ⟨c3', ⟨b, hb, hbd, hm2, -⟩, -⟩, -⟩ := hM
    refine ⟨a, b, m3.rest, (digits_iff _).2 ⟨ha, had⟩, (digits_iff _).2 ⟨hb, hbd⟩, ?_⟩
    rw [hs, hm, hm2]
    simp

end Verif
