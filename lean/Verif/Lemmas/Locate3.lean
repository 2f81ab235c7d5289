import Verif.Lemmas.Locate2
/-! Lemmas for the expressions that pick grep rows. -/
set_option autoImplicit false

namespace Verif
open Spec

theorem baseRe_words (a : Arch) :
    Words (if a.compat then .cat [.opt (.lit cs!"COMPAT_"), .lit cs!"SYSCALL", .opt (.lit cs!"32")]
      else if a.bits32 then .seq (.lit cs!"SYSCALL") (.opt (.lit cs!"32"))
      else .lit cs!"SYSCALL") (grepStems a) := by
  unfold grepStems
  cases hc : a.compat with
  | true =>
    simp only [if_true]
    refine words_perm _ _ _ ?_ (words_seq _ _ _ _ (words_opt _ _ (words_lit cs!"COMPAT_"))
      (words_seq _ _ _ _ (words_lit cs!"SYSCALL") (words_opt _ _ (words_lit cs!"32"))))
    intro x
    simp
    tauto
  | false =>
    simp only [Bool.false_eq_true, if_false]
    cases hb : a.bits32 with
    | true =>
      simp only [if_true]
      refine words_perm _ _ _ ?_ (words_seq _ _ _ _ (words_lit cs!"SYSCALL") (words_opt _ _ (words_lit cs!"32")))
      intro x
      simp
      tauto
    | false =>
      simp only [Bool.false_eq_true, if_false]
      exact words_lit _

theorem grepStems_word (a : Arch) (m : Str) (h : m ∈ grepStems a) : ∃ c t, m = c :: t ∧ isWord c = true := by
  unfold grepStems at h
  split at h
  · simp at h; rcases h with rfl | rfl | rfl | rfl <;> exact ⟨_, _, rfl, by decide⟩
  · split at h
    · simp at h; rcases h with rfl | rfl <;> exact ⟨_, _, rfl, by decide⟩
    · simp at h; subst h; exact ⟨_, _, rfl, by decide⟩

theorem syscallGrepRe_search (a : Arch) (name row : Str) (hn : ∀ c ∈ name, isWord c = true) :
    ((syscallGrepRe a name).search row).isSome = true ↔ RowOf a row name := by
  unfold Re.search
  rw [Re.searchFrom_isSome_iff]
  constructor
  · rintro ⟨pre, t, st', c', rfl, m0, d0, h0, m1, d1, h1, m2, d2, h2, h3⟩
    obtain ⟨r0, rfl, rfl, rfl⟩ := (Re.M_lit_iff _ _ _ _ _ _).1 h0
    obtain ⟨n0, e0, k0, n1, e1, k1, n2, e2, k2, n3, e3, k3, n4, e4, k4, k5⟩ := h1
    obtain ⟨-, rfl, rfl⟩ := k0
    obtain ⟨m, hm, r1, rfl, rfl, rfl⟩ := (baseRe_words a _ _ _ _ _).1 k1
    obtain ⟨r2, rfl, rfl, rfl⟩ := (Re.M_lit_iff _ _ _ _ _ _).1 k2
    obtain ⟨d, r3, rfl, hd, rfl, rfl⟩ := (Re.M_chr_iff _ _ _ _ _ _).1 k3
    obtain ⟨ws, r4, rfl, hws, rfl, rfl⟩ := (Re.M_star_iff _ _ _ _ _ _).1 k4
    obtain ⟨r5, rfl, rfl, rfl⟩ := (Re.M_lit_iff _ _ _ _ _ _).1 k5
    obtain ⟨w, hw, r6, rfl, rfl, rfl⟩ := (words_name name hn _ _ _ _ _).1 h2
    cases List.mem_singleton.1 hw
    obtain ⟨x, r7, rfl, hx, rfl, rfl⟩ := (Re.M_chr_iff _ _ _ _ _ _).1 h3
    refine ⟨pre, m, d, ws, x, r7, hm, hd, hws, by simpa using hx, ?_⟩
    simp [List.append_assoc]
  · rintro ⟨pre, m, d, ws, x, rest, hm, hd, hws, hx, rfl⟩
    obtain ⟨c, mt, rfl, hc⟩ := grepStems_word a m hm
    refine ⟨pre, cs!":" ++ ((c :: mt) ++ (cs!"_DEFINE" ++ (d :: (ws ++ (cs!"(" ++ (name ++ (x :: rest))))))), _, [],
      by simp [List.append_assoc], _, [], (Re.M_lit_iff _ _ _ _ _ _).2 ⟨_, rfl, rfl, rfl⟩, _, [],
      ⟨_, [], (wordB_iff _ _ _ _ _).2 ⟨?_, rfl, rfl⟩, _, [], (baseRe_words a _ _ _ _ _).2 ⟨_, hm, _, rfl, rfl, rfl⟩, _, [],
        (Re.M_lit_iff _ _ _ _ _ _).2 ⟨_, rfl, rfl, rfl⟩, _, [], (Re.M_chr_iff _ _ _ _ _ _).2 ⟨d, _, rfl, hd, rfl, rfl⟩, _, [],
        (Re.M_star_iff _ _ _ _ _ _).2 ⟨ws, _, rfl, hws, rfl, rfl⟩, (Re.M_lit_iff _ _ _ _ _ _).2 ⟨_, rfl, rfl, rfl⟩⟩, _, [],
      (words_name name hn _ _ _ _ _).2 ⟨name, by simp, _, rfl, rfl, rfl⟩,
      (Re.M_chr_iff _ _ _ _ _ _).2 ⟨x, rest, rfl, by simpa using hx, rfl, rfl⟩⟩
    show optWord (some ':') ≠ optWord (some c)
    simp only [optWord, hc]
    decide

theorem sortBy_filter {α : Type} (le : α → α → Bool) (p : α → Bool) (hp : ∀ x y, p x = true → p y = true → le x y = true) (l : List α) :
    (sortBy le l).filter p = l.filter p := by
  have hins : ∀ x m, (insertBy le x m).filter p = (x :: m).filter p := by
    intro x m
    induction m with
    | nil => rfl
    | cons y ys ih =>
      simp only [insertBy]
      split
      · rfl
      · next h =>
        by_cases hx : p x = true
        · have hy : p y = false := by
            cases hy : p y with
            | false => rfl
            | true => exact absurd (hp x y hx hy) h
          simp only [List.filter_cons, hy, Bool.false_eq_true, if_false, ih]
        · simp only [List.filter_cons, hx, Bool.false_eq_true, if_false] at ih ⊢
          rw [ih]
  unfold sortBy
  induction l with
  | nil => rfl
  | cons x xs ih => rw [List.foldr_cons, hins, List.filter_cons, ih, List.filter_cons]

end Verif
