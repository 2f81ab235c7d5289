import Verif.Spec.Crash
import Verif.Lemmas.Build
/-! # The Makefile on disk: outcomes of patching and restoring -/
set_option autoImplicit false

namespace Verif
open Spec

theorem cm_bind {α β : Type} (m : CM α) (f : α → CM β) (s : CState) :
    (m >>= f) s = match m s with | (some x, s') => f x s' | (none, s') => (none, s') := rfl

theorem cm_pure {α : Type} (x : α) (s : CState) : CM.pure x s = (some x, s) := rfl
theorem cm_modify (f : CState → CState) (s : CState) : CM.modify f s = (some (), f s) := rfl
theorem cm_get (s : CState) : CM.get s = (some s, s) := rfl
theorem cm_exit {α : Type} (s : CState) : (CM.exit : CM α) s = (none, s) := rfl
theorem cm_sigint (sig : Moment → Bool) (m : Moment) (s : CState) :
    sigint sig m s = (if sig m then none else some (), s) := by
  unfold sigint; cases sig m <;> rfl
theorem cm_with {α : Type} (body : CM α) (s : CState) : withFile body s = ((body s).1, (body s).2.flush) := rfl

theorem patch_flag (sig : Moment → Bool) (lvl : Nat) (s : CState) (M pre post : Str) (hp : s.pending = none) (hd : s.disk = M)
    (hr : readText M = M) (hf : findFlags true M = some (pre, post)) (hl : (pre ++ natRepr lvl ++ post).length = M.length)
    (mix : ∀ k, (pre ++ natRepr lvl ++ post).take k ++ M.drop k = M ∨ (pre ++ natRepr lvl ++ post).take k ++ M.drop k = pre ++ natRepr lvl ++ post) :
    ∃ s', patchC sig lvl s = (if early sig lvl || late sig lvl then none else some true, s') ∧ s'.pending = none ∧ s'.handler = s.handler ∧
      s'.disk = (if early sig lvl then M else pre ++ natRepr lvl ++ post) ∧ (early sig lvl = false → s'.backup = some M) ∧
      (∀ c ∈ s.seen, c ∈ s'.seen) ∧ ∀ c ∈ s'.seen, c ∈ s.seen ∨ c = M ∨ c = pre ++ natRepr lvl ++ post := by
  obtain ⟨disk, seen, pending, backup, handler⟩ := s
  simp only at hp hd
  subst hp hd
  generalize hm : pre ++ natRepr lvl ++ post = m at *
  have hfl : ∀ c ∈ (List.range (m.length + 1)).map fun k => m.take k ++ disk.drop k, c = disk ∨ c = m := by
    intro c hc
    obtain ⟨k, -, rfl⟩ := List.mem_map.1 hc
    exact mix k
  have hdrop : m ++ disk.drop m.length = m := by rw [hl]; simp
  unfold patchC early late
  simp only [cm_bind, cm_sigint, cm_with, cm_get]
  cases sig (.patch lvl .start)
  case true => exact ⟨_, rfl, rfl, rfl, rfl, nofun, fun c h => h, fun c h => .inl h⟩
  cases sig (.patch lvl .opened)
  case true => exact ⟨_, rfl, rfl, rfl, rfl, nofun, fun c h => h, fun c h => .inl h⟩
  cases sig (.patch lvl .read)
  case true => exact ⟨_, rfl, rfl, rfl, rfl, nofun, fun c h => h, fun c h => .inl h⟩
  cases sig (.patch lvl .saved)
  case true => exact ⟨_, rfl, rfl, rfl, rfl, nofun, fun c h => h, fun c h => .inl h⟩
  cases sig (.patch lvl .sought)
  case true => exact ⟨_, rfl, rfl, rfl, rfl, nofun, fun c h => h, fun c h => .inl h⟩
  simp only [cm_modify, cm_bind, cm_sigint, cm_pure, hr, hf, hm, Bool.false_eq_true, if_false]
  cases sig (.patch lvl .wrote)
  case true =>
    refine ⟨_, rfl, rfl, rfl, hdrop, fun _ => rfl, fun c h => List.mem_append_left _ h, fun c h => ?_⟩
    rcases List.mem_append.1 h with h | h
    · exact .inl h
    · exact .inr (hfl c h)
  have hs : ∀ c ∈ seen ++ ((List.range (m.length + 1)).map fun k => m.take k ++ disk.drop k) ++ [m], c ∈ seen ∨ c = disk ∨ c = m := by
    intro c h
    rcases List.mem_append.1 h with h | h
    · rcases List.mem_append.1 h with h | h
      · exact .inl h
      · exact .inr (hfl c h)
    · exact .inr (.inr (List.mem_singleton.1 h))
  cases sig (.patch lvl .truncated)
  case true =>
    exact ⟨_, rfl, rfl, rfl, rfl, fun _ => rfl, fun c h => List.mem_append_left _ (List.mem_append_left _ h), hs⟩
  cases sig (.patch lvl .closed)
  case true =>
    exact ⟨_, rfl, rfl, rfl, rfl, fun _ => rfl, fun c h => List.mem_append_left _ (List.mem_append_left _ h), hs⟩
  exact ⟨_, rfl, rfl, rfl, rfl, fun _ => rfl, fun c h => List.mem_append_left _ (List.mem_append_left _ h), hs⟩

/-- no flag: nothing is written -/
theorem patch_none (sig : Moment → Bool) (lvl : Nat) (s : CState) (M : Str) (hp : s.pending = none) (hd : s.disk = M)
    (hr : readText M = M) (hf : findFlags true M = none) :
    ∃ s', patchC sig lvl s = (if early sig lvl || sig (.patch lvl .closed) then none else some false, s') ∧ s'.pending = none ∧
      s'.handler = s.handler ∧ s'.disk = M ∧ (early sig lvl = false → s'.backup = some M) ∧ s'.seen = s.seen := by
  obtain ⟨disk, seen, pending, backup, handler⟩ := s
  simp only at hp hd
  subst hp hd
  unfold patchC early
  simp only [cm_bind, cm_sigint, cm_with, cm_get]
  cases sig (.patch lvl .start)
  case true => exact ⟨_, rfl, rfl, rfl, rfl, nofun, rfl⟩
  cases sig (.patch lvl .opened)
  case true => exact ⟨_, rfl, rfl, rfl, rfl, nofun, rfl⟩
  cases sig (.patch lvl .read)
  case true => exact ⟨_, rfl, rfl, rfl, rfl, nofun, rfl⟩
  cases sig (.patch lvl .saved)
  case true => exact ⟨_, rfl, rfl, rfl, rfl, nofun, rfl⟩
  cases sig (.patch lvl .sought)
  case true => exact ⟨_, rfl, rfl, rfl, rfl, nofun, rfl⟩
  simp only [cm_modify, cm_bind, cm_sigint, cm_pure, hr, hf, Bool.false_eq_true, if_false]
  cases sig (.patch lvl .closed)
  case true => exact ⟨_, rfl, rfl, rfl, rfl, fun _ => rfl, rfl⟩
  exact ⟨_, rfl, rfl, rfl, rfl, fun _ => rfl, rfl⟩

/-- restoring a text that is not empty -/
theorem restore_run (sig : Moment → Bool) (at_ : RestorePoint → Moment) (s : CState) (M : Str) (hM : M ≠ []) (hp : s.pending = none)
    (hb : s.backup = some M) :
    ∃ s', restoreC sig at_ s = (if sig (at_ .start) || sig (at_ .opened) || sig (at_ .wrote) || sig (at_ .closed) then none else some (), s') ∧
      s'.pending = none ∧ s'.backup = some M ∧
      s'.handler = (s.handler && (sig (at_ .start) || sig (at_ .opened) || sig (at_ .wrote) || sig (at_ .closed))) ∧
      s'.disk = (if sig (at_ .start) then s.disk else if sig (at_ .opened) then [] else M) ∧
      (∀ c ∈ s.seen, c ∈ s'.seen) ∧ ∀ c ∈ s'.seen, c ∈ s.seen ∨ c <+: M := by
  obtain ⟨disk, seen, pending, backup, handler⟩ := s
  simp only at hp hb
  subst hp hb
  obtain ⟨a, as, rfl⟩ := List.exists_cons_of_ne_nil hM
  unfold restoreC
  simp only [cm_bind, cm_get, cm_sigint]
  have nil : ∀ c ∈ seen ++ [[]], c ∈ seen ∨ c <+: (a :: as) := by
    intro c h
    rcases List.mem_append.1 h with h | h
    · exact .inl h
    · rw [List.mem_singleton.1 h]; exact .inr (List.nil_prefix)
  have all : ∀ c ∈ seen ++ [[]] ++ (List.range ((a :: as).length + 1)).map (fun k => (a :: as).take k ++ ([] : Str).drop k), c ∈ seen ∨ c <+: (a :: as) := by
    intro c h
    rcases List.mem_append.1 h with h | h
    · exact nil c h
    · obtain ⟨k, -, rfl⟩ := List.mem_map.1 h
      simp only [List.drop_nil, List.append_nil]
      exact .inr (List.take_prefix _ _)
  have hd : (a :: as) ++ ([] : Str).drop (a :: as).length = a :: as := by simp
  cases sig (at_ .start)
  case true => exact ⟨_, rfl, rfl, rfl, by cases handler <;> rfl, rfl, fun c h => h, fun c h => .inl h⟩
  simp only [cm_modify, cm_with, cm_bind, cm_sigint, Bool.false_eq_true, if_false]
  cases sig (at_ .opened)
  case true => exact ⟨_, rfl, rfl, rfl, by cases handler <;> rfl, rfl, fun c h => List.mem_append_left _ h, nil⟩
  cases sig (at_ .wrote)
  case true => exact ⟨_, rfl, rfl, rfl, by cases handler <;> rfl, hd, fun c h => List.mem_append_left _ (List.mem_append_left _ h), all⟩
  cases sig (at_ .closed)
  case true => exact ⟨_, rfl, rfl, rfl, by cases handler <;> rfl, hd, fun c h => List.mem_append_left _ (List.mem_append_left _ h), all⟩
  exact ⟨_, rfl, rfl, rfl, by cases handler <;> rfl, hd, fun c h => List.mem_append_left _ (List.mem_append_left _ h), all⟩

end Verif
