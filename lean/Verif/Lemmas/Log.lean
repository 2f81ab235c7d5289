import Verif.Spec.Log
/-! # Helper lemmas: standard error -/
set_option autoImplicit false

namespace Verif
open Spec

theorem shows_wanted (q v : Nat) (l : LogLevel) : (setupLogging q v).shows l.num = decide (Wanted q v l) := by
  rw [Bool.eq_iff_iff, decide_eq_true_iff]
  unfold setupLogging Verbosity.shows Wanted
  rw [decide_eq_true_iff]
  cases l <;> simp only [LogLevel.num] <;> split <;> split <;> omega

theorem readLine_logLine (l : LogLevel) (msg : Str) : readLine (logLine false l msg) = some (l, msg) := by
  cases l <;> rfl

theorem Term.show_append (t : Term) (a b : Str) : t.show (a ++ b) = (t.show a).show b := List.foldl_append

theorem Term.show_plain (s : Str) (hs : '\x1b' ∉ s) (c : Option Str) (sh : List (Char × Option Str)) :
    Term.show ⟨none, c, sh⟩ s = ⟨none, c, sh ++ s.map (·, c)⟩ := by
  induction s generalizing sh with
  | nil => simp [Term.show]
  | cons x xs ih =>
    simp only [List.mem_cons, not_or] at hs
    show Term.show (Term.step _ x) xs = _
    rw [show Term.step ⟨none, c, sh⟩ x = ⟨none, c, sh ++ [(x, c)]⟩ from if_neg (fun h => hs.1 h.symm), ih hs.2]
    simp

theorem Term.show_color (l : LogLevel) (c : Option Str) (sh : List (Char × Option Str)) :
    Term.show ⟨none, c, sh⟩ l.color = ⟨none, some (colorOf l), sh⟩ := by
  cases l <;> rfl

theorem Term.show_reset (c : Option Str) (sh : List (Char × Option Str)) :
    Term.show ⟨none, c, sh⟩ cs!"\x1b[0m" = ⟨none, none, sh⟩ := rfl

theorem logLine_color (l : LogLevel) (msg : Str) : logLine true l msg = l.color ++ (logLine false l msg ++ cs!"\x1b[0m") := by
  simp [logLine]

theorem shortName_plain (l : LogLevel) : '\x1b' ∉ l.shortName := by cases l <;> decide

end Verif
