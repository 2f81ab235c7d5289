import Verif.Model.Main
/-! # Commands that fail -/
set_option autoImplicit false

namespace Verif.Spec
open Verif

/-- how a program ends for a command: `st` is its exit status (`none`: it, or its directory, does not exist) and `cwd` the
directory it was to run in, if any -/
def EndsFor (w : World) (st : Option Nat) (cwd : Option Path) (e : Exc) : Prop :=
  (w.interrupt ≠ none ∧ e = .exit 1) ∨
  match st, cwd with
  | some _, _ => e = .exit 1
  | none, some _ => e = .exit 127
  | none, none => e = .attr

/-- `make ... vmlinux` -/
def BuildsImage (r : Run) : Prop := r.argv.head? = some cs!"make" ∧ r.argv.getLast? = some cs!"vmlinux"

/-- no failure among the commands `R`, run after `h`, is ignored: the program ends there and then, or (for commands of which
`Att` holds) the same command is run again later, successfully unless the program fails -/
def Heeded (w : World) (Att : Run → Prop) {α : Type} (h R : List Run) (res : Res α) : Prop :=
  ∀ A r B, R = A ++ r :: B → w.status (h ++ A) r ≠ some 0 →
    (B = [] ∧ ∃ e, res = .error e ∧ EndsFor w (w.status (h ++ A) r) r.cwd e) ∨
    (Att r ∧ ∀ x, res = .ok x → ∃ B1 r' B2, B = B1 ++ r' :: B2 ∧ r'.argv = r.argv ∧ r'.cwd = r.cwd ∧
      w.status (h ++ A ++ r :: B1) r' = some 0)

end Verif.Spec
