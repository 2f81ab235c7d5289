import Verif.Spec.Later
import Verif.Model.Shared
/-! # Specification of builds at the same time (C128) -/
set_option autoImplicit false

namespace Verif.Spec

/-- `c` is not longer than `M`, and each of its characters is the one `M` has in that place, or NUL, or, in the place `pos`, a level of
optimisation that the program writes. -/
def Damaged (M : Str) (pos : Nat) (c : Str) : Prop :=
  c.length ≤ M.length ∧ ∀ i ch, c[i]? = some ch → M[i]? = some ch ∨ ch = '\x00' ∨ i = pos ∧ (ch = '0' ∨ ch = '1')

/-- between the opening of the Makefile for the patch and the end of restoring it -/
def Busy : Pc → Bool
  | .start _ | .opening _ | .normal | .over => false
  | _ => true

/-- at most one process is between the opening of the Makefile for the patch and the end of restoring it -/
def OneBusy (s : Tree) : Prop := ∀ i j, Busy (s.procs i).pc = true → Busy (s.procs j).pc = true → i = j

/-- so at all times -/
def NeverTogether : Tree → List (Nat × Tick) → Prop
  | s, [] => OneBusy s
  | s, (i, t) :: rest => OneBusy s ∧ NeverTogether (s.step i t) rest

/-- nobody is interrupted -/
def Calm (sched : List (Nat × Tick)) : Prop := ∀ x ∈ sched, x.2.sigint = false

/-- SIGINT is harmless here: nothing was done yet or everything is done, or the first `make` runs -/
def SafePc : Pc → Bool
  | .start _ | .opening _ | .normal | .over => true
  | .making lvl => lvl == 0
  | _ => false

/-- SIGINT arrives only where it is harmless -/
def Mild : Tree → List (Nat × Tick) → Prop
  | _, [] => True
  | s, (i, t) :: rest => (t.sigint = true → SafePc (s.procs i).pc = true) ∧ Mild (s.step i t) rest

/-- how many turns process `i` has -/
def turnsOf (i : Nat) (sched : List (Nat × Tick)) : Nat := sched.countP fun x => x.1 == i

end Verif.Spec
