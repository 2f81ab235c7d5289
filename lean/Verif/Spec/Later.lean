import Verif.Spec.Crash
/-! # Specification of histories of runs on one source tree (C123) -/
set_option autoImplicit false

namespace Verif.Spec

/-- the only line of the Makefile that is rewritten -/
def OnlyFlag (text a mid post : Str) : Prop :=
  FlagAt text a mid post ∧ ∀ a' mid' post', FlagAt text a' mid' post' → a' = a

/-- A run on a source tree whose Makefile has the content `c`, killed at some time or not, may leave `c'`. The content at the end is one
of those recorded (`C122_recorded`). -/
def RunLeaves (c c' : Str) : Prop := ∃ sig ok opt, c' ∈ (processC sig ok opt c).seen

/-- so may any number of runs one after the other -/
inductive RunsLeave : Str → Str → Prop
  | none (c : Str) : RunsLeave c c
  | more {c c' c'' : Str} : RunsLeave c c' → RunLeaves c' c'' → RunsLeave c c''

/-- a run that is not killed: when SIGINT arrives, which attempts succeed, and whether `--disable-opt` is given -/
structure RunOf where
  sig : Moment → Bool
  ok : Nat → Bool
  opt : Bool

/-- what a list of runs, none of them killed, leaves -/
def afterRuns (M : Str) (runs : List RunOf) : Str := runs.foldl (fun c r => (processC r.sig r.ok r.opt c).disk) M

/-- SIGINT never arrives at an unsafe moment, nor at the beginning of the exit handler -/
def RunOf.Harmless (r : RunOf) : Prop :=
  (∀ m ∈ unsafeMoments (!r.ok 0), r.sig m = false) ∧ r.sig (.handler .start) = false ∧ r.sig (.handler .opened) = false

end Verif.Spec
