import Verif.Model.Crash
import Verif.Spec.Build
/-! # Specification of builds interrupted any number of times (C122) -/
set_option autoImplicit false

namespace Verif.Spec

/-- SIGINT before anything is written -/
def early (sig : Moment → Bool) (lvl : Nat) : Bool :=
  sig (.patch lvl .start) || sig (.patch lvl .opened) || sig (.patch lvl .read) || sig (.patch lvl .saved) || sig (.patch lvl .sought)

/-- SIGINT after something is written -/
def late (sig : Moment → Bool) (lvl : Nat) : Bool :=
  sig (.patch lvl .wrote) || sig (.patch lvl .truncated) || sig (.patch lvl .closed)

/-- what is left of the original text `M` when the exit handler starts with the content `c` -/
def afterHandler (sig : Moment → Bool) (M c : Str) : Str :=
  if sig (.handler .start) then c else if sig (.handler .opened) then [] else M

/-- What is left in the end: `M` is the original text, `m0` and `m1` have the levels 0 and 1. -/
def leftBehind (sig : Moment → Bool) (ok : Nat → Bool) (M m0 m1 : Str) : Str :=
  -- the first attempt, before the exit handler is registered
  if early sig 0 then M
  else if late sig 0 then m0
  -- from here on it is
  else if sig (.make 0) || sig (.restore 0 .start) then afterHandler sig M m0
  else if sig (.restore 0 .opened) then afterHandler sig M []
  else if sig (.restore 0 .wrote) || sig (.restore 0 .closed) then afterHandler sig M M
  else if ok 0 then M
  -- the second attempt: it is not any more
  else if early sig 1 then M
  else if late sig 1 || sig (.make 1) || sig (.restore 1 .start) then m1
  else if sig (.restore 1 .opened) then []
  else M

/-- SIGINT arrives at most once -/
def OneSigint (sig : Moment → Bool) : Prop := ∀ m m', sig m = true → sig m' = true → m = m'

/-- moments at which one SIGINT leaves a changed Makefile behind: after the first write and before the exit handler is registered, and
in the second attempt (made only when the first fails) all the time from the first write to the last -/
def unsafeMoments (firstFails : Bool) : List Moment :=
  [.patch 0 .wrote, .patch 0 .truncated, .patch 0 .closed] ++
  if firstFails then
    [.patch 1 .wrote, .patch 1 .truncated, .patch 1 .closed, .make 1, .restore 1 .start, .restore 1 .opened]
  else []

/-- which moments of this model are the points of interruption of `Model/Build`, after `n` earlier commands -/
def atPoint (n : Nat) (p : Option Point) (m : Moment) : Bool :=
  match p, m with
  | some (.patched l), .patch l' .closed => l == l'
  | some (.restoring l), .restore l' .opened => l == l'
  | some (.run k), .make l => k == n + l
  | some (.run k), .last => k == n + 2
  | _, _ => false

end Verif.Spec
