import Verif.Lemmas.Failures
import Verif.Props.Cli
/-! # Failures of commands (C95) -/
set_option autoImplicit false

namespace Verif
open Spec

/-- C95: whatever is asked for and whatever the commands answer, a command that fails is the last one and ends the program with an
error, except the attempts at building the image with other optimization levels (`--disable-opt`), which end well only if the
same command succeeds later. -/
theorem C95_failed_commands (w : MWorld) (help : Str) (args : Args) (s : MState) :
    ∃ R, (main w help args s).2.b.hist = s.b.hist ++ R ∧
      Heeded w.toWorld (fun r => args.build = true ∧ args.disableOpt = true ∧ BuildsImage r) s.b.hist R (main w help args s).1 :=
  heedsM_main w help args s

/-- C95: from the command line. -/
theorem C95_command_line (w : MWorld) (help : Str) (argv : List Str) (s : MState) (n : Nat) (s' : MState)
    (h : systrack w help argv s = (.ok n, s')) :
    ∃ l : Line, l.Ok digitZeros ∧ l.args = argv ∧ ∃ R, s'.b.hist = s.b.hist ++ R ∧
      ∀ A r B, R = A ++ r :: B → w.status (s.b.hist ++ A) r = some 0 ∨
        (l.meaning.build = true ∧ l.meaning.disableOpt = true ∧ BuildsImage r ∧
          ∃ B1 r' B2, B = B1 ++ r' :: B2 ∧ r'.argv = r.argv ∧ r'.cwd = r.cwd ∧ w.status (s.b.hist ++ A ++ r :: B1) r' = some 0) := by
  unfold systrack at h
  cases ha : parseArgs argv with
  | ok a =>
    rw [ha] at h
    change main w help a s = _ at h
    obtain ⟨l, h1, h2, h3⟩ := (C94_command_line argv a).mp ha
    refine ⟨l, h1, h2, ?_⟩
    obtain ⟨R, g1, g2⟩ := C95_failed_commands w help a s
    rw [h] at g1 g2
    refine ⟨R, g1, fun A r B hR => ?_⟩
    by_cases hst : w.status (s.b.hist ++ A) r = some 0
    · exact .inl hst
    · rcases g2 A r B hR hst with ⟨_, e, he, _⟩ | ⟨⟨k1, k2, k3⟩, k4⟩
      · cases he
      · rw [h3]; exact .inr ⟨k1, k2, k3, k4 n rfl⟩
  | error e => rw [ha] at h; cases h

/-- C95: a run with `--build` that ends with status 0 ended with a successful `make vmlinux`. -/
theorem C95_built (w : MWorld) (help : Str) (args : Args) (hb : args.build = true) (hh : ¬ AsksForHelp args) (s s' : MState)
    (h : main w help args s = (.ok 0, s')) :
    ∃ A r, s'.b.hist = A ++ [r] ∧ BuildsImage r ∧ w.status A r = some 0 :=
  endsBuiltM_main w help args hb hh s s' h

/-- a world where `make vmlinux` fails `n` times and `make distclean` fails or not -/
def failingWorld (n : Nat) (distclean : Nat) : MWorld :=
  { mainWorld cs!"5.10.0\n" none with
    status := fun hist r =>
      if r.argv.getLast? = some cs!"vmlinux" then
        (if (hist.filter fun x => x.argv.getLast? = some cs!"vmlinux").length < n then some 2 else some 0)
      else if r.argv.getLast? = some cs!"distclean" then some distclean else some 0
    readLines := fun _ _ => some [] }

/-- `make distclean` fails: it is the last command -/
example : (main (failingWorld 0 2) [] { kdir := some cs!"linux", arch := some cs!"x86-64", clean := true } {}).1 = .error (.exit 1) ∧
    (main (failingWorld 0 2) [] { kdir := some cs!"linux", arch := some cs!"x86-64", clean := true } {}).2.b.hist.length = 2 := by
  decide +kernel

/-- the Makefile of a kernel -/
def exampleMakefile : Str := cs!"KBUILD_CFLAGS += -O2\n"

/-- the first two attempts at the image fail, the third one does not -/
example :
    let r := main (failingWorld 2 0) [] { kdir := some cs!"linux", arch := some cs!"x86-64", build := true, disableOpt := true }
      { b := { makefile := exampleMakefile } }
    r.1 = .ok 0 ∧ (r.2.b.hist.filter fun x => x.argv.getLast? = some cs!"vmlinux").length = 3 ∧ r.2.b.makefile = exampleMakefile := by
  decide +kernel

/-- all three fail -/
example : (main (failingWorld 3 0) [] { kdir := some cs!"linux", arch := some cs!"x86-64", build := true, disableOpt := true }
      { b := { makefile := exampleMakefile } }).1 = .error (.exit 1) := by
  decide +kernel

end Verif
