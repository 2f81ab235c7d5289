import Verif.Lemmas.Ends2
import Verif.Props.EndToEnd
/-! # Which runs end (C107) -/
set_option autoImplicit false

namespace Verif
open Spec

/-- C107: when a run goes on for ever although its commands end, it is an analysis (not a clean, a configuration or a build), of an
image that was loaded; the banner of the kernel, a string of the ftrace metadata or, with KDIR, the definition of a syscall has no end.
Partial: there are such runs, see `C107_banner_refuted` and `C107_definition_refuted`. -/
theorem C107_causes_partial (w : MWorld) (hw : ∀ hist, Responds (w.locEnv hist)) (help : Str) (args : Args) (s : MState)
    (h : (main w help args s).1 = .error .hang) : ¬ BuildMode args ∧ Endless w args (main w help args s).2.b.hist := by
  obtain ⟨h1, h2⟩ := lasts_main w hw help args s h
  refine ⟨?_, h2⟩
  simp only [Bool.or_eq_false_iff] at h1
  rintro (h | h | h)
  · rw [h] at h1; cases h1.2
  · rw [h] at h1; cases h1.1.2
  · rw [h] at h1; cases h1.1.1

/-- C107: cleaning, configuring and building end, whatever the commands answer. -/
theorem C107_build (w : MWorld) (help : Str) (args : Args) (s : MState) (h : BuildMode args) :
    (main w help args s).1 ≠ .error .hang := by
  have key : ∀ m s, EndsM m → (m s).1 ≠ (.error .hang : Res Nat) := fun m s h => h s
  refine key _ s ?_
  have hb : (args.clean || args.config || args.build) = true := by
    rcases h with h | h | h <;> simp [h]
  unfold main
  dsimp only
  split
  · endsM
  split
  · endsM
  split
  · endsM
  split
  · endsM
  unfold mainRun
  rw [if_pos hb]
  by_cases hx : (given args.checkout && decide (args.checkout ≠ some cs!"auto")) = true
  · rw [if_pos hx]
    exact endsM_bind (endsM_eprint _ _) fun _ => endsM_bind (endsM_git w _ _) fun _ => endsM_mainBuild w _ _ _
  · rw [if_neg hx]
    exact endsM_bind (endsM_pure _) fun _ => endsM_mainBuild w _ _ _

/-- C107: the analysis of images whose files end with a zero byte, without sources, ends. -/
theorem C107_image_partial (w : MWorld) (hw : ∀ hist, Responds (w.locEnv hist)) (help : Str) (args : Args) (s : MState)
    (hz : ∀ hist p data, vmlinuxPath args = some p → w.content hist p = some data → data.getLast? = some 0)
    (hk : args.kdir = none) : (main w help args s).1 ≠ .error .hang := by
  intro h
  obtain ⟨-, p, e, hp, ⟨hist, -, data, r1, r2, hc, -, -, -, -, hl, -⟩, hE⟩ := C107_causes_partial w hw help args s h
  have hd : e.data = data := by
    unfold Elf.load at hl
    cases hh : parseElfHeader data with
    | error x => rw [hh] at hl; cases hl
    | ok x => rw [hh] at hl; cases hl; rfl
  have hlast := hz _ _ _ hp hc
  have none : ∀ addr, ¬ Unterminated e addr := by
    rintro addr ⟨off, -, h1, h2⟩
    rw [hd] at h1 h2
    refine h2 0 ?_ rfl
    have : (data.drop off).getLast? = some 0 := by
      rw [List.getLast?_drop, if_neg (by omega), hlast]
    exact List.mem_of_getLast? this
  rcases hE with ⟨sym, -, -, h⟩ | ⟨-, addr, h⟩ | ⟨h, -⟩
  · exact none _ h
  · exact none _ h
  · rw [hk] at h; cases h

/-- the symbols of the small image, the banner without a size, as in images made from memory -/
def unsizedSymbols : Str :=
  cs!"     1: 0000000000000100     8 FUNC    GLOBAL DEFAULT    1 __riscv_sys_ni_syscall\n" ++
  cs!"     6: 0000000000000500     0 OBJECT  GLOBAL DEFAULT    3 linux_banner\n"

/-- C107 is false of the code: an image whose file ends with its banner, without a zero byte, is read for ever. -/
theorem C107_banner_refuted : ∃ (w : MWorld) (args : Args), (∀ hist, Responds (w.locEnv hist)) ∧
    (main w [] args {}).1 = .error .hang :=
  ⟨tinyWorld cs!"6.0.3" unsizedSymbols, { vmlinux := some cs!"vmlinux" },
    fun _ => ⟨(fun l h => by cases h), (by intro h; cases h)⟩, by decide +kernel⟩

/-- the small image with sources where a definition is not closed by a line ending in a parenthesis -/
def openSources : MWorld :=
  { tinyWorld cs!"6.0.3" tinySymbols with
    locEnv := fun _ => { smallWorld with
      addr2line := fun l => .ok (l.map fun x => if x = 0x108 then cs!"/k/fs/open.c:1" else cs!"??:0")
      files := fun p => if p = smallFile then some [cs!"SYSCALL_DEFINE1(__riscv_sys_open, int, fd) {\n", cs!"\treturn 0;\n",
        cs!"}\n"] else none } }

/-- C107 is false of the code: a definition with its opening brace on the same line, in a file without another line ending in a closing
parenthesis, is read for ever. -/
theorem C107_definition_refuted : ∃ (w : MWorld) (args : Args), (∀ hist, Responds (w.locEnv hist)) ∧
    (main w [] args {}).1 = .error .hang ∧ (main w [] { args with kdir := none } {}).1 = .ok 0 :=
  ⟨openSources, { kdir := some cs!"/k", vmlinux := some cs!"vmlinux" },
    fun _ => ⟨(fun l h => by cases h), (by intro h; cases h)⟩, by decide +kernel, by decide +kernel⟩

/-- the hypotheses of `C107_image_partial` hold of the small image followed by a zero byte -/
example : let w : MWorld := { tinyWorld cs!"6.0.3" tinySymbols with content := fun _ _ => some (tinyImage cs!"6.0.3" ++ [0]) }
    (∀ hist, Responds (w.locEnv hist)) ∧
    (∀ hist p data, vmlinuxPath { vmlinux := some cs!"vmlinux" } = some p → w.content hist p = some data → data.getLast? = some 0) ∧
    (main w [] { vmlinux := some cs!"vmlinux" } {}).1 = .ok 0 := by
  refine ⟨fun _ => ⟨(fun l h => by cases h), (by intro h; cases h)⟩, ?_, by decide +kernel⟩
  intro hist p data _ h
  cases h
  exact List.getLast?_concat

example : BuildMode { kdir := some cs!"linux", arch := some cs!"x86-64", build := true } := .inl rfl

end Verif
