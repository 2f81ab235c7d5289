import Verif.Spec.LocDiag
import Verif.Spec.EmuDiag
import Verif.Model.Whole
/-! # The record of a whole extraction -/
set_option autoImplicit false

namespace Verif.Spec

/-- the sources and the debug information that a run has -/
def Surroundings.sources (w : Surroundings) (row : Nat → Str) (a : Arch) (kdir : Path) : Sources := ⟨w.loc, row, a, kdir, w.rdir⟩

/-- what is shown while the locations of the syscalls `cands` are searched for, with the outcome `located` -/
inductive LocationsSaid (w : Surroundings) (row : Nat → Str) (a : Arch) (cands located : List Syscall) : List Said → Prop
  | noTool : w.loc.haveAddr2line = false →
      LocationsSaid w row a cands located [(.warning, some cs!"Command \"addr2line\" unavailable, skipping location info extraction")]
  | trusted : w.loc.haveAddr2line = true → w.kdir = none → (∃ sc ∈ located, sc.file ≠ none) →
      LocationsSaid w row a cands located [(.warning, some cs!"No kernel source available, trusting addr2line output for location info")]
  | nothing : w.loc.haveAddr2line = true → w.kdir = none → (∀ sc ∈ located, sc.file = none) →
      LocationsSaid w row a cands located
        [(.warning, some cs!"No kernel source available and no addr2line output, cannot extract location info")]
  | wrongDir (kdir : Path) : w.loc.haveAddr2line = true → w.kdir = some kdir → (Surroundings.sources w row a kdir).Hopeless cands →
      LocationsSaid w row a cands located
        [(.warning, some cs!"All the locations obtained from addr2line look bad, did you provide the correct KDIR?"),
         (.warning, some cs!"Skipping location information extraction")]
  | outside (kdir : Path) : w.loc.haveAddr2line = true → w.kdir = some kdir → ¬ (Surroundings.sources w row a kdir).Hopeless cands →
      (Surroundings.sources w row a kdir).Outside cands →
      LocationsSaid w row a cands located
        [(.error, some cs!"Cannot grep source code, debug info points outside provided kernel source directory")]
  | searched (kdir : Path) (hits : List Syscall) : w.loc.haveAddr2line = true → w.kdir = some kdir →
      ¬ (Surroundings.sources w row a kdir).Hopeless cands → ¬ (Surroundings.sources w row a kdir).Outside cands →
      hits.Perm (located.filter fun sc => sc.greppedLocation) → (hits.map Syscall.name).Pairwise (fun x y => strLe x y = true) →
      LocationsSaid w row a cands located (hits.map (saidGrepped kdir))

/-- what is shown while nothing is found: about the table, or about the code that stands for it -/
inductive NothingSaid (text : Insn → Str) (w : Surroundings) (a : Arch) (e : Elf) : List Said → Prop
  | table (t : Str) (s : List Said) : a.tableName = some t → TableSaid a e t [] s → NothingSaid text w a e s
  | silent : a.tableName = none →
      NothingSaid text w a e [(.warning, some cs!"No syscall table available! Trying my best...")]
  | code (t : Str) : a.tableName = none → said (extractVaddrsL text w.x86 a e).1 = [(.error, some t)] →
      NothingSaid text w a e [(.warning, some cs!"No syscall table available! Trying my best..."), (.error, some t)]

end Verif.Spec
