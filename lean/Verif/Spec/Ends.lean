import Verif.Spec.Found
import Verif.Spec.EndToEnd
/-! # Specification: what keeps a run from ending (C107) -/
set_option autoImplicit false

namespace Verif.Spec

/-- the address is that of a byte of the file, and neither it nor any later byte of the file is zero -/
def Unterminated (e : Elf) (addr : Nat) : Prop :=
  ∃ off, e.vaddrToFileOffset addr = .ok off ∧ off < e.data.length ∧ ∀ b ∈ e.data.drop off, b ≠ 0

/-- neither the line (1-based, 0 counts as 1) nor any later one ends with a closing parenthesis, blanks aside -/
def Unclosed (lines : List Str) (line : Nat) : Prop :=
  ∀ i l, line - 1 ≤ i → lines[i]? = some l → (strip l).getLast? ≠ some ')'

/-- the banner of the kernel has no size, and no end -/
def EndlessBanner (e : Elf) : Prop :=
  ∃ sym, dget cs!"linux_banner" e.symbols = some sym ∧ sym.size = 0 ∧ Unterminated e sym.vaddr

/-- the image has ftrace metadata, and a string without an end -/
def EndlessName (e : Elf) : Prop :=
  (dget cs!"__start_syscalls_metadata" e.symbols).isSome = true ∧ ∃ addr, Unterminated e addr

/-- some definition of a syscall in the sources has no end -/
def EndlessDefinition (fs : Files) (a : Arch) : Prop :=
  ∃ sc f l lines, fs f = some lines ∧ l - 1 < lines.length ∧ Unclosed lines l ∧
    (Ident sc.origname → Ident sc.name → DefinedAt fs a sc f l)

/-- the commands that look for locations end -/
def Responds (w : LEnv) : Prop := (∀ l, w.addr2line l ≠ .error .hang) ∧ w.grep ≠ .error .hang

/-- what keeps an analysis from ending, after the commands `hist`: the image at the path given is loaded as `e`, and its banner, a
string in its metadata or (with KDIR) a definition in the sources has no end -/
def Endless (w : MWorld) (args : Args) (hist : List Run) : Prop :=
  ∃ p e, vmlinuxPath args = some p ∧ (∃ h, h <+: hist ∧ LoadedFrom w h p e) ∧
    (EndlessBanner e ∨ EndlessName e ∨
      ((pathOf args.kdir).isSome = true ∧ ∃ a, EndlessDefinition (w.locEnv hist).files a))

end Verif.Spec
