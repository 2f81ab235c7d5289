import Verif.Spec.Output
import Verif.Spec.Kernel
import Verif.Spec.Main
import Verif.Spec.Origin
import Verif.Spec.X86Emu
/-! # Specification of a whole run (C88, C91) -/
set_option autoImplicit false

namespace Verif.Spec

/-- the JSON object has this member -/
def Member (j : Json) (name : Str) (v : Json) : Prop := ∃ l, j = .obj l ∧ (name, v) ∈ l

/-- the object of a syscall found at an index of the table -/
def ListedAs (j : Json) (index number : Nat) (symbol : Str) : Prop :=
  Member j cs!"index" (.num index) ∧ Member j cs!"number" (.num number) ∧ Member j cs!"symbol" (.str symbol) ∧
  Member j cs!"esoteric" (.bool false)

/-- what is true of Python sets, for the parameters of the model: a set is iterated in some order -/
structure Pythonic (w : MWorld) : Prop where
  set : ∀ l, (w.niOrder l).Perm l
  orders : OrdersOk w.x86

/-- the world in which locations are looked for: that after the commands run so far, with the image at `p` -/
def locWorld (w : MWorld) (hist : List Run) (p : Path) : LEnv :=
  { w.locEnv hist with haveAddr2line := w.available hist cs!"addr2line", elfPath := p }

/-- the location of `sc` is that of `l`, with the path as it should be printed -/
def SameLocation (args : Args) (l sc : Syscall) : Prop :=
  sc.line = l.line ∧ sc.goodLocation = l.goodLocation ∧ sc.greppedLocation = l.greppedLocation ∧
  match pathOf args.kdir, args.absolutePaths, l.file, sc.file with
  | _, _, none, none => True
  | some kdir, false, some f, some g => Shown kdir f g
  | none, _, some f, some g => g = f
  | _, true, some f, some g => g = f
  | _, _, _, _ => False

/-- What a successful analysis did. `p` is the image, `e` its content, `entries` the indices and addresses in the table
(C29-C31, C39), `ref` and `code` the reference for dummies, `cands` the syscalls whose locations were looked for, `located` the
same with the locations found, `scs` what was printed. -/
structure Analysed (w : MWorld) (args : Args) (p : Path) (e : Elf) (a0 : Arch) (ver : Ver) (hist : List Run)
    (entries : List (Nat × Nat)) (ref : Option Symbol) (code : Option Bytes) (cands located scs : List Syscall) : Prop where
  image : vmlinuxPath args = some p ∧ ∃ h, LoadedFrom w h p e
  kernel : GoodKernel (args.arch.map lower) e a0 ver
  table : tableEntries (a0.adjustAbi e) e (kenvOf w hist a0 e p (pathOf args.kdir) (pathOf args.remap)) = .ok entries
  someEntry : entries ≠ []
  /-- no entry is a ni_syscall, there is no reference -/
  noRef : ref = none → code = none ∧
    ∀ q ∈ entries, ∀ x, dget q.2 (symbolsByVaddr (a0.adjustAbi e) e (w.niOrder e.niSyscalls) (entries.map Prod.snd)) = some x → ¬ IsNi e x
  /-- or it is a ni_syscall used most often in the table -/
  isRef : ∀ r, ref = some r → IsNi e r ∧
    (let used := uses (fun va => dget va (symbolsByVaddr (a0.adjustAbi e) e (w.niOrder e.niSyscalls) (entries.map Prod.snd))) entries
     0 < used r ∧ ∀ x, IsNi e x → used x ≤ used r) ∧ ∃ c, e.readSymbol r = .ok c ∧ code = some c
  /-- all implemented entries are candidates, and no other index -/
  candidates : ∀ i sym num, (∃ sc ∈ cands, sc.index = some i ∧ sc.symbol = sym ∧ sc.number = num) ↔
    Implemented (a0.adjustAbi e) e (fun va => dget va (symbolsByVaddr (a0.adjustAbi e) e (w.niOrder e.niSyscalls) (entries.map Prod.snd)))
      ref code entries i sym num
  unlocated : ∀ sc ∈ cands, Unlocated sc
  locations : extractLocations (locWorld w hist p) (a0.adjustAbi e) (pathOf args.kdir) (pathOf args.remap) cands = .ok located
  /-- printed: the implemented entries, but those only located in kernel/sys_ni.c -/
  printed : ∀ i sym num, (∃ sc ∈ scs, sc.index = some i ∧ sc.symbol = sym ∧ sc.number = num) ↔
    Implemented (a0.adjustAbi e) e (fun va => dget va (symbolsByVaddr (a0.adjustAbi e) e (w.niOrder e.niSyscalls) (entries.map Prod.snd)))
      ref code entries i sym num ∧ ∃ sc ∈ located, sc.index = some i ∧ ¬ BadNi (pathOf args.kdir) sc
  esoteric : ∀ sc ∈ scs, sc.index = none ↔ sc.esoteric = true
  increasing : (scs.filter fun sc => !sc.esoteric).Pairwise fun x y => x.number < y.number
  /-- each with the location found for that index and symbol -/
  same : ∀ sc ∈ scs, ∃ l ∈ located, l.index = sc.index ∧ l.number = sc.number ∧ l.symbol = sc.symbol ∧ l.name = sc.name ∧
    l.origname = sc.origname ∧ l.esoteric = sc.esoteric ∧ SameLocation args l sc
  nonempty : scs ≠ []

/-- `addr2line` prints one row per address, at any time -/
def OneRowEach (w : MWorld) : Prop := ∀ hist, ∃ row : Nat → Str, ∀ addrs rows, (w.locEnv hist).addr2line addrs = .ok rows → rows = addrs.map row

/-- what justifies the location of a syscall: with sources, C89; without sources, the debug information about its first address;
without addr2line there is none -/
def Justified (w : LEnv) (row : Nat → Str) (a : Arch) (kdir rdir : Option Path) (l : Syscall) : Prop :=
  match w.haveAddr2line, kdir with
  | false, _ => l.file = none ∧ l.line = none ∧ l.goodLocation = false
  | true, none => RowSays (row l.symbol.realVaddr) l.file l.line ∧ l.goodLocation = false
  | true, some k => Origin w row a k rdir l

end Verif.Spec
