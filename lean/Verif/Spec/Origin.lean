import Verif.Spec.Location
/-! # Specification: where a location comes from (C89, C90) -/
set_option autoImplicit false

namespace Verif.Spec

/-- `addr2line` prints one row for each address -/
def RowPerAddress (w : LEnv) (row : Nat → Str) : Prop := ∀ addrs rows, w.addr2line addrs = .ok rows → rows = addrs.map row

/-- what a row `file:line` says; `??` is an unknown file, a line that is not a number is unknown -/
def RowSays (row : Str) (file : Option Path) (line : Option Nat) : Prop :=
  ∃ f l, ':' ∉ f ∧ ':' ∉ l ∧ row = f ++ cs!":" ++ l ∧
    ((f = cs!"??" ∧ file = none ∧ line = none) ∨
      (f ≠ cs!"??" ∧ file = some (parsePath f) ∧ ((Digits l ∧ line = some (decimal l)) ∨ (¬ Digits l ∧ line = none))))

/-- `p` is `rest` below the directory -/
def Below (dir p : Path) (rest : List Str) : Prop := p = ⟨dir.abs, dir.parts ++ rest⟩

/-- The source file for a path in the debug information: paths below the directory of the image are taken below KDIR, then
paths below RDIR (if given) are taken below KDIR, and what is still relative is taken as relative to KDIR. -/
def SourceOf (elf kdir : Path) (rdir : Option Path) (p q : Path) : Prop :=
  ∃ p1, ((∃ rest, Below elf.parent p rest ∧ Below kdir p1 rest) ∨ ((¬ ∃ rest, Below elf.parent p rest) ∧ p1 = p)) ∧
    ((∃ r rest, rdir = some r ∧ Below r p1 rest ∧ Below kdir q rest) ∨
      ((¬ ∃ r rest, rdir = some r ∧ Below r p1 rest) ∧
        ((p1.abs = true ∧ q = p1) ∨ (p1.abs = false ∧ Below kdir q p1.parts))))

/-- The location is the one of an address in the debug information, the line moved up to the signature of the function
(C55); there is no line if the file does not exist or its line is not known. -/
def FromDebugInfo (w : LEnv) (row : Nat → Str) (kdir : Path) (rdir : Option Path) (addr : Nat) (f : Path) (line : Option Nat) : Prop :=
  ∃ p n, RowSays (row addr) (some p) n ∧ SourceOf w.elfPath kdir rdir p f ∧
    (((w.files f = none ∨ n = none) ∧ line = none) ∨
      ∃ lines l l', w.files f = some lines ∧ n = some l ∧ line = some l' ∧ adjustLine w.files f l = .ok l')

/-- The location is that of a row `file:line:...` found in the sources, which uses a macro that defines the syscall. -/
def FromGrep (w : LEnv) (a : Arch) (kdir : Path) (name : Str) (f : Path) (line : Option Nat) : Prop :=
  ∃ rows file l rest, w.grep = .ok rows ∧ (file ++ cs!":" ++ l ++ rest) ∈ rows ∧ ':' ∉ file ∧ Digits l ∧
    (rest = [] ∨ ∃ text, rest = ':' :: text) ∧ f = kdir.join (parsePath file) ∧ line = some (decimal l) ∧
    (Ident name → RowOf a (file ++ cs!":" ++ l ++ rest) name)

/-- the address is one of the code of the symbol (its first one in any case) -/
def InCode (s : Symbol) (addr : Nat) : Prop :=
  addr = s.realVaddr ∨ (s.realVaddr < addr ∧ addr < s.realVaddr + s.size)

/-- where the location of a syscall comes from, with kernel sources in `kdir` -/
structure Origin (w : LEnv) (row : Nat → Str) (a : Arch) (kdir : Path) (rdir : Option Path) (sc : Syscall) : Prop where
  /-- no file: the debug information has none for the symbol -/
  missing : sc.file = none → sc.line = none ∧ sc.goodLocation = false ∧ RowSays (row sc.symbol.realVaddr) none none
  /-- doubtful: what the debug information says about the first address -/
  doubtful : ∀ f, sc.file = some f → sc.goodLocation = false → FromDebugInfo w row kdir rdir sc.symbol.realVaddr f sc.line
  /-- confirmed: what the debug information says about some address in its code -/
  confirmed : ∀ f, sc.file = some f → sc.goodLocation = true → sc.greppedLocation = false →
    ∃ addr, InCode sc.symbol addr ∧ FromDebugInfo w row kdir rdir addr f sc.line
  /-- grepped: a row found in the sources for its name -/
  grepped : sc.greppedLocation = true → ∃ f, sc.file = some f ∧ FromGrep w a kdir sc.origname f sc.line

/-- The file meant by a path in the debug information: below the directory of the image, or else below RDIR, it stands for the
same file below KDIR; other absolute paths stand for themselves, relative ones start at KDIR. -/
def MeantBy (elf kdir : Path) (rdir : Option Path) (p q : Path) : Prop :=
  (∃ rest, Below elf.parent p rest ∧ Below kdir q rest) ∨
  ((¬ ∃ rest, Below elf.parent p rest) ∧
    ((∃ r rest, rdir = some r ∧ Below r p rest ∧ Below kdir q rest) ∨
      ((¬ ∃ r rest, rdir = some r ∧ Below r p rest) ∧
        ((p.abs = true ∧ q = p) ∨ (p.abs = false ∧ Below kdir q p.parts)))))

/-- KDIR is absolute or the current directory -/
def Rooted (kdir : Path) : Prop := kdir.abs = true ∨ kdir.parts = []

/-- nothing below KDIR is below RDIR -/
def Apart (kdir rdir : Path) : Prop := ∀ q rest rest', Below kdir q rest → ¬ Below rdir q rest'

end Verif.Spec
