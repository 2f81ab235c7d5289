import Verif.Spec.Origin
/-! # Specification: which locations are found (C104) -/
set_option autoImplicit false

namespace Verif.Spec

/-- line `l` of the file is a definition of the syscall, under its original or reported name (line 0 counts as line 1) -/
def DefinedAt (fs : Files) (a : Arch) (sc : Syscall) (f : Path) (l : Nat) : Prop :=
  ∃ lines text, fs f = some lines ∧ lines[l - 1]? = some text ∧ (Defines a text sc.origname ∨ Defines a text sc.name)

/-- the addresses of the code that are asked about, in order: the first, the last, then the inner ones but the last of them -/
def askedAddrs (s : Symbol) : List Nat :=
  s.realVaddr :: ((if 1 < s.size then [s.realVaddr + s.size - 1] else []) ++
    (List.range (s.size - 3)).map fun i => s.realVaddr + 1 + i)

/-- what is looked at: the outside world, what addr2line says about each address, the architecture, KDIR and RDIR -/
structure Sources where
  w : LEnv
  row : Nat → Str
  a : Arch
  kdir : Path
  rdir : Option Path

/-- the debug information about the address leads to line `l` of the existing file `f` -/
def Sources.Leads (x : Sources) (addr : Nat) (f : Path) (l : Nat) : Prop :=
  FromDebugInfo x.w x.row x.kdir x.rdir addr f (some l)

/-- the debug information about the address leads to a definition of the syscall -/
def Sources.Confirms (x : Sources) (sc : Syscall) (addr : Nat) (f : Path) (l : Nat) : Prop :=
  x.Leads addr f l ∧ DefinedAt x.w.files x.a sc f l

/-- for the special syscalls of an architecture, any line of an existing file will do -/
def Sources.Enough (x : Sources) (sc : Syscall) : Prop :=
  sc.esoteric = true ∧ ∃ f l, x.Leads sc.symbol.realVaddr f l

/-- the first of the addresses asked about that leads to a definition leads to `f`, line `l` -/
def Sources.First (x : Sources) (sc : Syscall) (f : Path) (l : Nat) : Prop :=
  ∃ before addr after, askedAddrs sc.symbol = before ++ addr :: after ∧ x.Confirms sc addr f l ∧
    ∀ b ∈ before, ∀ f' l', ¬ x.Confirms sc b f' l'

/-- the debug information does not give the location of the syscall: it has to be searched for in the sources -/
def Sources.Wanted (x : Sources) (sc : Syscall) : Prop :=
  ¬ x.Enough sc ∧ ∀ addr ∈ askedAddrs sc.symbol, ∀ f l, ¬ x.Confirms sc addr f l

/-- there are syscalls, and the first address is of no use for any of them, though all have more addresses -/
def Sources.Hopeless (x : Sources) (scs : List Syscall) : Prop :=
  scs ≠ [] ∧ ∀ sc ∈ scs, ¬ x.Enough sc ∧ (∀ f l, ¬ x.Confirms sc sc.symbol.realVaddr f l) ∧ 1 < sc.symbol.size

/-- the debug information about the first address of some syscall leads to a file that is not in KDIR (with links resolved in
KDIR only) -/
def Sources.Outside (x : Sources) (scs : List Syscall) : Prop :=
  ∃ sc ∈ scs, ∃ f l, x.Leads sc.symbol.realVaddr f l ∧ ¬ ∃ rest, Below (x.w.resolve x.kdir) f rest

/-- the syscall with the location `f`, line `l`, confirmed -/
def LocatedAt (sc0 sc : Syscall) (f : Path) (l : Nat) (grepped : Bool) : Prop :=
  sc = { sc0 with file := some f, line := some l, goodLocation := true, greppedLocation := grepped }

end Verif.Spec
