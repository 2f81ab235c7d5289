import Verif.Spec.Kconfig
import Verif.Spec.Elf
import Verif.Model.Kernel
/-! # Specifications for the kernel properties (C17, C18, C21, C22, C29-C37) -/
set_option autoImplicit false

namespace Verif.Spec

/-- a non-empty string of decimal digits -/
def Digits (s : Str) : Prop := s ≠ [] ∧ ∀ c ∈ s, '0' ≤ c ∧ c ≤ '9'

/-- the number written by decimal digits, most significant first -/
def decimal (s : Str) : Nat := s.foldl (fun n c => 10 * n + (c.toNat - '0'.toNat)) 0

/-- the text does not go on with a digit -/
def NoDigit (rest : Str) : Prop := ∀ c cs, rest = c :: cs → ¬ ('0' ≤ c ∧ c ≤ '9')

/-- a table of words as it is laid out in the file -/
def encTable (big : Bool) (n : Nat) (xs : List Nat) : Bytes := xs.flatMap (encUint big n)

/-- the address is inside the section -/
def PointsInto (s : Section) (va : Nat) : Prop := s.vaddr ≤ va ∧ va < s.vaddr + s.size

/-- the file holds `v`, as a word of `n` bytes, at offset `off` -/
def WordAt (big : Bool) (n : Nat) (data : Bytes) (off v : Nat) : Prop :=
  v < 256 ^ n ∧ ∃ pre post, pre.length = off ∧ data = pre ++ encUint big n v ++ post

/-- the syscall with another location, all else unchanged -/
def Relocated (sc sc' : Syscall) : Prop :=
  sc' = { sc with file := sc'.file, line := sc'.line, goodLocation := sc'.goodLocation,
                  greppedLocation := sc'.greppedLocation }

/-- the syscall with another signature, all else unchanged -/
def Resigned (sc sc' : Syscall) : Prop := sc' = { sc with signature := sc'.signature }

/-- a syscall whose location was not looked for yet -/
def Unlocated (sc : Syscall) : Prop := sc.file = none ∧ sc.line = none ∧ sc.goodLocation = false ∧ sc.greppedLocation = false

/-- What is assumed of the parts of the extraction that are parameters of the model: a set is iterated in some
order, table indices are dict keys, finding locations only changes locations. -/
structure EnvOk (env : KEnv) (e : Elf) : Prop where
  order : (env.niOrder e.niSyscalls).Perm e.niSyscalls
  keys : ∀ l, env.archVaddrs e = .ok l → (l.map Prod.fst).Nodup
  locate : ∀ l l', env.locate l = .ok l' → List.Forall₂ Relocated l l'

/-- a ni_syscall function of the ELF -/
def IsNi (e : Elf) (s : Symbol) : Prop := s ∈ e.functions.map Prod.snd ∧ symbolIsNi s = true

/-- the location of the syscall could not be confirmed and is in kernel/sys_ni.c (relative to the sources) -/
def BadNi (kdir : Option Path) (sc : Syscall) : Prop :=
  sc.esoteric = false ∧ sc.goodLocation = false ∧
    ∃ f r, sc.file = some f ∧ maybeRel f kdir = .ok r ∧ [cs!"kernel", cs!"sys_ni.c"] <:+ r.parts

/-- how many table entries resolve to the symbol -/
def uses (by_ : Nat → Option Symbol) (entries : List (Nat × Nat)) (s : Symbol) : Nat :=
  entries.countP fun p => by_ p.2 == some s

/-- the table entry with index `i` is implemented: it has a symbol, which is not a ni_syscall, the ABI does not skip the
entry and the code is not a dummy -/
def Implemented (a : Arch) (e : Elf) (chosen : Nat → Option Symbol) (ref : Option Symbol) (code : Option Bytes)
    (entries : List (Nat × Nat)) (i : Nat) (sym : Symbol) (num : Nat) : Prop :=
  ∃ va, (i, va) ∈ entries ∧ chosen va = some sym ∧ ¬ IsNi e sym ∧ a.slot i = some num ∧
    a.isDummy sym e ref code = .ok false

end Verif.Spec
