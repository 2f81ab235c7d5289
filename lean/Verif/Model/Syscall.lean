import Verif.Model.Elf
/-! # Model of /repo/src/systrack/syscall.py -/
set_option autoImplicit false

namespace Verif

/-- syscall.py:7-32 `Syscall` -/
structure Syscall where
  index : Option Nat
  number : Nat
  name : Str
  origname : Str
  symbol : Symbol
  kconfig : Option Str
  file : Option Path
  line : Option Nat
  signature : Option (List Str)
  esoteric : Bool
  goodLocation : Bool
  greppedLocation : Bool
  deriving DecidableEq, Repr

/-- syscall.py:18-32 `Syscall(index, number, name, origname, symbol, kconfig)` -/
def Syscall.new (index : Option Nat) (number : Nat) (name origname : Str) (symbol : Symbol) (kconfig : Option Str) : Syscall :=
  ⟨index, number, name, origname, symbol, kconfig, none, none, none, false, false, false⟩

/-- syscall.py:54 `len(n) >= l and n[l - 1] == '_'` (`l` is at least 2) -/
def isCandidate (l : Nat) (n : Str) : Bool := decide (n.length ≥ l) && (n[l - 1]? == some '_')

/-- syscall.py:54-59 the body of the loop for one length: what is appended to `res`. The keys of a `Counter`
are in order of first insertion. -/
def prefixesOfLen (names : List Str) (threshold l : Nat) : List Str :=
  let candidates := names.filter (isCandidate l)
  if candidates.length < threshold then []
  else
    let cut := candidates.map (List.take l)
    cut.eraseDups.filter (fun n => decide (cut.count n ≥ threshold))

/-- the values of `range(n + 1, 1, -1)` -/
def downTo2 : Nat → List Nat
  | 0 => []
  | n + 1 => (n + 2) :: downTo2 n

/-- syscall.py:43-61 `common_syscall_symbol_prefixes`; `max()` of an empty list is a ValueError.
`range(m, 1, -1)` is `downTo2 (m - 1)`. -/
def commonPrefixes (names : List Str) (threshold : Nat) : Res (List Str) :=
  match (names.map List.length).max? with
  | none => .error .value
  | some m => .ok ((downTo2 (m - 1)).flatMap (prefixesOfLen names threshold))

end Verif
