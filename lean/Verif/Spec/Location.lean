import Verif.Spec.Kernel
import Verif.Model.Location
/-! # Specifications for the location properties (C53-C60) -/
set_option autoImplicit false

namespace Verif.Spec

/-- a C identifier (not necessarily a valid start) -/
def Ident (s : Str) : Prop := s ≠ [] ∧ ∀ c ∈ s, isWord c = true

/-- the text does not go on with a word character -/
def NoWord (rest : Str) : Prop := ∀ c cs, rest = c :: cs → isWord c = false

/-- only blanks -/
def Blank (s : Str) : Prop := ∀ c ∈ s, isSpace c = true

/-- `MACROn (name...`: a use of a macro with one digit, whose first argument is `name` -/
def MacroUse (mac text name : Str) : Prop :=
  ∃ d ws rest, isDigit d = true ∧ Blank ws ∧ NoWord rest ∧ text = mac ++ [d] ++ ws ++ cs!"(" ++ name ++ rest

/-- what may be before a function name: `asmlinkage`, maybe `unsigned`, and a word (all blanks optional but the one
after `unsigned`) -/
def AsmHead (head : Str) : Prop :=
  ∃ ws1 uns ty ws2, Blank ws1 ∧ (uns = [] ∨ ∃ ws, ws ≠ [] ∧ Blank ws ∧ uns = cs!"unsigned" ++ ws) ∧ Ident ty ∧ Blank ws2 ∧
    head = cs!"asmlinkage" ++ ws1 ++ uns ++ ty ++ ws2

/-- the text is an old-style function head ending with `fn (`, blanks before the parenthesis allowed or not -/
def AsmText (text fn : Str) (blanks : Bool) : Prop :=
  ∃ head ws rest, AsmHead head ∧ Blank ws ∧ (blanks = false → ws = []) ∧ text = head ++ fn ++ ws ++ cs!"(" ++ rest

/-- the macros that define syscalls for an architecture -/
def macrosOf (a : Arch) : List Str :=
  [cs!"SYSCALL_DEFINE", cs!"SYSCALL32_DEFINE"] ++
  (if a.compat then [cs!"COMPAT_SYSCALL_DEFINE", cs!"COMPAT_SYSCALL32_DEFINE"] else []) ++
  (if a.kind = .powerpc ∧ a.abi = cs!"ppc32" then [cs!"PPC32_SYSCALL_DEFINE"] else [])

/-- the function names (without blanks before the parenthesis) that define the syscall `name` -/
def tightNames (name : Str) : List Str := [cs!"sys_" ++ name, cs!"sys32_" ++ name]

/-- the function names that architectures add for the syscall `name` -/
def archNames (a : Arch) (name : Str) : List Str :=
  match a.kind with
  | .arm => if a.abi = cs!"oabi" then (if cs!"sys_oabi_" <+: name then [name] else [cs!"sys_oabi_" ++ name]) else []
  | .x86 => if a.abi = cs!"x32" then (if cs!"sys32_x32_" <+: name then [name] else [cs!"sys32_x32_" ++ name]) else []
  | .mips =>
    (if cs!"sysm_" <+: name ∨ cs!"mipsmt_sys_" <+: name then [name] else [cs!"sysm_" ++ name, cs!"mipsmt_sys_" ++ name]) ++
    (if a.abi = cs!"n32" then (if cs!"sysn32_" <+: name then [name] else [cs!"sysn32_" ++ name]) else [])
  | _ => []

/-- all function names that define the syscall `name`, blanks before the parenthesis allowed -/
def oddNames (a : Arch) (name : Str) : List Str := (if cs!"sys_" <+: name then [name] else []) ++ archNames a name

/-- the text starts with a definition of the syscall `name` -/
def Defines (a : Arch) (text name : Str) : Prop :=
  (∃ m ∈ macrosOf a, MacroUse m text name) ∨ (∃ fn ∈ tightNames name, AsmText text fn false) ∨
    (∃ fn ∈ oddNames a name, AsmText text fn true)

/-- a good location: the file exists and its line (1-based) defines the syscall, under its original or reported name.
(Line 0, which addr2line can print, counts as line 1.) -/
def GoodAt (fs : Files) (a : Arch) (sc : Syscall) : Prop :=
  ∃ f l lines text, sc.file = some f ∧ sc.line = some l ∧ fs f = some lines ∧ lines[l - 1]? = some text ∧
    (Defines a text sc.origname ∨ Defines a text sc.name)

/-- a line that consists of one character and blanks after it -/
def OnlyChar (c : Char) (l : Str) : Prop := ∃ ws, l = c :: ws ∧ ∀ x ∈ ws, isBSpace x = true

/-- a line that can be a function signature: it starts with a character that is not a blank and not `#` -/
def SigLine (l : Str) : Prop := ∀ c cs, l = c :: cs → isBSpace c = false ∧ c ≠ '#'

/-- going up from line `line` (1-based), the first line that is a lone `{` or, above `line`, a lone `}`, is the `{` at
index `b` (0-based) -/
def BodyAt (lines : List Str) (line b : Nat) : Prop :=
  b < line ∧ (∃ l, lines[b]? = some l ∧ OnlyChar '{' l) ∧
  ∀ i, b < i → i < line → ∀ l, lines[i]? = some l → ¬ OnlyChar '{' l ∧ (i < line - 1 → ¬ OnlyChar '}' l)

/-- what the macros that grepping looks for start with -/
def grepStems (a : Arch) : List Str :=
  if a.compat then [cs!"SYSCALL", cs!"SYSCALL32", cs!"COMPAT_SYSCALL", cs!"COMPAT_SYSCALL32"]
  else if a.bits32 then [cs!"SYSCALL", cs!"SYSCALL32"]
  else [cs!"SYSCALL"]

/-- the row of grep output `...:MACROn (name,` or `...:MACROn (name)` of a standard macro -/
def RowOf (a : Arch) (row name : Str) : Prop :=
  ∃ pre stem d ws x rest, stem ∈ grepStems a ∧ isDigit d = true ∧ Blank ws ∧ (x = ',' ∨ x = ')') ∧
    row = pre ++ cs!":" ++ stem ++ cs!"_DEFINE" ++ [d] ++ ws ++ cs!"(" ++ name ++ [x] ++ rest

/-- rows under arch/ (their path starts with "arch") -/
def InArch (row : Str) : Prop := cs!"arch" <+: row

/-- how many of the wanted marks the row has -/
def marks (a : Arch) (row : Str) : Nat :=
  (if a.compat ∧ cs!"COMPAT" <:+: row then 1 else 0) + (if (a.compat ∨ a.bits32) ∧ cs!"SYSCALL32" <:+: row then 1 else 0)

/-- the node at a path below a directory -/
inductive At : List (Str × Node) → List Str → Node → Prop where
  | here (children : List (Str × Node)) (name : Str) (node : Node) : (name, node) ∈ children → At children [name] node
  | inside (children : List (Str × Node)) (name : Str) (sub : List (Str × Node)) (path : List Str) (node : Node) :
      (name, .dir sub) ∈ children → At sub path node → At children (name :: path) node

/-- directories whose files are not searched: the given top-level ones and the other architectures -/
def Skipped (a : Arch) (archs : List Str) (dir : List Str) : Prop :=
  (∃ d ∈ excludedTops, dir = [d]) ∨ ∃ x ∈ archs, x ≠ a.kind.name ∧ dir = [cs!"arch", x]

end Verif.Spec
