import Verif.Model.Location
/-! # The regular expressions of systrack as the texts they are in the code, and `re.compile`

The rest of the model uses expressions of type `Re`. Here they are the texts given to `re`, with names spliced in, and a reader of
such texts: a model of the Python runtime (trusted), after the documentation of `re` and the messages of `re.error`, for the part of
the syntax that the texts in the code use. Simplification: `{`, `(?`, `*?` and the like, `*` and `+` after a group, negated sets, and
escapes of letters and digits other than those below, which occur in no text of the code, are not read (`PatErr.unread`). -/
set_option autoImplicit false

namespace Verif

/-! ## `re.compile` -/

/-- why a text gives no expression -/
inductive PatErr where
  /-- `re.error` -/
  | reError
  /-- syntax outside the model -/
  | unread
  deriving DecidableEq, Repr

/-- one after the other -/
def catAll : List Re → Re
  | [] => .eps
  | r :: rs => .seq r (catAll rs)

/-- what was read since the last open parenthesis: its number, the alternatives before the last `|`, and the items after it, the
latest first -/
structure Frame where
  number : Nat
  alts : List Re
  items : List Re

/-- the expression of what was read since the last open parenthesis -/
def Frame.close (f : Frame) : Re := altRe ((catAll f.items.reverse :: f.alts).reverse)

/-- one more item -/
def Frame.push (f : Frame) (r : Re) : Frame := { f with items := r :: f.items }

/-- where the reader is -/
inductive Mode where
  | plain
  /-- after a backslash -/
  | escape
  /-- after `(` -/
  | opened
  /-- after `[` -/
  | set
  /-- in a set, which has these characters and, pending, this one -/
  | inSet (p : Char → Bool) (last : Option Char)
  /-- in a set, after a character and `-` -/
  | range (p : Char → Bool) (first : Char)
  /-- in a set, after a backslash -/
  | setEscape (p : Char → Bool)

/-- the state of the reader: the number of groups so far, the innermost open parenthesis (or the whole text), and those around it -/
structure Reader where
  mode : Mode
  groups : Nat
  top : Frame
  outer : List Frame

/-- one more item -/
def Reader.push (s : Reader) (r : Re) : Reader := { s with mode := .plain, top := s.top.push r }

/-- the last item is replaced; "nothing to repeat" without one and after `^`, `$` and `\b` -/
def Reader.repeat (s : Reader) (f : Re → Except PatErr Re) : Except PatErr Reader :=
  match s.top.items with
  | [] => .error .reError
  | .bol :: _ => .error .reError
  | .eol :: _ => .error .reError
  | .wordB :: _ => .error .reError
  | r :: rs =>
    match f r with
    | .error e => .error e
    | .ok r' => .ok { s with mode := .plain, top := { s.top with items := r' :: rs } }

/-- one character outside of sets and escapes -/
def Reader.plain (s : Reader) (c : Char) : Except PatErr Reader :=
  if c = '\\' then .ok { s with mode := .escape }
  else if c = '[' then .ok { s with mode := .set }
  else if c = '(' then .ok ⟨.opened, s.groups + 1, ⟨s.groups + 1, [], []⟩, s.top :: s.outer⟩
  else if c = ')' then
    match s.outer with
    | [] => .error .reError
    | f :: fs => .ok ⟨.plain, s.groups, f.push (.grp s.top.number s.top.close), fs⟩
  else if c = '|' then
    .ok { s with mode := .plain, top := { s.top with alts := catAll s.top.items.reverse :: s.top.alts, items := [] } }
  else if c = '*' then s.repeat fun | .chr p => .ok (.star p) | _ => .error .unread
  else if c = '+' then s.repeat fun | .chr p => .ok (.plus p) | _ => .error .unread
  else if c = '?' then s.repeat fun | .chr p => .ok (.opt (.chr p)) | .grp n r => .ok (.opt (.grp n r)) | _ => .error .unread
  else if c = '{' then .error .unread
  else if c = '.' then .ok (s.push (.chr notNewline))
  else if c = '^' then .ok (s.push .bol)
  else if c = '$' then .ok (s.push .eol)
  else .ok (s.push (.chr fun x => x == c))

/-- one character -/
def Reader.step (s : Reader) (c : Char) : Except PatErr Reader :=
  match s.mode with
  | .plain => s.plain c
  | .opened => if c = '?' then .error .unread else s.plain c
  | .escape =>
    if c = 'd' then .ok (s.push (.chr isDigit))
    else if c = 'w' then .ok (s.push (.chr isWord))
    else if c = 's' then .ok (s.push (.chr isSpace))
    else if c = 'S' then .ok (s.push (.chr fun x => !isSpace x))
    else if c = 'b' then .ok (s.push .wordB)
    else if c = 'n' then .ok (s.push (.chr fun x => x == '\n'))
    else if isWord c && c != '_' then .error .unread
    else .ok (s.push (.chr fun x => x == c))
  | .set =>
    if c = '^' ∨ c = ']' then .error .unread
    else if c = '\\' then .ok { s with mode := .setEscape fun _ => false }
    else .ok { s with mode := .inSet (fun x => x == c) (some c) }
  | .inSet p last =>
    if c = ']' then .ok (s.push (.chr p))
    else if c = '\\' then .ok { s with mode := .setEscape p }
    else if c = '-' then
      match last with
      | none => .error .unread
      | some l => .ok { s with mode := .range p l }
    else .ok { s with mode := .inSet (fun x => p x || x == c) (some c) }
  | .range p l =>
    if c = ']' ∨ c = '\\' then .error .unread
    else if c.toNat < l.toNat then .error .reError
    else .ok { s with mode := .inSet (fun x => p x || (l.toNat ≤ x.toNat && x.toNat ≤ c.toNat)) none }
  | .setEscape p =>
    if c = 'w' then .ok { s with mode := .inSet (fun x => p x || isWord x) none }
    else if c = 's' then .ok { s with mode := .inSet (fun x => p x || isSpace x) none }
    else if c = 'd' then .ok { s with mode := .inSet (fun x => p x || isDigit x) none }
    else if isWord c then .error .unread
    else .ok { s with mode := .inSet (fun x => p x || x == c) (some c) }

/-- at the end of the text: no open parenthesis, set or escape -/
def Reader.finish (s : Reader) : Except PatErr Re :=
  match s.mode, s.outer with
  | .plain, [] => .ok s.top.close
  | _, _ => .error .reError

/-- all characters of a text -/
def Reader.run (s : Reader) : Str → Except PatErr Reader
  | [] => .ok s
  | c :: cs =>
    match s.step c with
    | .error e => .error e
    | .ok s' => s'.run cs

/-- the beginning -/
def Reader.init : Reader := ⟨.plain, 0, ⟨0, [], []⟩, []⟩

/-- `re.compile(text)` -/
def compileRe (text : Str) : Except PatErr Re :=
  match Reader.init.run text with
  | .error e => .error e
  | .ok s => s.finish

/-! ## The texts -/

/-- elf.py:122 -/
def symbolPat : Str := cs!"\\d+:\\s+([0-9a-fA-F]+)\\s+(\\d+)\\s+(\\w+).+\\s+(\\S+)$"

/-- elf.py:94 -/
def sectionPat : Str := cs!"\\s([.\\w]+)\\s+(PROGBITS|NOBITS)\\s+([0-9a-fA-F]+)\\s+([0-9a-fA-F]+)\\s+([0-9a-fA-F]+)"

/-- kernel.py:87 -/
def versionPat : Str := cs!"(\\d+)\\.(\\d+)(\\.(\\d+))?"

/-- kernel.py:594 -/
def flagsPat : Str := cs!"^KBUILD_CFLAGS\\s*\\+=\\s*-O(2)\\n"

/-- arch_base.py:318-336, arm.py:153-161, mips.py:152-173, powerpc.py:346-352, x86.py:601-610 `syscall_def_regexp` -/
def Arch.defText (a : Arch) : Option Str → Option Str
  | some name =>
    match a.kind with
    | .arm =>
      if a.abi ≠ cs!"oabi" then none
      else if startsWith name cs!"sys_oabi_" then
        some (cs!"\\basmlinkage\\s*(unsigned\\s+)?\\w+\\s*" ++ name ++ cs!"\\s*\\(")
      else some (cs!"\\basmlinkage\\s*(unsigned\\s+)?\\w+\\s*sys_oabi_" ++ name ++ cs!"\\s*\\(")
    | .mips =>
      let exps :=
        if anyprefix name [cs!"sysm_", cs!"mipsmt_sys_"] then
          [cs!"\\basmlinkage\\s*(unsigned\\s+)?\\w+\\s*" ++ name ++ cs!"\\s*\\("]
        else [cs!"\\basmlinkage\\s*(unsigned\\s+)?\\w+\\s*(sysm|mipsmt_sys)_" ++ name ++ cs!"\\s*\\("]
      let exps :=
        if a.abi = cs!"n32" then
          if anyprefix name [cs!"sysn32_"] then exps ++ [cs!"\\basmlinkage\\s*(unsigned\\s+)?\\w+\\s*" ++ name ++ cs!"\\s*\\("]
          else exps ++ [cs!"\\basmlinkage\\s*(unsigned\\s+)?\\w+\\s*sysn32_" ++ name ++ cs!"\\s*\\("]
        else exps
      some (joinWith cs!"|" exps)
    | .powerpc =>
      if a.abi ≠ cs!"ppc32" then none
      else some (cs!"\\bPPC32_SYSCALL_DEFINE\\d\\s*\\(" ++ name ++ cs!"\\b")
    | .x86 =>
      if a.abi ≠ cs!"x32" then none
      else if startsWith name cs!"sys32_x32_" then
        some (cs!"\\basmlinkage\\s*(unsigned\\s+)?\\w+\\s*" ++ name ++ cs!"\\s*\\(")
      else some (cs!"\\basmlinkage\\s*(unsigned\\s+)?\\w+\\s*sys32_x32_" ++ name ++ cs!"\\s*\\(")
    | _ => none
  | none =>
    match a.kind with
    | .arm => if a.abi ≠ cs!"oabi" then none else some cs!"\\basmlinkage\\s*(unsigned\\s+)?\\w+\\s*sys_oabi_\\w+\\s*\\("
    | .mips =>
      let exps := [cs!"\\basmlinkage\\s*(unsigned\\s+)?\\w+\\s*(sysm|mipsmt_sys)_\\w+\\s*\\("]
      let exps := if a.abi = cs!"n32" then exps ++ [cs!"\\basmlinkage\\s*(unsigned\\s+)?\\w+\\s*sysn32_\\w+\\s*\\("] else exps
      some (joinWith cs!"|" exps)
    | .powerpc => if a.abi ≠ cs!"ppc32" then none else some cs!"\\bPPC32_SYSCALL_DEFINE\\d\\s*\\("
    | .x86 => if a.abi ≠ cs!"x32" then none else some cs!"\\basmlinkage\\s*(unsigned\\s+)?\\w+\\s*sys32_x32_\\w+\\s*\\("
    | _ => none

/-- location.py:145-150, 152 `f'{newstyle}|{oldstyle}'` -/
def definitionText (a : Arch) (name : Str) : Str :=
  (if a.compat then cs!"^(COMPAT_)?" else cs!"^") ++ cs!"SYSCALL(32)?_DEFINE\\d\\s*\\(" ++ name ++ cs!"\\b" ++ cs!"|" ++
    (cs!"^asmlinkage\\s*(unsigned\\s+)?\\w+\\s*sys(32)?_" ++ name ++ cs!"\\(")

/-- location.py:156-157 -/
def fullnameText (name : Str) : Str := cs!"^asmlinkage\\s*(unsigned\\s+)?\\w+\\s*" ++ name ++ cs!"\\s*\\("

/-- location.py:145-164 `good_definition`, with `re.match` compiling its text each time -/
def goodDefinitionT (a : Arch) (definition name : Str) : Except PatErr Bool := do
  let r ← compileRe (definitionText a name)
  if (r.match? definition).isSome then .ok true
  else do
    let full ←
      (if startsWith name cs!"sys_" then do
        let r ← compileRe (fullnameText name)
        .ok (r.match? definition).isSome
      else .ok false : Except PatErr Bool)
    if full then .ok true
    else match a.defText (some name) with
      | none => .ok false
      | some odd => do
        let r ← compileRe odd
        .ok (r.match? definition).isSome

/-- location.py:73-78 `base_exp` -/
def baseText (a : Arch) : Str :=
  if a.compat then cs!"\\b(COMPAT_)?SYSCALL(32)?_DEFINE\\d\\s*\\("
  else if a.bits32 then cs!"\\bSYSCALL(32)?_DEFINE\\d\\s*\\("
  else cs!"\\bSYSCALL_DEFINE\\d\\s*\\("

/-- location.py:80-84 `exp` -/
def grepText (a : Arch) : Str :=
  match a.defText none with
  | some oddstyle => cs!"(" ++ baseText a ++ cs!"|" ++ oddstyle ++ cs!")\\s*\\w+"
  | none => baseText a ++ cs!"\\s*\\w+"

/-- location.py:121 -/
def syscallGrepText (a : Arch) (origname : Str) : Str := cs!":" ++ baseText a ++ origname ++ cs!"[,)]"

end Verif
