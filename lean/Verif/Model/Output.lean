import Verif.Model.Kernel
import Verif.Model.Location
/-! # Model of /repo/src/systrack/output.py and templates/syscall_table.html -/
set_option autoImplicit false

namespace Verif

/-! ## Python formatting -/

/-- `hex(n)` -/
def hexStr (n : Nat) : Str := cs!"0x" ++ Nat.toDigits 16 n

/-- `n` spaces -/
def spaces (n : Nat) : Str := List.replicate n ' '

/-- `s.ljust(w)` -/
def ljust (s : Str) (w : Nat) : Str := s ++ spaces (w - s.length)

/-- `f'{n:-3d}'` for a natural number: right aligned in three columns -/
def fmt3d (n : Nat) : Str := spaces (3 - (natRepr n).length) ++ natRepr n

/-! ## Text -/

/-- output.py:31-34 the header row -/
def textHeader : List Str :=
  [cs!"INDEX", cs!"NUMBER", cs!"NAME", cs!"ORIG NAME", cs!"SYMBOL", cs!"LOCATION", cs!"KCONFIG", cs!"SIGNATURE"]

/-- output.py:43-48 `loc`. A `Path` is always true, an `int` is true when not 0. -/
def textLocBase (sc : Syscall) : Str :=
  match sc.file, sc.line with
  | some f, some (n + 1) => f.str ++ cs!":" ++ natRepr (n + 1)
  | some f, _ => f.str
  | none, _ => []

/-- output.py:50-51 -/
def textLoc (sc : Syscall) : Str :=
  let loc := textLocBase sc
  if loc ≠ [] ∧ sc.goodLocation = false then cs!"(?) " ++ loc else loc

/-- output.py:60 `sc.kconfig.replace('CONFIG_', '') if sc.kconfig else ''` -/
def textKconfig (sc : Syscall) : Str :=
  match sc.kconfig with
  | none => []
  | some k => if k = [] then [] else replaceAll k cs!"CONFIG_" []

/-- output.py:61 -/
def textSignature (sc : Syscall) : Str :=
  match sc.signature with
  | none => cs!"?"
  | some [] => cs!"void"
  | some sig => joinWith cs!", " sig

/-- output.py:53-62 the row of one syscall -/
def textRow (sc : Syscall) : List Str :=
  [match sc.index with
    | some i => fmt3d i
    | none => cs!"-  ",
   hexStr sc.number, sc.name, if sc.origname ≠ sc.name then sc.origname else [], sc.symbol.name, textLoc sc,
   textKconfig sc, textSignature sc]

/-- output.py:36-62 the loop: `none` is a blank line. `sc.number - prevnum > 1` on integers is
`prevnum + 1 < sc.number`. -/
def textRows : Nat → List Syscall → List (Option (List Str))
  | _, [] => []
  | prev, sc :: scs =>
    (if prev + 1 < sc.number then [none] else []) ++ some (textRow sc) :: textRows sc.number scs

/-- `row[i]` of the rows of the table; all rows have the same length, so the default is never used -/
def cellLen (i : Nat) (row : Option (List Str)) : Nat :=
  match row with
  | none => 0
  | some r => match r[i]? with
    | some c => c.length
    | none => 0

/-- output.py:64 `widths` -/
def textWidths (table : List (Option (List Str))) : List Nat :=
  (List.range textHeader.length).map fun i => (table.map (cellLen i)).foldl max 0

/-- output.py:67-71 what one `print` writes, without the newline -/
def textLine (spacing : Nat) (widths : List Nat) : Option (List Str) → Str
  | none => []
  | some row => joinWith (spaces spacing) (List.zipWith ljust row widths)

/-- output.py:29-73 `output_syscalls_text`: the lines printed, `syscalls[0]` of an empty list is an IndexError -/
def textLines (spacing : Nat) (scs : List Syscall) : Res (List Str) :=
  match scs with
  | [] => .error .index
  | sc :: _ =>
    let table := some textHeader :: textRows sc.number scs
    let widths := textWidths table
    .ok (table.map (textLine spacing widths))

/-- the text written to standard output: each `print` ends with a newline -/
def outputText (scs : List Syscall) : Res Str :=
  match textLines 2 scs with
  | .error e => .error e
  | .ok lines => .ok (lines.flatMap (· ++ cs!"\n"))

/-! ## JSON -/

/-- the values the `json` module receives -/
inductive Json where
  | null
  | bool (b : Bool)
  | num (n : Nat)
  | str (s : Str)
  | arr (l : List Json)
  | obj (l : List (Str × Json))

/-- `None` or a number -/
def Json.optNum : Option Nat → Json
  | none => .null
  | some n => .num n

/-- `None` or a string -/
def Json.optStr : Option Str → Json
  | none => .null
  | some s => .str s

/-- `None` or a list of strings -/
def Json.optStrs : Option (List Str) → Json
  | none => .null
  | some l => .arr (l.map .str)

/-- syscall.py:11-16 `__slots__` with the values of the attributes; a `Path` goes through output.py:24-25 -/
def slots (sc : Syscall) : List (Str × Json) :=
  [(cs!"index", .optNum sc.index), (cs!"number", .num sc.number), (cs!"name", .str sc.name),
   (cs!"origname", .str sc.origname), (cs!"symbol", .null), (cs!"file", .optStr (sc.file.map Path.str)),
   (cs!"line", .optNum sc.line), (cs!"signature", .optStrs sc.signature), (cs!"esoteric", .bool sc.esoteric),
   (cs!"good_location", .bool sc.goodLocation), (cs!"grepped_location", .bool sc.greppedLocation),
   (cs!"kconfig", .optStr sc.kconfig)]

/-- output.py:14-22 `SyscallJSONEncoder.default` of a `Syscall`. In `slots` the symbol is a placeholder: line 18
overwrites it before it is looked at. -/
def syscallJson (sc : Syscall) : Json :=
  let d := dset cs!"symbol" (.str sc.symbol.name) (slots sc)
  match sc.kconfig with
  | some (c :: cs) => .obj (dset cs!"kconfig" (.str (noprefix (c :: cs) [cs!"CONFIG_"])) d)
  | _ => .obj d

/-- What `output_syscalls` reads from the `Kernel` object. -/
structure KernelInfo where
  version : Ver
  versionSource : Str
  arch : Arch
  syscalls : List Syscall

/-- `32 if b else 64` -/
def bitsOf (b : Bool) : Nat := if b then 32 else 64

/-- version.py:1 -/
def systrackVersion : Str := cs!"0.7"

/-- output.py:76-97 `data`; `version_tag` may raise -/
def jsonData (k : KernelInfo) : Res Json := do
  let tag ← versionTag k.version
  .ok (.obj [
    (cs!"systrack_version", .str systrackVersion),
    (cs!"kernel", .obj [
      (cs!"version", .str tag),
      (cs!"version_source", .str k.versionSource),
      (cs!"architecture", .obj [(cs!"name", .str k.arch.kind.name), (cs!"bits", .num (bitsOf k.arch.bits32))]),
      (cs!"abi", .obj [
        (cs!"name", .str k.arch.abi),
        (cs!"compat", .bool k.arch.compat),
        (cs!"bits", .num (bitsOf k.arch.abiBits32)),
        (cs!"calling_convention", .obj [
          (cs!"syscall_nr", .optStr k.arch.numReg),
          (cs!"parameters", .optStrs k.arch.argRegs)])]),
      (cs!"syscall_table_symbol", .optStr k.arch.tableName)]),
    (cs!"syscalls", .arr (k.syscalls.map syscallJson))])

/-- `sorted(d.items())`: by key, the keys of a `dict` being distinct -/
def sortItems (l : List (Str × Json)) : List (Str × Json) := sortBy (fun a b => strLe a.1 b.1) l

mutual
/-- the effect of `sort_keys=True` -/
def Json.sortKeys : Json → Json
  | .arr l => .arr (sortKeysArr l)
  | .obj l => .obj (sortItems (sortKeysObj l))
  | j => j
/-- its elements -/
def sortKeysArr : List Json → List Json
  | [] => []
  | j :: l => j.sortKeys :: sortKeysArr l
/-- its members -/
def sortKeysObj : List (Str × Json) → List (Str × Json)
  | [] => []
  | (k, j) :: l => (k, j.sortKeys) :: sortKeysObj l
end

/-- `'\\u{0:04x}'.format(n)` -/
def uEscape (n : Nat) : Str :=
  let h := Nat.toDigits 16 n
  cs!"\\u" ++ List.replicate (4 - h.length) '0' ++ h

/-- CPython `json.encoder.py_encode_basestring_ascii`, one character: named escapes, printable ASCII as it
is, else one `\u` escape or a surrogate pair -/
def jsonEscape (c : Char) : Str :=
  if c = '"' then cs!"\\\""
  else if c = '\\' then cs!"\\\\"
  else if c = '\n' then cs!"\\n"
  else if c = '\r' then cs!"\\r"
  else if c = '\t' then cs!"\\t"
  else if c = '\x0c' then cs!"\\f"
  else if c = '\x08' then cs!"\\b"
  else if 32 ≤ c.toNat ∧ c.toNat ≤ 126 then [c]
  else if c.toNat < 0x10000 then uEscape c.toNat
  else
    let n := c.toNat - 0x10000
    uEscape (0xd800 + n / 0x400 % 0x400) ++ uEscape (0xdc00 + n % 0x400)

/-- a string literal -/
def jsonStr (s : Str) : Str := cs!"\"" ++ s.flatMap jsonEscape ++ cs!"\""

/-- `'\n' + indent * level` with `indent='\t'` -/
def nl (level : Nat) : Str := '\n' :: List.replicate level '\t'

mutual
/-- CPython `json.encoder._make_iterencode` with `indent='\t'` -/
def Json.dump (level : Nat) : Json → Str
  | .null => cs!"null"
  | .bool b => if b then cs!"true" else cs!"false"
  | .num n => natRepr n
  | .str s => jsonStr s
  | .arr [] => cs!"[]"
  | .arr (j :: l) => cs!"[" ++ nl (level + 1) ++ j.dump (level + 1) ++ dumpTail (level + 1) l ++ nl level ++ cs!"]"
  | .obj [] => cs!"{}"
  | .obj ((k, j) :: l) =>
    cs!"{" ++ nl (level + 1) ++ jsonStr k ++ cs!": " ++ j.dump (level + 1) ++ dumpMembers (level + 1) l ++ nl level ++ cs!"}"
/-- the elements after the first -/
def dumpTail (level : Nat) : List Json → Str
  | [] => []
  | j :: l => cs!"," ++ nl level ++ j.dump level ++ dumpTail level l
/-- the members after the first -/
def dumpMembers (level : Nat) : List (Str × Json) → Str
  | [] => []
  | (k, j) :: l => cs!"," ++ nl level ++ jsonStr k ++ cs!": " ++ j.dump level ++ dumpMembers level l
end

/-- output.py:75-99 `output_syscalls_json`: the text written -/
def outputJson (k : KernelInfo) : Res Str := do
  let d ← jsonData k
  .ok (d.sortKeys.dump 0)

/-! ## HTML

The template is rendered line by line as Jinja2 does with `line_statement_prefix='#'` and `autoescape=True`:
a line statement leaves nothing, every other line stays with its indentation. The included files
`syscall_table.css` and `syscall_table.js` are parameters. -/

/-- `markupsafe.escape` -/
def htmlEscapeChar (c : Char) : Str :=
  if c = '&' then cs!"&amp;"
  else if c = '>' then cs!"&gt;"
  else if c = '<' then cs!"&lt;"
  else if c = '\'' then cs!"&#39;"
  else if c = '"' then cs!"&#34;"
  else [c]

/-- `{{s}}` with autoescape -/
def htmlEscape (s : Str) : Str := s.flatMap htmlEscapeChar

/-- output.py:111 `max_args`; `max()` of nothing is a ValueError -/
def maxArgs (scs : List Syscall) : Res Nat :=
  match ((scs.filterMap Syscall.signature).map List.length).max? with
  | none => .error .value
  | some n => .ok n

/-- `{{arg_regs[i]}}`: undefined (rendered as nothing) when there is no such register -/
def regAt (regs : Option (List Str)) (i : Nat) : Str :=
  match regs with
  | none => []
  | some l => match l[i]? with
    | some r => htmlEscape r
    | none => []

/-- template line 16: `{% if num_reg %}&nbsp;({{num_reg}}){% endif %}` -/
def numRegText (a : Arch) : Str :=
  match a.numReg with
  | none => []
  | some r => if r = [] then [] else cs!"&nbsp;(" ++ htmlEscape r ++ cs!")"

/-- template lines 15-24: the header row -/
def htmlHeader (a : Arch) (maxArgs : Nat) : Str :=
  cs!"\t\t\t\t<tr>\n\t\t\t\t\t<th class=\"sortable ascending\" colspan=\"2\">Number" ++
  numRegText a ++
  cs!"</th>\n\t\t\t\t\t<th class=\"sortable\">Name</th>\n\t\t\t\t\t<th class=\"sortable\">Symbol</th>\n\t\t\t\t\t<th class=\"sortable\">Definition location</th>\n\t\t\t\t\t<th class=\"sortable\">Kconfig</th>\n" ++
  ((List.range maxArgs).flatMap fun i =>
    cs!"\t\t\t\t\t<th>Arg " ++ natRepr (i + 1) ++ cs!" (" ++ regAt a.argRegs i ++ cs!")</th>\n") ++
  cs!"\t\t\t\t</tr>\n"

/-- template lines 39-43 and 47-51: the location of a syscall, as plain text or as a link -/
def htmlPlace (tag : Str) (f : Path) (anchor shown : Str) : Str :=
  if f.abs then cs!"\t\t\t\t\t\t" ++ htmlEscape f.str ++ cs!":" ++ shown ++ cs!"\n"
  else
    cs!"\t\t\t\t\t\t<a target=\"_blank\" href=\"https://elixir.bootlin.com/linux/" ++ htmlEscape tag ++ cs!"/source/" ++
    htmlEscape f.str ++ anchor ++ cs!"\">" ++ htmlEscape f.str ++ cs!":" ++ shown ++ cs!"</a>\n"

/-- template lines 31-55: the location cell -/
def htmlLocation (tag : Str) (sc : Syscall) : Str :=
  match sc.file, sc.line with
  | some f, some l =>
    (if sc.goodLocation = false then
      cs!"\t\t\t\t\t<td class=\"bad\" title=\"The identified location may be inaccurate (non-standard definition or missing kernel sources)\">\n"
    else if sc.greppedLocation then
      cs!"\t\t\t\t\t<td class=\"bad\" title=\"This syscall definition was found through grepping, the identified location may be inaccurate\">\n"
    else cs!"\t\t\t\t\t<td>\n") ++
    htmlPlace tag f (cs!"#L" ++ natRepr l) (natRepr l) ++ cs!"\t\t\t\t\t</td>\n"
  | some f, none =>
    cs!"\t\t\t\t\t<td class=\"bad\" title=\"The syscall definition could not be located within this file, the identified location may be inaccurate\">\n" ++
    htmlPlace tag f [] cs!"??" ++ cs!"\t\t\t\t\t</td>\n"
  | none, _ => cs!"\t\t\t\t\t<td class=\"unknown\">unknown</td>\n"

/-- template line 56 -/
def htmlKconfig (sc : Syscall) : Str :=
  match sc.kconfig with
  | none => []
  | some k => if k = [] then [] else htmlEscape (replaceAll k cs!"CONFIG_" [] ++ cs!"=y")

/-- template line 63: `arg.rfind(' ') + 1` (`rfind` is -1 without a space) -/
def argCut (arg : Str) : Nat :=
  match rfindChar ' ' arg with
  | some i => i + 1
  | none => 0

/-- template line 64: one argument, cut after its last space -/
def htmlArg (arg : Str) : Str :=
  cs!"\t\t\t\t\t<td><span class=\"argtype\">" ++ htmlEscape (arg.take (argCut arg)) ++
  cs!"</span><span class=\"argname\">" ++ htmlEscape (arg.drop (argCut arg)) ++ cs!"</span></td>\n"

/-- template lines 57-70: the signature cells -/
def htmlSignature (maxArgs : Nat) (sc : Syscall) : Str :=
  match sc.signature with
  | none => cs!"\t\t\t\t\t<td colspan=\"" ++ natRepr maxArgs ++ cs!"\" class=\"unknown\">unknown signature</td>\n"
  | some [] => cs!"\t\t\t\t\t<td colspan=\"" ++ natRepr maxArgs ++ cs!"\"><span class=\"argtype\">void</span></td>\n"
  | some (a :: as) =>
    (a :: as).flatMap htmlArg ++
    (if (a :: as).length < maxArgs then
      cs!"\t\t\t\t\t<td colspan=\"" ++ natRepr (maxArgs - (a :: as).length) ++ cs!"\"></td>\n"
    else [])

/-- template lines 26-71: the row of one syscall -/
def htmlRow (tag : Str) (maxArgs : Nat) (sc : Syscall) : Str :=
  cs!"\t\t\t\t<tr>\n\t\t\t\t\t<td>" ++ natRepr sc.number ++ cs!"</td>\n\t\t\t\t\t<td>" ++ hexStr sc.number ++ cs!"</td>\n\t\t\t\t\t<td" ++
  (if sc.esoteric then cs!" class=\"esoteric\" title=\"This syscall has an esoteric implementation\"" else []) ++ cs!">" ++
  htmlEscape sc.name ++ cs!"</td>\n\t\t\t\t\t<td>" ++ htmlEscape sc.symbol.name ++ cs!"</td>\n" ++
  htmlLocation tag sc ++ cs!"\t\t\t\t\t<td>" ++ htmlKconfig sc ++ cs!"</td>\n" ++
  htmlSignature maxArgs sc ++ cs!"\t\t\t\t</tr>\n"

/-- output.py:125 the copyright notice on one line -/
def systrackCopy : Str := cs!"Copyright (C) 2023-2025 Marco Bonelli — Licensed under the GNU General Public License v3.0"

/-- template lines 1-14 -/
def htmlBefore (css tag : Str) (a : Arch) : Str :=
  let compat : Str := if a.compat then cs!"compat " else []
  cs!"<!DOCTYPE html>\n<html lang=\"en\">\n\t<head>\n\t\t<title>Linux " ++ htmlEscape tag ++ cs!" " ++ htmlEscape a.kind.name ++ cs!" " ++
  natRepr (bitsOf a.bits32) ++ cs!"-bit, " ++ compat ++ natRepr (bitsOf a.abiBits32) ++ cs!"-bit " ++ htmlEscape a.abi ++
  cs!" syscall table</title>\n\t\t<meta charset=\"UTF-8\">\n\t\t<meta name=\"viewport\" content=\"width=device-width, initial-scale=1\">\n\t\t<style>" ++
  css ++ cs!"</style>\n\t</head>\n\t<body>\n\t\t<h1>Linux " ++ htmlEscape tag ++ cs!" syscall table</h1>\n\t\t<h2>Architecture: " ++
  htmlEscape a.kind.name ++ cs!" " ++ natRepr (bitsOf a.bits32) ++ cs!"-bit</h2>\n\t\t<h2>ABI: " ++ compat ++
  natRepr (bitsOf a.abiBits32) ++ cs!"-bit " ++ htmlEscape a.abi ++ cs!"</h2>\n\t\t<table>\n\t\t\t<tbody>\n"

/-- template lines 73-78 -/
def htmlAfter (js : Str) : Str :=
  cs!"\t\t\t</tbody>\n\t\t</table>\n\t\t<p>Auto-generated by <a target=\"_blank\" href=\"https://github.com/mebeim/systrack\">Systrack v" ++
  systrackVersion ++ cs!"</a> &#x2014; " ++ systrackCopy ++ cs!"</p>\n\t\t<script>" ++ js ++ cs!"</script>\n\t</body>\n</html>"

/-- output.py:101-126 `output_syscalls_html`: the text written. `jinja` tells whether Jinja2 can be imported.
The arguments of `stream` are evaluated in order, so `max()` comes before `version_tag`. -/
def outputHtml (jinja : Bool) (css js : Str) (k : KernelInfo) : Res Str :=
  if jinja = false then .error (.exit 1)
  else do
    let m ← maxArgs k.syscalls
    let tag ← versionTag k.version
    .ok (htmlBefore css tag k.arch ++ htmlHeader k.arch m ++ k.syscalls.flatMap (htmlRow tag m) ++ htmlAfter js)

/-- The output formats; argparse (`choices`) accepts no other, so output.py:135-136 is unreachable from the
command line. -/
inductive Format where
  | text | json | html
  deriving DecidableEq, Repr

/-- output.py:128-136 `output_syscalls` -/
def outputSyscalls (jinja : Bool) (css js : Str) (k : KernelInfo) : Format → Res Str
  | .text => outputText k.syscalls
  | .json => outputJson k
  | .html => outputHtml jinja css js k

end Verif
