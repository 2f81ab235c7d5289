import Verif.Model.Py
/-! # Model of /repo/src/systrack/utils.py -/
set_option autoImplicit false

namespace Verif

/-! ## Prefixes and suffixes -/

/-- utils.py:147-150 `anyprefix` -/
def anyprefix (s : Str) (pxs : List Str) : Bool := pxs.any (fun px => startsWith s px)

/-- utils.py:152-155 `anysuffix` -/
def anysuffix (s : Str) (sxs : List Str) : Bool := sxs.any (fun sx => endsWith s sx)

/-- utils.py:157-165 `noprefix` -/
def noprefix (s : Str) : List Str → Str
  | [] => s
  | px :: pxs => if startsWith s px then s.drop px.length else noprefix s pxs

/-- utils.py:167-175 `nosuffix` (`s[:-len(sx)]` is the empty string for an empty suffix) -/
def nosuffix (s : Str) : List Str → Str
  | [] => s
  | sx :: sxs => if endsWith s sx then sliceToNeg s sx.length else nosuffix s sxs

/-! ## Versioned containers

Simplification: versions are tuples of ints (the only use in the code base); the Python class accepts
any hashable, ordered type. The returned dict/list objects are values: callers mutating the returned
object in place are not modelled (no caller does). -/

/-- `vstart <= version < vend`, utils.py:52 and utils.py:97 -/
def inRange (vstart vend v : Ver) : Bool := verLe vstart v && verLt v vend

section VDict
variable {κ β : Type} [DecidableEq κ]

/-- utils.py:22 the two slots of `VersionedDict` -/
structure VDict (κ β : Type) where
  versions : Dict (Ver × Ver) (Dict κ β)
  cache : Dict Ver (Dict κ β)
  deriving DecidableEq

/-- utils.py:32-33 empty `VersionedDict` -/
def VDict.empty : VDict κ β := ⟨[], []⟩

/-- utils.py:56-60 `VersionedDict.add` (and the body of the loop at utils.py:36-37):
`self.versions[vstart, vend][key] = value` on a `defaultdict(dict)` -/
def VDict.add (d : VDict κ β) (vstart vend : Ver) (key : κ) (value : β) : VDict κ β :=
  let cur := match dget (vstart, vend) d.versions with
    | some x => x
    | none => []
  { d with versions := dset (vstart, vend) (dset key value cur) d.versions }

/-- utils.py:24-37 `VersionedDict.__init__` -/
def VDict.init (entries : List (Ver × Ver × κ × β)) : VDict κ β :=
  entries.foldl (fun d e => d.add e.1 e.2.1 e.2.2.1 e.2.2.2) VDict.empty

/-- utils.py:46-54 `VersionedDict.__getversion` -/
def VDict.getVersion (d : VDict κ β) (v : Ver) : Dict κ β :=
  d.versions.foldl (fun res r => if inRange r.1.1 r.1.2 v then dupdate res r.2 else res) []

/-- utils.py:39-44 `VersionedDict.__getitem__`: the answer and the new state -/
def VDict.getItem (d : VDict κ β) (v : Ver) : Dict κ β × VDict κ β :=
  match dget v d.cache with
  | some r => (r, d)
  | none => let r := d.getVersion v; (r, { d with cache := dset v r d.cache })
end VDict

section VList
variable {β : Type}

/-- utils.py:67 the two slots of `VersionedList` -/
structure VList (β : Type) where
  versions : Dict (Ver × Ver) (List β)
  cache : Dict Ver (List β)

/-- utils.py:77-78 empty `VersionedList` -/
def VList.empty : VList β := ⟨[], []⟩

/-- utils.py:101-105 `VersionedList.add` (and the loop body at utils.py:81-82) on a `defaultdict(list)` -/
def VList.add (d : VList β) (vstart vend : Ver) (values : List β) : VList β :=
  let cur := match dget (vstart, vend) d.versions with
    | some x => x
    | none => []
  { d with versions := dset (vstart, vend) (cur ++ values) d.versions }

/-- utils.py:69-82 `VersionedList.__init__` -/
def VList.init (entries : List (Ver × Ver × List β)) : VList β :=
  entries.foldl (fun d e => d.add e.1 e.2.1 e.2.2) VList.empty

/-- utils.py:91-99 `VersionedList.__getversion` -/
def VList.getVersion (d : VList β) (v : Ver) : List β :=
  d.versions.foldl (fun res r => if inRange r.1.1 r.1.2 v then res ++ r.2 else res) []

/-- utils.py:84-89 `VersionedList.__getitem__` -/
def VList.getItem (d : VList β) (v : Ver) : List β × VList β :=
  match dget v d.cache with
  | some r => (r, d)
  | none => let r := d.getVersion v; (r, { d with cache := dset v r d.cache })
end VList

/-! ## Paths -/

/-- A `pathlib.PurePosixPath`: absolute or not, and its components. Simplification: drive and the
`//` root are not modelled; components contain no `/` and none is `.` or empty (pathlib removes them). -/
structure Path where
  abs : Bool
  parts : List Str
  deriving DecidableEq, Repr

/-- `p / r`: an absolute right operand replaces the left one -/
def Path.join (p r : Path) : Path := if r.abs then r else ⟨p.abs, p.parts ++ r.parts⟩

/-- `p.is_relative_to(root)` -/
def Path.isRelativeTo (p root : Path) : Bool := p.abs == root.abs && root.parts.isPrefixOf p.parts

/-- `p.relative_to(root)`; ValueError when not relative -/
def Path.relativeTo (p root : Path) : Res Path :=
  if p.isRelativeTo root then .ok ⟨false, p.parts.drop root.parts.length⟩ else .error .value

/-- utils.py:141-145 `maybe_rel` -/
def maybeRel (path : Path) (root : Option Path) : Res Path :=
  match root with
  | none => .ok path
  | some r => if path.isRelativeTo r then path.relativeTo r else .ok path

/-! ## Durations and command lines -/

/-- `f'{n:02d}'` -/
def pad02 (n : Nat) : Str := if n < 10 then '0' :: natRepr n else natRepr n

/-- Python's `round` of a non-negative number `num / den` (every finite float is such a number): to the closest whole
number, halves to the even one -/
def pyRound (num den : Nat) : Nat :=
  let q := num / den
  let r := num % den
  if 2 * r < den then q else if 2 * r > den then q + 1 else if q % 2 = 0 then q else q + 1

/-- utils.py:302-311 `format_duration` after the rounding at line 301 -/
def formatDuration (s0 : Nat) : Str :=
  let h := s0 / 3600
  let s1 := s0 % 3600
  let m := s1 / 60
  let s := s1 % 60
  if h > 0 then natRepr h ++ cs!"h " ++ pad02 m ++ cs!"m " ++ pad02 s ++ cs!"s"
  else if m > 0 then natRepr m ++ cs!"m " ++ pad02 s ++ cs!"s"
  else natRepr s ++ cs!"s"

/-- utils.py:297-311 `format_duration` of `num / den` seconds -/
def formatDurationOf (num den : Nat) : Str := formatDuration (pyRound num den)

/-- characters for which `shlex.quote` does not quote: word characters and `@ % + = : , . / -` -/
def shlexSafe (c : Char) : Bool := isWord c || (cs!"@%+=:,./-").contains c

/-- `shlex.quote` (CPython): empty string is `''`, safe strings unchanged, else single quotes with
each `'` replaced by `'"'"'` -/
def shlexQuote (s : Str) : Str :=
  if s.isEmpty then cs!"''"
  else if s.all shlexSafe then s
  else '\'' :: (s.flatMap fun c => if c = '\'' then cs!"'\"'\"'" else [c]) ++ cs!"'"

/-- `shlex.join` -/
def shlexJoin (parts : List Str) : Str := joinWith cs!" " (parts.map shlexQuote)

/-- an element of an iterable given to `command_argv_to_string`; a `Path` is already rendered with `str()` -/
inductive Part where
  | str (s : Str)
  | path (s : Str)
  | bytes (b : Bytes)

/-- argument of `command_argv_to_string` -/
inductive Cmd where
  /-- a `str` -/
  | str (s : Str)
  /-- a `Path`, already rendered with `str()` -/
  | path (s : Str)
  /-- a `bytes` -/
  | bytes (b : Bytes)
  /-- list/tuple of parts -/
  | argv (parts : List Part)

/-- utils.py:206-211 a part as a string; `bytes` are decoded -/
def Part.text : Part → Res Str
  | .str s => .ok s
  | .path s => .ok s
  | .bytes b => decodeUtf8 b

/-- utils.py:197-213 `command_argv_to_string`. `str` and `bytes` are `Iterable`, so a `str` is iterated character
by character and each character quoted, and a non-empty `bytes` yields ints, on which `shlex.quote` raises TypeError; only a
`Path` takes the first branch. -/
def commandArgvToString : Cmd → Res Str
  | .path s => .ok (shlexQuote s)
  | .str s => .ok (shlexJoin (s.map fun c => [c]))
  | .bytes b => if b.isEmpty then .ok [] else .error .type
  | .argv parts => do
    let texts ← mapRes Part.text parts
    .ok (shlexJoin texts)

end Verif
