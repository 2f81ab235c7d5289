import Verif.Model.Main
/-! # ripgrep, as run by `grep_kernel_sources`

The arguments are those of location.py:106-119. What ripgrep does with them is modelled after its manual (`rg --help`,
gitignore(5)), for the features that are used: globs of names and `*`, with `!` in front to exclude; the last glob that
matches decides and overrides all other rules; files that no glob matches are not searched once there is a glob without
`!`; directories that no glob matches are entered unless they are hidden or ignored by an ignore file; what is in a
directory that is not entered is not searched. Simplifications: ripgrep finds the same lines as Python's `re` (ASCII,
text files), and is not given any input through its standard input. -/
set_option autoImplicit false

namespace Verif

/-- location.py:108-117 the arguments of `--glob`, in order -/
def rgGlobs (a : Arch) : List Str :=
  [cs!"!Documentation/*", cs!"!drivers/*", cs!"!lib/*", cs!"!samples/*", cs!"!sound/*", cs!"!tools/*", cs!"!usr/*",
   cs!"!arch/*", cs!"arch/" ++ a.kind.name, cs!"*.c"]

/-- (ripgrep) does a name match a pattern; `*` stands for any text -/
def wild : Str → Str → Bool
  | [], s => s.isEmpty
  | p :: ps, [] => p == '*' && wild ps []
  | p :: ps, c :: cs =>
    if p = '*' then wild ps (c :: cs) || wild (p :: ps) cs
    else p == c && wild ps cs
termination_by p s => p.length + s.length

/-- (ripgrep) patterns for each component of a path -/
def wildAll : List Str → List Str → Bool
  | [], [] => true
  | p :: ps, c :: cs => wild p c && wildAll ps cs
  | _, _ => false

/-- (ripgrep) a glob with a slash is for paths from the root, another one for names anywhere -/
def globHits (g : Str) (rel : List Str) : Bool :=
  if g.contains '/' then wildAll (splitChar '/' g) rel
  else match rel.getLast? with
    | some name => wild g name
    | none => false

/-- (ripgrep) `!` in front excludes -/
def globSign (g : Str) : Bool × Str :=
  match g with
  | '!' :: rest => (false, rest)
  | _ => (true, g)

/-- (ripgrep) what the last glob that matches says: to search (true) or not to search (false) -/
def rgVerdict (globs : List Str) (rel : List Str) : Option Bool :=
  ((globs.map globSign).reverse.find? fun g => globHits g.2 rel).map Prod.fst

/-- (ripgrep) hidden, or ignored by an ignore file -/
def rgSkips (ignored : List Str → Bool) (rel : List Str) : Bool :=
  ignored rel || (match rel.getLast? with | some name => isHidden name | none => false)

/-- (ripgrep) is the directory at `rel` entered? -/
def rgEnters (globs : List Str) (ignored : List Str → Bool) (rel : List Str) : Bool :=
  match rgVerdict globs rel with
  | some b => b
  | none => !rgSkips ignored rel

/-- (ripgrep) is the file at `rel` searched? -/
def rgReads (globs : List Str) (ignored : List Str → Bool) (rel : List Str) : Bool :=
  match rgVerdict globs rel with
  | some b => b
  | none => !(globs.any fun g => (globSign g).1) && !rgSkips ignored rel

/-- (ripgrep) a line without its line end -/
def rgLine (l : Str) : Str := if l.getLast? = some '\n' then l.dropLast else l

/-- (ripgrep) `path:line:text` for the lines found in one file -/
def rgFile (exp : Re) (rel : List Str) (lines : List Str) : List Str :=
  (numberFrom 1 lines).filterMap fun p =>
    if (exp.search p.2).isSome then some (Path.str ⟨false, rel⟩ ++ cs!":" ++ natRepr p.1 ++ cs!":" ++ rgLine p.2)
    else none

mutual
/-- (ripgrep) what is found in the directory at `rel` -/
def rgDir (exp : Re) (enters reads : List Str → Bool) (rel : List Str) : List (Str × Node) → List Str
  | [] => []
  | (name, node) :: rest => rgNode exp enters reads (rel ++ [name]) node ++ rgDir exp enters reads rel rest
/-- (ripgrep) what is found in one entry of a directory -/
def rgNode (exp : Re) (enters reads : List Str → Bool) (rel : List Str) : Node → List Str
  | .file lines => if reads rel then rgFile exp rel lines else []
  | .dir children => if enters rel then rgDir exp enters reads rel children else []
  | .other => []
end

/-- (ripgrep) the lines printed by the command of location.py:106-119 in the source tree, in the order of the tree -/
def rgRows (a : Arch) (ignored : List Str → Bool) (tree : List (Str × Node)) : List Str :=
  rgDir (grepRe a) (rgEnters (rgGlobs a) ignored) (rgReads (rgGlobs a) ignored) [] tree

/-- location.py:106-119 `ensure_command(...).splitlines()`, if these lines are printed: ripgrep exits with status 1 when
it prints nothing (and `ensure_command`, utils.py:268-275, exits with status 1). Decoding as text turns `\r\n` and `\r`
into `\n`, which makes no difference for `splitlines`. -/
def rgAnswer (printed : List Str) : Res (List Str) :=
  if printed.isEmpty then .error (.exit 1) else .ok (splitLines (printed.flatMap fun l => l ++ ['\n']))

end Verif
