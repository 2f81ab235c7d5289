import Verif.Spec.Page
/-! # Specification: marks, links and headings of the HTML page (C105) -/
set_option autoImplicit false

namespace Verif.Spec

/-- the tags of a piece of HTML -/
def tagsOf (html : Str) : List Str :=
  (tokens none html).filterMap fun t => match t with
    | .tag s => some s
    | .chr _ => none

/-- the opening tags of the cells of a row -/
def cellTags (row : Str) : List Str := (tagsOf row).filter opensCell

/-- the value of an attribute of a tag, with character references decoded -/
def attrOf (name : Str) : Str → Option Str
  | [] => none
  | c :: r =>
    if (name ++ cs!"=\"").isPrefixOf (c :: r) then
      some (decodeRefs 0 (((c :: r).drop (name.length + 2)).takeWhile (· ≠ '"')))
    else attrOf name r

/-- where the links of a row lead -/
def linksOf (row : Str) : List Str := (tagsOf row).filterMap fun t => if t.take 2 = cs!"a " then attrOf cs!"href" t else none

/-- how the location of a syscall is presented: nothing known; a file without a line; a place that may not be the definition;
a definition found by searching the sources; a definition found by the debug information -/
inductive Standing where
  | unknown | noLine | doubtful | searched | good
  deriving DecidableEq

/-- the standing of the location of a syscall -/
inductive StandingOf (sc : Syscall) : Standing → Prop where
  | unknown : sc.file = none → StandingOf sc .unknown
  | noLine (f : Path) : sc.file = some f → sc.line = none → StandingOf sc .noLine
  | doubtful (f : Path) (l : Nat) : sc.file = some f → sc.line = some l → sc.goodLocation = false → StandingOf sc .doubtful
  | searched (f : Path) (l : Nat) : sc.file = some f → sc.line = some l → sc.goodLocation = true → sc.greppedLocation = true →
      StandingOf sc .searched
  | good (f : Path) (l : Nat) : sc.file = some f → sc.line = some l → sc.goodLocation = true → sc.greppedLocation = false →
      StandingOf sc .good

/-- the class and the title (shown when the pointer is over it) of the location cell -/
def Standing.mark : Standing → Option Str × Option Str
  | .unknown => (some cs!"unknown", none)
  | .noLine => (some cs!"bad", some cs!"The syscall definition could not be located within this file, the identified location may be inaccurate")
  | .doubtful => (some cs!"bad", some cs!"The identified location may be inaccurate (non-standard definition or missing kernel sources)")
  | .searched => (some cs!"bad", some cs!"This syscall definition was found through grepping, the identified location may be inaccurate")
  | .good => (none, none)

/-- the links of a row: to the file and line in the browsable sources of the version `tag`, if the file is relative to them -/
def LinksFor (tag : Str) (sc : Syscall) (links : List Str) : Prop :=
  (sc.file = none → links = []) ∧
  (∀ f, sc.file = some f → f.abs = true → links = []) ∧
  ∀ f, sc.file = some f → f.abs = false →
    (sc.line = none → links = [cs!"https://elixir.bootlin.com/linux/" ++ tag ++ cs!"/source/" ++ f.str]) ∧
    ∀ l, sc.line = some l → links = [cs!"https://elixir.bootlin.com/linux/" ++ tag ++ cs!"/source/" ++ f.str ++ cs!"#L" ++ natRepr l]

/-- the marks and links of the row of a syscall: the cells of number, hexadecimal number, symbol and option have no class; the
name is marked when the implementation is special; the location according to its standing; a signature only when unknown -/
def RowMarks (tag : Str) (sc : Syscall) (row : Str) : Prop :=
  ∃ num hex name sym loc kconf sig, cellTags row = [num, hex, name, sym, loc, kconf] ++ sig ∧
    (∀ t ∈ [num, hex, sym, kconf], attrOf cs!"class" t = none ∧ attrOf cs!"title" t = none) ∧
    (sc.esoteric = true → attrOf cs!"class" name = some cs!"esoteric" ∧ attrOf cs!"title" name = some cs!"This syscall has an esoteric implementation") ∧
    (sc.esoteric = false → attrOf cs!"class" name = none ∧ attrOf cs!"title" name = none) ∧
    (∀ s, StandingOf sc s → (attrOf cs!"class" loc, attrOf cs!"title" loc) = s.mark) ∧
    (∀ t ∈ sig, attrOf cs!"class" t = if sc.signature = none then some cs!"unknown" else none) ∧
    LinksFor tag sc (linksOf row)

/-- The texts of the elements with a name and nothing else inside. The first argument is the text of the element being read. -/
def readTexts (name : Str) : Option Str → List Tok → List Str
  | _, [] => []
  | cur, .tag t :: r =>
    (match cur with | some s => if t = '/' :: name then [decodeRefs 0 s] else [] | none => []) ++
      readTexts name (if t = name then some [] else none) r
  | none, .chr _ :: r => readTexts name none r
  | some s, .chr c :: r => readTexts name (some (s ++ [c])) r

/-- the texts of the elements `<name>...</name>` -/
def elements (name html : Str) : List Str := readTexts name none (tokens none html)

/-- the words of the headings about the ABI -/
def abiWords (a : Arch) : Str :=
  (if a.compat then cs!"compat " else []) ++ (if a.abiBits32 then cs!"32" else cs!"64") ++ cs!"-bit " ++ a.abi

/-- the words of the headings about the architecture -/
def archWords (a : Arch) : Str := a.kind.name ++ (if a.bits32 then cs!" 32" else cs!" 64") ++ cs!"-bit"

/-- what is above the table: title of the page and headings -/
def Headings (tag : Str) (a : Arch) (html : Str) : Prop :=
  elements cs!"title" html = [cs!"Linux " ++ tag ++ cs!" " ++ archWords a ++ cs!", " ++ abiWords a ++ cs!" syscall table"] ∧
  elements cs!"h1" html = [cs!"Linux " ++ tag ++ cs!" syscall table"] ∧
  elements cs!"h2" html = [cs!"Architecture: " ++ archWords a, cs!"ABI: " ++ abiWords a]

end Verif.Spec
