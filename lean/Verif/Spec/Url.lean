import Verif.Spec.Marks
/-! # Specification of addresses of web pages (C130)

How a browser reads an address (WHATWG URL standard, for the scheme `https`, no user names and ports) and which file the server looks
for. -/
set_option autoImplicit false

namespace Verif.Spec

/-- the parts of an address: the server, the names between slashes, what follows the question mark and what follows the hash -/
structure Url where
  host : Str
  path : List Str
  query : Option Str
  fragment : Option Str
  deriving DecidableEq, Repr

/-- white space and control characters around the address are ignored, tabs and ends of lines everywhere -/
def urlClean (s : Str) : Str :=
  let ignored := fun c : Char => decide (c.toNat ≤ 32)
  ((s.dropWhile ignored).reverse.dropWhile ignored).reverse.filter fun c => !(c == '\t' || c == '\n' || c == '\r')

/-- what is before the first of certain characters, and what is after it if there is one -/
def cutAt (p : Char → Bool) : Str → Str × Option Str
  | [] => ([], none)
  | c :: s => if p c then ([], some s) else (c :: (cutAt p s).1, (cutAt p s).2)

/-- a name that stands for the directory itself -/
def isDot (s : Str) : Bool := s == cs!"." || s == cs!"%2e" || s == cs!"%2E"

/-- a name that stands for the directory above -/
def isDots : Str → Bool
  | '.' :: s => isDot s
  | '%' :: '2' :: 'e' :: s => isDot s
  | '%' :: '2' :: 'E' :: s => isDot s
  | _ => false

/-- the names of a path, those already read in the first argument, last first -/
def resolve : List Str → List Str → List Str
  | acc, [] => acc.reverse
  | acc, s :: rest =>
    if isDots s then resolve (if rest = [] then [] :: acc.tail else acc.tail) rest
    else if isDot s then resolve (if rest = [] then [] :: acc else acc) rest
    else resolve (s :: acc) rest

/-- the server decodes `%41` and the like; of characters that are not ASCII nothing is said -/
def unpercent : Str → Str
  | '%' :: a :: b :: s =>
    if isHexDigit a && isHexDigit b && natOfHex [a, b] < 128 then Char.ofNat (natOfHex [a, b]) :: unpercent s
    else '%' :: unpercent (a :: b :: s)
  | c :: s => c :: unpercent s
  | [] => []

/-- reading an address; a backslash is as good as a slash -/
def readUrl (s : Str) : Option Url :=
  let t := urlClean s
  if cs!"https://".isPrefixOf t then
    let (a, fragment) := cutAt (· == '#') (t.drop 8)
    let (b, query) := cutAt (· == '?') a
    let (host, rest) := cutAt (· == '/') (b.map fun c => if c = '\\' then '/' else c)
    some ⟨host, match rest with
      | none => [[]]
      | some p => (resolve [] (splitChar '/' p)).map unpercent, query, fragment⟩
  else none

/-- the link leads to the browsable sources of the version `tag`, there to the file `f` and in it to the line -/
def LeadsTo (link tag : Str) (f : Path) (line : Option Nat) : Prop :=
  readUrl link = some ⟨cs!"elixir.bootlin.com", [cs!"linux", tag, cs!"source"] ++ f.parts, none, line.map fun l => 'L' :: natRepr l⟩

/-- a name without spaces, control characters and the five characters that mean something in addresses, and not `.` or `..` -/
def PlainPart (s : Str) : Prop :=
  s ≠ cs!"." ∧ s ≠ cs!".." ∧ ∀ c ∈ s, 32 < c.toNat ∧ c ≠ '#' ∧ c ≠ '?' ∧ c ≠ '%' ∧ c ≠ '/' ∧ c ≠ '\\'

/-- a path of such names -/
def PlainFile (f : Path) : Prop := f.parts ≠ [] ∧ ∀ p ∈ f.parts, PlainPart p

end Verif.Spec
