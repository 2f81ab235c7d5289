import Verif.Model.Utils
import Mathlib.Data.List.Lex
/-!
# Specifications for the utilities (C01-C08, C19)

Independent of the model (but for the type `Part`): core list operations, core's lexicographic order on `List Nat`
(`<` and `≤`), and a reader for POSIX shell words.
-/
set_option autoImplicit false

namespace Verif.Spec

/-- One call on a versioned dict: an addition for `[s, e)`, or a lookup of a version. -/
inductive VOp (κ β : Type) where
  | add (s e : Ver) (k : κ) (x : β)
  | get (v : Ver)
  deriving DecidableEq

/-- `(start, end, key, value)` -/
abbrev VEntry (κ β : Type) := Ver × Ver × κ × β

/-- the additions of a history, in order -/
def addsOf {κ β : Type} : List (VOp κ β) → List (VEntry κ β)
  | [] => []
  | .add s e k x :: h => (s, e, k, x) :: addsOf h
  | .get _ :: h => addsOf h

/-- the part of a history before the first lookup of `v` -/
def beforeFirstGet {κ β : Type} (v : Ver) : List (VOp κ β) → List (VOp κ β)
  | [] => []
  | .get w :: h => if w = v then [] else .get w :: beforeFirstGet v h
  | .add s e k x :: h => .add s e k x :: beforeFirstGet v h

/-- position in the log at which range `r` was created -/
def created {κ β : Type} (log : List (VEntry κ β)) (r : Ver × Ver) : Nat :=
  log.findIdx (fun a => decide ((a.1, a.2.1) = r))

/-- `x` is the value last assigned to `k` in the most recently created range containing `v`
that defines `k`. -/
def Answer {κ β : Type} (log : List (VEntry κ β)) (v : Ver) (k : κ) (x : β) : Prop :=
  ∃ s e : Ver, ∃ pre post, log = pre ++ (s, e, k, x) :: post
    ∧ s ≤ v ∧ v < e
    ∧ (∀ y, (s, e, k, y) ∉ post)
    ∧ ∀ s' e' y, (s', e', k, y) ∈ log → s' ≤ v → v < e' → (s', e') ≠ (s, e) →
        created log (s', e') < created log (s, e)

/-- One call on a versioned list: an addition of values for `[s, e)`, or a lookup of a version. -/
inductive LOp (β : Type) where
  | add (s e : Ver) (values : List β)
  | get (v : Ver)
  deriving DecidableEq

/-- the additions of a history, in order -/
def listAdds {β : Type} : List (LOp β) → List (Ver × Ver × List β)
  | [] => []
  | .add s e xs :: h => (s, e, xs) :: listAdds h
  | .get _ :: h => listAdds h

/-- the part of a history before the first lookup of `v` -/
def listBefore {β : Type} (v : Ver) : List (LOp β) → List (LOp β)
  | [] => []
  | .get w :: h => if w = v then [] else .get w :: listBefore v h
  | .add s e xs :: h => .add s e xs :: listBefore v h

/-- the values of the ranges containing `v`: grouped by range in the order of creation, each range with all the values
listed for it in order -/
def listAnswer {β : Type} (log : List (Ver × Ver × List β)) (v : Ver) : List β :=
  ((log.map fun a => (a.1, a.2.1)).eraseDups.filter fun r => decide (r.1 ≤ v ∧ v < r.2)).flatMap fun r =>
    (log.filter fun a => decide ((a.1, a.2.1) = r)).flatMap fun a => a.2.2

/-! ## Durations -/

/-- `t` is the whole number closest to `num / den`; the even one of two equally close ones -/
def Nearest (num den t : Nat) : Prop :=
  2 * num ≤ (2 * t + 1) * den ∧ 2 * t * den ≤ 2 * num + den ∧
  (2 * num = (2 * t + 1) * den ∨ 2 * t * den = 2 * num + den → t % 2 = 0)

/-- Read a string such as `1h 02m 03s` as a list of numbers with their unit. -/
def readFields : Nat → Str → List (Nat × Char)
  | _, [] => []
  | acc, c :: cs =>
    if '0' ≤ c ∧ c ≤ '9' then readFields (10 * acc + (c.toNat - 48)) cs
    else if c = ' ' then readFields acc cs
    else (acc, c) :: readFields 0 cs

/-- seconds in a unit -/
def unitSeconds (u : Char) : Nat := if u = 'h' then 3600 else if u = 'm' then 60 else 1

/-! ## POSIX shell words -/

/-- the text of a part of a command: byte strings hold its UTF-8 encoding -/
def TextOf : Part → Str → Prop
  | .str s, t => t = s
  | .path s, t => t = s
  | .bytes b, t => t.flatMap String.utf8EncodeChar = b

/-- quoting state of the reader -/
inductive Quoting where
  | none | single | double

/-- characters that are ordinary outside quotes in every POSIX shell -/
def plainChar (c : Char) : Bool :=
  c.isAlphanum || c ∈ ['_', '@', '%', '+', '=', ':', ',', '.', '/', '-']

/-- POSIX word splitting and quote removal (XCU 2.2, 2.3) for one simple command on one line.
`cur` is the word being read (`none`: between words). Any character with a special meaning outside the
fragment below (`$`, `` ` ``, `;`, `|`, `*`, newline, backslash, ...) is rejected, so a successful result never
depends on expansions. -/
def shellWords : Quoting → Option Str → Str → Option (List Str)
  | .none, none, [] => some []
  | .none, some w, [] => some [w]
  | .single, _, [] => none
  | .double, _, [] => none
  | .none, cur, c :: cs =>
    if c = ' ' then
      match cur with
      | none => shellWords .none none cs
      | some w => (shellWords .none none cs).map (w :: ·)
    else if c = '\'' then shellWords .single (some (cur.getD [])) cs
    else if c = '"' then shellWords .double (some (cur.getD [])) cs
    else if plainChar c then shellWords .none (some (cur.getD [] ++ [c])) cs
    else none
  | .single, cur, c :: cs =>
    if c = '\'' then shellWords .none cur cs
    else shellWords .single (some (cur.getD [] ++ [c])) cs
  | .double, cur, c :: cs =>
    if c = '"' then shellWords .none cur cs
    else if c ∈ ['$', '`', '\\'] then none
    else shellWords .double (some (cur.getD [] ++ [c])) cs

end Verif.Spec
