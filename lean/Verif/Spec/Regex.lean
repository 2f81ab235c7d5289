import Verif.Model.Regex
/-! # Specification: what a regular expression matches, and in which order alternatives are tried

Written after the documentation of `re`, without continuations: a relation for what can be matched, and a list of all the ways to
match in order of preference. -/
set_option autoImplicit false

namespace Verif.Spec

/-- `r` matches from one position to another, with these groups set afterwards -/
inductive Way : Re → St → Caps → St → Caps → Prop
  | eps {st caps} : Way .eps st caps st caps
  | chr {p : Char → Bool} {prev c cs caps} (h : p c = true) : Way (.chr p) ⟨prev, c :: cs⟩ caps ⟨some c, cs⟩ caps
  | none {p : Char → Bool} {st caps} : Way (.star p) st caps st caps
  | more {p : Char → Bool} {prev c cs caps st'} (h : p c = true) (t : Way (.star p) ⟨some c, cs⟩ caps st' caps) :
      Way (.star p) ⟨prev, c :: cs⟩ caps st' caps
  | seq {a b st caps st1 caps1 st2 caps2} (ha : Way a st caps st1 caps1) (hb : Way b st1 caps1 st2 caps2) :
      Way (.seq a b) st caps st2 caps2
  | left {a b st caps st1 caps1} (h : Way a st caps st1 caps1) : Way (.alt a b) st caps st1 caps1
  | right {a b st caps st1 caps1} (h : Way b st caps st1 caps1) : Way (.alt a b) st caps st1 caps1
  /-- the group is the text between the two positions -/
  | grp {n r st caps st1 caps1 text} (h : Way r st caps st1 caps1) (ht : st.rest = text ++ st1.rest) :
      Way (.grp n r) st caps st1 ((n, text) :: caps1)
  | bol {rest caps} : Way .bol ⟨.none, rest⟩ caps ⟨.none, rest⟩ caps
  | eol {st caps} (h : st.rest = [] ∨ st.rest = ['\n']) : Way .eol st caps st caps
  /-- between a word character and something else -/
  | wordB {st caps} (h : (∃ c, st.prev = some c ∧ isWord c = true) ↔ ¬ ∃ c cs, st.rest = c :: cs ∧ isWord c = true) :
      Way .wordB st caps st caps

/-- positions after none or more characters of a class, the farthest first -/
def runs (p : Char → Bool) : Option Char → Str → List St
  | prev, [] => [⟨prev, []⟩]
  | prev, c :: cs => (if p c then runs p (some c) cs else []) ++ [⟨prev, c :: cs⟩]

/-- all ways to match, preferred ones first: a repetition takes as much as it can, the left alternative comes before the right one,
and what comes first in the expression decides first -/
def ways : Re → St → Caps → List (St × Caps)
  | .eps, st, caps => [(st, caps)]
  | .chr p, st, caps =>
    match st.rest with
    | [] => []
    | c :: cs => if p c then [(⟨some c, cs⟩, caps)] else []
  | .star p, st, caps => (runs p st.prev st.rest).map fun st' => (st', caps)
  | .seq a b, st, caps => (ways a st caps).flatMap fun x => ways b x.1 x.2
  | .alt a b, st, caps => ways a st caps ++ ways b st caps
  | .grp n r, st, caps =>
    (ways r st caps).map fun x => (x.1, (n, st.rest.take (st.rest.length - x.1.rest.length)) :: x.2)
  | .bol, st, caps => if st.prev = none then [(st, caps)] else []
  | .eol, st, caps => if st.rest = [] ∨ st.rest = ['\n'] then [(st, caps)] else []
  | .wordB, st, caps => if optWord st.prev = !optWord st.rest.head? then [(st, caps)] else []

/-- the position after `n` characters -/
def posAt (s : Str) (n : Nat) : St := ⟨lastOr none (s.take n), s.drop n⟩

/-- names of word characters, dots and dollars, as compilers make them -/
def Spliced (name : Str) : Prop := ∀ c ∈ name, isWord c = true ∨ c = '.' ∨ c = '$'

end Verif.Spec
