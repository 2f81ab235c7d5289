import Verif.Model.Py
/-!
# A backtracking matcher for the fragment of Python's `re` that systrack uses

Model of the Python runtime (trusted): leftmost, greedy, priority-ordered backtracking as in `sre`,
written in continuation passing style. Repetition is only applied to single-character classes, which is all the
patterns in systrack need. Simplification: `\w`, `\d` are ASCII, see `isWord`, `isDigit`.
-/
set_option autoImplicit false

namespace Verif

/-- Regular expressions. -/
inductive Re where
  /-- empty -/
  | eps
  /-- one character of a class -/
  | chr (p : Char → Bool)
  /-- greedy `[class]*` -/
  | star (p : Char → Bool)
  | seq (a b : Re)
  /-- `a|b` -/
  | alt (a b : Re)
  /-- capturing group number `n` -/
  | grp (n : Nat) (r : Re)
  /-- `^` without MULTILINE -/
  | bol
  /-- `$` without MULTILINE: end, or before a newline that ends the string -/
  | eol
  /-- `\b` -/
  | wordB

namespace Re

/-- greedy `[class]+` -/
def plus (p : Char → Bool) : Re := seq (chr p) (star p)

/-- greedy `r?` -/
def opt (r : Re) : Re := alt r eps

/-- a literal string -/
def lit : Str → Re
  | [] => eps
  | c :: cs => seq (chr (· == c)) (lit cs)

/-- concatenation -/
def cat : List Re → Re
  | [] => eps
  | [r] => r
  | r :: rs => seq r (cat rs)

end Re

/-- Matcher position: the character before it (if any) and the text after it. -/
structure St where
  prev : Option Char
  rest : Str
  deriving DecidableEq, Repr

/-- captured groups, latest first -/
abbrev Caps := List (Nat × Str)

/-- last character consumed, or the previous one if nothing was consumed -/
def lastOr : Option Char → Str → Option Char
  | p, [] => p
  | _, c :: cs => lastOr (some c) cs

/-- `[class]*`: try to consume one more character first, fall back to stopping here -/
def starGo {α : Type} (p : Char → Bool) (k : St → Option α) : Option Char → Str → Option α
  | prev, [] => k ⟨prev, []⟩
  | prev, c :: cs =>
    if p c then
      match starGo p k (some c) cs with
      | some r => some r
      | none => k ⟨prev, c :: cs⟩
    else k ⟨prev, c :: cs⟩

/-- is the optional character a word character -/
def optWord : Option Char → Bool
  | none => false
  | some c => isWord c

/-- run `r` at `st`, then the continuation; first success in priority order -/
def Re.go {α : Type} : Re → St → Caps → (St → Caps → Option α) → Option α
  | .eps, st, caps, k => k st caps
  | .chr p, st, caps, k =>
    match st.rest with
    | [] => none
    | c :: cs => if p c then k ⟨some c, cs⟩ caps else none
  | .star p, st, caps, k => starGo p (fun st' => k st' caps) st.prev st.rest
  | .seq a b, st, caps, k => a.go st caps (fun st' caps' => b.go st' caps' k)
  | .alt a b, st, caps, k =>
    match a.go st caps k with
    | some r => some r
    | none => b.go st caps k
  | .grp n r, st, caps, k =>
    r.go st caps (fun st' caps' => k st' ((n, st.rest.take (st.rest.length - st'.rest.length)) :: caps'))
  | .bol, st, caps, k => if st.prev.isNone then k st caps else none
  | .eol, st, caps, k => if st.rest = [] ∨ st.rest = ['\n'] then k st caps else none
  | .wordB, st, caps, k =>
    if optWord st.prev != optWord st.rest.head? then k st caps else none

/-- `re.match(r, s)`: captures and the text after the match -/
def Re.match? (r : Re) (s : Str) : Option (Caps × Str) :=
  r.go ⟨none, s⟩ [] (fun st caps => some (caps, st.rest))

/-- `re.search` from a position: leftmost match -/
def Re.searchFrom (r : Re) : Option Char → Str → Option (Caps × St)
  | prev, [] => r.go ⟨prev, []⟩ [] (fun st caps => some (caps, st))
  | prev, c :: cs =>
    match r.go ⟨prev, c :: cs⟩ [] (fun st caps => some (caps, st)) with
    | some x => some x
    | none => r.searchFrom (some c) cs

/-- `re.search(r, s)` -/
def Re.search (r : Re) (s : Str) : Option (Caps × St) := r.searchFrom none s

/-- `r.finditer(s)` for patterns that cannot match the empty string: all captures, left to right.
`fuel` bounds the number of matches and is always the length of the text plus one. -/
def Re.findIter (r : Re) : Nat → St → List Caps
  | 0, _ => []
  | fuel + 1, st =>
    match r.searchFrom st.prev st.rest with
    | none => []
    | some (caps, st') => caps :: r.findIter fuel st'

/-- `m.group(n)` -/
def Caps.group (caps : Caps) (n : Nat) : Option Str := dget n caps

end Verif
