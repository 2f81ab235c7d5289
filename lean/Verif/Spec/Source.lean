import Verif.Model.Source
/-! # Source files with nothing odd in them -/
set_option autoImplicit false

namespace Verif.Spec

/-- UTF-8 -/
def encoded (s : Str) : Bytes := s.flatMap String.utf8EncodeChar

/-- no carriage return but right before a newline -/
def NoStray (s : Str) : Prop := ∀ u v, s = u ++ '\r' :: v → ∃ t, v = '\n' :: t

/-- the bytes of a file are a text without stray carriage returns -/
def Sound (bs : Bytes) (s : Str) : Prop := bs = encoded s ∧ NoStray s

/-- the lines of a text, each with its newline; only the last one may lack it -/
structure IsLines (ls : List Str) (s : Str) : Prop where
  all : ls.flatten = s
  some : [] ∉ ls
  single : ∀ l ∈ ls, '\n' ∉ l.dropLast
  ended : ∀ l ∈ ls.dropLast, l.getLast? = .some '\n'

/-- two views of the files: as bytes and as lines of text -/
def SameFiles (fs : BFiles) (gs : Files) : Prop :=
  ∀ p, (fs p = none ∧ gs p = none) ∨ ∃ bs s ls, fs p = some bs ∧ gs p = some ls ∧ Sound bs s ∧ IsLines ls s

end Verif.Spec
