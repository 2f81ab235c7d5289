import Verif.Spec.EndToEnd
/-! # Specification: which of the symbols at an address gives its name to a syscall (C108) -/
set_option autoImplicit false

namespace Verif.Spec

/-- a class of names, and which of several names in it is taken: the last or the first in alphabetical order -/
structure Wish where
  fits : Str → Bool
  last : Bool

/-- names with the prefix; the last one is taken -/
def prefixed (p : Str) : Wish := ⟨fun n => decide (p <+: n), true⟩

/-- any name; the first one is taken -/
def anyName : Wish := ⟨fun _ => true, false⟩

/-- the classes, but only for names with the property -/
def among (q : Str → Bool) (ws : List Wish) : List Wish := ws.map fun w => ⟨fun n => q n && w.fits n, w.last⟩

/-- what is preferred everywhere, the best first -/
def basicWishes : List Wish := [prefixed cs!"sys_", prefixed cs!"compat_sys_", anyName]

/-- names of functions for other ABIs -/
def isCompatName (n : Str) : Bool := decide (cs!"compat" <:+: n)

/-- for a compat ABI names with `compat` in them come first, otherwise those without it -/
def compatSide (compat : Bool) (ws : List Wish) : List Wish := among (fun n => isCompatName n == compat) ws ++ ws

/-- letters, and no capital ones (ASCII) -/
def isLowerName (n : Str) : Bool :=
  decide ((∀ c ∈ n, ¬ ('A'.toNat ≤ c.toNat ∧ c.toNat ≤ 'Z'.toNat)) ∧ ∃ c ∈ n, 'a'.toNat ≤ c.toNat ∧ c.toNat ≤ 'z'.toNat)

/-- without capital letters first -/
def lowerFirst : List Wish := among isLowerName basicWishes ++ [anyName]

/-- the classes of names for an architecture and ABI, the best first; every name is in one of them -/
def wishes (a : Arch) : List Wish :=
  match a.kind with
  | .arm | .mips => compatSide a.compat basicWishes
  | .arm64 => compatSide a.compat (prefixed cs!"__arm64_" :: basicWishes)
  | .riscv => compatSide a.compat (prefixed cs!"__riscv_" :: basicWishes)
  | .powerpc =>
    if a.bits32 then basicWishes
    else among (fun n => decide (cs!"." <+: n)) [prefixed cs!".sys_", prefixed cs!".compat_sys_", anyName] ++ basicWishes
  | .x86 =>
    if a.abi = cs!"ia32" then prefixed cs!"__ia32_" :: prefixed cs!"__x64_" :: lowerFirst
    else (if a.abi = cs!"x32" then [prefixed cs!"__x32_"] else []) ++
      prefixed cs!"__x64_" :: (among (fun n => !decide (cs!"__ia32_" <+: n)) lowerFirst ++ [anyName])

/-- the number of the first class the name is in -/
def rankOf (ws : List Wish) (n : Str) : Nat := ws.findIdx fun w => w.fits n

/-- in that class the last name is taken -/
def takesLast (ws : List Wish) (n : Str) : Bool := (ws.find? fun w => w.fits n).any Wish.last

/-- alphabetical order (of code points) -/
def Before (s t : Str) : Prop :=
  (∃ c r, t = s ++ c :: r) ∨ ∃ p x y s' t', s = p ++ x :: s' ∧ t = p ++ y :: t' ∧ x.toNat < y.toNat

/-- the symbol of the list with the best name -/
structure BestNamed (a : Arch) (l : List Symbol) (s : Symbol) : Prop where
  mem : s ∈ l
  best : ∀ t ∈ l, rankOf (wishes a) s.name ≤ rankOf (wishes a) t.name
  tie : ∀ t ∈ l, t ≠ s → rankOf (wishes a) t.name = rankOf (wishes a) s.name →
    if takesLast (wishes a) s.name then Before t.name s.name else Before s.name t.name

/-- the symbols of the image at an address -/
def symbolsAt (e : Elf) (va : Nat) : List Symbol := e.syms.filter fun s => decide (s.vaddr = va)

/-- no two symbols have the same name -/
def DistinctNames (e : Elf) : Prop := (e.syms.map Symbol.name).Nodup

end Verif.Spec
