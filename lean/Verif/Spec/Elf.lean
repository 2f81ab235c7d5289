import Verif.Model.Py
/-! # Specifications for ELF parsing (C09-C16): encoders, independent of the model -/
set_option autoImplicit false

namespace Verif.Spec

/-- `n` bytes of `v`, least significant first -/
def leBytes : Nat → Nat → Bytes
  | 0, _ => []
  | n + 1, v => UInt8.ofNat (v % 256) :: leBytes n (v / 256)

/-- `n` bytes of `v` in the given byte order -/
def encUint (big : Bool) (n v : Nat) : Bytes := if big then (leBytes n v).reverse else leBytes n v

/-- Fields of an ELF header up to `e_flags` (System V gABI, chapter 4). -/
structure Header where
  bits32 : Bool
  big : Bool
  /-- e_ident[6..15]: version, OS ABI, padding -/
  identRest : Bytes
  eType : Nat
  eMachine : Nat
  eVersion : Nat
  eEntry : Nat
  ePhoff : Nat
  eShoff : Nat
  eFlags : Nat

/-- all fields fit their widths -/
def Header.WF (h : Header) : Prop :=
  h.identRest.length = 10 ∧ h.eType < 2^16 ∧ h.eMachine < 2^16 ∧ h.eVersion < 2^32 ∧ h.eFlags < 2^32 ∧
  h.eEntry < 2^(if h.bits32 then 32 else 64) ∧ h.ePhoff < 2^(if h.bits32 then 32 else 64) ∧
  h.eShoff < 2^(if h.bits32 then 32 else 64)

/-- the header as stored in the file, followed by anything -/
def Header.encode (h : Header) (rest : Bytes) : Bytes :=
  let w := if h.bits32 then 4 else 8
  [0x7f, 0x45, 0x4c, 0x46, if h.bits32 then 1 else 2, if h.big then 2 else 1] ++ h.identRest ++
  encUint h.big 2 h.eType ++ encUint h.big 2 h.eMachine ++ encUint h.big 4 h.eVersion ++
  encUint h.big w h.eEntry ++ encUint h.big w h.ePhoff ++ encUint h.big w h.eShoff ++
  encUint h.big 4 h.eFlags ++ rest

/-- blanks: a non-empty run of spaces -/
def Blanks (s : Str) : Prop := s ≠ [] ∧ ∀ c ∈ s, c = ' '

/-- a row of `readelf -Ws`: `num: value size type bind vis ndx name`; `mid` is everything between the type
and the blanks before the name. -/
structure SymRow where
  lead : Str
  num : Str
  sp1 : Str
  value : Str
  sp2 : Str
  size : Str
  sp3 : Str
  type : Str
  mid : Str
  sp4 : Str
  name : Str

def SymRow.print (r : SymRow) : Str :=
  r.lead ++ r.num ++ [':'] ++ r.sp1 ++ r.value ++ r.sp2 ++ r.size ++ r.sp3 ++ r.type ++ r.mid ++ r.sp4 ++ r.name

/-- hexadecimal digit -/
def hexDigit (c : Char) : Prop := ('0' ≤ c ∧ c ≤ '9') ∨ ('a' ≤ c ∧ c ≤ 'f') ∨ ('A' ≤ c ∧ c ≤ 'F')

/-- shape of a row: blanks, digits, hex value, decimal size, type word, a blank-led middle part on the same line,
and a name without blanks -/
structure SymRow.WF (r : SymRow) : Prop where
  lead : ∀ c ∈ r.lead, c = ' '
  num : r.num ≠ [] ∧ ∀ c ∈ r.num, '0' ≤ c ∧ c ≤ '9'
  sp1 : Blanks r.sp1
  value : r.value ≠ [] ∧ ∀ c ∈ r.value, hexDigit c
  sp2 : Blanks r.sp2
  size : r.size ≠ [] ∧ ∀ c ∈ r.size, '0' ≤ c ∧ c ≤ '9'
  sp3 : Blanks r.sp3
  type : r.type ≠ [] ∧ ∀ c ∈ r.type, 'A' ≤ c ∧ c ≤ 'Z'
  mid : ∃ m, r.mid = ' ' :: m ∧ '\n' ∉ m
  sp4 : Blanks r.sp4
  name : r.name ≠ [] ∧ ∀ c ∈ r.name, isSpace c = false

/-! ## Section headers (C87) -/

/-- the section types systrack looks at -/
def secTypes : List Str := [cs!"PROGBITS", cs!"NOBITS"]

/-- `n` in hexadecimal, with `k` leading zeros -/
def hexText (k n : Nat) : Str := List.replicate k '0' ++ Nat.toDigits 16 n

/-- a row of `readelf -WS` for a section of one of the types above, as words: `before` is what comes between the previous
row's size and the name of this one, `[ 1]` or `[10]` included; then name, type, address, offset, size. -/
structure SecRow where
  before : List Str
  name : Str
  type : Str
  vaddr : Nat
  off : Nat
  size : Nat
  zeros : Nat × Nat × Nat

def SecRow.words (r : SecRow) : List Str :=
  r.before ++ [r.name, r.type, hexText r.zeros.1 r.vaddr, hexText r.zeros.2.1 r.off, hexText r.zeros.2.2 r.size]

structure SecRow.WF (r : SecRow) : Prop where
  before : r.before ≠ [] ∧ ∀ w ∈ r.before, w ∉ secTypes
  type : r.type ∈ secTypes

/-- names made of letters, digits, `_` and `.` -/
def PlainName (n : Str) : Prop := ∀ c ∈ n, c.isAlphanum = true ∨ c = '_' ∨ c = '.'

instance (n : Str) : Decidable (PlainName n) := inferInstanceAs (Decidable (∀ c ∈ n, _))

end Verif.Spec
