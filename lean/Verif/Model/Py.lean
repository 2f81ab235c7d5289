/-!
# Python built-ins used by systrack

Total Lean versions of the Python operations the modelled code uses.
`str` is `List Char`, `bytes` is `List UInt8`; an exception, `sys.exit` or an endless loop is a value
of `Exc`. Nothing here comes from /repo: this file is the model of the Python runtime (trusted).
-/
set_option autoImplicit false

namespace Verif

/-- Python `str`. -/
abbrev Str := List Char

/-- Python `bytes`. -/
abbrev Bytes := List UInt8

open Lean in
/-- `cs!"abc"` is the literal `['a', 'b', 'c']`. -/
macro:max "cs!" s:str : term => do
  let cs : Array (TSyntax `term) :=
    (s.getString.toList.map fun c => (⟨(Syntax.mkCharLit c).raw⟩ : TSyntax `term)).toArray
  `([$cs,*])

/-- Abnormal ends of a Python computation. -/
inductive Exc where
  | assertion | value | index | key | type | attr | stopIteration | structError | unicode | fileNotFound
  /-- a project-defined exception class, by name -/
  | named (cls : String)
  /-- `sys.exit(n)` -/
  | exit (n : Nat)
  /-- the computation never ends -/
  | hang
  deriving DecidableEq, Repr

/-- Result of a Python computation that may not return normally. -/
abbrev Res (α : Type) := Except Exc α

instance {ε α : Type} [DecidableEq ε] [DecidableEq α] : DecidableEq (Except ε α)
  | .ok a, .ok b => if h : a = b then isTrue (by rw [h]) else isFalse (by intro h'; cases h'; exact h rfl)
  | .error a, .error b => if h : a = b then isTrue (by rw [h]) else isFalse (by intro h'; cases h'; exact h rfl)
  | .ok _, .error _ => isFalse (by intro h; cases h)
  | .error _, .ok _ => isFalse (by intro h; cases h)

/-- `assert c` -/
def pyAssert (c : Bool) : Res Unit := if c then .ok () else .error .assertion

/-! ## str -/

/-- `s.startswith(p)` -/
def startsWith {α : Type} [BEq α] (s p : List α) : Bool := p.isPrefixOf s

/-- `s.endswith(p)` -/
def endsWith {α : Type} [BEq α] (s p : List α) : Bool := p.isSuffixOf s

/-- `s[:-n]` (with `n = 0` this is `s[:0]`, i.e. empty) -/
def sliceToNeg {α : Type} (s : List α) (n : Nat) : List α :=
  if n = 0 then [] else s.take (s.length - n)

/-- `sub in s` -/
def isInfix {α : Type} [BEq α] (sub : List α) : List α → Bool
  | [] => sub.isPrefixOf []
  | c :: cs => sub.isPrefixOf (c :: cs) || isInfix sub cs

/-- `s.find(c)` for a one-character string: `none` stands for -1 -/
def findChar (c : Char) : Str → Option Nat
  | [] => none
  | x :: xs => if x = c then some 0 else (findChar c xs).map (· + 1)

/-- `s.rfind(c)` for a one-character string: `none` stands for -1 -/
def rfindChar (c : Char) : Str → Option Nat
  | [] => none
  | x :: xs =>
    match rfindChar c xs with
    | some i => some (i + 1)
    | none => if x = c then some 0 else none

/-- worker of `replaceAll`; the first argument counts characters still covered by the last match -/
def replaceGo (old new : Str) : Nat → Str → Str
  | _, [] => []
  | n + 1, _ :: cs => replaceGo old new n cs
  | 0, c :: cs =>
    if old.isPrefixOf (c :: cs) then new ++ replaceGo old new (old.length - 1) cs
    else c :: replaceGo old new 0 cs

/-- `s.replace(old, new)` for non-empty `old` -/
def replaceAll (s old new : Str) : Str := replaceGo old new 0 s

/-- `str.isspace` of one character (the set CPython uses for `strip`, `split` and `\s`) -/
def isSpace (c : Char) : Bool :=
  let n := c.toNat
  (9 ≤ n && n ≤ 13) || (28 ≤ n && n ≤ 32) || n == 0x85 || n == 0xA0 || n == 0x1680 ||
  (0x2000 ≤ n && n ≤ 0x200A) || n == 0x2028 || n == 0x2029 || n == 0x202F || n == 0x205F || n == 0x3000

/-- `s.lstrip()` -/
def lstrip (s : Str) : Str := s.dropWhile isSpace

/-- `s.rstrip()` -/
def rstrip (s : Str) : Str := (s.reverse.dropWhile isSpace).reverse

/-- `s.strip()` -/
def strip (s : Str) : Str := rstrip (lstrip s)

/-- `s.split(sep)` for a one-character separator -/
def splitChar (sep : Char) : Str → List Str
  | [] => [[]]
  | c :: cs =>
    if c = sep then [] :: splitChar sep cs
    else match splitChar sep cs with
      | [] => [[c]]
      | w :: ws => (c :: w) :: ws

/-- worker of `splitWs`: `cur` is the current word, reversed -/
def splitWsGo (cur : Str) : Str → List Str
  | [] => if cur.isEmpty then [] else [cur.reverse]
  | c :: cs =>
    if isSpace c then (if cur.isEmpty then splitWsGo [] cs else cur.reverse :: splitWsGo [] cs)
    else splitWsGo (c :: cur) cs

/-- `s.split()` -/
def splitWs (s : Str) : List Str := splitWsGo [] s

/-- `sep.join(parts)` -/
def joinWith (sep : Str) : List Str → Str
  | [] => []
  | [w] => w
  | w :: ws => w ++ sep ++ joinWith sep ws

/-! ## numbers -/

/-- the decimal digit character of `d < 10` -/
def digitChar10 (d : Nat) : Char := Char.ofNat (48 + d)

/-- is `c` an ASCII decimal digit (simplification: Python's `\d` also accepts other Unicode digits) -/
def isDigit (c : Char) : Bool := 48 ≤ c.toNat && c.toNat ≤ 57

/-- `int(s)` on a string of ASCII digits -/
def natOfDigits (s : Str) : Nat := s.foldl (fun n c => 10 * n + (c.toNat - 48)) 0

/-- `str(n)`, structural on fuel -/
def natReprGo : Nat → Nat → Str → Str
  | 0, _, acc => acc
  | fuel + 1, n, acc =>
    if n < 10 then digitChar10 n :: acc
    else natReprGo fuel (n / 10) (digitChar10 (n % 10) :: acc)

/-- `str(n)` for a natural number -/
def natRepr (n : Nat) : Str := natReprGo (n + 1) n []

/-- is `c` one of `[0-9a-fA-F]` -/
def isHexDigit (c : Char) : Bool :=
  let n := c.toNat
  (48 ≤ n && n ≤ 57) || (97 ≤ n && n ≤ 102) || (65 ≤ n && n ≤ 70)

/-- value of a hexadecimal digit -/
def hexVal (c : Char) : Nat :=
  let n := c.toNat
  if 48 ≤ n && n ≤ 57 then n - 48 else if 97 ≤ n && n ≤ 102 then n - 87 else n - 55

/-- `int(s, 16)` on a string of hexadecimal digits -/
def natOfHex (s : Str) : Nat := s.foldl (fun n c => 16 * n + hexVal c) 0

/-- `\w` (simplification: ASCII) -/
def isWord (c : Char) : Bool :=
  let n := c.toNat
  (48 ≤ n && n ≤ 57) || (97 ≤ n && n ≤ 122) || (65 ≤ n && n ≤ 90) || n == 95

/-! ## version tuples -/

/-- a tuple of ints; `KernelVersion` in type_hints.py -/
abbrev Ver := List Nat

/-- tuple `a < b` -/
def verLt : Ver → Ver → Bool
  | [], [] => false
  | [], _ :: _ => true
  | _ :: _, [] => false
  | a :: as, b :: bs => if a = b then verLt as bs else decide (a < b)

/-- tuple `a <= b` -/
def verLe : Ver → Ver → Bool
  | [], _ => true
  | _ :: _, [] => false
  | a :: as, b :: bs => if a = b then verLe as bs else decide (a < b)

/-! ## dict -/

/-- a `dict`: association list in insertion order, keys unique by construction through `dset` -/
abbrev Dict (κ β : Type) := List (κ × β)

variable {κ β : Type} [DecidableEq κ]

/-- `d.get(k)` -/
def dget (k : κ) : Dict κ β → Option β
  | [] => none
  | (k', v) :: d => if k' = k then some v else dget k d

/-- `d[k] = v`: keeps the position of an existing key, appends a new one -/
def dset (k : κ) (v : β) : Dict κ β → Dict κ β
  | [] => [(k, v)]
  | (k', v') :: d => if k' = k then (k, v) :: d else (k', v') :: dset k v d

/-- `d.update(e)` -/
def dupdate (d e : Dict κ β) : Dict κ β := e.foldl (fun d kv => dset kv.1 kv.2 d) d

/-- `k in d` -/
def dmem (k : κ) (d : Dict κ β) : Bool := (dget k d).isSome

/-! ## bytes / struct -/

/-- unsigned little endian value -/
def leVal : Bytes → Nat
  | [] => 0
  | b :: bs => b.toNat + 256 * leVal bs

/-- unsigned integer stored in `bs`: `unpack('<>'[big] + ..., bs)` -/
def uintOf (big : Bool) (bs : Bytes) : Nat := if big then leVal bs.reverse else leVal bs

/-- `f.seek(off); f.read(n)` of a file with content `data` (short at end of file) -/
def readAt (data : Bytes) (off n : Nat) : Bytes := (data.drop off).take n

/-- `unpack(fmt, bs)[0]` for one unsigned integer of `n` bytes: struct.error unless the size is exact -/
def unpackUint (big : Bool) (n : Nat) (bs : Bytes) : Res Nat :=
  if bs.length = n then .ok (uintOf big bs) else .error .structError

/-- is `b` a continuation byte of UTF-8 -/
def isCont (b : UInt8) : Bool := 0x80 ≤ b.toNat && b.toNat < 0xc0

/-- the code point at the front and the number of bytes it takes, `none` when ill formed (overlong forms, surrogates
and values above 0x10ffff included) -/
def utf8Char : Bytes → Option (Nat × Nat)
  | [] => none
  | b0 :: t =>
    if b0.toNat < 0x80 then some (b0.toNat, 1)
    else if b0.toNat < 0xc2 then none
    else if b0.toNat < 0xe0 then
      match t with
      | b1 :: _ => if isCont b1 then some ((b0.toNat - 0xc0) * 64 + (b1.toNat - 0x80), 2) else none
      | [] => none
    else if b0.toNat < 0xf0 then
      match t with
      | b1 :: b2 :: _ =>
        let n := (b0.toNat - 0xe0) * 4096 + (b1.toNat - 0x80) * 64 + (b2.toNat - 0x80)
        if isCont b1 && isCont b2 && 0x800 ≤ n && !(0xd800 ≤ n && n ≤ 0xdfff) then some (n, 3) else none
      | _ => none
    else
      match t with
      | b1 :: b2 :: b3 :: _ =>
        let n := (b0.toNat - 0xf0) * 262144 + (b1.toNat - 0x80) * 4096 + (b2.toNat - 0x80) * 64 + (b3.toNat - 0x80)
        if isCont b1 && isCont b2 && isCont b3 && 0x10000 ≤ n && n < 0x110000 then some (n, 4) else none
      | _ => none

/-- worker of `decodeUtf8`; the first argument counts bytes still covered by the last character -/
def utf8Go : Nat → Bytes → Res Str
  | _, [] => .ok []
  | n + 1, _ :: bs => utf8Go n bs
  | 0, b :: bs =>
    match utf8Char (b :: bs) with
    | none => .error .unicode
    | some (c, n) => do
      let s ← utf8Go (n - 1) bs
      .ok (Char.ofNat c :: s)

/-- `bs.decode()`: strict UTF-8 -/
def decodeUtf8 (bs : Bytes) : Res Str := utf8Go 0 bs

/-- `for x in xs: ...` where the body may raise -/
def mapRes {α β : Type} (f : α → Res β) : List α → Res (List β)
  | [] => .ok []
  | x :: xs => do
    let y ← f x
    let ys ← mapRes f xs
    .ok (y :: ys)

end Verif
