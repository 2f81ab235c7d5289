import Verif.Model.Location
/-! # Source files as bytes

`Model/Location` and `Model/Signature` take source files as lists of lines of text. Here are the three functions that read them
once more, on the bytes of a file: `adjust_line` and `good_location` open it in binary mode, `syscall_signature_from_source` in
text mode. -/
set_option autoImplicit false

namespace Verif

/-- existing files with their content -/
abbrev BFiles := Path → Option Bytes

/-- the lines of `l`, each with its end -/
def linesOf {α : Type} (isEnd : α → Bool) : List α → List (List α)
  | [] => []
  | x :: xs =>
    if isEnd x then [x] :: linesOf isEnd xs
    else match linesOf isEnd xs with
      | [] => [[x]]
      | l :: ls => (x :: l) :: ls

/-- the lines of a file opened with mode `'rb'` -/
def blines (bs : Bytes) : List Bytes := linesOf (fun b => b == 10) bs

/-- location.py:166-174 `good_location`: `f.readline().decode()` raises UnicodeDecodeError -/
def goodLocationB (fs : BFiles) (file : Path) (line : Nat) (a : Arch) (sc : Syscall) : Res Bool :=
  match fs file with
  | none => .error .fileNotFound
  | some bs =>
    if (blines bs).length < line - 1 then .error .stopIteration
    else do
      let definition ← decodeUtf8 (match (blines bs).drop (line - 1) with
        | [] => []
        | l :: _ => l)
      .ok (goodDefinition a definition sc.origname || goodDefinition a definition sc.name)

/-- `bytes.isspace` of one byte -/
def isByteSpace (b : UInt8) : Bool := (9 ≤ b.toNat && b.toNat ≤ 13) || b.toNat == 32

/-- `bytes.rstrip()` -/
def byteRstrip (s : Bytes) : Bytes := (s.reverse.dropWhile isByteSpace).reverse

/-- location.py:211-222 the inner loop from line index `j - 1` downwards -/
def signatureAboveB (lines : List Bytes) : Nat → Option Nat
  | 0 => none
  | j + 1 =>
    match lines[j]? with
    | none => none
    | some l =>
      match l.head? with
      | some c =>
        if isByteSpace c then signatureAboveB lines j
        else if c = 35 then signatureAboveB lines j
        else some (j + 1)
      | none => some (j + 1)

/-- location.py:195-229 the outer loop at index `i - 1` (going down) -/
def adjustGoB (lines : List Bytes) (line : Nat) : Nat → Res Nat
  | 0 => .ok line
  | i + 1 =>
    match lines[i]? with
    | none => .error (.exit 1)
    | some l =>
      let l := byteRstrip l
      if i < line - 1 ∧ l = [125] then .ok line
      else if l = [123] then
        match signatureAboveB lines i with
        | some n => .ok n
        | none => .ok (i + 1)
      else adjustGoB lines line i

/-- location.py:176-229 `adjust_line` -/
def adjustLineB (fs : BFiles) (file : Path) (line : Nat) : Res Nat :=
  match fs file with
  | none => .error (.exit 1)
  | some bs => adjustGoB (blines bs) line line

/-- The characters before the first byte that cannot be decoded, and whether there is no such byte; the first argument counts
bytes still covered by the last character (as in `utf8Go`). -/
def decodePart : Nat → Bytes → Str × Bool
  | _, [] => ([], true)
  | n + 1, _ :: bs => decodePart n bs
  | 0, b :: bs =>
    match utf8Char (b :: bs) with
    | none => ([], false)
    | some (c, n) => let r := decodePart (n - 1) bs; (Char.ofNat c :: r.1, r.2)

/-- text mode: `\r\n` and `\r` are read as `\n` -/
def universal : Str → Str
  | [] => []
  | '\r' :: '\n' :: s => '\n' :: universal s
  | '\r' :: s => '\n' :: universal s
  | c :: s => c :: universal s

/-- the lines of a text -/
def nlLines (s : Str) : List Str := linesOf (fun c => c == '\n') s

/-- The lines of a text file whose next byte cannot be decoded, as far as they are known to be complete: the end of the last line
has been seen, and it is not a `\r` that may be part of `\r\n`. -/
def completeLines (s : Str) : List Str :=
  (nlLines (universal (if endsWith s cs!"\r" then s.dropLast else s))).filter fun l => endsWith l cs!"\n"

/-- The successive results of `f.readline()` for a file opened with mode `'r'` (UTF-8), until the end of the file. Python decodes
the file in chunks, so that a byte which cannot be decoded raises UnicodeDecodeError not later than when its line is read, but
maybe some lines before: `early n` tells if this happens when the line of index `n` is read. -/
def openedLines (early : Nat → Bool) (bs : Bytes) : List (Res Str) :=
  match decodePart 0 bs with
  | (s, true) => (nlLines (universal s)).map .ok
  | (s, false) =>
    (numberFrom 0 (completeLines s)).map (fun p => if early p.1 then .error .unicode else .ok p.2) ++ [.error .unicode]

/-- signature.py:45-46 `next(f)` for some lines: the lines that follow -/
def skipLines : Nat → List (Res Str) → Res (List (Res Str))
  | 0, ls => .ok ls
  | _ + 1, [] => .error .stopIteration
  | n + 1, l :: ls => do
    let _ ← l
    skipLines n ls

/-- signature.py:49-50 the loop; `hang` if it never ends -/
def readSigLoopB : Str → List (Res Str) → Res Str
  | sig, [] => if endsWith sig cs!")" then .ok sig else .error .hang
  | sig, l :: ls =>
    if endsWith sig cs!")" then .ok sig
    else do
      let l ← l
      readSigLoopB (sig ++ strip l) ls

/-- signature.py:41-97 `syscall_signature_from_source` of a file with the given content -/
def signatureFromSourceB (early : Nat → Bool) (bs : Bytes) (line : Nat) (big : Bool) : Res (Option (List Str)) := do
  let ls ← skipLines (line - 1) (openedLines early bs)
  let text ← (match ls with
    | [] => readSigLoopB (strip []) []
    | l :: ls => do
      let l ← l
      readSigLoopB (strip l) ls : Res Str)
  signatureOfText text big

end Verif
