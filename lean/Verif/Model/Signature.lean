import Verif.Model.Syscall
/-! # Model of /repo/src/systrack/signature.py -/
set_option autoImplicit false

namespace Verif

/-- The macros of signature.py:14, with their opening parenthesis. -/
def macroPrefixes : List Str := [cs!"SC_ARG64(", cs!"arg_u32p(", cs!"compat_arg_u64_dual(", cs!"compat_arg_u64("]

/-- signature.py:12-26 one round of the loop of `expand_macros`: what is yielded for a field.
`newfield[-1]` of an empty string is an IndexError. -/
def expandField (big : Bool) (field : Str) : Res (List Str) :=
  let newfield := noprefix field macroPrefixes
  if newfield = field then .ok [field]
  else
    match newfield.getLast? with
    | none => .error .index
    | some c => do
      pyAssert (c == ')')
      let f := sliceToNeg newfield 1
      if big then .ok [cs!"u32", f ++ cs!"_hi", cs!"u32", f ++ cs!"_lo"]
      else .ok [cs!"u32", f ++ cs!"_lo", cs!"u32", f ++ cs!"_hi"]

/-- signature.py:12-26 `expand_macros`, collected into a list -/
def expandMacros (big : Bool) : List Str → Res (List Str)
  | [] => .ok []
  | f :: fs => do
    let a ← expandField big f
    let b ← expandMacros big fs
    .ok (a ++ b)

/-- The words of signature.py:34. -/
def macroWords : List Str := [cs!"SC_ARG64", cs!"arg_u32p", cs!"compat_arg_u64"]

/-- signature.py:28-39 `parse_signature` -/
def parseSignature (sig : Str) (big : Bool) : Res (List Str) :=
  let split := (splitChar ',' sig).map strip
  if macroWords.all (fun x => !isInfix x sig) then do
    pyAssert (!sig.contains '(' && !sig.contains ')')
    .ok split
  else expandMacros big split

/-- State of the loop at signature.py:48-50: the text so far and the lines of the file not read yet. -/
structure ReadSig where
  sig : Str
  ahead : List Str

/-- signature.py:49-50 one evaluation of the loop; `none`: the loop is left. At end of file `readline()` gives `''`. -/
def ReadSig.step (s : ReadSig) : Option ReadSig :=
  if endsWith s.sig cs!")" then none
  else match s.ahead with
    | [] => some ⟨s.sig ++ strip [], []⟩
    | l :: ls => some ⟨s.sig ++ strip l, ls⟩

/-- signature.py:49-50 the loop run to its end; `hang` if it never ends
(`readSigLoop_iff_steps` relates it to `ReadSig.step`) -/
def readSigLoop : Str → List Str → Res Str
  | sig, [] => if endsWith sig cs!")" then .ok sig else .error .hang
  | sig, l :: ls => if endsWith sig cs!")" then .ok sig else readSigLoop (sig ++ strip l) ls

/-- signature.py:44-50 the text of the signature starting at a line of a file given as its list of lines
(text mode, line ends removed: they are stripped anyway). `next(f)` at end of file is a StopIteration. -/
def readSigText (lines : List Str) (line : Nat) : Res Str :=
  if lines.length < line - 1 then .error .stopIteration
  else match lines.drop (line - 1) with
    | [] => readSigLoop (strip []) []
    | l :: ls => readSigLoop (strip l) ls

/-- The prefixes of signature.py:57-59. -/
def definePrefixes : List Str :=
  [cs!"SYSCALL_DEFINE", cs!"SYSCALL32_DEFINE", cs!"COMPAT_SYSCALL_DEFINE", cs!"COMPAT_SYSCALL32_DEFINE",
   cs!"PPC32_SYSCALL_DEFINE"]

/-- signature.py:74 and :87 `' '.join(sig.replace(' __user', '').split()).replace('* *', '**')` -/
def cleanSig (sig : Str) : Str :=
  replaceAll (joinWith cs!" " (splitWs (replaceAll sig cs!" __user" []))) cs!"* *" cs!"**"

/-- `sig[start:sig.rfind(c)]`; a `rfind` of -1 cuts the last character -/
def sliceToR (sig : Str) (start : Nat) (c : Char) : Str :=
  match rfindChar c sig with
  | some i => (sig.take i).drop start
  | none => (sig.take (sig.length - 1)).drop start

/-- `sig.find(c) + 1` -/
def findAfter (c : Char) (s : Str) : Nat :=
  match findChar c s with
  | some i => i + 1
  | none => 0

/-- signature.py:78 `f'{t}{" " * (t[-1] != "*")}{n}'` -/
def fmtArg (t n : Str) : Res Str :=
  match t.getLast? with
  | none => .error .index
  | some c => .ok (t ++ (if c ≠ '*' then cs!" " else []) ++ n)

/-- signature.py:78 over `zip(sig[::2], sig[1::2])` -/
def fmtArgs : List Str → Res (List Str)
  | t :: n :: rest => do
    let a ← fmtArg t n
    let b ← fmtArgs rest
    .ok (a :: b)
  | _ => .ok []

/-- signature.py:61-78 the `SYSCALL_DEFINEx` case; `sig` is the text after the macro name -/
def signatureOfDefine (sig : Str) (big : Bool) : Res (List Str) :=
  match sig with
  | [] => .error .index
  | d :: _ =>
    if isDigit d then do
      let nargs := natOfDigits [d]
      let start := findAfter ',' sig
      pyAssert (decide (nargs ≤ 6))
      if start = 0 then do
        pyAssert (decide (nargs = 0))
        .ok []
      else do
        let fields ← parseSignature (cleanSig (sliceToR sig start ')')) big
        pyAssert (decide (fields.length % 2 = 0 ∧ fields.length / 2 = nargs))
        fmtArgs fields
    else .error .value

/-- signature.py:79-92 the `asmlinkage` case -/
def signatureOfAsmlinkage (sig : Str) : Res (List Str) :=
  let inner := strip (sliceToR sig (findAfter '(' sig) ')')
  if inner = [] ∨ inner = cs!"void" then .ok []
  else do
    let s := cleanSig inner
    pyAssert (!s.contains '(' && !s.contains ')')
    let fields := (splitChar ',' s).map strip
    pyAssert (decide (fields.length ≤ 7))
    .ok fields

/-- signature.py:52-97 what is made of the text; `none` is Python's None -/
def signatureOfText (sig : Str) (big : Bool) : Res (Option (List Str)) :=
  let newsig := noprefix sig definePrefixes
  if sig ≠ newsig then (signatureOfDefine newsig big).map some
  else if startsWith sig cs!"asmlinkage" then (signatureOfAsmlinkage sig).map some
  else .ok none

/-- signature.py:41-97 `syscall_signature_from_source` of a file with the given lines -/
def signatureFromSource (lines : List Str) (line : Nat) (big : Bool) : Res (Option (List Str)) := do
  let text ← readSigText lines line
  signatureOfText text big

/-! ## ftrace metadata -/

/-- `iter_unpack` of unsigned integers of `n` bytes over `bs`; the caller checks that the length is a multiple
(else `iter_unpack` raises struct.error) -/
def chunks (n : Nat) : Nat → Bytes → List Bytes
  | 0, _ => []
  | k + 1, bs => bs.take n :: chunks n k (bs.drop n)

/-- `map(itemgetter(0), iter_unpack(fmt, bs))` for one unsigned integer of `n` bytes -/
def iterUnpack (big : Bool) (n : Nat) (bs : Bytes) : Res (List Nat) :=
  if bs.length % n = 0 then .ok ((chunks n (bs.length / n) bs).map (uintOf big)) else .error .structError

/-- signed 32-bit value of an unsigned one (`l` in struct formats with explicit byte order) -/
def signed32 (n : Nat) : Int := if n < 2 ^ 31 then (n : Int) else (n : Int) - 2 ^ 32

/-- signature.py:117 `ptr_sz` -/
def Elf.ptrSize (e : Elf) : Nat := if e.bits32 then 4 else 8

/-- `unpack(ptr_fmt, vmlinux.vaddr_read(va, ptr_sz))[0]` -/
def Elf.readPtr (e : Elf) (va : Nat) : Res Nat := do
  let bs ← e.vaddrRead va e.ptrSize
  unpackUint e.bigEndian e.ptrSize bs

/-- The fields of `struct syscall_metadata` used at signature.py:128. -/
structure Meta where
  name : Nat
  nargs : Int
  types : Nat
  args : Nat
  deriving DecidableEq, Repr

/-- signature.py:128 `unpack(meta_fmt, vmlinux.vaddr_read(ptr, meta_sz))`: pointer, int32, int32, pointer, pointer
without padding -/
def Elf.readMeta (e : Elf) (ptr : Nat) : Res Meta := do
  let p := e.ptrSize
  let bs ← e.vaddrRead ptr (8 + 3 * p)
  if bs.length = 8 + 3 * p then
    .ok ⟨uintOf e.bigEndian (readAt bs 0 p), signed32 (uintOf e.bigEndian (readAt bs (p + 4) 4)),
      uintOf e.bigEndian (readAt bs (p + 8) p), uintOf e.bigEndian (readAt bs (2 * p + 8) p)⟩
  else .error .structError

/-- signature.py:136-143 the loop over arguments, from index `i`, for `n` more arguments -/
def Elf.readMetaArgs (e : Elf) (types args : Nat) : Nat → Nat → Res (List Str)
  | _, 0 => .ok []
  | i, n + 1 => do
    let typ ← e.readPtr (types + i * e.ptrSize)
    let arg ← e.readPtr (args + i * e.ptrSize)
    let typ ← e.vaddrReadString typ
    let arg ← e.vaddrReadString arg
    let a ← fmtArg (replaceAll (strip typ) cs!"* *" cs!"**") (strip arg)
    let rest ← e.readMetaArgs types args (i + 1) n
    .ok (a :: rest)

/-- signature.py:126-145 the loop body: name and signature of one metadata object -/
def Elf.readMetaEntry (e : Elf) (ptr : Nat) : Res (Str × List Str) := do
  let m ← e.readMeta ptr
  pyAssert (decide (0 ≤ m.nargs ∧ (m.nargs = 0 ∨ (m.types ≠ 0 ∧ m.args ≠ 0))))
  let name ← e.vaddrReadString m.name
  let name := noprefix (strip name) [cs!"sys_"]
  let sig ← e.readMetaArgs m.types m.args 0 m.nargs.toNat
  .ok (name, sig)

/-- signature.py:126-145 the loop over the pointers -/
def Elf.readMetaLoop (e : Elf) : List Nat → Dict Str (List Str) → Res (Dict Str (List Str))
  | [], d => .ok d
  | p :: ps, d => do
    let r ← e.readMetaEntry p
    e.readMetaLoop ps (dset r.1 r.2 d)

/-- signature.py:119 `vmlinux.vaddr_read(start, stop - start)`; a negative size reads to the end of the file -/
def Elf.readRange (e : Elf) (start stop : Nat) : Res Bytes :=
  if stop < start then do
    let off ← e.vaddrToFileOffset start
    .ok (e.data.drop off)
  else e.vaddrRead start (stop - start)

/-- signature.py:110-147 the `meta` dict (`none`: no ftrace metadata) -/
def Elf.syscallMeta (e : Elf) : Res (Option (Dict Str (List Str))) :=
  match dget cs!"__start_syscalls_metadata" e.symbols with
  | none => .ok none
  | some start => do
    let stop ← (match dget cs!"__stop_syscalls_metadata" e.symbols with
      | none => .error .key
      | some s => .ok s : Res Symbol)
    let bs ← e.readRange start.realVaddr stop.realVaddr
    let ptrs ← iterUnpack e.bigEndian e.ptrSize bs
    match dget cs!"__syscall_meta__open" e.symbols with
    | none => pure ()
    | some o => if o.size ≠ 0 then pyAssert (decide (o.size ≥ 8 + 3 * e.ptrSize)) else pure ()
    let d ← e.readMetaLoop ptrs []
    .ok (some d)

/-- A file system as far as reading source files is concerned: the lines of a text file, if it exists. -/
abbrev Files := Path → Option (List Str)

/-- signature.py:151-173 the body of the loop for one syscall -/
def signSyscall (fs : Files) (big haveSource : Bool) (metas : Option (Dict Str (List Str))) (sc : Syscall) : Res Syscall :=
  if sc.esoteric then .ok sc
  else if sc.goodLocation then do
    pyAssert haveSource
    match sc.file, sc.line with
    | some file, some line =>
      match fs file with
      | none => .error .fileNotFound
      | some lines => do
        let sig ← signatureFromSource lines line big
        .ok { sc with signature := sig }
    | none, _ => .error .attr
    | some _, none => .error .type
  else match metas with
    | none => .ok sc
    | some d =>
      match dget sc.origname d with
      | some sig => .ok { sc with signature := some sig }
      | none =>
        match dget sc.name d with
        | some sig => .ok { sc with signature := some sig }
        | none => .ok sc

/-- signature.py:99-175 `extract_syscall_signatures`: the syscall list after the call. The metadata dict is
computed first. (The function also returns an always empty list that the caller ignores.) -/
def extractSignatures (fs : Files) (e : Elf) (haveSource : Bool) (scs : List Syscall) : Res (List Syscall) := do
  let metas ← e.syscallMeta
  mapRes (signSyscall fs e.bigEndian haveSource metas) scs

end Verif
