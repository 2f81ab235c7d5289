import Verif.Model.Regex
import Verif.Model.Utils
/-! # Model of /repo/src/systrack/elf.py -/
set_option autoImplicit false

namespace Verif

/-! ## Constants, elf.py:16-28 -/

/-- elf.py:17-24 `E_MACHINE` -/
def EM_386 : Nat := 3
def EM_MIPS : Nat := 8
def EM_PPC : Nat := 20
def EM_PPC64 : Nat := 21
def EM_ARM : Nat := 40
def EM_X86_64 : Nat := 62
def EM_AARCH64 : Nat := 183
def EM_RISCV : Nat := 243

/-- elf.py:28 `EF_ARM_EABI_MASK` -/
def EF_ARM_EABI_MASK : Nat := 0xff000000

/-- elf.py:30 `Section` -/
structure Section where
  name : Str
  vaddr : Nat
  off : Nat
  size : Nat
  deriving DecidableEq, Repr

/-- elf.py:31-44 `Symbol` -/
structure Symbol where
  vaddr : Nat
  realVaddr : Nat
  size : Nat
  type : Str
  name : Str
  deriving DecidableEq, Repr

/-- elf.py:46-50 an `ELF` object with its lazily computed members already computed; `data` is the file content -/
structure Elf where
  bits32 : Bool
  bigEndian : Bool
  machine : Nat
  eflags : Nat
  data : Bytes
  sections : Dict Str Section
  symbols : Dict Str Symbol
  functions : Dict Str Symbol

/-- The four attributes read from the header. -/
structure ElfHeader where
  bits32 : Bool
  bigEndian : Bool
  machine : Nat
  eflags : Nat
  deriving DecidableEq, Repr

/-- elf.py:59-86 header part of `ELF.__init__`: `unpack('<4sBB', read(6))`, class and data bytes, then
the machine at 0x12 and the flags at 0x24. The magic check (elf.py:61-62) only logs. -/
def parseElfHeader (data : Bytes) : Res ElfHeader :=
  if (readAt data 0 6).length = 6 then
    match (readAt data 0 6)[4]?, (readAt data 0 6)[5]? with
    | some eiClass, some eiData => do
      let bits32 ← (if eiClass = 1 then .ok true else if eiClass = 2 then .ok false else .error (.exit 1) : Res Bool)
      let big ← (if eiData = 1 then .ok false else if eiData = 2 then .ok true else .error (.exit 1) : Res Bool)
      let machine ← unpackUint big 2 (readAt data 0x12 2)
      let flags ← unpackUint big 4 (readAt data 0x24 4)
      .ok ⟨bits32, big, machine, flags⟩
    | _, _ => .error .structError
  else .error .structError

/-! ## readelf output -/

/-- `[0-9a-fA-F]+` -/
def reHex : Re := .plus isHexDigit

/-- `\s+` -/
def reSp : Re := .plus isSpace

/-- `.` (any character but newline) -/
def notNewline (c : Char) : Bool := c != '\n'

/-- elf.py:122 `\d+:\s+([0-9a-fA-F]+)\s+(\d+)\s+(\w+).+\s+(\S+)$` -/
def symbolRe : Re :=
  .cat [.plus isDigit, .lit cs!":", reSp, .grp 1 reHex, reSp, .grp 2 (.plus isDigit), reSp,
    .grp 3 (.plus isWord), .plus notNewline, reSp, .grp 4 (.plus (fun c => !isSpace c)), .eol]

/-- elf.py:128-141 one line of `readelf -Ws`: `exp.search(line)` and the resulting symbol (none: skipped) -/
def parseSymbolLine (machine : Nat) (line : Str) : Option Symbol :=
  match symbolRe.search line with
  | none => none
  | some (caps, _) =>
    match caps.group 1, caps.group 2, caps.group 3, caps.group 4 with
    | some va, some sz, some typ, some name =>
      let vaddr := natOfHex va
      let real := if machine = EM_ARM ∧ typ = cs!"FUNC" ∧ vaddr % 2 = 1 then vaddr &&& 0xfffffffe else vaddr
      some ⟨vaddr, real, natOfDigits sz, typ, name⟩
    | _, _, _, _ => none

/-- elf.py:124-148 the loop of `__extract_symbols` over the lines: the dicts `symbols` and `functions` -/
def extractSymbols (machine : Nat) (lines : List Str) : Dict Str Symbol × Dict Str Symbol :=
  lines.foldl (fun (acc : Dict Str Symbol × Dict Str Symbol) line =>
    match parseSymbolLine machine line with
    | none => acc
    | some sym =>
      (dset sym.name sym acc.1, if sym.type = cs!"FUNC" then dset sym.name sym acc.2 else acc.2)) ([], [])

/-- elf.py:94 `\s([.\w]+)\s+(PROGBITS|NOBITS)\s+([0-9a-fA-F]+)\s+([0-9a-fA-F]+)\s+([0-9a-fA-F]+)` -/
def sectionRe : Re :=
  .cat [.chr isSpace, .grp 1 (.plus (fun c => c == '.' || isWord c)), reSp,
    .grp 2 (.alt (.lit cs!"PROGBITS") (.lit cs!"NOBITS")), reSp, .grp 3 reHex, reSp, .grp 4 reHex, reSp, .grp 5 reHex]

/-- elf.py:98-100 one match of the section expression -/
def sectionOfCaps (caps : Caps) : Option Section :=
  match caps.group 1, caps.group 3, caps.group 4, caps.group 5 with
  | some name, some va, some off, some sz => some ⟨name, natOfHex va, natOfHex off, natOfHex sz⟩
  | _, _, _, _ => none

/-- elf.py:89-103 `sections`, as a function of the output of `readelf -WS` -/
def extractSections (out : Str) : Dict Str Section :=
  ((sectionRe.findIter (out.length + 1) ⟨none, out⟩).filterMap sectionOfCaps).foldl
    (fun d s => dset s.name s d) []

/-- elf.py:119 `has_debug_info` -/
def Elf.hasDebugInfo (e : Elf) : Bool := dmem cs!".debug_line" e.sections

/-! ## Reading memory -/

/-- elf.py:150-154 `vaddr_to_file_offset` over `self.sections.values()` -/
def vaddrToOffset (secs : List Section) (vaddr : Nat) : Res Nat :=
  match secs with
  | [] => .error .value
  | sec :: secs =>
    if sec.vaddr ≤ vaddr ∧ vaddr < sec.vaddr + sec.size then .ok (sec.off + vaddr - sec.vaddr)
    else vaddrToOffset secs vaddr

/-- `self.sections.values()` -/
def Elf.secs (e : Elf) : List Section := e.sections.map Prod.snd

/-- elf.py:150-154 `ELF.vaddr_to_file_offset` -/
def Elf.vaddrToFileOffset (e : Elf) (vaddr : Nat) : Res Nat := vaddrToOffset e.secs vaddr

/-- elf.py:165-168 `ELF.vaddr_read` (`seek` past the end is allowed and `read` is short at end of file) -/
def Elf.vaddrRead (e : Elf) (vaddr size : Nat) : Res Bytes := do
  let off ← e.vaddrToFileOffset vaddr
  .ok (readAt e.data off size)

/-- State of the loop at elf.py:160-162: bytes read so far and bytes of the file still ahead. -/
structure ReadStr where
  acc : Bytes
  ahead : Bytes

/-- elf.py:161-162 one evaluation of the loop: `none` when the loop is left, else the next state.
At end of file `read(1)` returns `b''` and the state does not change. -/
def ReadStr.step (s : ReadStr) : Option ReadStr :=
  if s.acc.getLast? = some 0 then none else some ⟨s.acc ++ s.ahead.take 1, s.ahead.drop 1⟩

/-- the loop from elf.py:161-162 run to its end; `hang` when no NUL byte is ahead
(see `ReadStr.step` and theorem `C15_read_string_terminates_refuted` for the small-step justification) -/
def readStrLoop : Bytes → Bytes → Res Bytes
  | acc, [] => if acc.getLast? = some 0 then .ok acc else .error .hang
  | acc, b :: ahead =>
    if acc.getLast? = some 0 then .ok acc else readStrLoop (acc ++ [b]) ahead

/-- elf.py:156-163 `ELF.vaddr_read_string`; `data[-1]` of an empty read is an IndexError -/
def Elf.vaddrReadString (e : Elf) (vaddr : Nat) : Res Str := do
  let off ← e.vaddrToFileOffset vaddr
  match e.data.drop off with
  | [] => .error .index
  | b :: ahead =>
    let data ← readStrLoop [b] ahead
    decodeUtf8 data.dropLast

/-- elf.py:170-174 `ELF.read_symbol` of a `Symbol` -/
def Elf.readSymbol (e : Elf) (sym : Symbol) : Res Bytes := e.vaddrRead sym.realVaddr sym.size

/-- elf.py:170-174 `ELF.read_symbol` of a name -/
def Elf.readSymbolNamed (e : Elf) (name : Str) : Res Bytes :=
  match dget name e.symbols with
  | some sym => e.readSymbol sym
  | none => .error .key

/-- Python's `min(..., key=...)`: the first element with the smallest key; `none` for an empty iterable -/
def minByKey {α : Type} (key : α → Nat) : List α → Option α
  | [] => none
  | x :: xs => some (xs.foldl (fun best y => if key y < key best then y else best) x)

/-- `self.symbols.values()` -/
def Elf.syms (e : Elf) : List Symbol := e.symbols.map Prod.snd

/-- elf.py:176-186 `ELF.next_symbol` (the `lru_cache` does not change results: symbols never change) -/
def Elf.nextSymbol (e : Elf) (sym : Symbol) : Option Symbol :=
  minByKey Symbol.vaddr (e.syms.filter fun s => decide (s.realVaddr > sym.realVaddr))

/-- elf.py:52-148 an `ELF` built from the file content and the two `readelf` outputs
(`syms` is the output of `readelf -Ws` split into lines) -/
def Elf.load (data : Bytes) (secOut : Str) (symLines : List Str) : Res Elf := do
  let h ← parseElfHeader data
  let ss := extractSymbols h.machine symLines
  .ok ⟨h.bits32, h.bigEndian, h.machine, h.eflags, data, extractSections secOut, ss.1, ss.2⟩

end Verif
