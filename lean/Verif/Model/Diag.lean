import Verif.Model.Kernel
import Verif.Model.Location
/-! # Messages of the extraction

The messages of level WARNING and above logged by `Kernel.__extract_syscalls` and the two functions reading the table
(kernel.py:189-585). The messages of the location and dispatch analyses are in `Model/LocDiag` and `Model/EmuDiag`, that of the signature analysis is left out. A message is kept as the
call that logs it: a format and its arguments. -/
set_option autoImplicit false

namespace Verif

inductive Level | warning | error | critical
  deriving DecidableEq, Repr

/-- an argument of a logging call: a number, `None`, an object with its `str`, or an instruction with the text iced_x86 shows
for it (`str` and `repr`) -/
inductive LogArg
  | int (n : Nat)
  | none
  | obj (s : Str)
  | insn (s : Str)
  deriving DecidableEq, Repr

/-- `'%x' % n` -/
def hexRepr (n : Nat) : Str := Nat.toDigits 16 n

/-- `str` of an argument -/
def LogArg.str : LogArg → Str
  | .int n => natRepr n
  | .none => cs!"None"
  | .obj s => s
  | .insn s => s

/-- `fmt % args` for the conversions `%s`, `%d`, `%x`, `%#x`, `%%`, and `%r` of instructions (nothing else is shown with `%r`);
`none` is a TypeError or ValueError (`%d` and `%x` of something that is not a number, too few or too many arguments, another
conversion) -/
def pyFormat : Str → List LogArg → Option Str
  | [], [] => some []
  | [], _ :: _ => none
  | '%' :: '%' :: cs, args => (pyFormat cs args).map ('%' :: ·)
  | '%' :: 's' :: cs, a :: args => (pyFormat cs args).map (a.str ++ ·)
  | '%' :: 'd' :: cs, .int n :: args => (pyFormat cs args).map (natRepr n ++ ·)
  | '%' :: 'x' :: cs, .int n :: args => (pyFormat cs args).map (hexRepr n ++ ·)
  | '%' :: '#' :: 'x' :: cs, .int n :: args => (pyFormat cs args).map (cs!"0x" ++ hexRepr n ++ ·)
  | '%' :: 'r' :: cs, .insn s :: args => (pyFormat cs args).map (s ++ ·)
  | '%' :: _, _ => none
  | c :: cs, args => (pyFormat cs args).map (c :: ·)

/-- a call of the `logging` module -/
structure LogCall where
  level : Level
  fmt : Str
  args : List LogArg
  deriving DecidableEq, Repr

/-- `logging.Logger.handle`: the text shown. Formatting is done when the record is emitted; if it fails, a traceback is
shown instead of the text, and the program goes on. -/
def LogCall.text (c : LogCall) : Option Str := if c.args = [] then some c.fmt else pyFormat c.fmt c.args

/-! ## A computation that logs -/

/-- the calls so far and the outcome -/
def LM (α : Type) : Type := List LogCall × Res α

def LM.pure {α : Type} (x : α) : LM α := ([], .ok x)

def LM.bind {α β : Type} (m : LM α) (f : α → LM β) : LM β :=
  match m.2 with
  | .error e => (m.1, .error e)
  | .ok x => (m.1 ++ (f x).1, (f x).2)

instance : Monad LM where
  pure := LM.pure
  bind := LM.bind

def LM.lift {α : Type} (r : Res α) : LM α := ([], r)

def LM.log (l : List LogCall) : LM Unit := (l, .ok ())

/-! ## The header -/

/-- elf.py:64-78 what is logged about the class and data bytes; line 69 shows `ei_data` -/
def headerCalls (data : Bytes) : List LogCall :=
  match (readAt data 0 6)[4]?, (readAt data 0 6)[5]? with
  | some eiClass, some eiData =>
    if eiClass = 1 ∨ eiClass = 2 then
      if eiData = 1 ∨ eiData = 2 then [] else [⟨.critical, cs!"Invalid ELF e_ident[EI_DATA] = %d", [.int eiData.toNat]⟩]
    else [⟨.critical, cs!"Invalid ELF e_ident[EI_CLASS] = %d", [.int eiData.toNat]⟩]
  | _, _ => []

/-! ## The table -/

/-- kernel.py:204-207 the arguments are not those of the format -/
def outsideCall (tbl sec : Str) (idx vaddr : Nat) : LogCall :=
  ⟨.warning, cs!"Virtual address 0x%x idx %d is outside %s: something is off!", [.int vaddr, .obj tbl, .int idx, .obj sec]⟩

/-- kernel.py:213-214 -/
def badSizeCall (tbl : Str) (size : Nat) : LogCall :=
  ⟨.warning, cs!"Syscall table (%s) has bad size (%d), doing my best to figure out when to stop", [.obj tbl, .int size]⟩

/-- kernel.py:189-237 `__unpack_syscall_table`; `secName` is `target_section.name` -/
def unpackTableL (e : Elf) (tbl : Symbol) (sec : Section) (secName : Str) : LM (List Nat) := do
  let off ← LM.lift (e.vaddrToFileOffset tbl.vaddr)
  if tbl.size > 0x80 then do
    let vs ← LM.lift (iterUnpack e.bigEndian e.ptrSize (readAt e.data off tbl.size))
    LM.log (((enumerate vs).filter fun p => !sec.contains p.2).map fun p => outsideCall tbl.name secName p.1 p.2)
    LM.pure vs
  else do
    LM.log [badSizeCall tbl.name tbl.size]
    let boundary := (e.nextSymbol tbl).map Symbol.vaddr
    LM.lift (unsizedLoop e.bigEndian e.ptrSize sec boundary (e.data.length + 1) tbl.vaddr (e.data.drop off))

/-- kernel.py:280-281 -/
def descriptorCall (desc : Nat) : LogCall :=
  ⟨.warning, cs!"Function descriptor at 0x%x points outside .text: something is off!", [.int desc]⟩

/-- kernel.py:275-283 descriptors to addresses -/
def derefDescriptorsL (e : Elf) (text : Section) : List Nat → LM (List Nat)
  | [] => LM.pure []
  | d :: ds => do
    let va ← LM.lift (e.readPtr d)
    LM.log (if text.contains va then [] else [descriptorCall d])
    let vas ← derefDescriptorsL e text ds
    LM.pure (va :: vas)

/-- kernel.py:242-243 -/
def tableMissingCall (name : Str) : LogCall := ⟨.critical, cs!"Unable to find %s symbol!", [.obj name]⟩

/-- kernel.py:268-269 -/
def noOpdCall : LogCall := ⟨.critical, cs!"Arch uses function descriptors, but vmlinux has no .opd section!", []⟩

/-- kernel.py:291-294 -/
def noPointerCalls (name : Str) : List LogCall :=
  [⟨.critical, cs!"Could not extract any valid function pointer from %s, giving up!", [.obj name]⟩,
   ⟨.critical, cs!"Is the kernel relocatable? Relocation entries for the syscall table are not supported.", []⟩]

/-- kernel.py:287-297 the plain reading of the table, and the check that there is something in it -/
def plainTableL (e : Elf) (tbl : Symbol) (text : Section) (tableName : Str) : LM (List Nat) := do
  let vs ← unpackTableL e tbl text cs!".text"
  LM.log (if vs.isEmpty then noPointerCalls tableName else [])
  LM.pure vs

/-- kernel.py:239-297 `__syscall_vaddrs_from_syscall_table` -/
def vaddrsFromTableL (a : Arch) (e : Elf) (tableName : Str) : LM (List Nat) :=
  match dget tableName e.symbols with
  | none => do
    LM.log [tableMissingCall tableName]
    LM.pure []
  | some tbl =>
    match dget cs!".text" e.sections with
    | none => LM.lift (.error .key)
    | some text =>
      if a.usesFunctionDescriptors then do
        let first ← LM.lift (e.readPtr tbl.vaddr)
        if !text.contains first then
          match dget cs!".opd" e.sections with
          | none => do
            LM.log [noOpdCall]
            LM.pure []
          | some opd => do
            let descs ← unpackTableL e tbl opd cs!".opd"
            let vaddrs ← derefDescriptorsL e text descs
            if vaddrs.isEmpty then plainTableL e tbl text tableName else LM.pure vaddrs
        else plainTableL e tbl text tableName
      else plainTableL e tbl text tableName

/-- kernel.py:313 -/
def noTableCall : LogCall := ⟨.warning, cs!"No syscall table available! Trying my best...", []⟩

/-- kernel.py:308-314 (the messages of `extract_syscall_vaddrs` are left out) -/
def tableEntriesL (a : Arch) (e : Elf) (env : KEnv) : LM (List (Nat × Nat)) :=
  match a.tableName with
  | some t => do
    let vs ← vaddrsFromTableL a e t
    LM.pure (enumerate vs)
  | none => do
    LM.log [noTableCall]
    LM.lift (env.archVaddrs e)

/-! ## The entries -/

/-- kernel.py:391-393 `counts`: addresses found more than once with how often, most often first. `Counter` keeps the order
of first appearance, and `sorted` is stable, also in reverse. -/
def counts (vaddrs : List Nat) : List (Nat × Nat) :=
  sortBy (fun x y => decide (y.2 ≤ x.2)) ((vaddrs.eraseDups.map fun va => (va, vaddrs.count va)).filter fun p => decide (p.2 > 1))

/-- values of Python that are compared at kernel.py:398 -/
inductive PyVal
  | int (n : Nat)
  | sym (s : Symbol)
  deriving DecidableEq

/-- kernel.py:402-404 -/
def mostFrequentCall (name : Str) (n : Nat) : LogCall :=
  ⟨.error, cs!"Interesting! I was expecting *_ni_syscall to be the most frequent symbol in the syscall table, but %s is (appearing %d times).",
    [.obj name, .int n]⟩

/-- `str(sym)` of a symbol, or kernel.py:407 when there is none -/
def symbolText (show_ : Symbol → Str) (by_ : Dict Nat Symbol) (va : Nat) : Str :=
  match dget va by_ with
  | some s => show_ s
  | none => cs!"0x" ++ hexRepr va ++ cs!" <unknown symbol!>"

/-- kernel.py:409 -/
def repeatedCall (n : Nat) (sym : Str) : LogCall := ⟨.warning, cs!"Interesting! Vaddr found %d times: %s", [.int n, .obj sym]⟩

/-- kernel.py:395-404: the question at line 398 is whether one of the addresses is in the set of symbols -/
def mostFrequentL (ni : List Symbol) (by_ : Dict Nat Symbol) (vaddrs : List Nat) : LM Unit :=
  match counts vaddrs with
  | [] => LM.pure ()
  | c :: _ =>
    if vaddrs.any fun va => (ni.map PyVal.sym).contains (PyVal.int va) then
      match dget c.1 by_ with
      | none => LM.lift (.error .key)
      | some best => if ni.contains best then LM.pure () else LM.log [mostFrequentCall best.name c.2]
    else LM.pure ()

/-- kernel.py:406-409 -/
def repeatedL (show_ : Symbol → Str) (ni : List Symbol) (by_ : Dict Nat Symbol) (vaddrs : List Nat) : LM Unit :=
  LM.log (((counts vaddrs).filter fun c => !(dget c.1 by_).any ni.contains).map fun c => repeatedCall c.2 (symbolText show_ by_ c.1))

/-- kernel.py:419-425 -/
def unresolvedCall (tableName : Option Str) (idx vaddr : Nat) : LogCall :=
  match tableName with
  | some t => ⟨.error, cs!"Unable to find symbol for %s[%d]: 0x%x", [.obj t, .int idx, .int vaddr]⟩
  | none => ⟨.error, cs!"Unable to find symbol for #%d 0x%x", [.int idx, .int vaddr]⟩

/-- kernel.py:447 -/
def noPrefixCall : LogCall := ⟨.warning, cs!"No common syscall symbol prefixes found (weird!)", []⟩

/-- kernel.py:391-519 from the entries to the syscalls that are not dummies, as `candidateSyscalls` -/
def candidatesL (show_ : Symbol → Str) (a : Arch) (e : Elf) (v : Ver) (niOrder : List Symbol) (entries : List (Nat × Nat)) :
    LM (List Syscall) := do
  let ni := e.niSyscalls
  let byVaddr := symbolsByVaddr a e niOrder (entries.map Prod.snd)
  mostFrequentL ni byVaddr (entries.map Prod.snd)
  repeatedL show_ ni byVaddr (entries.map Prod.snd)
  LM.log (((sortEntries entries).filter fun p => (dget p.2 byVaddr).isNone).map fun p => unresolvedCall a.tableName p.1 p.2)
  let rs := resolved byVaddr (sortEntries entries)
  let symbols := rs.filter fun p => !ni.contains p.2
  let niCount := niCounts ni rs
  let prefixes ← LM.lift (commonPrefixes (symbols.map fun p => p.2.name) 20)
  LM.log (if prefixes.isEmpty then [noPrefixCall] else [])
  let syscalls := buildSyscalls a v prefixes symbols
  let nSkipped := symbols.length - syscalls.length
  let niTotal := (niCount.map Prod.snd).sum
  let eso ← LM.lift (a.extractEsoteric e)
  let esoScs ← LM.lift (esotericSyscalls e eso)
  let all := syscalls ++ esoScs
  LM.lift (pyAssert (decide (all.length + niTotal + nSkipped = entries.length + eso.length)))
  let niRef := maxKey niCount
  let niCode ← LM.lift (match niRef with
    | none => .ok none
    | some s => do let c ← e.readSymbol s; .ok (some c) : Res (Option Bytes))
  LM.lift (filterRes (fun sc => do let d ← a.isDummy sc.symbol e niRef niCode; .ok (!d)) all)

/-! ## The last pass -/

/-- kernel.py:547-549 -/
def assumeNiCall (name : Str) (file : Path) (line : Option Nat) : LogCall :=
  ⟨.warning, cs!"Assuming %s is not implemented as it points to %s:%d after adjustments",
    [.obj name, .obj file.str, match line with | some n => .int n | none => .none]⟩

/-- kernel.py:553-558 `hint`; `match` looks at the last component, case sensitive -/
def locationHint (file : Path) : Str :=
  match file.parts.getLast? with
  | none => []
  | some n =>
    if endsWith n cs!".S" then cs!" (implemented in asm?)"
    else if endsWith n cs!".c" then cs!" (normal function w/o asmlinkage?)"
    else []

/-- kernel.py:560-566, 577: `str(line)` -/
def badLocationCall (sc : Syscall) (file rel : Path) : LogCall :=
  ⟨.warning, cs!"Potentially bad location for %s (%s): %s:%s%s",
    [.obj sc.name, .obj sc.symbol.name, .obj rel.str, .obj (match sc.line with | some n => natRepr n | none => cs!"None"), .obj (locationHint file)]⟩

/-- kernel.py:580 -/
def noLocationCall (sc : Syscall) : LogCall := ⟨.error, cs!"Unable to find location for %s (%s)", [.obj sc.name, .obj sc.symbol.name]⟩

/-- kernel.py:583 -/
def noSignatureCall (sc : Syscall) : LogCall := ⟨.error, cs!"Unable to extract signature for %s (%s)", [.obj sc.name, .obj sc.symbol.name]⟩

/-- what the loop at kernel.py:533-574 collects: `bad_loc_info`, `no_loc_info`, `no_sig_info`, `implemented` -/
structure Found where
  badLoc : List LogCall := []
  noLoc : List LogCall := []
  noSig : List LogCall := []
  implemented : List Syscall := []

/-- kernel.py:568-574 what is collected about a syscall that is kept -/
def keepL (canLoc canSig : Bool) (bad : List LogCall) (sc : Syscall) (f : Found) : Found :=
  { badLoc := f.badLoc ++ bad
    noLoc := f.noLoc ++ (if sc.file.isNone && canLoc then [noLocationCall sc] else [])
    noSig := f.noSig ++ (if sc.signature.isNone && canSig then [noSignatureCall sc] else [])
    implemented := f.implemented ++ [sc] }

/-- kernel.py:533-574 one round -/
def finalStepL (kdir : Option Path) (canLoc canSig : Bool) (sc : Syscall) (f : Found) : LM Found :=
  if !sc.esoteric && !sc.goodLocation then
    match sc.file with
    | none => LM.pure (keepL canLoc canSig [] sc f)
    | some file => do
      let r ← LM.lift (maybeRel file kdir)
      if isSysNi r then do
        LM.log [assumeNiCall sc.name r sc.line]
        LM.pure f
      else if kdir.isSome then LM.pure (keepL canLoc canSig [badLocationCall sc file r] sc f)
      else LM.pure (keepL canLoc canSig [] sc f)
  else LM.pure (keepL canLoc canSig [] sc f)

/-- kernel.py:533-574 -/
def finalLoopL (kdir : Option Path) (canLoc canSig : Bool) : List Syscall → Found → LM Found
  | [], f => LM.pure f
  | sc :: scs, f => do
    let f ← finalStepL kdir canLoc canSig sc f
    finalLoopL kdir canLoc canSig scs f

/-- kernel.py:152-154 `can_extract_location_info` -/
def canLocate (e : Elf) : Bool := e.hasDebugInfo

/-- kernel.py:156-161 `can_extract_signature_info` -/
def canSign (e : Elf) : Bool := dmem cs!"__start_syscalls_metadata" e.symbols || e.hasDebugInfo

/-- kernel.py:525-585 -/
def finalL (kdir : Option Path) (e : Elf) (scs : List Syscall) : LM (List Syscall) := do
  let f ← finalLoopL kdir (canLocate e) (canSign e) scs {}
  LM.log (f.badLoc ++ f.noLoc ++ f.noSig)
  LM.pure f.implemented

/-- kernel.py:301-302 -/
def bitsCall (arch32 : Bool) : LogCall :=
  ⟨.critical, cs!"Selected arch is %d-bit, but kernel is %d-bit", if arch32 then [.int 32, .int 64] else [.int 64, .int 32]⟩

/-- kernel.py:317 -/
def noVaddrCall : LogCall := ⟨.critical, cs!"Unable to extract any syscall vaddr, giving up!", []⟩

/-- kernel.py:332 -/
def noNiCall : LogCall := ⟨.critical, cs!"No ni_syscall found!", []⟩

/-- kernel.py:299-585 `__extract_syscalls`. The test at line 383 is left out: `symbols_by_vaddr` holds the ni_syscalls. -/
def extractL (show_ : Symbol → Str) (a0 : Arch) (e : Elf) (v : Ver) (env : KEnv) : LM (List Syscall) :=
  if a0.bits32 ≠ e.bits32 then do
    LM.log [bitsCall a0.bits32]
    LM.pure []
  else do
    let a := a0.adjustAbi e
    let entries ← tableEntriesL a e env
    if entries.isEmpty then do
      LM.log [noVaddrCall]
      LM.pure []
    else if e.niSyscalls.isEmpty then do
      LM.log [noNiCall]
      LM.pure []
    else do
      let scs ← candidatesL show_ a e v (env.niOrder e.niSyscalls) entries
      let scs ← LM.lift (env.locate scs)
      let scs ← LM.lift (extractSignatures env.files e env.kdir.isSome scs)
      finalL env.kdir e scs

end Verif
