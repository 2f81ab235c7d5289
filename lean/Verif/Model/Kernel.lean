import Verif.Model.Kconfig
import Verif.Model.Signature
/-! # Model of kernel.py (all but the build commands, which are in `Model/Build`) -/
set_option autoImplicit false

namespace Verif

/-! ## Versions -/

/-- kernel.py:87 `(\d+)\.(\d+)(\.(\d+))?` -/
def versionRe : Re :=
  .cat [.grp 1 (.plus isDigit), .lit cs!".", .grp 2 (.plus isDigit),
    .opt (.grp 3 (.seq (.lit cs!".") (.grp 4 (.plus isDigit))))]

/-- `m.group(n)` -/
def group (caps : Caps) (n : Nat) : Option Str := dget n caps

/-- kernel.py:85-92 `Kernel.version_from_str` -/
def versionFromStr (s : Str) : Option Ver :=
  match versionRe.match? s with
  | none => none
  | some (caps, _) =>
    match group caps 1, group caps 2, group caps 4 with
    | some a, some b, none => some [natOfDigits a, natOfDigits b]
    | some a, some b, some c => some [natOfDigits a, natOfDigits b, natOfDigits c]
    | _, _, _ => none

/-- kernel.py:94-101 `Kernel.version_from_banner` on text -/
def versionFromBanner (banner : Str) : Option Ver :=
  if !startsWith banner cs!"Linux version " then none else versionFromStr (banner.drop 14)

/-- kernel.py:96-97 `banner.decode()` -/
def decodeBanner (bs : Bytes) : Res Str := decodeUtf8 bs

/-- kernel.py:103-113 `Kernel.__version_from_vmlinux` -/
def versionFromVmlinux (e : Elf) : Res (Option Ver) :=
  match dget cs!"linux_banner" e.symbols with
  | none => .ok none
  | some sym =>
    if sym.size ≠ 0 then do
      let bs ← e.readSymbol sym
      let s ← decodeBanner bs
      .ok (versionFromBanner s)
    else do
      let s ← e.vaddrReadString sym.vaddr
      .ok (versionFromBanner s)

/-- kernel.py:119-133 the `version` property on its first access: from the ELF if there is one, else from the
output of `make kernelversion`. Later accesses return the stored value. -/
def kernelVersion (vmlinux : Option Elf) (kdir : Bool) (makeOut : Res Str) : Res Ver := do
  let v ← (
    match vmlinux with
    | some e => versionFromVmlinux e
    | none => if kdir then do let s ← makeOut; .ok (versionFromStr s) else .ok none : Res (Option Ver))
  match v with
  | some v => .ok v
  | none => .error (.named "KernelVersionError")

/-- kernel.py:135-137 `version_str` -/
def versionStr (v : Ver) (source : Str) : Str := joinWith cs!"." (v.map natRepr) ++ cs!" (from " ++ source ++ cs!")"

/-- kernel.py:139-144 `version_tag`; unpacking anything but three components is a ValueError -/
def versionTag (v : Ver) : Res Str :=
  match v with
  | [a, b, c] =>
    if c = 0 then .ok (cs!"v" ++ natRepr a ++ cs!"." ++ natRepr b)
    else .ok (cs!"v" ++ natRepr a ++ cs!"." ++ natRepr b ++ cs!"." ++ natRepr c)
  | _ => .error .value

/-! ## Construction -/

/-- kernel.py:44-83 `Kernel.__init__`: the architecture object chosen. `vmlinux` is the ELF already parsed
(`ELF(vmlinux)`), `kdir` tells whether a source directory was given. -/
def kernelInit (archName : Option Str) (vmlinux : Option Elf) (kdir : Bool) (makeOut : Res Str) : Res Arch :=
  if !kdir && vmlinux.isNone then .error .value
  else if archName.isNone && vmlinux.isNone then .error .value
  else if vmlinux.any (fun e => e.symbols.isEmpty) then .error (.named "KernelWithoutSymbolsError")
  else do
    let arch ← (
      match archName, vmlinux with
      | none, some e => do
        let m ← archFromVmlinux e
        match m with
        | none => .error (.named "KernelArchError")
        | some (k, bits32, abis) =>
          if abis.length > 1 then .error (.named "KernelMultiABIError")
          else match abis with
            | [] => .error .index
            | abi :: _ => do
              let v ← kernelVersion vmlinux kdir makeOut
              newArch k v abi bits32
      | none, none => .error .attr
      | some n, _ => do
        let v ← kernelVersion vmlinux kdir makeOut
        archFromName n v : Res Arch)
    match vmlinux with
    | none => .ok arch
    | some e => do
      let ok ← arch.matches e
      if ok then .ok arch else .error (.named "KernelArchError")

/-! ## The syscall table -/

/-- `vstart <= vaddr < vend` for a section, kernel.py:205, 223, 263, 279 -/
def Section.contains (s : Section) (vaddr : Nat) : Bool := decide (s.vaddr ≤ vaddr ∧ vaddr < s.vaddr + s.size)

/-- kernel.py:216-232 the loop for a table of bad size, over the bytes from the table to the end of the file;
`unpack` of a short read raises struct.error. `fuel` is the number of bytes left plus one, enough since each
round consumes at least one byte (the word size is 4 or 8). -/
def unsizedLoop (big : Bool) (psz : Nat) (sec : Section) (boundary : Option Nat) : Nat → Nat → Bytes → Res (List Nat)
  | 0, _, _ => .error .structError
  | fuel + 1, cur, bs => do
    let vaddr ← unpackUint big psz (bs.take psz)
    if !sec.contains vaddr then .ok []
    else if boundary.any (fun b => decide (cur ≥ b)) then .ok []
    else do
      let rest ← unsizedLoop big psz sec boundary fuel (cur + psz) (bs.drop psz)
      .ok (vaddr :: rest)

/-- kernel.py:189-237 `__unpack_syscall_table`. Entries outside the section only give a warning when the size
is good. -/
def unpackTable (e : Elf) (tbl : Symbol) (sec : Section) : Res (List Nat) := do
  let off ← e.vaddrToFileOffset tbl.vaddr
  if tbl.size > 0x80 then iterUnpack e.bigEndian e.ptrSize (readAt e.data off tbl.size)
  else
    let boundary := (e.nextSymbol tbl).map Symbol.vaddr
    unsizedLoop e.bigEndian e.ptrSize sec boundary (e.data.length + 1) tbl.vaddr (e.data.drop off)

/-- kernel.py:275-283 descriptors to addresses -/
def derefDescriptors (e : Elf) (descs : List Nat) : Res (List Nat) := mapRes e.readPtr descs

/-- kernel.py:239-297 `__syscall_vaddrs_from_syscall_table`; the dict is `enumerate` of the returned list -/
def vaddrsFromTable (a : Arch) (e : Elf) (tableName : Str) : Res (List Nat) :=
  match dget tableName e.symbols with
  | none => .ok []
  | some tbl =>
    match dget cs!".text" e.sections with
    | none => .error .key
    | some text =>
      if a.usesFunctionDescriptors then do
        let first ← e.readPtr tbl.vaddr
        if !text.contains first then
          match dget cs!".opd" e.sections with
          | none => .ok []
          | some opd => do
            let descs ← unpackTable e tbl opd
            let vaddrs ← derefDescriptors e descs
            if vaddrs.isEmpty then unpackTable e tbl text else .ok vaddrs
        else unpackTable e tbl text
      else unpackTable e tbl text

/-- `dict(enumerate(l)).items()` -/
def enumerate {α : Type} (l : List α) : List (Nat × α) := (l.zipIdx).map fun p => (p.2, p.1)

/-! ## Choosing symbols -/

/-- Python's `<=` on strings (code points) -/
def strLe : Str → Str → Bool
  | [], _ => true
  | _ :: _, [] => false
  | a :: as, b :: bs => if a = b then strLe as bs else decide (a.toNat < b.toNat)

/-- stable insertion of `x` -/
def insertBy {α : Type} (le : α → α → Bool) (x : α) : List α → List α
  | [] => [x]
  | y :: ys => if le x y then x :: y :: ys else y :: insertBy le x ys

/-- `sorted(l, key=...)`: a stable sort -/
def sortBy {α : Type} (le : α → α → Bool) (l : List α) : List α := l.foldr (insertBy le) []

/-- kernel.py:344 `sorted(self.vmlinux.symbols.values(), key=attrgetter('name'))` -/
def Elf.sortedSyms (e : Elf) : List Symbol := sortBy (fun a b => strLe a.name b.name) e.syms

/-- kernel.py:322-326 the elements of the set `ni_syscalls`, in insertion order -/
def Elf.niSyscalls (e : Elf) : List Symbol := ((e.functions.map Prod.snd).filter symbolIsNi).eraseDups

/-- kernel.py:336 `{sym.vaddr: sym for sym in ni_syscalls}` for an iteration order of the set -/
def initialByVaddr (niOrder : List Symbol) : Dict Nat Symbol := niOrder.foldl (fun d s => dset s.vaddr s d) []

/-- kernel.py:345-366 loop body (the logs are left out) -/
def chooseStep (a : Arch) (ni : List Symbol) (seen : List Nat) (d : Dict Nat Symbol) (sym : Symbol) : Dict Nat Symbol :=
  if !seen.contains sym.vaddr then d
  else match dget sym.vaddr d with
    | none => dset sym.vaddr sym d
    | some other =>
      if sym = other then d
      else if ni.contains other && !ni.contains sym then d
      else dset sym.vaddr (a.preferredSymbol sym other) d

/-- kernel.py:335-366 `symbols_by_vaddr` -/
def symbolsByVaddr (a : Arch) (e : Elf) (niOrder : List Symbol) (seen : List Nat) : Dict Nat Symbol :=
  e.sortedSyms.foldl (chooseStep a e.niSyscalls seen) (initialByVaddr niOrder)

/-! ## From table entries to syscalls -/

/-- kernel.py:416-439 entries that have a symbol, in index order -/
def resolved (byVaddr : Dict Nat Symbol) (entries : List (Nat × Nat)) : List (Nat × Symbol) :=
  entries.filterMap fun p => (dget p.2 byVaddr).map fun s => (p.1, s)

/-- kernel.py:434-435 `ni_count`: symbol to number of entries, in order of first appearance -/
def niCounts (ni : List Symbol) (rs : List (Nat × Symbol)) : Dict Symbol Nat :=
  rs.foldl (fun d p => if ni.contains p.2 then dset p.2 (((dget p.2 d).getD 0) + 1) d else d) []

/-- kernel.py:456-458 `origname` and `name` -/
def derivedNames (a : Arch) (prefixes : List Str) (symName : Str) : Str × Str :=
  let origname := noprefix (a.translateName symName) prefixes
  (origname, a.normalizeName origname)

/-- kernel.py:455-467 one `Syscall` object -/
def makeSyscall (a : Arch) (v : Ver) (prefixes : List Str) (idx : Nat) (sym : Symbol) : Syscall :=
  let names := derivedNames a prefixes sym.name
  let kdeps := shippedSyscallDeps a.kind v names.2
  let kdeps := if kdeps = none ∨ kdeps = some [] then shippedSyscallDeps a.kind v names.1 else kdeps
  Syscall.new (some idx) (a.adjustNumber (a.numBase + idx)) names.2 names.1 sym kdeps

/-- kernel.py:454-474 the loop: syscalls kept -/
def buildSyscalls (a : Arch) (v : Ver) (prefixes : List Str) (symbols : List (Nat × Symbol)) : List Syscall :=
  (symbols.map fun p => makeSyscall a v prefixes p.1 p.2).filter fun sc =>
    !a.skipSyscall (sc.index.getD 0) sc.number

/-- kernel.py:492-494 esoteric syscalls as objects -/
def esotericSyscalls (e : Elf) : List Esoteric → Res (List Syscall) := mapRes fun x =>
  match dget x.symbolName e.symbols with
  | none => .error .key
  | some sym => .ok { Syscall.new none x.number x.name x.name sym x.kconfig with signature := some x.signature, esoteric := true }

/-- Python's `max(d, key=d.get)`: the first key with the largest value -/
def maxKey (d : Dict Symbol Nat) : Option Symbol :=
  match d with
  | [] => none
  | x :: xs => some (xs.foldl (fun best y => if y.2 > best.2 then y else best) x).1

/-- `filter` with a predicate that may raise -/
def filterRes {α : Type} (p : α → Res Bool) : List α → Res (List α)
  | [] => .ok []
  | x :: xs => do
    let b ← p x
    let rest ← filterRes p xs
    .ok (if b then x :: rest else rest)

/-- `path.match('kernel/sys_ni.c')`: the last two components -/
def isSysNi (p : Path) : Bool := endsWith p.parts [cs!"kernel", cs!"sys_ni.c"]

/-- kernel.py:533-574 whether a syscall is kept by the last pass -/
def keepFinal (kdir : Option Path) (sc : Syscall) : Res Bool :=
  if !sc.esoteric && !sc.goodLocation then
    match sc.file with
    | none => .ok true
    | some f => do
      let r ← maybeRel f kdir
      .ok (!isSysNi r)
  else .ok true

/-- What the extraction needs besides the ELF: an iteration order for the `ni_syscalls` set, the arch-specific
extraction used without a table, the location extraction, the source files and the source directory. -/
structure KEnv where
  niOrder : List Symbol → List Symbol
  archVaddrs : Elf → Res (List (Nat × Nat))
  locate : List Syscall → Res (List Syscall)
  files : Files
  kdir : Option Path

/-- kernel.py:308-314 the dict `vaddrs` as items -/
def tableEntries (a : Arch) (e : Elf) (env : KEnv) : Res (List (Nat × Nat)) :=
  match a.tableName with
  | some t => do
    let vs ← vaddrsFromTable a e t
    .ok (enumerate vs)
  | none => env.archVaddrs e

/-- kernel.py:416 `sorted(vaddrs.items())`; the indices are distinct -/
def sortEntries (es : List (Nat × Nat)) : List (Nat × Nat) := sortBy (fun a b => decide (a.1 ≤ b.1)) es

/-- kernel.py:411-519 from the entries to the syscalls that are not dummies -/
def candidateSyscalls (a : Arch) (e : Elf) (v : Ver) (niOrder : List Symbol) (entries : List (Nat × Nat)) :
    Res (List Syscall) := do
  let ni := e.niSyscalls
  let byVaddr := symbolsByVaddr a e niOrder (entries.map Prod.snd)
  let rs := resolved byVaddr (sortEntries entries)
  let symbols := rs.filter fun p => !ni.contains p.2
  let niCount := niCounts ni rs
  let prefixes ← commonPrefixes (symbols.map fun p => p.2.name) 20
  let syscalls := buildSyscalls a v prefixes symbols
  let nSkipped := symbols.length - syscalls.length
  let niTotal := (niCount.map Prod.snd).sum
  let eso ← a.extractEsoteric e
  let esoScs ← esotericSyscalls e eso
  let all := syscalls ++ esoScs
  pyAssert (decide (all.length + niTotal + nSkipped = entries.length + eso.length))
  let niRef := maxKey niCount
  let niCode ← (match niRef with
    | none => .ok none
    | some s => do let c ← e.readSymbol s; .ok (some c) : Res (Option Bytes))
  filterRes (fun sc => do let d ← a.isDummy sc.symbol e niRef niCode; .ok (!d)) all

/-- kernel.py:299-585 `__extract_syscalls` -/
def extractSyscalls (a0 : Arch) (e : Elf) (v : Ver) (env : KEnv) : Res (List Syscall) :=
  if a0.bits32 ≠ e.bits32 then .ok []
  else do
    let a := a0.adjustAbi e
    let entries ← tableEntries a e env
    if entries.isEmpty then .ok []
    else if e.niSyscalls.isEmpty then .ok []
    else do
      let scs ← candidateSyscalls a e v (env.niOrder e.niSyscalls) entries
      let scs ← env.locate scs
      let scs ← extractSignatures env.files e env.kdir.isSome scs
      filterRes (keepFinal env.kdir) scs

end Verif
