import Verif.Spec.Diag
import Verif.Spec.Described
/-! # The complete record of an extraction

What is shown for the messages of level WARNING and above, in order, with their levels. `none` stands for a traceback shown
instead of the text. -/
set_option autoImplicit false

namespace Verif.Spec

abbrev Said := Level × Option Str

/-- what is shown for the calls -/
def said (log : List LogCall) : List Said := log.map fun c => (c.level, c.text)

/-- about a table with the given symbol, read as addresses in a section: a size of 128 bytes or less is not trusted. The
warnings about addresses outside the section are lost. -/
def saidReading (tbl : Symbol) (sec : Section) (read : List Nat) : List Said :=
  if 128 < tbl.size then (read.filter fun va => decide (va < sec.vaddr ∨ sec.vaddr + sec.size ≤ va)).map fun _ => (.warning, none)
  else [(.warning, some (cs!"Syscall table (" ++ tbl.name ++ cs!") has bad size (" ++ natRepr tbl.size ++
    cs!"), doing my best to figure out when to stop"))]

/-- about a table in which nothing was found -/
def saidNothing (table : Str) (read : List Nat) : List Said :=
  if read = [] then
    [(.critical, some (cs!"Could not extract any valid function pointer from " ++ table ++ cs!", giving up!")),
     (.critical, some cs!"Is the kernel relocatable? Relocation entries for the syscall table are not supported.")]
  else []

/-- about descriptors and the addresses they hold -/
def saidDescriptors (text : Section) (descs : List Nat) (vaddrs : List Nat) : List Said :=
  ((descs.zip vaddrs).filter fun p => decide (p.2 < text.vaddr ∨ text.vaddr + text.size ≤ p.2)).map fun p =>
    (.warning, some (cs!"Function descriptor at 0x" ++ Nat.toDigits 16 p.1 ++ cs!" points outside .text: something is off!"))

/-- the table is read directly: there are no function descriptors, or the first entry is in .text -/
def Direct (a : Arch) (e : Elf) (tbl : Symbol) (text : Section) : Prop :=
  a.usesFunctionDescriptors = false ∨
    ∃ first, e.readPtr tbl.vaddr = .ok first ∧ text.vaddr ≤ first ∧ first < text.vaddr + text.size

/-- the addresses found in the table with the given name, and what is shown about it -/
inductive TableSaid (a : Arch) (e : Elf) (table : Str) : List Nat → List Said → Prop
  /-- there is no symbol with this name -/
  | missing : dget table e.symbols = none →
      TableSaid a e table [] [(.critical, some (cs!"Unable to find " ++ table ++ cs!" symbol!"))]
  /-- a table of addresses of functions -/
  | direct (tbl : Symbol) (text : Section) (read : List Nat) : dget table e.symbols = some tbl → dget cs!".text" e.sections = some text →
      Direct a e tbl text → unpackTable e tbl text = .ok read → TableSaid a e table read (saidReading tbl text read ++ saidNothing table read)
  /-- a table of descriptors, but no section for them -/
  | noOpd (tbl : Symbol) (text : Section) : dget table e.symbols = some tbl → dget cs!".text" e.sections = some text →
      ¬ Direct a e tbl text → dget cs!".opd" e.sections = none →
      TableSaid a e table [] [(.critical, some cs!"Arch uses function descriptors, but vmlinux has no .opd section!")]
  /-- a table of descriptors -/
  | descriptors (tbl : Symbol) (text opd : Section) (descs vaddrs : List Nat) : dget table e.symbols = some tbl →
      dget cs!".text" e.sections = some text → ¬ Direct a e tbl text → dget cs!".opd" e.sections = some opd →
      unpackTable e tbl opd = .ok descs → mapRes e.readPtr descs = .ok vaddrs → descs ≠ [] →
      TableSaid a e table vaddrs (saidReading tbl opd descs ++ saidDescriptors text descs vaddrs)
  /-- a table of descriptors without any descriptor is read once more, as a table of addresses -/
  | again (tbl : Symbol) (text opd : Section) (read : List Nat) : dget table e.symbols = some tbl →
      dget cs!".text" e.sections = some text → ¬ Direct a e tbl text → dget cs!".opd" e.sections = some opd →
      unpackTable e tbl opd = .ok [] → unpackTable e tbl text = .ok read →
      TableSaid a e table read (saidReading tbl opd [] ++ (saidReading tbl text read ++ saidNothing table read))

/-- the addresses of the syscalls by index, and what is shown about them -/
inductive EntriesSaid (a : Arch) (e : Elf) (env : KEnv) : List (Nat × Nat) → List Said → Prop
  | table (t : Str) (vaddrs : List Nat) (s : List Said) : a.tableName = some t → TableSaid a e t vaddrs s →
      EntriesSaid a e env (enumerate vaddrs) s
  | code (entries : List (Nat × Nat)) : a.tableName = none → env.archVaddrs e = .ok entries →
      EntriesSaid a e env entries [(.warning, some cs!"No syscall table available! Trying my best...")]

/-- the addresses found more than once that are no ni_syscalls, with how often: each once, most often first, then in the order
of first appearance -/
def IsRepeated (e : Elf) (chosen : Nat → Option Symbol) (vaddrs : List Nat) (counts : List (Nat × Nat)) : Prop :=
  (counts.map Prod.fst).Nodup ∧
  (∀ va n, (va, n) ∈ counts ↔ n = vaddrs.count va ∧ 1 < n ∧ ∀ s, chosen va = some s → ¬ IsNi e s) ∧
  counts.Pairwise (fun x y => y.2 ≤ x.2) ∧
  ∀ n, List.Sublist ((counts.filter fun c => decide (c.2 = n)).map Prod.fst) vaddrs.eraseDups

/-- about one such address, with the symbol chosen for it -/
def saidRepeated (sh : Symbol → Str) (chosen : Nat → Option Symbol) (va n : Nat) : Said :=
  (.warning, some (cs!"Interesting! Vaddr found " ++ natRepr n ++ cs!" times: " ++
    (match chosen va with
     | some s => sh s
     | none => cs!"0x" ++ Nat.toDigits 16 va ++ cs!" <unknown symbol!>")))

/-- about an entry for whose address there is no symbol -/
def saidUnresolved (table : Option Str) (i va : Nat) : Said :=
  (.error, some (match table with
    | some t => cs!"Unable to find symbol for " ++ t ++ cs!"[" ++ natRepr i ++ cs!"]: 0x" ++ Nat.toDigits 16 va
    | none => cs!"Unable to find symbol for #" ++ natRepr i ++ cs!" 0x" ++ Nat.toDigits 16 va))

/-- the entries without symbol, by index -/
def IsUnresolved (chosen : Nat → Option Symbol) (entries us : List (Nat × Nat)) : Prop :=
  us.Perm (entries.filter fun p => (chosen p.2).isNone) ∧ us.Pairwise fun x y => x.1 ≤ y.1

/-- about the names of the symbols: a prefix shared by twenty of them is expected -/
def SaidPrefixes (names : List Str) (s : List Said) : Prop :=
  ((∃ p, SharedPrefix names p) ∧ s = []) ∨
  ((∀ p, ¬ SharedPrefix names p) ∧ s = [(.warning, some cs!"No common syscall symbol prefixes found (weird!)")])

def saidNotImplemented (kdir : Option Path) (sc : Syscall) : Said :=
  (.warning, sc.line.map fun n => cs!"Assuming " ++ sc.name ++ cs!" is not implemented as it points to " ++
    (sc.file.map fun f => (shownPath kdir f).str).getD [] ++ cs!":" ++ natRepr n ++ cs!" after adjustments")

def saidBadLocation (kdir : Option Path) (sc : Syscall) : Said :=
  (.warning, some (cs!"Potentially bad location for " ++ sc.name ++ cs!" (" ++ sc.symbol.name ++ cs!"): " ++
    (sc.file.map fun f => (shownPath kdir f).str).getD [] ++ cs!":" ++ lineText sc.line ++ (sc.file.map reason).getD []))

def saidNoLocation (sc : Syscall) : Said :=
  (.error, some (cs!"Unable to find location for " ++ sc.name ++ cs!" (" ++ sc.symbol.name ++ cs!")"))

def saidNoSignature (sc : Syscall) : Said :=
  (.error, some (cs!"Unable to extract signature for " ++ sc.name ++ cs!" (" ++ sc.symbol.name ++ cs!")"))

/-- debug information can tell locations; it or the metadata of the kernel can tell signatures -/
def tellsLocations (e : Elf) : Bool := dmem cs!".debug_line" e.sections
def tellsSignatures (e : Elf) : Bool := dmem cs!"__start_syscalls_metadata" e.symbols || dmem cs!".debug_line" e.sections

end Verif.Spec
