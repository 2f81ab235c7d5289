import Verif.Spec.EndToEnd
import Verif.Spec.Signature
import Verif.Spec.Kconfig
import Verif.Spec.Arch
/-! # Specification of names, options and signatures in a whole run (C106) -/
set_option autoImplicit false

namespace Verif.Spec

/-! ## Names -/

open Classical in
/-- the names of the symbols chosen for the entries that are no ni_syscall, one per entry -/
noncomputable def implementedNames (e : Elf) (chosen : Nat → Option Symbol) (entries : List (Nat × Nat)) : List Str :=
  entries.filterMap fun q => (chosen q.2).bind fun sym => if IsNi e sym then none else some sym.name

/-- `p` ends in an underscore, after something else, and at least twenty of the names start with it -/
def SharedPrefix (names : List Str) (p : Str) : Prop :=
  2 ≤ p.length ∧ p.getLast? = some '_' ∧ 20 ≤ countStarting p names

/-- what is left of a symbol name (as translated by the architecture): without the longest shared prefix, if there is any -/
def Stripped (names : List Str) (translated orig : Str) : Prop :=
  ((∀ p, SharedPrefix names p → ¬ p <+: translated) ∧ orig = translated) ∨
  ∃ p, SharedPrefix names p ∧ translated = p ++ orig ∧
    ∀ q, SharedPrefix names q → q <+: translated → q.length ≤ p.length

/-! ## Kconfig options -/

/-- the option for a name at a version: that of the architecture, else the one for all architectures -/
def OptionFor (k : Kind) (v : Ver) (name x : Str) : Prop :=
  Covers k.syscallDepsTable v name x ∨
    ((∀ y, ¬ Covers k.syscallDepsTable v name y) ∧ Covers kconfigSyscallDepsTable v name x)

/-- the option of a syscall: the one for its name, else the one for its original name, else none -/
def OptionOf (k : Kind) (v : Ver) (name orig : Str) : Option Str → Prop
  | some c => ∃ x, c = cs!"CONFIG_" ++ x ∧ (OptionFor k v name x ∨ ((∀ y, ¬ OptionFor k v name y) ∧ OptionFor k v orig x))
  | none => ∀ x, ¬ OptionFor k v name x ∧ ¬ OptionFor k v orig x

/-! ## Signatures -/

/-- a definition of a syscall at a line of a file, with its parameters as they should be reported -/
inductive DefinitionAt (big : Bool) (lines : List Str) (line : Nat) : List Str → Prop
  /-- `SYSCALL_DEFINEn(name, type, arg, ...)` -/
  | define (kw scname : Str) (items : List Item) (texts : List Str) : kw ∈ defineMacros → ',' ∉ scname → items ≠ [] →
      (∀ it ∈ items, it.WF) → (items.flatMap (Item.sig big)).length ≤ 6 →
      List.Forall₂ FieldText (items.flatMap Item.fields) texts →
      TextAt lines line (kw ++ digitChar10 (items.flatMap (Item.sig big)).length :: cs!"(" ++ scname ++ cs!"," ++
        joinWith cs!"," texts ++ cs!")") → DefinitionAt big lines line (items.flatMap (Item.sig big))
  /-- `SYSCALL_DEFINE0(name)` -/
  | define0 (kw scname : Str) : kw ∈ defineMacros → ',' ∉ scname → TextAt lines line (kw ++ '0' :: cs!"(" ++ scname ++ cs!")") →
      DefinitionAt big lines line []
  /-- `asmlinkage type name(type arg, ...)` -/
  | proto (mid : Str) (args : List (List Str)) (texts : List Str) : '(' ∉ mid → args ≠ [] → args ≠ [[cs!"void"]] →
      (∀ ws ∈ args, (∀ w ∈ ws, CleanWord w) ∧ NoTriple ws) → List.Forall₂ FieldText args texts → args.length ≤ 7 →
      TextAt lines line (cs!"asmlinkage" ++ mid ++ cs!"(" ++ joinWith cs!"," texts ++ cs!")") →
      DefinitionAt big lines line (args.map glue)
  /-- `asmlinkage type name(void)` -/
  | void (mid inner : Str) : '(' ∉ mid → strip inner = [] ∨ strip inner = cs!"void" →
      TextAt lines line (cs!"asmlinkage" ++ mid ++ cs!"(" ++ inner ++ cs!")") → DefinitionAt big lines line []

/-- the objects in the ftrace metadata of the image, in order -/
def HasMetadata (e : Elf) (ms : List MetaSpec) : Prop :=
  ∃ (start stop : Symbol) (ptrs : List Nat),
    dget cs!"__start_syscalls_metadata" e.symbols = some start ∧ dget cs!"__stop_syscalls_metadata" e.symbols = some stop ∧
    stop.realVaddr = start.realVaddr + ptrs.length * (if e.bits32 then 4 else 8) ∧
    Holds e start.realVaddr (ptrs.flatMap (encUint e.bigEndian (if e.bits32 then 4 else 8))) ∧
    (∀ p ∈ ptrs, p < 256 ^ (if e.bits32 then 4 else 8)) ∧
    List.Forall₂ (HoldsMeta e) ptrs ms ∧ (∀ m ∈ ms, m.WF) ∧
    ∀ o, dget cs!"__syscall_meta__open" e.symbols = some o → o.size = 0 ∨ 8 + 3 * (if e.bits32 then 4 else 8) ≤ o.size

/-- the last object with a name -/
def LastNamed (ms : List MetaSpec) (n : Str) (m : MetaSpec) : Prop :=
  m.name = n ∧ ∃ pre post, ms = pre ++ m :: post ∧ ∀ x ∈ post, x.name ≠ n

/-- the signature of a syscall found at a confirmed location: what the source says there -/
structure FromSource (e : Elf) (files : Files) (l : Syscall) (sig : Option (List Str)) (file : Path) (line : Nat)
    (lines : List Str) : Prop where
  location : l.file = some file ∧ l.line = some line ∧ files file = some lines
  complete : 1 ≤ line → ∀ s, DefinitionAt e.bigEndian lines line s → sig = some s
  sound : ∀ s, sig = some s → ∃ text, TextAt lines line text ∧
    ((∃ kw ∈ defineMacros, ∃ n rest, n ≤ 6 ∧ text = kw ++ natRepr n ++ rest ∧ s.length = n) ∨
      (cs!"asmlinkage" <+: text ∧ s.length ≤ 7 ∧ ∀ arg ∈ s, NoParen arg))
  unknown : sig = none → ∃ text, TextAt lines line text ∧ ¬ cs!"asmlinkage" <+: text ∧ ∀ kw ∈ defineMacros, ¬ kw <+: text

/-- the signature of a syscall without a confirmed location: that in the metadata of the image -/
structure FromMetadata (e : Elf) (name orig : Str) (sig : Option (List Str)) : Prop where
  absent : dget cs!"__start_syscalls_metadata" e.symbols = none → sig = none
  original : ∀ ms, HasMetadata e ms → ∀ m, LastNamed ms orig m → sig = some m.sig
  normalized : ∀ ms, HasMetadata e ms → (∀ m ∈ ms, m.name ≠ orig) → ∀ m, LastNamed ms name m → sig = some m.sig
  missing : ∀ ms, HasMetadata e ms → (∀ m ∈ ms, m.name ≠ orig) → (∀ m ∈ ms, m.name ≠ name) → sig = none

/-! ## Syscalls that are not in the table -/

/-- a syscall handled outside of the table: number, name, parameters, option and the symbol that handles it -/
def Special (a : Arch) (e : Elf) (num : Nat) (name : Str) (sig : List Str) (opt : Option Str) (sym : Symbol) : Prop :=
  match a.kind with
  | .arm => (∃ f, (cs!"arm_syscall", f) ∈ e.functions) ∧ dget cs!"arm_syscall" e.symbols = some sym ∧ opt = none ∧
      ∃ r ∈ armPrivate, num = a.numBase + 0xf0000 + r.1 ∧ name = r.2.1 ∧ sig = r.2.2 ∧ (r.1 = 6 → [4, 15] ≤ a.version)
  | .powerpc => a.abi = cs!"ppc64" ∧ a.version < [6, 12] ∧ num = 0x1ebe ∧ name = cs!"switch_endian" ∧ sig = [] ∧
      (opt = if [4, 15] ≤ a.version then some cs!"PPC_FAST_ENDIAN_SWITCH" else none) ∧
      dget cs!"exc_real_0xc00_system_call" e.symbols = some sym ∧ ∃ ws, WordsOf e sym ws ∧ SwitchEndianSeq ws
  | _ => False

/-! ## The syscalls of a run -/

/-- names, options and signatures of the syscalls `scs`; `located` are the syscalls with the locations found -/
structure Described (a : Arch) (e : Elf) (v : Ver) (files : Files) (names : List Str) (ref : Option Symbol) (code : Option Bytes)
    (located scs : List Syscall) : Prop where
  /-- the original name is what the shared prefixes leave, the name is its normal form -/
  names : ∀ sc ∈ scs, sc.esoteric = false → Stripped names (a.translateName sc.symbol.name) sc.origname ∧
    sc.name = a.normalizeName sc.origname
  options : ∀ sc ∈ scs, sc.esoteric = false → OptionOf a.kind v sc.name sc.origname sc.kconfig
  signatures : ∀ sc ∈ scs, sc.esoteric = false → ∃ l ∈ located, l.index = sc.index ∧ l.number = sc.number ∧ l.symbol = sc.symbol ∧
    l.name = sc.name ∧ l.origname = sc.origname ∧ l.line = sc.line ∧ l.goodLocation = sc.goodLocation ∧
    (l.goodLocation = true → ∃ file line lines, FromSource e files l sc.signature file line lines) ∧
    (l.goodLocation = false → FromMetadata e sc.name sc.origname sc.signature)
  /-- besides the entries of the table, exactly the special syscalls that are no dummies -/
  special : ∀ num name sig opt sym, (∃ sc ∈ scs, sc.esoteric = true ∧ sc.number = num ∧ sc.name = name ∧ sc.origname = name ∧
      sc.signature = some sig ∧ sc.kconfig = opt ∧ sc.symbol = sym) ↔
    Special a e num name sig opt sym ∧ a.isDummy sym e ref code = .ok false

end Verif.Spec
