import Verif.Lemmas.Repro3
import Verif.Props.Stderr
import Verif.Props.Switch
/-! # C121: the same run, whatever the iteration order of sets -/
set_option autoImplicit false

namespace Verif
open Spec

/-! Two ni_syscall functions at the address of the first entry of the image of Props/Main, one of size 0, whose names are not told
apart by the rules for the preferred symbol. -/

/-- `readelf -Ws` -/
def twinSymbols : Str :=
  cs!"     1: 0000000000000100     8 FUNC    GLOBAL DEFAULT    1 __do_sys_ni_syscall\n" ++
  cs!"     2: 0000000000000100     0 FUNC    GLOBAL DEFAULT    1 __se_sys_ni_syscall\n" ++
  cs!"     3: 0000000000000108     8 FUNC    GLOBAL DEFAULT    1 __riscv_sys_open\n" ++
  cs!"     4: 0000000000000110     8 FUNC    GLOBAL DEFAULT    1 __riscv_sys_read\n" ++
  cs!"     5: 0000000000000400    24 OBJECT  GLOBAL DEFAULT    2 sys_call_table\n" ++
  cs!"     6: 0000000000000418     8 OBJECT  GLOBAL DEFAULT    2 other\n" ++
  cs!"     7: 0000000000000500    26 OBJECT  GLOBAL DEFAULT    3 linux_banner\n"

/-- C121 is false of the code: with ni_syscalls of different sizes at one address, the same command finds two syscalls and ends with
status 0, or finds none and ends with status 1, depending on the hashes of strings in that process. -/
theorem C121_output_refuted : ¬ ∀ (w : MWorld) (ni : List Symbol → List Symbol) (cands : List Insn → List Insn)
    (numbers : List Nat → List Nat) (help : Str) (args : Args) (s : MState),
    Pythonic w → Pythonic (rehash w ni cands numbers) →
      (main (rehash w ni cands numbers) help args s).1 = (main w help args s).1 := by
  intro h
  have hw : Pythonic (tinyWorld cs!"6.0.3" twinSymbols) := ⟨fun _ => .refl _, fun _ => .refl _, fun _ => .refl _⟩
  have h1 := h (tinyWorld cs!"6.0.3" twinSymbols) List.reverse id id [] { vmlinux := some cs!"vmlinux" } {} hw
    ⟨fun _ => List.reverse_perm _, fun _ => .refl _, fun _ => .refl _⟩
  have h2 : (main (tinyWorld cs!"6.0.3" twinSymbols) [] { vmlinux := some cs!"vmlinux" } {}).1 = .ok 1 := by decide +kernel
  have h3 : (main (rehash (tinyWorld cs!"6.0.3" twinSymbols) List.reverse id id) [] { vmlinux := some cs!"vmlinux" } {}).1 = .ok 0 := by
    decide +kernel
  rw [h2, h3] at h1
  cases h1

/-- C121 when the ni_syscall functions at one address are of one size: status or exception, standard output, commands, lines printed,
directories and tables are the same for all iteration orders of sets. -/
theorem C121_output_partial (w : MWorld) (ni : List Symbol → List Symbol) (cands : List Insn → List Insn) (numbers : List Nat → List Nat)
    (hw : Pythonic w) (hw' : Pythonic (rehash w ni cands numbers)) (help : Str) (args : Args) (s : MState)
    (hni : ∀ h p e, vmlinuxPath args = some p → LoadedFrom w h p e → NiAlike e) :
    main (rehash w ni cands numbers) help args s = main w help args s := main_rehash w ni cands numbers hw hw' help args s hni

/-- C121, messages: so are all messages of all levels in their order, unless syscalls were extracted from code. -/
theorem C121_messages_partial (w : MWorld) (ni : List Symbol → List Symbol) (cands : List Insn → List Insn) (numbers : List Nat → List Nat)
    (hw : Pythonic w) (hw' : Pythonic (rehash w ni cands numbers)) (t : Telling) (help : Str) (args : Args) (s : MState)
    (hni : ∀ h p e, vmlinuxPath args = some p → LoadedFrom w h p e → NiAlike e)
    (ht : ∀ h p e a v, vmlinuxPath args = some p → LoadedFrom w h p e → GoodKernel (args.arch.map lower) e a v →
      (a.adjustAbi e).tableName ≠ none ∨ (a.adjustAbi e).kind ≠ .x86) :
    mainR (rehash w ni cands numbers) t help args s = mainR w t help args s := by
  rcases mainR_only w ni cands numbers hw hw' t help args hni s with h | ⟨h, p, k, s1, pre, post, z, h1, h2, h3, h4, h5, _⟩
  · exact h
  · rw [h4, h5, (extractR_rehash w ni cands numbers hw hw' t k p _ _ h h2 (hni _ _ _ h1 h2) s1).2.1 (ht _ _ _ _ _ h1 h2 h3)]

/-- C121, messages, table or not: after success they are the same messages, maybe in another order. -/
theorem C121_messages_order (w : MWorld) (ni : List Symbol → List Symbol) (cands : List Insn → List Insn) (numbers : List Nat → List Nat)
    (hw : Pythonic w) (hw' : Pythonic (rehash w ni cands numbers)) (t : Telling) (help : Str) (args : Args) (s : MState)
    (hni : ∀ h p e, vmlinuxPath args = some p → LoadedFrom w h p e → NiAlike e)
    (h0 : (main w help args s).1 = .ok 0) :
    (mainR (rehash w ni cands numbers) t help args s).2 = (mainR w t help args s).2 ∧
    (mainR (rehash w ni cands numbers) t help args s).1.Perm (mainR w t help args s).1 := by
  rcases mainR_only w ni cands numbers hw hw' t help args hni s with h | ⟨h, p, k, s1, pre, post, z, h1, h2, h3, h4, h5, h6⟩
  · rw [h]; exact ⟨rfl, .refl _⟩
  · rw [← C120_same w t help args s, h5] at h0
    obtain ⟨scs, hne, hs⟩ := h6 h0
    rw [h4, h5]
    exact ⟨rfl, (((extractR_rehash w ni cands numbers hw hw' t k p _ _ h h2 (hni _ _ _ h1 h2) s1).2.2 scs hne hs).append_left _).append_right _⟩

/-- a switch with two numbers for each of two functions -/
def pairSwitch : List Insn :=
  [⟨0x1000, 0x1002, .cmp, [.reg 1, .imm 5], 0, 0⟩,
   ⟨0x1002, 0x1005, .jcc .e, [.other], 0x7005, 1⟩,
   ⟨0x1005, 0x1007, .cmp, [.reg 1, .imm 6], 0, 2⟩,
   ⟨0x1007, 0x100a, .jcc .e, [.other], 0x7005, 3⟩,
   ⟨0x100a, 0x100c, .cmp, [.reg 1, .imm 0], 0, 4⟩,
   ⟨0x100c, 0x100f, .jcc .e, [.other], 0x7000, 5⟩,
   ⟨0x100f, 0x1011, .cmp, [.reg 1, .imm 1], 0, 6⟩,
   ⟨0x1011, 0x1014, .jcc .e, [.other], 0x7000, 7⟩,
   ⟨0x1014, 0x1018, .jmp, [.other], 0x9000, 8⟩]

def pairWorld : MWorld := { switchWorld with x86 := switchEnv pairSwitch }

theorem pairWorld_ok : Pythonic pairWorld := ⟨fun _ => .refl _, switchEnv_orders _⟩

/-- shows symbols by name -/
def namingTelling : Telling := { plainTelling with symbol := fun s => s.name }

/-- the messages in the middle of that run -/
theorem pair_said : (mainR pairWorld namingTelling [] { vmlinux := some cs!"vmlinux" } {}).1[2]? =
    some (.log .warning (some cs!"Interesting! Vaddr found 2 times: __x64_sys_newfstat")) := by decide +kernel

theorem pair_reversed_said : (mainR (rehash pairWorld id List.reverse id) namingTelling [] { vmlinux := some cs!"vmlinux" } {}).1[2]? =
    some (.log .warning (some cs!"Interesting! Vaddr found 2 times: __x64_sys_read")) := by decide +kernel

/-- C121, messages: their order may change when syscalls are extracted from code. -/
theorem C121_messages_refuted : ¬ ∀ (w : MWorld) (ni : List Symbol → List Symbol) (cands : List Insn → List Insn)
    (numbers : List Nat → List Nat) (t : Telling) (help : Str) (args : Args) (s : MState),
    Pythonic w → Pythonic (rehash w ni cands numbers) → (main w help args s).1 = .ok 0 →
    (mainR (rehash w ni cands numbers) t help args s).1 = (mainR w t help args s).1 := by
  intro h
  have h1 := h pairWorld id List.reverse id namingTelling [] { vmlinux := some cs!"vmlinux" } {} pairWorld_ok
    ⟨fun _ => .refl _, fun _ => List.reverse_perm _, fun _ => .refl _⟩ (by decide +kernel)
  have h2 := pair_reversed_said
  rw [h1, pair_said] at h2
  revert h2
  decide

/-! Examples -/

/-- two ni_syscalls at one address, of one size: which of them is the reference depends on the order -/
def evenSymbols : Str :=
  cs!"     1: 0000000000000100     8 FUNC    GLOBAL DEFAULT    1 __do_sys_ni_syscall\n" ++
  cs!"     2: 0000000000000100     8 FUNC    GLOBAL DEFAULT    1 __se_sys_ni_syscall\n" ++
  cs!"     3: 0000000000000108     8 FUNC    GLOBAL DEFAULT    1 __riscv_sys_open\n" ++
  cs!"     4: 0000000000000110     8 FUNC    GLOBAL DEFAULT    1 __riscv_sys_read\n" ++
  cs!"     5: 0000000000000400    24 OBJECT  GLOBAL DEFAULT    2 sys_call_table\n" ++
  cs!"     6: 0000000000000418     8 OBJECT  GLOBAL DEFAULT    2 other\n" ++
  cs!"     7: 0000000000000500    26 OBJECT  GLOBAL DEFAULT    3 linux_banner\n"

/-- what is read of that image -/
theorem even_loaded (h : List Run) (p : Path) (e : Elf) (hl : LoadedFrom (tinyWorld cs!"6.0.3" evenSymbols) h p e) :
    Elf.load (tinyImage cs!"6.0.3") tinySections (splitLines evenSymbols) = .ok e := by
  obtain ⟨data, r1, r2, hd, a1, _, a2, _, hload, _⟩ := hl
  have h1 : (tinyWorld cs!"6.0.3" evenSymbols).output h r1 = evenSymbols := by
    show (if r1.argv.take 2 = _ then _ else _) = _
    rw [a1]; rfl
  have h2 : (tinyWorld cs!"6.0.3" evenSymbols).output (h ++ [r1]) r2 = tinySections := by
    show (if r2.argv.take 2 = _ then _ else _) = _
    rw [a2]; rfl
  have h3 : data = tinyImage cs!"6.0.3" := (Option.some.inj hd).symm
  rw [h1, h2, h3] at hload
  exact hload

theorem even_alike (h : List Run) (p : Path) (e : Elf) (hl : LoadedFrom (tinyWorld cs!"6.0.3" evenSymbols) h p e) : NiAlike e := by
  have : (match Elf.load (tinyImage cs!"6.0.3") tinySections (splitLines evenSymbols) with
    | .ok e => decide (e.niSyscalls.length = 2) && e.niSyscalls.all fun s => decide (s.size = 8)
    | .error _ => false) = true := by decide +kernel
  rw [even_loaded h p e hl] at this
  simp only [Bool.and_eq_true, List.all_eq_true, decide_eq_true_eq] at this
  intro s t hs ht _
  rw [this.2 s ((mem_niSyscalls e s).2 hs), this.2 t ((mem_niSyscalls e t).2 ht)]

theorem even_table (h : List Run) (p : Path) (e : Elf) (hl : LoadedFrom (tinyWorld cs!"6.0.3" evenSymbols) h p e) (a : Arch) (v : Ver)
    (hg : GoodKernel none e a v) : (a.adjustAbi e).tableName ≠ none := by
  have : (match Elf.load (tinyImage cs!"6.0.3") tinySections (splitLines evenSymbols) with
    | .ok e => (match archFromVmlinux e, versionFromVmlinux e with
      | .ok (some (k, b, [abi])), .ok (some v) => (match newArch k v abi b with
        | .ok a => decide ((a.adjustAbi e).tableName ≠ none)
        | .error _ => false)
      | _, _ => false)
    | .error _ => false) = true := by decide +kernel
  rw [even_loaded h p e hl] at this
  obtain ⟨k, b, abi, h1, h2⟩ := hg.detected rfl
  simp only [h1, hg.version, h2] at this
  exact of_decide_eq_true this

/-- the hypotheses hold of a run in which the order decides between two symbols, and which prints something -/
example : let w := tinyWorld cs!"6.0.3" evenSymbols
    let args : Args := { vmlinux := some cs!"vmlinux" }
    Pythonic w ∧ Pythonic (rehash w List.reverse id id) ∧
    (∀ h p e, vmlinuxPath args = some p → LoadedFrom w h p e → NiAlike e) ∧
    (∀ h p e a v, vmlinuxPath args = some p → LoadedFrom w h p e → GoodKernel (args.arch.map lower) e a v →
      (a.adjustAbi e).tableName ≠ none ∨ (a.adjustAbi e).kind ≠ .x86) ∧
    (main w [] args {}).1 = .ok 0 ∧ (main w [] args {}).2.out.isSome = true := by
  refine ⟨⟨fun _ => .refl _, fun _ => .refl _, fun _ => .refl _⟩, ⟨fun _ => List.reverse_perm _, fun _ => .refl _, fun _ => .refl _⟩,
    fun h p e _ hl => even_alike h p e hl, fun h p e a v _ hl hg => .inl (even_table h p e hl a v hg), by decide +kernel, by decide +kernel⟩

/-- which of the two is the reference -/
example : (match Elf.load (tinyImage cs!"6.0.3") tinySections (splitLines evenSymbols), newArch .riscv [6, 0] cs!"rv64" false with
    | .ok e, .ok a => [e.niSyscalls, e.niSyscalls.reverse].map fun o => (dget 0x100 (symbolsByVaddr a e o [0x100])).map Symbol.name
    | _, _ => []) = [some cs!"__se_sys_ni_syscall", some cs!"__do_sys_ni_syscall"] := by decide +kernel

end Verif
