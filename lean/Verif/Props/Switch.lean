import Verif.Props.EndToEnd
/-! # Kernels without a syscall table (C98) -/
set_option autoImplicit false

namespace Verif
open Spec

/-- C98: when the analysis of a kernel without a table ends with status 0, the numbers printed are those the dispatch function
takes out of the default case, each with the function it leaves to, as far as it is implemented. -/
theorem C98_run (w : MWorld) (hw : Pythonic w) (help : Str) (args : Args) (s : MState)
    (h0 : (main w help args s).1 = .ok 0) (hb : ¬ BuildMode args) (hh : ¬ AsksForHelp args) :
    ∃ (p : Path) (e : Elf) (a0 : Arch) (ver : Ver) (hist : List Run) (entries : List (Nat × Nat)) (ref : Option Symbol)
      (code : Option Bytes) (cands located scs : List Syscall) (text : Str),
      Analysed w args p e a0 ver hist entries ref code cands located scs ∧
      outputSyscalls w.jinja w.css w.js ⟨ver, cs!"vmlinux", a0.adjustAbi e, scs⟩ args.format = .ok text ∧
      (main w help args s).2.out = some text ∧
      let a := a0.adjustAbi e
      let chosen := fun va => dget va (symbolsByVaddr a e (w.niOrder e.niSyscalls) (entries.map Prod.snd))
      ∀ (f : Symbol) (insns : List Insn) (r : Nat), Dispatch w.x86 a e f insns → GoodSwitch r f.realVaddr (f.realVaddr + f.size) insns →
        ∀ (i : Nat) (sym : Symbol) (num : Nat),
          (∃ sc ∈ scs, sc.index = some i ∧ sc.symbol = sym ∧ sc.number = num) ↔
          (i < 4096 ∧ ∃ t, LeavesTo r f.realVaddr (f.realVaddr + f.size) insns i t ∧
            ¬ DefaultTarget r f.realVaddr (f.realVaddr + f.size) insns t ∧
            chosen t = some sym ∧ ¬ IsNi e sym ∧ a.slot i = some num ∧ a.isDummy sym e ref code = .ok false) ∧
          ∃ sc ∈ located, sc.index = some i ∧ ¬ BadNi (pathOf args.kdir) sc := by
  obtain ⟨p, e, a0, ver, hist, entries, ref, code, cands, located, scs, text, hA, ht, hout⟩ := C88_run w hw help args s h0 hb hh
  refine ⟨p, e, a0, ver, hist, entries, ref, code, cands, located, scs, text, hA, ht, hout, ?_⟩
  intro a chosen f insns r hdis hgood i sym num
  have htab := hA.table
  unfold tableEntries at htab
  rw [hdis.noTable] at htab
  have hmap := C46_success w.x86 hw.orders a e f insns r hdis hgood entries htab hA.someEntry
  rw [hA.printed i sym num]
  unfold Implemented
  constructor
  · rintro ⟨⟨t, g1, g2, g3, g4, g5⟩, g6⟩
    obtain ⟨q1, q2, q3⟩ := (hmap i t).1 g1
    exact ⟨⟨q1, t, q2, q3, g2, g3, g4, g5⟩, g6⟩
  · rintro ⟨⟨q1, t, q2, q3, g2, g3, g4, g5⟩, g6⟩
    exact ⟨⟨t, (hmap i t).2 ⟨q1, q2, q3⟩, g2, g3, g4, g5⟩, g6⟩

/-! A small image without a table: x86-64, version 6.10.1, the dispatch function `smallSwitch` at 0x1000. -/

/-- the file: header (class 2, little endian, machine 62), code, banner -/
def switchImage : Bytes :=
  [0x7f, 0x45, 0x4c, 0x46, 2, 1, 1, 0, 0, 0, 0, 0, 0, 0, 0, 0, 2, 0, 62, 0] ++ List.replicate 44 0 ++ List.replicate 0x18 0x90 ++
  (cs!"Linux version 6.10.1 (gcc)\n").map (fun c => UInt8.ofNat c.toNat)

/-- `readelf -Ws` -/
def switchSymbols : Str :=
  cs!"     1: 0000000000001000    24 FUNC    GLOBAL DEFAULT    1 x64_sys_call\n" ++
  cs!"     2: 0000000000007000    32 FUNC    GLOBAL DEFAULT    1 __x64_sys_read\n" ++
  cs!"     3: 0000000000007005    32 FUNC    GLOBAL DEFAULT    1 __x64_sys_newfstat\n" ++
  cs!"     4: 0000000000009000     8 FUNC    GLOBAL DEFAULT    1 __x64_sys_ni_syscall\n" ++
  cs!"     5: 0000000000000500    27 OBJECT  GLOBAL DEFAULT    2 linux_banner\n"

/-- `readelf -WS` -/
def switchSections : Str :=
  cs!"  [ 1] .text PROGBITS 0000000000001000 000040 000018 00 AX 0 0 4\n" ++
  cs!"  [ 2] .rodata PROGBITS 0000000000000500 000058 00001b 00 A 0 0 4\n"

/-- the world with that image -/
def switchWorld : MWorld :=
  { tinyWorld cs!"6.10.1" [] with
    content := fun _ _ => some switchImage
    output := fun _ r => if r.argv.take 2 = [cs!"readelf", cs!"-Ws"] then switchSymbols else switchSections
    x86 := switchEnv smallSwitch }

/-- the hypotheses hold, and the two numbers are found -/
example : Pythonic switchWorld ∧
    (main switchWorld [] { vmlinux := some cs!"vmlinux" } {}).1 = .ok 0 ∧
    (main switchWorld [] { vmlinux := some cs!"vmlinux" } {}).2.err.take 2 =
      [cs!"Detected kernel version: 6.10.1 (from vmlinux)", cs!"Found 2 implemented syscalls"] ∧
    ¬ BuildMode { vmlinux := some cs!"vmlinux" } ∧ ¬ AsksForHelp { vmlinux := some cs!"vmlinux" } := by
  refine ⟨⟨fun l => .refl _, switchEnv_orders _⟩, by decide +kernel, by decide +kernel, by simp [BuildMode], by simp [AsksForHelp]⟩

/-- what is read of that image -/
def switchLoaded : Res (Elf × Arch) := do
  let e ← Elf.load switchImage switchSections (splitLines switchSymbols)
  let a ← kernelInit none (some e) false (.error .hang)
  return (e, a)

def switchFunction : Symbol := ⟨0x1000, 0x1000, 24, cs!"FUNC", cs!"x64_sys_call"⟩

/-- the dispatch function of that image -/
example : ∃ e a, Elf.load switchImage switchSections (splitLines switchSymbols) = .ok e ∧
    kernelInit none (some e) false (.error .hang) = .ok a ∧
    Dispatch switchWorld.x86 (a.adjustAbi e) e switchFunction smallSwitch ∧
    GoodSwitch 1 switchFunction.realVaddr (switchFunction.realVaddr + switchFunction.size) smallSwitch := by
  have hall : (match switchLoaded with
      | .ok (e, a) => decide ((a.adjustAbi e).kind = .x86) && decide ((a.adjustAbi e).tableName = none) &&
          decide (dget ((a.adjustAbi e).abi ++ cs!"_sys_call") e.functions = some switchFunction) && (e.readSymbol switchFunction).toOption.isSome
      | .error _ => false) = true := by decide +kernel
  unfold switchLoaded at hall
  simp only [bind, Except.bind, pure, Except.pure] at hall
  cases h : Elf.load switchImage switchSections (splitLines switchSymbols) with
  | error x => rw [h] at hall; simp at hall
  | ok e =>
    rw [h] at hall
    simp only at hall
    cases h2 : kernelInit none (some e) false (.error .hang) with
    | error x => rw [h2] at hall; simp at hall
    | ok a =>
      rw [h2] at hall
      simp only [Bool.and_eq_true, decide_eq_true_eq] at hall
      obtain ⟨⟨⟨q1, q2⟩, q3⟩, q4⟩ := hall
      cases h3 : e.readSymbol switchFunction with
      | error x => rw [h3] at q4; simp [Except.toOption] at q4
      | ok c => exact ⟨e, a, rfl, h2, ⟨q1, q2, q3, by decide, c, h3, rfl⟩, smallSwitch_good⟩

end Verif
