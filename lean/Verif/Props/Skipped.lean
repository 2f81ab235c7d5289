import Verif.Lemmas.Skipped
import Verif.Props.X86Emu
/-! # C117: instructions the analysis of the syscall switch skips -/
set_option autoImplicit false

namespace Verif
open Spec

/-- the analysis of a dispatch function, in parts -/
theorem dispatch_skipped (o : Bool) (isNop : Insn → Bool) (x : X86Env) (a : Arch) (e : Elf) (sym : Symbol) (insns : List Insn)
    (h : Dispatch x a e sym insns) (p : Nrs × List Insn) (hp : emulate sym.realVaddr sym.size insns = .ok (some p)) :
    extractVaddrsS o isNop x a e = if o = false ∧ hasTie (skippedInsns isNop insns) = true then .error .type else extractVaddrs x a e := by
  obtain ⟨h1, h2, h3, h4, code, h5, h6⟩ := h
  unfold extractVaddrsS extractVaddrs
  have hk : ¬ a.kind ≠ .x86 := by simp [h1]
  have hz : ¬ sym.size < 16 := by omega
  rw [if_neg hk, if_neg hk, h2, h3]
  simp only [Option.isNone, pyAssert, if_true, bind, Except.bind, h5, ← h6, hp, if_neg hz]
  by_cases ht : o = false ∧ hasTie (skippedInsns isNop insns) = true
  · simp only [sortSkipped, if_pos ht]
  · simp only [sortSkipped, if_neg ht]; rfl

/-- C117, the part that holds: the skipped instructions do not matter if instructions can be compared, or if no two different
ones occur equally often. -/
theorem C117_same_partial (ordered : Bool) (isNop : Insn → Bool) (x : X86Env) (a : Arch) (e : Elf)
    (h : ordered = true ∨ ∀ sym insns, Dispatch x a e sym insns → ¬ EquallyOften isNop insns) :
    extractVaddrsS ordered isNop x a e = extractVaddrs x a e := by
  by_cases hk : a.kind ≠ .x86
  · unfold extractVaddrsS extractVaddrs
    rw [if_pos hk, if_pos hk]
  have hk := Decidable.not_not.1 hk
  cases ht : a.tableName with
  | some t =>
    unfold extractVaddrsS extractVaddrs
    rw [if_neg (by simp [hk]), if_neg (by simp [hk]), ht]
    rfl
  | none =>
  cases hm : dget (a.abi ++ cs!"_sys_call") e.functions with
  | none =>
    unfold extractVaddrsS extractVaddrs
    rw [if_neg (by simp [hk]), if_neg (by simp [hk]), ht, hm]
  | some sym =>
  by_cases hs : sym.size < 16
  · unfold extractVaddrsS extractVaddrs
    rw [if_neg (by simp [hk]), if_neg (by simp [hk]), ht, hm]
    simp only
    rw [if_pos hs, if_pos hs]
  cases hc : e.readSymbol sym with
  | error ex =>
    unfold extractVaddrsS extractVaddrs
    rw [if_neg (by simp [hk]), if_neg (by simp [hk]), ht, hm]
    simp only
    rw [if_neg hs, if_neg hs, hc]
    rfl
  | ok code =>
  have hd : Dispatch x a e sym (x.decode a.bits32 code sym.realVaddr) := ⟨hk, ht, hm, by omega, code, hc, rfl⟩
  obtain ⟨res, hres, _⟩ := C44_terminates sym.realVaddr sym.size (x.decode a.bits32 code sym.realVaddr)
  cases res with
  | some p =>
    rw [dispatch_skipped ordered isNop x a e sym _ hd p hres, if_neg]
    rintro ⟨ho, htie⟩
    rcases h with h | h
    · rw [h] at ho; cases ho
    · exact h _ _ hd ((tie_iff _ _).1 htie)
  | none =>
    unfold extractVaddrsS extractVaddrs
    rw [if_neg (by simp [hk]), if_neg (by simp [hk]), ht, hm]
    simp only
    rw [if_neg hs, if_neg hs, hc]
    simp only [bind, Except.bind, hres]

/-- Otherwise, whenever the analysis gets to its end, the program ends with TypeError. -/
theorem C117_equally_often (isNop : Insn → Bool) (x : X86Env) (a : Arch) (e : Elf) (sym : Symbol) (insns : List Insn) (r : Nat)
    (hd : Dispatch x a e sym insns) (hg : GoodSwitch r sym.realVaddr (sym.realVaddr + sym.size) insns)
    (h : EquallyOften isNop insns) : extractVaddrsS false isNop x a e = .error .type := by
  obtain ⟨nrs, cands, he, _⟩ := emulate_exact r sym.realVaddr sym.size insns hg.contiguous hg.supported hg.flags
  rw [dispatch_skipped false isNop x a e sym insns hd _ he, if_pos ⟨rfl, (tie_iff _ _).2 h⟩]

/-- the small switch after `push rbp; mov rbp, rsp` -/
def frameSwitch : List Insn :=
  [⟨0x1000, 0x1001, .other, [.reg 5], 0, 10⟩,
   ⟨0x1001, 0x1004, .other, [.reg 5, .reg 4], 0, 11⟩,
   ⟨0x1004, 0x1007, .cmp, [.reg 1, .imm 5], 0, 0⟩,
   ⟨0x1007, 0x1009, .jcc .e, [.other], 0x100e, 1⟩,
   ⟨0x1009, 0x100e, .jmp, [.other], 0x9000, 2⟩,
   ⟨0x100e, 0x1018, .jmp, [.other], 0x7005, 3⟩]

theorem frameSwitch_good : GoodSwitch 1 0x1000 (0x1000 + 0x18) frameSwitch := by
  have hc : Contiguous 0x1000 (0x1000 + 0x18) frameSwitch := contiguousB_ok _ _ _ (by decide)
  have hs : Supported 1 0x1000 (0x1000 + 0x18) frameSwitch := supportedB_ok _ _ _ _ (by decide) (by decide)
  exact ⟨hc, hs, C45_fresh_targets _ _ _ _ hc hs (freshTargets_ok _ (by decide)), by unfold KeysOk; decide,
    ⟨frameSwitch.dropLast, ⟨0x100e, 0x1018, .jmp, [.other], 0x7005, 3⟩, rfl, .inr (.inl rfl)⟩⟩

theorem frameSwitch_often : EquallyOften (fun _ => false) frameSwitch :=
  ⟨⟨0x1000, 0x1001, .other, [.reg 5], 0, 10⟩, ⟨0x1001, 0x1004, .other, [.reg 5, .reg 4], 0, 11⟩,
    ⟨by decide, rfl, rfl⟩, ⟨by decide, rfl, rfl⟩, by decide, by decide⟩

/-- C117 is false in general, when instructions cannot be compared: two instructions at the start of the function that the
analysis could do without are enough for the program to end with TypeError, although number 5 would be extracted. -/
theorem C117_refuted :
    ∃ sym, Dispatch (switchEnv frameSwitch) x64Switch switchElf sym frameSwitch ∧
      GoodSwitch 1 sym.realVaddr (sym.realVaddr + sym.size) frameSwitch ∧
      extractVaddrs (switchEnv frameSwitch) x64Switch switchElf = .ok [(5, 0x7005)] ∧
      extractVaddrsS false (fun _ => false) (switchEnv frameSwitch) x64Switch switchElf = .error .type :=
  ⟨_, switch_dispatch frameSwitch, frameSwitch_good, by decide +kernel,
    C117_equally_often _ _ _ _ _ _ 1 (switch_dispatch frameSwitch) frameSwitch_good frameSwitch_often⟩

/-- the hypothesis of C117_same_partial holds of the small switch -/
example : extractVaddrsS false (fun _ => false) (switchEnv smallSwitch) x64Switch switchElf =
    extractVaddrs (switchEnv smallSwitch) x64Switch switchElf := by
  refine C117_same_partial _ _ _ _ _ (.inr fun sym insns hd h => ?_)
  obtain ⟨_, _, _, _, _, _, rfl⟩ := hd
  have h : EquallyOften (fun _ => false) smallSwitch := h
  rw [← tie_iff] at h
  exact absurd h (by decide)

end Verif
