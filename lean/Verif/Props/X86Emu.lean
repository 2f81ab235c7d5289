import Verif.Lemmas.Emu3
import Verif.Lemmas.EmuCheck
import Verif.Props.Location
import Mathlib.Data.List.Perm.Subperm
/-! # C44-C46: the analysis of the x86 syscall switch -/
set_option autoImplicit false

namespace Verif
open Spec

/-! ## A small dispatch function

```
1000: cmp eax, 5
1003: je  100e
1005: test eax, eax
1007: je  1013
1009: jmp 9000       (default)
100e: jmp 7005
1013: jmp 7000
```
-/

def smallSwitch : List Insn :=
  [⟨0x1000, 0x1003, .cmp, [.reg 1, .imm 5], 0, 0⟩,
   ⟨0x1003, 0x1005, .jcc .e, [.other], 0x100e, 1⟩,
   ⟨0x1005, 0x1007, .test, [.reg 1, .reg 1], 0, 2⟩,
   ⟨0x1007, 0x1009, .jcc .e, [.other], 0x1013, 3⟩,
   ⟨0x1009, 0x100e, .jmp, [.other], 0x9000, 4⟩,
   ⟨0x100e, 0x1013, .jmp, [.other], 0x7005, 5⟩,
   ⟨0x1013, 0x1018, .jmp, [.other], 0x7000, 6⟩]

theorem smallSwitch_contiguous : Contiguous 0x1000 (0x1000 + 0x18) smallSwitch := contiguousB_ok _ _ _ (by decide)
theorem smallSwitch_supported : Supported 1 0x1000 (0x1000 + 0x18) smallSwitch := supportedB_ok _ _ _ _ (by decide) (by decide)
theorem smallSwitch_fresh : FreshTargets smallSwitch := freshTargets_ok _ (by decide)

/-! ## C44 -/

/-- C44: whatever the instructions, the loop over the passes ends: after at most (number of instructions * 4096 + 1) passes,
and allowing more passes changes nothing. -/
theorem C44_terminates (start size : Nat) (insns : List Insn) :
    ∃ res, emulate start size insns = .ok res ∧
      ∀ r, numberReg insns = some r → ∀ passes, insns.length * 4096 + 1 ≤ passes →
        passLoop start (start + size) r insns passes (initialNrs start) [] = .ok res := by
  unfold emulate
  cases hr : numberReg insns with
  | none => exact ⟨none, rfl, by simp⟩
  | some r =>
    obtain ⟨res, hres⟩ := passLoop_ends start (start + size) r insns (passBound insns) (initialNrs start) []
      (by unfold passBound; omega)
    refine ⟨res, hres _ (Nat.le_refl _), fun r' h passes hp => ?_⟩
    obtain rfl := Option.some.inj h
    exact hres passes hp

/-- a loop: the number register is compared at the end, and control goes back to the start -/
def loopSwitch : List Insn :=
  [⟨0x10, 0x12, .jmp, [.other], 0x17, 0⟩,
   ⟨0x12, 0x17, .jmp, [.other], 0x7000, 1⟩,
   ⟨0x17, 0x1a, .cmp, [.reg 1, .imm 3], 0, 2⟩,
   ⟨0x1a, 0x1c, .jcc .e, [.other], 0x12, 3⟩,
   ⟨0x1c, 0x21, .jmp, [.other], 0x9000, 4⟩]

/-- two passes are needed: the numbers that jump back are not known to the first one -/
example : (∃ st, insnLoop 0x10 0x21 1 loopSwitch ⟨initialNrs 0x10, [], false, none, none, false⟩ = some st ∧ st.keep = true) ∧
    ∃ nrs cands, emulate 0x10 0x11 loopSwitch = .ok (some (nrs, cands)) ∧ nrs 0x7000 3 = true ∧ nrs 0x7000 4 = false ∧
      nrs 0x9000 4 = true ∧ nrs 0x9000 3 = false := by
  refine ⟨⟨_, rfl, by decide +kernel⟩, ?_⟩
  obtain ⟨nrs, cands, h, hx, _⟩ := emulate_exact 1 0x10 0x11 loopSwitch (contiguousB_ok _ _ _ (by decide))
    (supportedB_ok _ _ _ _ (by decide) (by decide))
    (fresh_flags _ _ _ _ (contiguousB_ok _ 0x10 0x21 (by decide)) (supportedB_ok 1 0x10 0x21 _ (by decide) (by decide))
      (freshTargets_ok _ (by decide)))
  have h0 : ∀ n, Reach 1 0x10 loopSwitch n (0x1a, some 3) := fun n =>
    .step (0x17, none) _ (.step _ _ .start (.jmp ⟨0x10, 0x12, .jmp, [.other], 0x17, 0⟩ none (by decide) rfl))
      (.cmp ⟨0x17, 0x1a, .cmp, [.reg 1, .imm 3], 0, 2⟩ 3 none (by decide) rfl rfl)
  have h1 : Reach 1 0x10 loopSwitch 3 (0x7000, some 3) :=
    .step (0x12, some 3) _ (.step _ _ (h0 3) (.taken ⟨0x1a, 0x1c, .jcc .e, [.other], 0x12, 3⟩ .e 3 (by decide) rfl rfl))
      (.jmp ⟨0x12, 0x17, .jmp, [.other], 0x7000, 1⟩ _ (by decide) rfl)
  have h2 : Reach 1 0x10 loopSwitch 4 (0x9000, some 3) :=
    .step (0x1c, some 3) _ (.step _ _ (h0 4) (.fall ⟨0x1a, 0x1c, .jcc .e, [.other], 0x12, 3⟩ .e 3 (by decide) rfl
      (show ¬ (4 = 3) by decide)))
      (.jmp ⟨0x1c, 0x21, .jmp, [.other], 0x9000, 4⟩ _ (by decide) rfl)
  have hc : Contiguous 0x10 0x21 loopSwitch := contiguousB_ok _ _ _ (by decide)
  refine ⟨nrs, cands, h, (hx _ _).2 ⟨by decide, _, h1⟩, ?_, (hx _ _).2 ⟨by decide, _, h2⟩, ?_⟩
  · rw [← Bool.not_eq_true, hx]
    rintro ⟨_, f, hf⟩
    exact absurd (leaves_unique 1 0x10 0x21 loopSwitch hc 4 _ _ ⟨⟨f, hf⟩, by decide⟩ ⟨⟨_, h2⟩, by decide⟩) (by decide)
  · rw [← Bool.not_eq_true, hx]
    rintro ⟨_, f, hf⟩
    exact absurd (leaves_unique 1 0x10 0x21 loopSwitch hc 3 _ _ ⟨⟨f, hf⟩, by decide⟩ ⟨⟨_, h1⟩, by decide⟩) (by decide)

/-! ## C45 -/

/-- C45: for the supported functions in which conditional jumps use the textually last compare, the analysis succeeds, and a number is attributed to a
place outside iff running the function with that number leaves it to this place. The candidates are the
branches out of the function. -/
theorem C45_exact (r start size : Nat) (insns : List Insn) (hc : Contiguous start (start + size) insns)
    (hs : Supported r start (start + size) insns) (hf : FlagsTextual r start insns) :
    ∃ nrs cands, emulate start size insns = .ok (some (nrs, cands)) ∧
      (∀ n t, n < 4096 → ¬ (start ≤ t ∧ t < start + size) →
        (nrs t n = true ↔ LeavesTo r start (start + size) insns n t)) ∧
      (∀ n t, 4096 ≤ n → nrs t n = false) ∧
      (∀ c ∈ cands, c ∈ insns ∧ IsExit start (start + size) c) ∧
      (∀ i ∈ insns, IsExit start (start + size) i → ∃ c ∈ cands, c.key = i.key) := by
  obtain ⟨nrs, cands, h, hx, h1, h2⟩ := emulate_exact r start size insns hc hs hf
  refine ⟨nrs, cands, h, fun n t hn ht => ?_, fun n t hn => ?_, h1, h2⟩
  · rw [hx]
    exact ⟨fun h => ⟨h.2, ht⟩, fun h => ⟨hn, h.1⟩⟩
  · rw [← Bool.not_eq_true, hx]
    rintro ⟨h, _⟩
    simp only [nrMax] at h
    omega

/-- C45, the condition on flags: it is enough that no jump lands between a compare and a conditional jump. -/
theorem C45_fresh_targets (r start stop : Nat) (insns : List Insn) (hc : Contiguous start stop insns)
    (hs : Supported r start stop insns) (hf : FreshTargets insns) : FlagsTextual r start insns :=
  fresh_flags r start stop insns hc hs hf

theorem smallSwitch_flags : FlagsTextual 1 0x1000 smallSwitch :=
  C45_fresh_targets _ _ _ _ smallSwitch_contiguous smallSwitch_supported smallSwitch_fresh

/-- the condition on flags matters: here the jump to 1005 carries the flags of the compare with 7, but the compare that
precedes it in the text is the one with 3 -/
def mixedSwitch : List Insn :=
  [⟨0x1000, 0x1003, .cmp, [.reg 1, .imm 7], 0, 0⟩,
   ⟨0x1003, 0x1005, .jmp, [.other], 0x1008, 1⟩,
   ⟨0x1005, 0x1008, .cmp, [.reg 1, .imm 3], 0, 2⟩,
   ⟨0x1008, 0x100a, .jcc .e, [.other], 0x7000, 3⟩,
   ⟨0x100a, 0x100f, .jmp, [.other], 0x9000, 4⟩]

/-- C45, why it is limited to such functions: otherwise number 7 leaves to 0x7000 but is attributed to 0x9000. -/
theorem C45_flags_needed :
    Supported 1 0x1000 (0x1000 + 0xf) mixedSwitch ∧ Contiguous 0x1000 (0x1000 + 0xf) mixedSwitch ∧
    LeavesTo 1 0x1000 (0x1000 + 0xf) mixedSwitch 7 0x7000 ∧
    ∃ nrs cands, emulate 0x1000 0xf mixedSwitch = .ok (some (nrs, cands)) ∧ nrs 0x7000 7 = false ∧ nrs 0x9000 7 = true := by
  refine ⟨supportedB_ok _ _ _ _ (by decide) (by decide), contiguousB_ok _ _ _ (by decide), ⟨⟨some 7, ?_⟩, by decide⟩, _, _, rfl, ?_, ?_⟩
  · exact .step (0x1008, some 7) _ (.step (0x1003, some 7) _
      (.step _ _ .start (.cmp ⟨0x1000, 0x1003, .cmp, [.reg 1, .imm 7], 0, 0⟩ 7 none (by decide) rfl rfl))
      (.jmp ⟨0x1003, 0x1005, .jmp, [.other], 0x1008, 1⟩ _ (by decide) rfl))
      (.taken ⟨0x1008, 0x100a, .jcc .e, [.other], 0x7000, 3⟩ .e 7 (by decide) rfl rfl)
  · decide +kernel
  · decide +kernel

/-! ## C46 -/

/-- C46, order: the result does not depend on the order in which sets are iterated. -/
theorem C46_order (x y : X86Env) (hd : x.decode = y.decode) (hx : OrdersOk x) (hy : OrdersOk y) (a : Arch) (e : Elf) :
    (∀ exc, extractVaddrs x a e = .error exc ↔ extractVaddrs y a e = .error exc) ∧
    ∀ d d', extractVaddrs x a e = .ok d → extractVaddrs y a e = .ok d' → ∀ n, dget n d = dget n d' := by
  unfold extractVaddrs
  split
  · refine ⟨by simp, ?_⟩
    rintro d d' h h' n
    obtain rfl := Except.ok.inj h
    obtain rfl := Except.ok.inj h'
    rfl
  cases hp : pyAssert a.tableName.isNone with
  | error ex => simp [bind, Except.bind]
  | ok _ =>
    simp only [bind, Except.bind]
    split
    · simp
    rename_i sym _
    split
    · simp
    cases hr : e.readSymbol sym with
    | error ex => simp
    | ok code =>
      simp only [← hd]
      cases he : emulate sym.realVaddr sym.size (x.decode a.bits32 code sym.realVaddr) with
      | error ex => simp
      | ok res =>
        cases res with
        | none =>
          simp
        | some res =>
          obtain ⟨nrs, cands⟩ := res
          simp only
          have hperm : (x.candOrder cands).Perm (y.candOrder cands) := (hx.cands _).trans (hy.cands _).symm
          cases hcx : collect x.numOrder nrs (x.candOrder cands) false [] with
          | none =>
            cases hcy : collect y.numOrder nrs (y.candOrder cands) false [] with
            | none =>
              simp
            | some d' =>
              exfalso
              obtain ⟨hf, _⟩ := collect_some _ hy.numbers _ _ _ _ _ hcy
              obtain ⟨d, hdd⟩ := collect_isSome _ hx.numbers nrs _ _ _ (fits_perm _ _ _ hperm.symm _ _ hf)
              rw [hcx] at hdd
              exact absurd hdd (by simp)
          | some d =>
            obtain ⟨hf, _, hg⟩ := collect_some _ hx.numbers _ _ _ _ _ hcx
            obtain ⟨d', hdd⟩ := collect_isSome _ hy.numbers nrs _ _ _ (fits_perm _ _ _ hperm _ _ hf)
            obtain ⟨_, _, hg'⟩ := collect_some _ hy.numbers _ _ _ _ _ hdd
            rw [hdd]
            simp only [reduceCtorEq, implies_true, true_and, Except.ok.injEq]
            rintro d1 d1' rfl rfl n
            apply Option.ext
            intro w
            rw [hg, hg']
            simp only [hperm.mem_iff]

/-- C46, keys: every number occurs once. -/
theorem C46_keys (x : X86Env) (hx : OrdersOk x) (a : Arch) (e : Elf) (d : List (Nat × Nat))
    (h : extractVaddrs x a e = .ok d) : (d.map Prod.fst).Nodup := by
  unfold extractVaddrs at h
  split at h
  · obtain rfl := Except.ok.inj h
    simp
  cases hp : pyAssert a.tableName.isNone with
  | error ex => rw [hp] at h; simp [bind, Except.bind] at h
  | ok _ =>
    rw [hp] at h
    simp only [bind, Except.bind] at h
    split at h
    · obtain rfl := Except.ok.inj h; simp
    rename_i sym _
    split at h
    · obtain rfl := Except.ok.inj h; simp
    split at h
    · exact absurd h (by simp)
    split at h
    · exact absurd h (by simp)
    split at h
    · obtain rfl := Except.ok.inj h; simp
    · split at h
      · obtain rfl := Except.ok.inj h; simp
      · rename_i hc
        obtain rfl := Except.ok.inj h
        exact (collect_some _ hx.numbers _ _ _ _ _ hc).2.1 (by simp [DNodup])

/-- C46, no conflicts: running with a number leaves the function to at most one place. -/
theorem C46_one_place (r start stop : Nat) (insns : List Insn) (hc : Contiguous start stop insns) (n t t' : Nat)
    (h : LeavesTo r start stop insns n t) (h' : LeavesTo r start stop insns n t') : t = t' :=
  leaves_unique r start stop insns hc n t t' h h'

theorem mem_numbersAt (nrs : Nrs) (t n : Nat) : n ∈ numbersAt nrs t ↔ n < nrMax ∧ nrs t n = true := by
  simp [numbersAt]

theorem default_iff (r start stop : Nat) (insns : List Insn) (nrs : Nrs) (t : Nat)
    (h : ∀ n, n ∈ numbersAt nrs t ↔ n < 4096 ∧ LeavesTo r start stop insns n t) :
    DefaultTarget r start stop insns t ↔ 100 < (numbersAt nrs t).length := by
  constructor
  · rintro ⟨l, hl, hlen, hm⟩
    have : l.length ≤ (numbersAt nrs t).length := by
      apply List.Subperm.length_le
      exact List.subperm_of_subset hl fun n hn => (h n).2 (hm n hn)
    omega
  · intro hlen
    exact ⟨numbersAt nrs t, List.nodup_range.sublist List.filter_sublist, hlen, fun n hn => (h n).1 hn⟩

/-- C46, the part that holds: if every branch out of the function is taken by some number, and no two different branches lead
to default cases, the map sends a number to the place it leaves to, unless that is the default case. -/
theorem C46_exact_partial (x : X86Env) (hx : OrdersOk x) (a : Arch) (e : Elf) (sym : Symbol) (insns : List Insn) (r : Nat)
    (hdis : Dispatch x a e sym insns)
    (hc : Contiguous sym.realVaddr (sym.realVaddr + sym.size) insns)
    (hs : Supported r sym.realVaddr (sym.realVaddr + sym.size) insns)
    (hf : FlagsTextual r sym.realVaddr insns) (hk : KeysOk insns) (hend : EndsProperly insns)
    (hreach : ∀ i ∈ insns, IsExit sym.realVaddr (sym.realVaddr + sym.size) i →
      ∃ n, n < 4096 ∧ LeavesTo r sym.realVaddr (sym.realVaddr + sym.size) insns n i.target)
    (hone : ∀ i ∈ insns, ∀ j ∈ insns, IsExit sym.realVaddr (sym.realVaddr + sym.size) i →
      IsExit sym.realVaddr (sym.realVaddr + sym.size) j →
      DefaultTarget r sym.realVaddr (sym.realVaddr + sym.size) insns i.target →
      DefaultTarget r sym.realVaddr (sym.realVaddr + sym.size) insns j.target → i.key = j.key) :
    ∃ d, extractVaddrs x a e = .ok d ∧ (d.map Prod.fst).Nodup ∧
      ∀ n t, (n, t) ∈ d ↔ n < 4096 ∧ LeavesTo r sym.realVaddr (sym.realVaddr + sym.size) insns n t ∧
        ¬ DefaultTarget r sym.realVaddr (sym.realVaddr + sym.size) insns t := by
  obtain ⟨nrs, cands, he, hex, hcin, hcov⟩ := emulate_exact r sym.realVaddr sym.size insns hc hs hf
  have hkeys := emulate_cands _ _ _ _ _ he
  obtain ⟨h1, h2, h3, h4, code, h5, h6⟩ := hdis
  have hnum : ∀ i, IsExit sym.realVaddr (sym.realVaddr + sym.size) i → ∀ n, n ∈ numbersAt nrs i.target ↔
      n < 4096 ∧ LeavesTo r sym.realVaddr (sym.realVaddr + sym.size) insns n i.target := by
    intro i hi n
    rw [mem_numbersAt, hex]
    exact ⟨fun ⟨a, _, b⟩ => ⟨a, b, hi.2⟩, fun ⟨a, b, _⟩ => ⟨a, a, b⟩⟩
  have hbig : ∀ i, IsExit sym.realVaddr (sym.realVaddr + sym.size) i → (bigAt nrs i = true ↔
      DefaultTarget r sym.realVaddr (sym.realVaddr + sym.size) insns i.target) := by
    intro i hi
    rw [default_iff _ _ _ _ nrs _ (hnum i hi)]
    simp [bigAt]
  have hfits : Fits nrs cands false [] := by
    refine ⟨fun i hi => ?_, ?_, fun i hi hb n hn w hw => absurd hw (by simp [dget]), fun i hi j hj _ _ n hn hn' => ?_⟩
    · obtain ⟨n, hn⟩ := hreach i (hcin i hi).1 (hcin i hi).2
      exact List.ne_nil_of_mem ((hnum i (hcin i hi).2 n).2 hn)
    · have := countP_le_one (bigAt nrs) cands hkeys fun i hi j hj hbi hbj =>
        hone i (hcin i hi).1 j (hcin j hj).1 (hcin i hi).2 (hcin j hj).2 ((hbig i (hcin i hi).2).1 hbi)
          ((hbig j (hcin j hj).2).1 hbj)
      simpa using this
    · exact leaves_unique r _ _ insns hc n _ _ ((hnum i (hcin i hi).2 n).1 hn).2 ((hnum j (hcin j hj).2 n).1 hn').2
  have hperm := hx.cands cands
  obtain ⟨d, hd⟩ := collect_isSome x.numOrder hx.numbers nrs (x.candOrder cands) false []
    (fits_perm _ _ _ hperm.symm _ _ hfits)
  obtain ⟨_, hdn, hg⟩ := collect_some _ hx.numbers _ _ _ _ _ hd
  have hdn := hdn (by simp [DNodup])
  refine ⟨d, ?_, hdn, fun n t => ?_⟩
  · unfold extractVaddrs
    rw [if_neg (by simp [h1]), h2, h3]
    simp only [Option.isNone, pyAssert, if_true, bind, Except.bind, h5, ← h6, he, hd]
    rw [if_neg (by omega)]
  · rw [← dget_eq_some_iff hdn, hg]
    constructor
    · rintro (h | ⟨i, hi, hb, hn, rfl⟩)
      · exact absurd h (by simp [dget])
      · have hi' := hperm.mem_iff.1 hi
        obtain ⟨g1, g2⟩ := (hnum i (hcin i hi').2 n).1 hn
        refine ⟨g1, g2, fun hdef => ?_⟩
        rw [(hbig i (hcin i hi').2).2 hdef] at hb
        exact absurd hb (by decide)
    · rintro ⟨g1, g2, g3⟩
      right
      obtain ⟨pre, l, hl, hm⟩ := hend
      obtain ⟨i, hi, hie, rfl⟩ := leaves_by_branch r _ _ insns hc
        (by
          intro pre' l' h'
          rw [hl] at h'
          obtain ⟨_, e⟩ := List.append_inj' h' rfl
          simp at e
          rw [← e]; exact hm) (by rw [hl]; simp) n t g2
      obtain ⟨c, hcm, hck⟩ := hcov i hi hie
      have ht : c.target = i.target := hk c (hcin c hcm).1 i hi hck
      refine ⟨c, hperm.mem_iff.2 hcm, ?_, ?_, ht.symm⟩
      · rw [← Bool.not_eq_true, hbig c (hcin c hcm).2, ht]
        exact g3
      · rw [hnum c (hcin c hcm).2, ht]
        exact ⟨g1, g2⟩

/-- C46: whenever something is extracted, it is all and right: the map sends a number to the place it leaves to, unless that is the
default case. -/
theorem C46_success (x : X86Env) (hx : OrdersOk x) (a : Arch) (e : Elf) (sym : Symbol) (insns : List Insn) (r : Nat)
    (hdis : Dispatch x a e sym insns) (hg : GoodSwitch r sym.realVaddr (sym.realVaddr + sym.size) insns)
    (d : List (Nat × Nat)) (h : extractVaddrs x a e = .ok d) (hne : d ≠ []) (n t : Nat) :
    (n, t) ∈ d ↔ n < 4096 ∧ LeavesTo r sym.realVaddr (sym.realVaddr + sym.size) insns n t ∧
      ¬ DefaultTarget r sym.realVaddr (sym.realVaddr + sym.size) insns t := by
  have hdn := C46_keys x hx a e d h
  obtain ⟨hc, hs, hf, hk, pre, l, hl, hm⟩ := hg
  obtain ⟨nrs, cands, he, hex, hcin, hcov⟩ := emulate_exact r sym.realVaddr sym.size insns hc hs hf
  obtain ⟨h1, h2, h3, h4, code, h5, h6⟩ := hdis
  unfold extractVaddrs at h
  rw [if_neg (by simp [h1]), h2, h3] at h
  simp only [Option.isNone, pyAssert, if_true, bind, Except.bind, h5, ← h6, he] at h
  rw [if_neg (by omega)] at h
  cases hcol : collect x.numOrder nrs (x.candOrder cands) false [] with
  | none => rw [hcol] at h; cases h; exact absurd rfl hne
  | some d' =>
    rw [hcol] at h
    cases h
    obtain ⟨_, _, hg⟩ := collect_some _ hx.numbers _ _ _ _ _ hcol
    have hperm := hx.cands cands
    have hnum : ∀ i, IsExit sym.realVaddr (sym.realVaddr + sym.size) i → ∀ n, n ∈ numbersAt nrs i.target ↔
        n < 4096 ∧ LeavesTo r sym.realVaddr (sym.realVaddr + sym.size) insns n i.target := by
      intro i hi n
      rw [mem_numbersAt, hex]
      exact ⟨fun ⟨a, _, b⟩ => ⟨a, b, hi.2⟩, fun ⟨a, b, _⟩ => ⟨a, a, b⟩⟩
    have hbig : ∀ i, IsExit sym.realVaddr (sym.realVaddr + sym.size) i → (bigAt nrs i = true ↔
        DefaultTarget r sym.realVaddr (sym.realVaddr + sym.size) insns i.target) := by
      intro i hi
      rw [default_iff _ _ _ _ nrs _ (hnum i hi)]
      simp [bigAt]
    rw [← dget_eq_some_iff hdn, hg]
    constructor
    · rintro (h | ⟨i, hi, hb, hn, rfl⟩)
      · exact absurd h (by simp [dget])
      · have hi' := hperm.mem_iff.1 hi
        obtain ⟨g1, g2⟩ := (hnum i (hcin i hi').2 n).1 hn
        refine ⟨g1, g2, fun hdef => ?_⟩
        rw [(hbig i (hcin i hi').2).2 hdef] at hb
        exact absurd hb (by decide)
    · rintro ⟨g1, g2, g3⟩
      right
      obtain ⟨i, hi, hie, rfl⟩ := leaves_by_branch r _ _ insns hc
        (by
          intro pre' l' h'
          rw [hl] at h'
          obtain ⟨_, e⟩ := List.append_inj' h' rfl
          simp at e
          rw [← e]; exact hm) (by rw [hl]; simp) n t g2
      obtain ⟨c, hcm, hck⟩ := hcov i hi hie
      have ht : c.target = i.target := hk c (hcin c hcm).1 i hi hck
      refine ⟨c, hperm.mem_iff.2 hcm, ?_, ?_, ht.symm⟩
      · rw [← Bool.not_eq_true, hbig c (hcin c hcm).2, ht]
        exact g3
      · rw [hnum c (hcin c hcm).2, ht]
        exact ⟨g1, g2⟩

theorem smallSwitch_good : GoodSwitch 1 0x1000 (0x1000 + 0x18) smallSwitch :=
  ⟨smallSwitch_contiguous, smallSwitch_supported, smallSwitch_flags, by unfold KeysOk; decide,
    ⟨smallSwitch.dropLast, ⟨0x1013, 0x1018, .jmp, [.other], 0x7000, 6⟩, rfl, .inr (.inl rfl)⟩⟩

/-- x64 from version 6.10 on has no table -/
def x64Switch : Arch := { kind := .x86, version := [6, 10], abi := cs!"x64", bits32 := false, tableName := none }

/-- an ELF file with the dispatch function of x64 at 0x1000 -/
def switchElf : Elf :=
  { bits32 := false, bigEndian := false, machine := 62, eflags := 0, data := List.replicate 0x18 0x90,
    sections := [(cs!".text", ⟨cs!".text", 0x1000, 0, 0x18⟩)],
    symbols := [], functions := [(cs!"x64_sys_call", ⟨0x1000, 0x1000, 0x18, cs!"FUNC", cs!"x64_sys_call"⟩)] }

def switchEnv (insns : List Insn) : X86Env := ⟨fun _ _ _ => insns, id, id⟩

theorem switchEnv_orders (insns : List Insn) : OrdersOk (switchEnv insns) := ⟨fun _ => .refl _, fun _ => .refl _⟩

theorem switch_dispatch (insns : List Insn) :
    Dispatch (switchEnv insns) x64Switch switchElf ⟨0x1000, 0x1000, 0x18, cs!"FUNC", cs!"x64_sys_call"⟩ insns :=
  ⟨rfl, rfl, by decide +kernel, by decide, ⟨_, rfl, rfl⟩⟩

example : extractVaddrs (switchEnv smallSwitch) x64Switch switchElf = .ok [(5, 0x7005), (0, 0x7000)] := by
  decide +kernel

/-- the hypotheses of C46_success hold of it -/
example : Dispatch (switchEnv smallSwitch) x64Switch switchElf ⟨0x1000, 0x1000, 0x18, cs!"FUNC", cs!"x64_sys_call"⟩ smallSwitch ∧
    GoodSwitch 1 0x1000 (0x1000 + 0x18) smallSwitch ∧
    ∃ d, extractVaddrs (switchEnv smallSwitch) x64Switch switchElf = .ok d ∧ d ≠ [] :=
  ⟨switch_dispatch _, smallSwitch_good, [(5, 0x7005), (0, 0x7000)], by decide +kernel, by decide⟩

/-- the default case is reached by two different branches -/
def twoDefaults : List Insn :=
  [⟨0x1000, 0x1003, .cmp, [.reg 1, .imm 5], 0, 0⟩,
   ⟨0x1003, 0x1009, .jcc .a, [.other], 0x9000, 1⟩,
   ⟨0x1009, 0x100e, .jcc .e, [.other], 0x7005, 2⟩,
   ⟨0x100e, 0x1018, .jmp, [.other], 0x9000, 3⟩]

/-- C46 is false in general: with two branches to the default case nothing is extracted, although number 5 leaves to
0x7005, which is not the default case. -/
theorem C46_two_defaults_refuted :
    ∃ sym, Dispatch (switchEnv twoDefaults) x64Switch switchElf sym twoDefaults ∧
      Contiguous sym.realVaddr (sym.realVaddr + sym.size) twoDefaults ∧
      Supported 1 sym.realVaddr (sym.realVaddr + sym.size) twoDefaults ∧
      FlagsTextual 1 sym.realVaddr twoDefaults ∧ KeysOk twoDefaults ∧ EndsProperly twoDefaults ∧
      LeavesTo 1 sym.realVaddr (sym.realVaddr + sym.size) twoDefaults 5 0x7005 ∧
      extractVaddrs (switchEnv twoDefaults) x64Switch switchElf = .ok [] := by
  have hc : Contiguous 0x1000 (0x1000 + 0x18) twoDefaults := contiguousB_ok _ _ _ (by decide)
  have hs : Supported 1 0x1000 (0x1000 + 0x18) twoDefaults := supportedB_ok _ _ _ _ (by decide) (by decide)
  refine ⟨_, switch_dispatch twoDefaults, hc, hs, C45_fresh_targets _ _ _ _ hc hs (freshTargets_ok _ (by decide)),
    by unfold KeysOk; decide, ⟨twoDefaults.dropLast, ⟨0x100e, 0x1018, .jmp, [.other], 0x9000, 3⟩, rfl, .inr (.inl rfl)⟩, ⟨⟨some 5, ?_⟩, by decide⟩, by decide +kernel⟩
  exact .step (0x1009, some 5) _ (.step (0x1003, some 5) _
    (.step _ _ .start (.cmp ⟨0x1000, 0x1003, .cmp, [.reg 1, .imm 5], 0, 0⟩ 5 none (by decide) rfl rfl))
    (.fall ⟨0x1003, 0x1009, .jcc .a, [.other], 0x9000, 1⟩ .a 5 (by decide) rfl (show ¬ (5 > 5) by decide)))
    (.taken ⟨0x1009, 0x100e, .jcc .e, [.other], 0x7005, 2⟩ .e 5 (by decide) rfl rfl)

/-- calls that come back: a jump to a return thunk follows each -/
def thunkSwitch : List Insn :=
  [⟨0x1000, 0x1003, .cmp, [.reg 1, .imm 5], 0, 0⟩,
   ⟨0x1003, 0x1005, .jcc .e, [.other], 0x100e, 1⟩,
   ⟨0x1005, 0x100a, .jmp, [.other], 0x9000, 2⟩,
   ⟨0x100a, 0x100e, .other, [], 0, 3⟩,
   ⟨0x100e, 0x1013, .call, [.other], 0x7005, 4⟩,
   ⟨0x1013, 0x1018, .jmp, [.other], 0x8000, 5⟩]

/-- C46 is false in general: when a branch out of the function is only reached by returning from a call, nothing is
extracted. -/
theorem C46_after_call_refuted :
    ∃ sym, Dispatch (switchEnv thunkSwitch) x64Switch switchElf sym thunkSwitch ∧
      Contiguous sym.realVaddr (sym.realVaddr + sym.size) thunkSwitch ∧
      Supported 1 sym.realVaddr (sym.realVaddr + sym.size) thunkSwitch ∧
      FlagsTextual 1 sym.realVaddr thunkSwitch ∧ KeysOk thunkSwitch ∧ EndsProperly thunkSwitch ∧
      LeavesTo 1 sym.realVaddr (sym.realVaddr + sym.size) thunkSwitch 5 0x7005 ∧
      extractVaddrs (switchEnv thunkSwitch) x64Switch switchElf = .ok [] := by
  have hc : Contiguous 0x1000 (0x1000 + 0x18) thunkSwitch := contiguousB_ok _ _ _ (by decide)
  have hs : Supported 1 0x1000 (0x1000 + 0x18) thunkSwitch := supportedB_ok _ _ _ _ (by decide) (by decide)
  refine ⟨_, switch_dispatch thunkSwitch, hc, hs, C45_fresh_targets _ _ _ _ hc hs (freshTargets_ok _ (by decide)),
    by unfold KeysOk; decide, ⟨thunkSwitch.dropLast, ⟨0x1013, 0x1018, .jmp, [.other], 0x8000, 5⟩, rfl, .inr (.inl rfl)⟩, ⟨⟨some 5, ?_⟩, by decide⟩, by decide +kernel⟩
  exact .step (0x100e, some 5) _ (.step (0x1003, some 5) _
    (.step _ _ .start (.cmp ⟨0x1000, 0x1003, .cmp, [.reg 1, .imm 5], 0, 0⟩ 5 none (by decide) rfl rfl))
    (.taken ⟨0x1003, 0x1005, .jcc .e, [.other], 0x100e, 1⟩ .e 5 (by decide) rfl rfl))
    (.call ⟨0x100e, 0x1013, .call, [.other], 0x7005, 4⟩ _ (by decide) rfl)

/-- The whole extraction: with the location step (C60) and this one, everything assumed in C21-C37 of the parts that are
parameters there holds. -/
theorem C46_env_ok (x : X86Env) (hx : OrdersOk x) (w : LEnv) (a : Arch) (kdir rdir : Option Path) (e : Elf)
    (niOrder : List Symbol → List Symbol) (files : Files) (horder : ∀ l, (niOrder l).Perm l) :
    EnvOk ⟨niOrder, extractVaddrs x a, extractLocations w a kdir rdir, files, kdir⟩ e :=
  C60_env_ok w a kdir rdir _ e rfl (horder _) fun l h => C46_keys x hx a e l h

example : OrdersOk (switchEnv smallSwitch) ∧ ∀ l : List Symbol, (id l).Perm l := ⟨switchEnv_orders _, fun _ => .refl _⟩

/-- the hypotheses of C46_exact_partial hold of the small dispatch function -/
example : ∃ d, extractVaddrs (switchEnv smallSwitch) x64Switch switchElf = .ok d ∧ (d.map Prod.fst).Nodup ∧
    ∀ n t, (n, t) ∈ d ↔ n < 4096 ∧ LeavesTo 1 0x1000 (0x1000 + 0x18) smallSwitch n t ∧
      ¬ DefaultTarget 1 0x1000 (0x1000 + 0x18) smallSwitch t := by
  have at3 : ∀ n, Reach 1 0x1000 smallSwitch n (0x1003, some 5) := fun n =>
    .step _ _ .start (.cmp ⟨0x1000, 0x1003, .cmp, [.reg 1, .imm 5], 0, 0⟩ 5 none (by decide) rfl rfl)
  have five : LeavesTo 1 0x1000 (0x1000 + 0x18) smallSwitch 5 0x7005 :=
    ⟨⟨_, .step (0x100e, some 5) _ (.step _ _ (at3 5)
      (.taken ⟨0x1003, 0x1005, .jcc .e, [.other], 0x100e, 1⟩ .e 5 (by decide) rfl rfl))
      (.jmp ⟨0x100e, 0x1013, .jmp, [.other], 0x7005, 5⟩ _ (by decide) rfl)⟩, by decide⟩
  have at7 : ∀ n, n ≠ 5 → Reach 1 0x1000 smallSwitch n (0x1007, some 0) := fun n hn =>
    .step (0x1005, some 5) _ (.step _ _ (at3 n)
      (.fall ⟨0x1003, 0x1005, .jcc .e, [.other], 0x100e, 1⟩ .e 5 (by decide) rfl hn))
      (.test ⟨0x1005, 0x1007, .test, [.reg 1, .reg 1], 0, 2⟩ _ (by decide) rfl rfl)
  have zero : LeavesTo 1 0x1000 (0x1000 + 0x18) smallSwitch 0 0x7000 :=
    ⟨⟨_, .step (0x1013, some 0) _ (.step _ _ (at7 0 (by decide))
      (.taken ⟨0x1007, 0x1009, .jcc .e, [.other], 0x1013, 3⟩ .e 0 (by decide) rfl rfl))
      (.jmp ⟨0x1013, 0x1018, .jmp, [.other], 0x7000, 6⟩ _ (by decide) rfl)⟩, by decide⟩
  have rest : ∀ n, n ≠ 5 → n ≠ 0 → LeavesTo 1 0x1000 (0x1000 + 0x18) smallSwitch n 0x9000 := fun n h5 h0 =>
    ⟨⟨_, .step (0x1009, some 0) _ (.step _ _ (at7 n h5)
      (.fall ⟨0x1007, 0x1009, .jcc .e, [.other], 0x1013, 3⟩ .e 0 (by decide) rfl h0))
      (.jmp ⟨0x1009, 0x100e, .jmp, [.other], 0x9000, 4⟩ _ (by decide) rfl)⟩, by decide⟩
  have only : ∀ t, DefaultTarget 1 0x1000 (0x1000 + 0x18) smallSwitch t → t = 0x9000 := by
    rintro t ⟨l, hl, hlen, h⟩
    by_contra ht
    have : ∀ n ∈ l, n = 5 ∨ n = 0 := by
      intro n hn
      by_contra hc
      simp only [not_or] at hc
      exact ht (C46_one_place _ _ _ _ smallSwitch_contiguous n t _ (h n hn).2 (rest n hc.1 hc.2))
    have : l.length ≤ [5, 0].length := (List.subperm_of_subset hl fun n hn => by simpa using this n hn).length_le
    simp at this
    omega
  refine C46_exact_partial (switchEnv smallSwitch) (switchEnv_orders _) x64Switch switchElf _ smallSwitch 1
    (switch_dispatch smallSwitch) smallSwitch_contiguous smallSwitch_supported smallSwitch_flags
    (by unfold KeysOk; decide) ⟨smallSwitch.dropLast, ⟨0x1013, 0x1018, .jmp, [.other], 0x7000, 6⟩, rfl, .inr (.inl rfl)⟩ ?_ ?_
  · intro i hi he
    simp only [smallSwitch, List.mem_cons, List.not_mem_nil, or_false] at hi
    rcases hi with rfl | rfl | rfl | rfl | rfl | rfl | rfl
    · exact absurd he.1 (by simp)
    · exact absurd (by decide) he.2
    · exact absurd he.1 (by simp)
    · exact absurd (by decide) he.2
    · exact ⟨1, by decide, rest 1 (by decide) (by decide)⟩
    · exact ⟨5, by decide, five⟩
    · exact ⟨0, by decide, zero⟩
  · intro i hi j hj _ _ hdi hdj
    have h1 := only _ hdi
    have h2 := only _ hdj
    have key : ∀ i ∈ smallSwitch, i.target = 0x9000 → i.key = 4 := by decide
    rw [key i hi h1, key j hj h2]

end Verif
