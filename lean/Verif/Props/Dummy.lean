import Verif.Lemmas.Dummy
/-! # C41, C42: code discarded as dummy -/
set_option autoImplicit false

namespace Verif
open Spec

/-- C41, x86 (partial: the property asks for the error in the whole return register, which is false in 64-bit mode for
the `b8` form, see below). Code that the check discards, lying wholly in the file, sets `eax` to -ENOSYS or -EINVAL and
then returns or jumps away, changing nothing else; with the `48 c7 c0` form all of `rax` is the error in 64-bit mode. -/
theorem C41_x86_partial (sym : Symbol) (e : Elf) (code : Bytes) (h : x86Dummy sym e = .ok (some code))
    (hl : code.length = sym.size) (R : Type) (mode64 : Bool) (s : X86 R) :
    e.readSymbol sym = .ok code ∧
    ∃ v, (signedOf 32 (v % 2 ^ 32) = -38 ∨ signedOf 32 (v % 2 ^ 32) = -22) ∧
      (mode64 = true → 0xb8 ∉ code.take 5 → (signedOf 64 v = -38 ∨ signedOf 64 v = -22)) ∧
      (x86Exec mode64 0 code s = .ret ⟨v, s.rest⟩ ∨ ∃ k, x86Exec mode64 0 code s = .jump k ⟨v, s.rest⟩) := by
  obtain ⟨hr, hb⟩ := x86Dummy_body sym e code h hl
  refine ⟨hr, ?_⟩
  have body : ∀ (pos : Nat) (t : Bytes), X86Body t →
      ∃ v, (signedOf 32 (v % 2 ^ 32) = -38 ∨ signedOf 32 (v % 2 ^ 32) = -22) ∧
        (mode64 = true → 0xb8 ∉ t.take 1 → (signedOf 64 v = -38 ∨ signedOf 64 v = -22)) ∧
        (x86Exec mode64 pos t s = .ret ⟨v, s.rest⟩ ∨ ∃ k, x86Exec mode64 pos t s = .jump k ⟨v, s.rest⟩) := by
    rintro pos t ⟨i, u, hi, hu, rfl | rfl⟩
    · refine ⟨imm32 i 0xff 0xff 0xff, ?_, ?_, ?_⟩
      · rcases hi with rfl | rfl <;> decide
      · intro _ hn; simp at hn
      · rw [x86_b8]; exact x86_tail _ _ _ hu _
    · refine ⟨if mode64 then (signedOf 32 (imm32 i 0xff 0xff 0xff) % 2 ^ 64).toNat else imm32 i 0xff 0xff 0xff, ?_, ?_, ?_⟩
      · rcases hi with rfl | rfl <;> cases mode64 <;> decide
      · rintro rfl -
        rcases hi with rfl | rfl <;> decide
      · rw [x86_48]; exact x86_tail _ _ _ hu _
  rcases hb with hb | ⟨x, t, hx, rfl, hb⟩
  · obtain ⟨v, h1, h2, h3⟩ := body 0 code hb
    refine ⟨v, h1, fun hm hn => h2 hm fun hin => hn ?_, h3⟩
    have : code.take 1 = (code.take 5).take 1 := by rw [List.take_take]; rfl
    rw [this] at hin
    exact List.mem_of_mem_take hin
  · obtain ⟨v, h1, h2, h3⟩ := body 4 t hb
    refine ⟨v, h1, fun hm hn => h2 hm fun hin => hn ?_, ?_⟩
    · simp [hin]
    · rw [x86_endbr _ _ _ hx]; exact h3

/-- an image with one function of the given code at address 0x1000 -/
def imageOf (machine : Nat) (big : Bool) (bits32 : Bool) (code : Bytes) : Elf × Symbol :=
  ({ data := code, bits32 := bits32, bigEndian := big, machine := machine, eflags := 0,
     sections := [(cs!".text", ⟨cs!".text", 0x1000, 0, code.length⟩)], symbols := [], functions := [] },
   ⟨0x1000, 0x1000, code.length, cs!"FUNC", cs!"sys_foo"⟩)

/-- C41 is false as stated for x86: in a 64-bit kernel `mov eax, -38; ret` is discarded, but returns 0xffffffda as
a 64-bit value, which is not -ENOSYS. -/
theorem C41_x86_refuted : ∃ (e : Elf) (sym : Symbol) (code : Bytes),
    x86Dummy sym e = .ok (some code) ∧ code.length = sym.size ∧
    ∃ v, x86Exec true 0 code (⟨0, ()⟩ : X86 Unit) = .ret ⟨v, ()⟩ ∧ signedOf 64 v = 4294967258 := by
  refine ⟨(imageOf 62 false false [0xb8, 0xda, 0xff, 0xff, 0xff, 0xc3]).1,
    (imageOf 62 false false [0xb8, 0xda, 0xff, 0xff, 0xff, 0xc3]).2, [0xb8, 0xda, 0xff, 0xff, 0xff, 0xc3],
    by decide +kernel, rfl, 0xffffffda, ?_, by decide⟩
  rw [x86_b8, x86_ret]
  rfl

example : x86Dummy (imageOf 62 false false [0xf3, 0x0f, 0x1e, 0xfa, 0x48, 0xc7, 0xc0, 0xda, 0xff, 0xff, 0xff, 0xc3]).2
      (imageOf 62 false false [0xf3, 0x0f, 0x1e, 0xfa, 0x48, 0xc7, 0xc0, 0xda, 0xff, 0xff, 0xff, 0xc3]).1 =
    .ok (some [0xf3, 0x0f, 0x1e, 0xfa, 0x48, 0xc7, 0xc0, 0xda, 0xff, 0xff, 0xff, 0xc3]) := by decide +kernel

/-! ## ARM -/

/-- C41, ARM: discarded code, as Thumb-2 code, sets r0 to -EINVAL or -ENOSYS and returns to the address in lr,
changing nothing else. -/
theorem C41_arm (sym : Symbol) (e : Elf) (code : Bytes) (h : armDummy sym e = .ok (some code)) (R : Type) (s : Arm R) :
    e.readSymbol sym = .ok code ∧
    ∃ v, (signedOf 32 v = -22 ∨ signedOf 32 v = -38) ∧
      thumbExec code s = .branch (s.r 14) ⟨fun i => if i = 0 then v else s.r i, s.rest⟩ := by
  simp only [armDummy] at h
  split at h
  · simp at h
  simp only [bind, Except.bind] at h
  split at h
  · simp at h
  next c hc =>
  split at h
  · next hcode =>
    simp only [Except.ok.injEq, Option.some.injEq] at h
    subst h
    refine ⟨hc, ?_⟩
    rcases hcode with rfl | rfl
    · exact ⟨2 ^ 32 - 22, by decide, by simp [thumbExec]⟩
    · exact ⟨2 ^ 32 - 38, by decide, by simp [thumbExec]⟩
  · simp at h

example : armDummy (imageOf 40 false true [0x6f, 0xf0, 0x25, 0x00, 0x70, 0x47]).2
      (imageOf 40 false true [0x6f, 0xf0, 0x25, 0x00, 0x70, 0x47]).1 =
    .ok (some [0x6f, 0xf0, 0x25, 0x00, 0x70, 0x47]) := by decide +kernel

/-! ## MIPS -/

/-- C41, MIPS (where ENOSYS is 89): discarded code sets v0 to -EINVAL or -ENOSYS and returns to the address in ra,
changing nothing else. The code is read as words in the byte order of the kernel. -/
theorem C41_mips (sym : Symbol) (e : Elf) (code : Bytes) (h : mipsDummy sym e = .ok (some code))
    (hl : code.length = sym.size) (R : Type) (s : Mips R) :
    e.readSymbol sym = .ok code ∧
    ∃ ws v, unpackWords e.bigEndian code = .ok ws ∧ (v = -22 ∨ v = -89) ∧
      mipsExec ws s = some (s.r 31, ⟨fun i => if i = 2 then v else s.r i, s.rest⟩) := by
  simp only [mipsDummy] at h
  split at h
  · simp at h
  next hsz =>
  simp only [bind, Except.bind] at h
  split at h
  · simp at h
  next c hc =>
  obtain ⟨rfl, himm⟩ : c = code ∧ (∀ x, x = (if e.bigEndian = true then
        if startsWith c [0x03, 0xe0, 0x00, 0x08, 0x24, 0x02] = true then some (sintOf true (c.drop 6)) else none
      else
        if (startsWith c [0x08, 0x00, 0xe0, 0x03] && endsWith c [0x02, 0x24]) = true
        then some (sintOf false ((c.drop 4).take 2)) else none) → x = some (-22) ∨ x = some (-89)) := by
    refine ⟨?_, ?_⟩
    · rw [Except.ok.injEq] at h
      revert h
      generalize (if e.bigEndian = true then _ else _ : Option Int) = x
      intro h
      split at h
      · simpa using h
      · simp at h
    · rintro x rfl
      rw [Except.ok.injEq] at h
      revert h
      generalize (if e.bigEndian = true then _ else _ : Option Int) = x
      intro h
      split at h
      · assumption
      · simp at h
  · refine ⟨hc, ?_⟩
    have himm := himm _ rfl
    have h8 : c.length = 8 := by rw [hl]; exact Classical.not_not.1 hsz
    obtain ⟨b0, b1, b2, b3, b4, b5, b6, b7, rfl⟩ : ∃ b0 b1 b2 b3 b4 b5 b6 b7, c = [b0, b1, b2, b3, b4, b5, b6, b7] := by
      match c, h8 with
      | [b0, b1, b2, b3, b4, b5, b6, b7], _ => exact ⟨_, _, _, _, _, _, _, _, rfl⟩
    have fin : ∀ lo hi : UInt8, (sintOf false [lo, hi] = -22 ∨ sintOf false [lo, hi] = -89) →
        (lo = 0xea ∧ hi = 0xff ∨ lo = 0xa7 ∧ hi = 0xff) := by
      intro lo hi h
      have e1 : uintOf false [lo, hi] = lo.toNat + 256 * hi.toNat := by simp [uintOf, leVal]
      have l1 := lo.toNat_lt
      have l2 := hi.toNat_lt
      simp only [sintOf, e1] at h
      simp only [← UInt8.toNat_inj]
      simp at h ⊢
      split at h <;> omega
    cases hbig : e.bigEndian with
    | true =>
      simp only [hbig, if_true] at himm
      split at himm
      · next hp =>
        rw [startsWith_iff] at hp
        obtain ⟨t, ht⟩ := hp
        simp at ht
        obtain ⟨rfl, rfl, rfl, rfl, rfl, rfl, rfl⟩ := ht
        have e1 : sintOf true [b6, b7] = sintOf false [b7, b6] := by simp [sintOf, uintOf]
        simp only [List.drop_succ_cons, List.drop_zero, Option.some.injEq, e1] at himm
        rcases fin b7 b6 himm with ⟨rfl, rfl⟩ | ⟨rfl, rfl⟩
        · exact ⟨_, -22, rfl, Or.inl rfl, by simp [uintOf, leVal, mipsExec, mipsSimple, Mips.get, signedOf]⟩
        · exact ⟨_, -89, rfl, Or.inr rfl, by simp [uintOf, leVal, mipsExec, mipsSimple, Mips.get, signedOf]⟩
      · simp at himm
    | false =>
      simp only [hbig, Bool.false_eq_true, if_false] at himm
      split at himm
      · next hp =>
        rw [Bool.and_eq_true, startsWith_iff, endsWith_iff] at hp
        obtain ⟨⟨t, ht⟩, ⟨u, hu⟩⟩ := hp
        simp at ht
        obtain ⟨rfl, rfl, rfl, rfl, rfl⟩ := ht
        have hu' : u = [0x08, 0x00, 0xe0, 0x03, b4, b5] ∧ b6 = 0x02 ∧ b7 = 0x24 := by
          have hlen : u.length = 6 := by have := congrArg List.length hu; simp at this; omega
          have := List.append_inj hu (t₁ := [0x02, 0x24]) (s₂ := [0x08, 0x00, 0xe0, 0x03, b4, b5]) (t₂ := [b6, b7])
            (by simp [hlen])
          simpa [eq_comm] using this
        obtain ⟨-, rfl, rfl⟩ := hu'
        simp only [List.drop_succ_cons, List.drop_zero, List.take_succ_cons, List.take_zero, Option.some.injEq] at himm
        rcases fin b4 b5 himm with ⟨rfl, rfl⟩ | ⟨rfl, rfl⟩
        · exact ⟨_, -22, rfl, Or.inl rfl, by simp [uintOf, leVal, mipsExec, mipsSimple, Mips.get, signedOf]⟩
        · exact ⟨_, -89, rfl, Or.inr rfl, by simp [uintOf, leVal, mipsExec, mipsSimple, Mips.get, signedOf]⟩
      · simp at himm

example : mipsDummy (imageOf 8 true true [0x03, 0xe0, 0x00, 0x08, 0x24, 0x02, 0xff, 0xa7]).2
      (imageOf 8 true true [0x03, 0xe0, 0x00, 0x08, 0x24, 0x02, 0xff, 0xa7]).1 =
    .ok (some [0x03, 0xe0, 0x00, 0x08, 0x24, 0x02, 0xff, 0xa7]) := by decide +kernel

/-- C41: the other two architectures have no check of their own. -/
theorem C41_no_check (a : Arch) (sym : Symbol) (e : Elf) (h : a.kind = .arm64 ∨ a.kind = .riscv) :
    a.dummyCode sym e = .ok none := by
  rcases h with h | h <;> simp [Arch.dummyCode, h]

/-! ## PowerPC -/

/-- C42 (partial: the property makes no assumption about the shape of the code, see the refutations below). Code of
a plain shape that the check discards returns -38 with the stack pointer restored, for any memory and any register
width, if the functions called (profiling hooks) preserve r1 and r3. -/
theorem C42_ppc_partial (sym : Symbol) (e : Elf) (code : Bytes) (h : ppcDummy sym e = .ok (some code)) :
    e.readSymbol sym = .ok code ∧
    ∃ ws, unpackWords e.bigEndian code = .ok ws ∧
      (PlainPpcCode ws → ∀ (w : Nat) (mem : PpcMem w) (call : Ppc mem → Ppc mem) (st : Ppc mem),
        (∀ s, (call s).r 1 = s.r 1 ∧ (call s).r 3 = s.r 3) →
        ∃ st', ppcExec call ws st = some st' ∧ st'.r 3 = BitVec.ofInt w (-38) ∧ st'.r 1 = st.r 1) := by
  simp only [ppcDummy] at h
  split at h
  · simp at h
  simp only [bind, Except.bind] at h
  split at h
  · simp at h
  next c hc =>
  split at h
  · simp at h
  next ws hws =>
  split at h
  · simp at h
  next s' hs =>
  simp only [Except.ok.injEq] at h
  split at h
  · next hok =>
    simp only [Option.some.injEq] at h
    subst h
    refine ⟨hc, ws, hws, ?_⟩
    rintro ⟨hlast, hcalls, hnu, hu, hfr, hpu, hpo⟩ w mem call st hcall
    obtain ⟨l, rfl⟩ : ∃ l, ws = l ++ [0x4e800020] := List.getLast?_eq_some_iff.1 hlast
    have hlt : ∀ i ∈ l, i < 2 ^ 32 := by
      intro i hi
      obtain ⟨hlen, hget⟩ := unpackWords_get _ _ _ hws
      obtain ⟨k, hk, rfl⟩ := List.mem_iff_getElem.1 hi
      have hg : (l ++ [0x4e800020])[k]? = some l[k] := by
        rw [List.getElem?_append_left hk, List.getElem?_eq_getElem hk]
      rw [hget k _ hg]
      have h4 : (readAt c (4 * k) 4).length ≤ 4 := by simp [readAt]; omega
      have := uintOf_lt e.bigEndian (readAt c (4 * k) 4)
      exact Nat.lt_of_lt_of_le this (by
        calc 256 ^ (readAt c (4 * k) 4).length ≤ 256 ^ 4 := Nat.pow_le_pow_right (by decide) h4
          _ = 2 ^ 32 := by decide)
    have sub : ∀ {i}, i ∈ l → i ∈ l ++ [0x4e800020] := fun hi => List.mem_append_left _ hi
    rw [List.countP_append] at hpu hpo
    obtain ⟨st', h1, h2, h3⟩ := exec_scan call hcall (st.r 1) l {} s' st
      ⟨by simp [frameShift], by simp, by simp, by simp, Or.inl rfl⟩ hlt (fun i hi => hcalls i (sub hi))
      (fun i hi => hnu i (sub hi)) (fun i hi => hu i (sub hi)) (fun i hi => hfr i (sub hi))
      (by simp; omega) (by simp; omega) hs hok
    exact ⟨st', h1, h3, h2⟩
  · simp at h

/-- big-endian bytes of words -/
def beCode (ws : List Nat) : Bytes := ws.flatMap fun w =>
  [UInt8.ofNat (w / 2 ^ 24), UInt8.ofNat (w / 2 ^ 16), UInt8.ofNat (w / 2 ^ 8), UInt8.ofNat w]

/-- `mflr r0; std r0,16(r1); bl _mcount; li r3,-38; stdu r1,-32(r1); nop; addi r1,r1,32; ld r0,16(r1); mtlr r0; blr` -/
def samplePpcDummy : List Nat :=
  [0x7c0802a6, 0xf8010010, 0x4bfffff1, 0xf821ffe1, 0x3860ffda, 0x60000000, 0x38210020, 0xe8010010, 0x7c0803a6, 0x4e800020]

example : ppcDummy (imageOf 21 true false (beCode samplePpcDummy)).2 (imageOf 21 true false (beCode samplePpcDummy)).1 =
      .ok (some (beCode samplePpcDummy)) ∧ unpackWords true (beCode samplePpcDummy) = .ok samplePpcDummy := by
  decide +kernel

example : PlainPpcCode samplePpcDummy := by constructor <;> decide

/-- a memory that ignores everything, to run the counterexamples -/
def nullMem : PpcMem 64 := ⟨Unit, fun _ _ _ => 0, fun _ _ _ _ => ()⟩

/-- C42 is false: `stdu r1,-32(r1); li r3,-38; blr; addi r1,r1,32` is discarded although it returns with the stack
pointer 32 too low (the return is before the instruction that restores it). -/
theorem C42_refuted_stack : ∃ (ws : List Nat) (code : Bytes),
    let i := imageOf 21 true false code
    ppcDummy i.2 i.1 = .ok (some code) ∧ unpackWords true code = .ok ws ∧
    ∀ st : Ppc nullMem, ∃ st', ppcExec id ws st = some st' ∧ st'.r 1 = st.r 1 - 32 := by
  refine ⟨[0xf821ffe1, 0x3860ffda, 0x4e800020, 0x38210020], beCode [0xf821ffe1, 0x3860ffda, 0x4e800020, 0x38210020],
    by decide +kernel, by decide +kernel, fun st => ?_⟩
  simp [ppcExec, ppcSimple, Ppc.set, ppcSI, signedOf]
  rw [BitVec.sub_eq_add_neg]
  congr 1

/-- C42 is false: `b .-16; li r3,-38; blr` is discarded although the code branches to somewhere else. -/
theorem C42_refuted_branch : ∃ (ws : List Nat) (code : Bytes),
    let i := imageOf 21 true false code
    ppcDummy i.2 i.1 = .ok (some code) ∧ unpackWords true code = .ok ws ∧ ws.head? = some 0x4bfffff0 ∧
    ∀ st : Ppc nullMem, ppcExec id ws st = none := by
  refine ⟨[0x4bfffff0, 0x3860ffda, 0x4e800020], beCode [0x4bfffff0, 0x3860ffda, 0x4e800020],
    by decide +kernel, by decide +kernel, rfl, fun st => ?_⟩
  simp [ppcExec]

end Verif
