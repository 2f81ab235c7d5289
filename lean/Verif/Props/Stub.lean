import Verif.Spec.Stub
import Verif.Lemmas.Dummy
import Verif.Props.Dummy
import Verif.Props.Extract
/-! # C129: stubs are not listed -/
set_option autoImplicit false

namespace Verif
open Spec

/-! ## PowerPC -/

instance (i : Nat) : Decidable (Harmless i) := by unfold Harmless; infer_instance

/-- harmless instructions, and the two of the stub -/
def InStub (i : Nat) : Prop := Harmless i ∨ i = 0x3860ffda ∨ i = 0x4e800020

/-- the instructions that count -/
def kept (l : List Nat) : List Nat := l.filter fun i => !decide (Harmless i)

theorem kept_append (l m : List Nat) : kept (l ++ m) = kept l ++ kept m := List.filter_append ..

theorem kept_harmless {l : List Nat} (h : ∀ i ∈ l, Harmless i) : kept l = [] := by
  unfold kept
  rw [List.filter_eq_nil_iff]
  intro i hi
  simpa using h i hi

theorem step_harmless {s : PpcScan} {i : Nat} (h : Harmless i) : ppcScanStep s i = some s := by
  have e8 : i / 2 ^ 16 / 2 ^ 8 = i / 2 ^ 24 := by rw [Nat.div_div_eq_div_mul]
  simp only [ppcScanStep, Nat.shiftRight_eq_div_pow, e8]
  unfold Harmless at h
  split
  · rfl
  · split
    · rfl
    · split
      · rfl
      · exfalso; tauto

theorem step_kept {s : PpcScan} {i : Nat} (h : i = 0x3860ffda ∨ i = 0x4e800020) (hl : s.insns.length ≤ 2) :
    ppcScanStep s i = some { s with insns := s.insns ++ [i] } := by
  have hn : ¬ s.insns.length > 2 := by omega
  rcases h with rfl | rfl <;> simp [ppcScanStep, hn]

theorem scan_append (l m : List Nat) (s : PpcScan) : ppcScan s (l ++ m) = (ppcScan s l).bind fun s' => ppcScan s' m := by
  induction l generalizing s with
  | nil => rfl
  | cons i l ih =>
    simp only [List.cons_append, ppcScan]
    cases ppcScanStep s i with
    | none => rfl
    | some s' => exact ih s'

theorem scan_stub : ∀ (l : List Nat) (s : PpcScan), (∀ i ∈ l, InStub i) → s.insns.length + (kept l).length ≤ 3 →
    ppcScan s l = some { s with insns := s.insns ++ kept l }
  | [], s, _, _ => by simp [ppcScan, kept]
  | i :: l, s, h, hl => by
    have hi := h i (List.mem_cons_self ..)
    have h' : ∀ j ∈ l, InStub j := fun j hj => h j (List.mem_cons_of_mem _ hj)
    by_cases hh : Harmless i
    · have hk : kept (i :: l) = kept l := by simp [kept, hh]
      rw [hk] at hl ⊢
      simp only [ppcScan, step_harmless hh]
      exact scan_stub l s h' hl
    · have hk : kept (i :: l) = i :: kept l := by simp [kept, hh]
      rw [hk, List.length_cons] at hl
      rcases hi with hi | hi
      · exact absurd hi hh
      · simp only [ppcScan, step_kept (s := s) hi (by omega)]
        rw [scan_stub l _ h' (by simp only [List.length_append, List.length_singleton]; omega), hk]
        simp

theorem Spec.Returns.facts {ws : List Nat} (h : Returns ws) : (∀ i ∈ ws, InStub i) ∧ kept ws = [0x3860ffda, 0x4e800020] := by
  obtain ⟨l, m, n, hl, hm, hn⟩ := h
  constructor
  · intro i hi
    simp only [List.mem_append, List.mem_cons] at hi
    rcases hi with (hi | rfl | hi) | rfl | hi
    · exact .inl (hl i hi)
    · exact .inr (.inl rfl)
    · exact .inl (hm i hi)
    · exact .inr (.inr rfl)
    · exact .inl (hn i hi)
  · have e1 : kept (0x3860ffda :: m) = [0x3860ffda] := by
      have : kept (0x3860ffda :: m) = 0x3860ffda :: kept m := by
        unfold kept; rw [List.filter_cons]; simp [show ¬ Harmless 0x3860ffda by decide]
      rw [this, kept_harmless hm]
    have e2 : kept (0x4e800020 :: n) = [0x4e800020] := by
      have : kept (0x4e800020 :: n) = 0x4e800020 :: kept n := by
        unfold kept; rw [List.filter_cons]; simp [show ¬ Harmless 0x4e800020 by decide]
      rw [this, kept_harmless hn]
    rw [kept_append, kept_append, kept_harmless hl, e1, e2]
    rfl

theorem step_push {s : PpcScan} {n i : Nat} (h0 : 0 < n) (h1 : n < 2 ^ 15) (h : MakesFrame n i) :
    ppcScanStep s i = some { s with dec := some n } := by
  rcases h with rfl | ⟨h4, rfl⟩
  · have hi : 0x94210000 + (0x10000 - n) < 2 ^ 32 := by omega
    have hd : (0x94210000 + (0x10000 - n)) / 2 ^ 16 = 0x9421 := by omega
    simp only [ppcScanStep, Nat.shiftRight_eq_div_pow, hd, and_f8210001 _ hi, and_ffff, and_fffc]
    have hm : (0x94210000 + (0x10000 - n)) % 2 ^ 16 = 0x10000 - n := by omega
    rw [if_neg (by omega), if_neg (by omega), if_neg (by omega), if_neg (by omega), if_pos (.inl trivial), hm]
    have : 0x10000 - (0x10000 - n) = n := by omega
    rw [this]
  · have hi : 0xf8210000 + (0x10000 - n) + 1 < 2 ^ 32 := by omega
    have hd : (0xf8210000 + (0x10000 - n) + 1) / 2 ^ 16 = 0xf821 := by omega
    simp only [ppcScanStep, Nat.shiftRight_eq_div_pow, hd, and_f8210001 _ hi, and_ffff, and_fffc]
    have hm : (0xf8210000 + (0x10000 - n) + 1) % 2 ^ 16 / 4 * 4 = 0x10000 - n := by omega
    rw [if_neg (by omega), if_neg (by omega), if_neg (by omega), if_pos ⟨trivial, by omega⟩, hm]
    have : 0x10000 - (0x10000 - n) = n := by omega
    rw [this]

theorem step_pop {s : PpcScan} {n : Nat} (h1 : n < 2 ^ 15) (hs : s.dec = some n) :
    ppcScanStep s (0x38210000 + n) = some { s with inc := some n } := by
  have hi : 0x38210000 + n < 2 ^ 32 := by omega
  have hd : (0x38210000 + n) / 2 ^ 16 = 0x3821 := by omega
  simp only [ppcScanStep, Nat.shiftRight_eq_div_pow, hd, and_f8210001 _ hi, and_ffff, and_fffc, hs]
  have hm : (0x38210000 + n) % 2 ^ 16 = n := by omega
  rw [if_neg (by omega), if_neg (by omega), if_neg (by omega), if_neg (by omega), if_neg (by omega), if_pos ⟨trivial, rfl⟩, hm]

theorem Spec.PpcStub.scan {ws : List Nat} (h : PpcStub ws) : ∃ s, ppcScan {} ws = some s ∧ ppcScanOk s = true ∧ 2 ≤ ws.length := by
  have two : ∀ l : List Nat, (kept l).length = 2 → 2 ≤ l.length := fun l hl => by
    rw [← hl]; exact List.length_filter_le ..
  cases h with
  | plain ws hr =>
    obtain ⟨h1, h2⟩ := hr.facts
    refine ⟨_, scan_stub ws {} h1 (by rw [h2]; decide), ?_, two ws (by rw [h2]; rfl)⟩
    rw [h2]; rfl
  | framed l m r n push hr h0 h1 hp =>
    obtain ⟨g1, g2⟩ := hr.facts
    have hlen := two _ (by rw [g2]; rfl)
    have hk := congrArg List.length g2
    simp only [kept_append, List.length_append, List.length_cons, List.length_nil] at hk
    have gl : ∀ i ∈ l, InStub i := fun i hi => g1 i (by simp [hi])
    have gm : ∀ i ∈ m, InStub i := fun i hi => g1 i (by simp [hi])
    have gr : ∀ i ∈ r, InStub i := fun i hi => g1 i (by simp [hi])
    have e1 := scan_stub l {} gl (by simp only [List.length_nil]; omega)
    have e2 := scan_stub m { dec := some n, inc := none, insns := kept l } gm (by simp only; omega)
    have e3 := scan_stub r { dec := some n, inc := some n, insns := kept l ++ kept m } gr (by simp only [List.length_append]; omega)
    refine ⟨{ dec := some n, inc := some n, insns := kept l ++ kept m ++ kept r }, ?_, ?_, ?_⟩
    · rw [scan_append, scan_append, e1]
      simp only [Option.bind_some, ppcScan, step_push h0 h1 hp, List.nil_append, e2]
      rw [step_pop h1 rfl]
      exact e3
    · rw [kept_append, kept_append] at g2
      simp [ppcScanOk, g2]
    · simp only [List.length_append, List.length_cons] at hlen ⊢; omega

theorem ppc_stub {sym : Symbol} {e : Elf} {code : Bytes} (hc : e.readSymbol sym = .ok code) (hl : code.length = sym.size)
    (h : ∃ ws, unpackWords e.bigEndian code = .ok ws ∧ PpcStub ws) : ppcDummy sym e = .ok (some code) := by
  obtain ⟨ws, h1, h2⟩ := h
  obtain ⟨s, h3, h4, h5⟩ := h2.scan
  have := (unpackWords_get _ _ _ h1).1
  unfold ppcDummy
  rw [if_neg (by omega)]
  simp only [bind, Except.bind, hc, h1, h3, h4, if_true]

/-! ## The others -/

theorem arm_stub {sym : Symbol} {e : Elf} {code : Bytes} (hc : e.readSymbol sym = .ok code) (hl : code.length = sym.size)
    (h : code = [0x6f, 0xf0, 0x15, 0x00, 0x70, 0x47] ∨ code = [0x6f, 0xf0, 0x25, 0x00, 0x70, 0x47]) :
    armDummy sym e = .ok (some code) := by
  have h6 : sym.size = 6 := by rw [← hl]; rcases h with rfl | rfl <;> rfl
  simp [armDummy, h6, bind, Except.bind, hc, h]

/-- the bytes of a word -/
theorem word_bytes {big : Bool} {a b c d : UInt8} {w : Nat} (h : uintOf big [a, b, c, d] = w) :
    (if big then [a, b, c, d] else [d, c, b, a]) =
      [UInt8.ofNat (w / 2 ^ 24), UInt8.ofNat (w / 2 ^ 16), UInt8.ofNat (w / 2 ^ 8), UInt8.ofNat w] := by
  have ha := a.toNat_lt
  have hb := b.toNat_lt
  have hc := c.toNat_lt
  have hd := d.toNat_lt
  have of : ∀ (x : UInt8) (n : Nat), n % 256 = x.toNat → x = UInt8.ofNat n := fun x n hn => by
    apply UInt8.toNat_inj.1
    rw [UInt8.toNat_ofNat', hn]
  subst h
  cases big <;> simp only [uintOf, leVal, List.reverse_cons, List.reverse_nil, List.nil_append, List.cons_append, if_true,
    Bool.false_eq_true, if_false] <;>
    simp only [List.cons.injEq, and_true] <;> refine ⟨?_, ?_, ?_, ?_⟩ <;> apply of <;> omega

theorem mips_stub {sym : Symbol} {e : Elf} {code : Bytes} (hc : e.readSymbol sym = .ok code) (hl : code.length = sym.size)
    (h : unpackWords e.bigEndian code = .ok [0x03e00008, 0x2402ffea] ∨ unpackWords e.bigEndian code = .ok [0x03e00008, 0x2402ffa7]) :
    mipsDummy sym e = .ok (some code) := by
  obtain ⟨w, hw, h⟩ : ∃ w, (w = 0x2402ffea ∨ w = 0x2402ffa7) ∧ unpackWords e.bigEndian code = .ok [0x03e00008, w] := by
    rcases h with h | h
    · exact ⟨_, .inl rfl, h⟩
    · exact ⟨_, .inr rfl, h⟩
  have h8 : code.length = 8 := (unpackWords_get _ _ _ h).1
  obtain ⟨b0, b1, b2, b3, b4, b5, b6, b7, rfl⟩ : ∃ b0 b1 b2 b3 b4 b5 b6 b7, code = [b0, b1, b2, b3, b4, b5, b6, b7] := by
    match code, h8 with
    | [b0, b1, b2, b3, b4, b5, b6, b7], _ => exact ⟨_, _, _, _, _, _, _, _, rfl⟩
  simp only [unpackWords, bind, Except.bind, Except.ok.injEq, List.cons.injEq, and_true] at h
  have h1 := word_bytes h.1
  have h2 := word_bytes h.2
  unfold mipsDummy
  rw [← hl]
  simp only [List.length_cons, List.length_nil, ne_eq, not_true_eq_false, if_false, bind, Except.bind, hc]
  cases hb : e.bigEndian with
  | true =>
    rw [hb] at h1 h2
    rcases hw with rfl | rfl
    · simp at h1 h2
      obtain ⟨rfl, rfl, rfl, rfl⟩ := h1
      obtain ⟨rfl, rfl, rfl, rfl⟩ := h2
      rfl
    · simp at h1 h2
      obtain ⟨rfl, rfl, rfl, rfl⟩ := h1
      obtain ⟨rfl, rfl, rfl, rfl⟩ := h2
      rfl
  | false =>
    rw [hb] at h1 h2
    rcases hw with rfl | rfl
    · simp at h1 h2
      obtain ⟨rfl, rfl, rfl, rfl⟩ := h1
      obtain ⟨rfl, rfl, rfl, rfl⟩ := h2
      rfl
    · simp at h1 h2
      obtain ⟨rfl, rfl, rfl, rfl⟩ := h1
      obtain ⟨rfl, rfl, rfl, rfl⟩ := h2
      rfl

theorem x86_stub {sym : Symbol} {e : Elf} {code : Bytes} (hc : e.readSymbol sym = .ok code) (hl : code.length = sym.size)
    (h : ∃ a b c, code = a ++ b ++ c ∧ Endbr a ∧ MovError b ∧ Leave c) : x86Dummy sym e = .ok (some code) := by
  obtain ⟨a, b, c, rfl, ha, ⟨op, x, rfl, hop, hx⟩, hc'⟩ := h
  unfold x86Dummy
  rw [← hl]
  simp only [bind, Except.bind, hc]
  rcases ha with rfl | rfl | rfl <;> rcases hop with rfl | rfl <;> rcases hx with rfl | rfl <;>
    rcases hc' with rfl | ⟨d, rfl⟩ | ⟨d1, d2, d3, d4, rfl⟩ <;> rfl

/-! ## The claim -/

/-- **C129**, the check of the architecture: the code of a stub, wherever it is, is recognised. -/
theorem C129_recognised (a : Arch) (sym : Symbol) (e : Elf) (code : Bytes) (hc : e.readSymbol sym = .ok code)
    (hl : code.length = sym.size) (h : Stub a.kind e.bigEndian code) : a.dummyCode sym e = .ok (some code) := by
  unfold Arch.dummyCode
  unfold Stub at h
  cases hk : a.kind <;> simp only [hk] at h ⊢
  · exact arm_stub hc hl h
  · exact mips_stub hc hl h
  · exact ppc_stub hc hl h
  · exact x86_stub hc hl h

theorem stub_dummy {a : Arch} {sym : Symbol} {e : Elf} {code : Bytes} {ni : Option Symbol} {niCode : Option Bytes} {b : Bool}
    (hc : e.readSymbol sym = .ok code) (hl : code.length = sym.size) (h : Stub a.kind e.bigEndian code)
    (hb : a.isDummy sym e ni niCode = .ok b) : b = true := by
  have hd := C129_recognised a sym e code hc hl h
  unfold Arch.isDummy at hb
  split at hb
  · cases hb; rfl
  · simp only [bind, Except.bind, hd] at hb
    split at hb
    · cases hb
    · split at hb
      · split at hb
        · cases hb; rfl
        · cases hb
      · cases hb; rfl

/-- **C129**: whatever the image, no syscall of the table that is listed has the code of a stub. -/
theorem C129_unlisted (a0 : Arch) (e : Elf) (v : Ver) (env : KEnv) (hok : EnvOk env e) (out : List Syscall)
    (h : extractSyscalls a0 e v env = .ok out) (sc : Syscall) (hsc : sc ∈ out) (i : Nat) (hi : sc.index = some i) (code : Bytes)
    (hc : e.readSymbol sc.symbol = .ok code) (hl : code.length = sc.symbol.size) :
    ¬ Stub (a0.adjustAbi e).kind e.bigEndian code := by
  intro hs
  rcases extract_cases a0 e v env out h with rfl | ⟨entries, hb, he, hne, hni⟩
  · cases hsc
  · have hni' : ∃ s, IsNi e s := by
      obtain ⟨s, hs⟩ := List.exists_mem_of_ne_nil _ hni
      exact ⟨s, (mem_niSyscalls e s).1 hs⟩
    obtain ⟨ref, c, cands, located, -, -, -, -, -, h6, -⟩ := C35_reported_iff a0 e v env hok entries out hb he hne hni' h
    obtain ⟨⟨va, -, -, -, -, hd⟩, -⟩ := (h6 i sc.symbol sc.number).1 ⟨sc, hsc, hi, rfl, rfl⟩
    cases stub_dummy hc hl hs hd

/-! ## Cases that meet the hypotheses -/

/-- the two instructions alone, -/
example : Stub .powerpc true (beCode [0x3860ffda, 0x4e800020]) :=
  ⟨[0x3860ffda, 0x4e800020], by decide +kernel, .plain _ (Returns.mk [] [] [] (by simp) (by simp) (by simp))⟩

example : ppcDummy (imageOf 21 true false (beCode [0x3860ffda, 0x4e800020])).2
    (imageOf 21 true false (beCode [0x3860ffda, 0x4e800020])).1 = .ok (some (beCode [0x3860ffda, 0x4e800020])) :=
  ppc_stub (by decide +kernel) rfl
    ⟨[0x3860ffda, 0x4e800020], by decide +kernel, .plain _ (Returns.mk [] [] [] (by simp) (by simp) (by simp))⟩

/-- and with everything that compilers may add -/
example : Stub .powerpc true (beCode samplePpcDummy) :=
  ⟨samplePpcDummy, by decide +kernel,
    .framed [0x7c0802a6, 0xf8010010, 0x4bfffff1] [0x3860ffda, 0x60000000] [0xe8010010, 0x7c0803a6, 0x4e800020] 32 0xf821ffe1
      (Returns.mk [0x7c0802a6, 0xf8010010, 0x4bfffff1] [0x60000000, 0xe8010010, 0x7c0803a6] []
        (by decide) (by decide) (by simp)) (by decide) (by decide) (.inr ⟨rfl, rfl⟩)⟩

/-- `endbr64; mov rax, -38; jmp __x86_return_thunk` -/
example : Stub .x86 false [0xf3, 0x0f, 0x1e, 0xfa, 0x48, 0xc7, 0xc0, 0xda, 0xff, 0xff, 0xff, 0xe9, 0x74, 0x8d, 0x90, 0x00] :=
  ⟨_, _, _, rfl, .inr (.inl rfl), ⟨_, _, rfl, .inr rfl, .inl rfl⟩, .inr (.inr ⟨_, _, _, _, rfl⟩)⟩

example : Stub .mips false [0x08, 0x00, 0xe0, 0x03, 0xa7, 0xff, 0x02, 0x24] := .inr (by decide +kernel)

example : ¬ Stub .arm false [0x6f, 0xf0, 0x15, 0x00, 0x70, 0x48] := by unfold Stub; decide

/-- a 32-bit PowerPC kernel where `open` is a stub and `read` is not -/
def stubElf : Elf :=
  let f := fun (va sz : Nat) (n : Str) => (⟨va, va, sz, cs!"FUNC", n⟩ : Symbol)
  let funcs := [f 0x100 8 cs!"sys_ni_syscall", f 0x108 8 cs!"sys_open", f 0x110 8 cs!"sys_read"]
  let objs := [(⟨0x400, 0x400, 0, cs!"OBJECT", cs!"sys_call_table"⟩ : Symbol), ⟨0x410, 0x410, 0, cs!"OBJECT", cs!"end"⟩]
  { bits32 := true, bigEndian := true, machine := 20, eflags := 0,
    data := beCode [0x60000000, 0x48000010, 0x3860ffda, 0x4e800020, 0x3860fffe, 0x4e800020, 0x100, 0x108, 0x100, 0x110, 0],
    sections := [(cs!".text", ⟨cs!".text", 0x100, 0, 0x80⟩), (cs!".rodata", ⟨cs!".rodata", 0x400, 24, 0x100⟩)],
    symbols := (funcs ++ objs).map fun s => (s.name, s), functions := funcs.map fun s => (s.name, s) }

/-- only `read` is listed, and the code of its symbol is read -/
example : ∃ a0, newArch .powerpc [6, 0] cs!"ppc32" true = .ok a0 ∧ EnvOk plainEnv stubElf ∧
    (extractSyscalls a0 stubElf [6, 0] plainEnv).map (fun l => l.map fun sc => (sc.index, sc.symbol.name, stubElf.readSymbol sc.symbol)) =
      .ok [(some 3, cs!"sys_read", .ok (beCode [0x3860fffe, 0x4e800020]))] := by
  refine ⟨_, rfl, plainEnv_ok _, ?_⟩
  decide +kernel

end Verif
