import Verif.Lemmas.Arch
import Verif.Spec.Machine
/-! # Lemmas for C41, C42 -/
set_option autoImplicit false

namespace Verif
open Spec

theorem leVal_lt (bs : Bytes) : leVal bs < 256 ^ bs.length := by
  induction bs with
  | nil => simp [leVal]
  | cons b bs ih =>
    have := b.toNat_lt
    simp only [leVal, List.length_cons, Nat.pow_succ]
    omega

theorem uintOf_lt (big : Bool) (bs : Bytes) : uintOf big bs < 256 ^ bs.length := by
  cases big
  · exact leVal_lt bs
  · have := leVal_lt bs.reverse
    rwa [List.length_reverse] at this

theorem x86_b8 {R : Type} (m : Bool) (pos : Nat) (i : UInt8) (t : Bytes) (s : X86 R) :
    x86Exec m pos (0xb8 :: i :: 0xff :: 0xff :: 0xff :: t) s =
      x86Exec m (pos + 5) t { s with rax := imm32 i 0xff 0xff 0xff } := by
  rw [x86Exec]

theorem x86_endbr {R : Type} (m : Bool) (pos : Nat) (x : UInt8) (hx : x = 0xfa ∨ x = 0xfb) (t : Bytes) (s : X86 R) :
    x86Exec m pos (0xf3 :: 0x0f :: 0x1e :: x :: t) s = x86Exec m (pos + 4) t s := by
  rcases hx with rfl | rfl <;> rw [x86Exec]

theorem x86_48 {R : Type} (m : Bool) (pos : Nat) (i : UInt8) (t : Bytes) (s : X86 R) :
    x86Exec m pos (0x48 :: 0xc7 :: 0xc0 :: i :: 0xff :: 0xff :: 0xff :: t) s =
      x86Exec m (pos + 7) t ⟨if m then (signedOf 32 (imm32 i 0xff 0xff 0xff) % 2 ^ 64).toNat
        else imm32 i 0xff 0xff 0xff, s.rest⟩ := by
  rw [x86Exec]; cases m
  · simp only [Bool.false_eq_true, if_false]
  · simp only [if_true]

theorem x86_ret {R : Type} (m : Bool) (pos : Nat) (t : Bytes) (s : X86 R) :
    x86Exec m pos (0xc3 :: t) s = .ret s := by rw [x86Exec]

theorem x86_jmp8 {R : Type} (m : Bool) (pos : Nat) (r : UInt8) (t : Bytes) (s : X86 R) :
    x86Exec m pos (0xeb :: r :: t) s = .jump (pos + 2 + signedOf 8 r.toNat) s := by rw [x86Exec]

theorem x86_jmp32 {R : Type} (m : Bool) (pos : Nat) (a b c d : UInt8) (t : Bytes) (s : X86 R) :
    x86Exec m pos (0xe9 :: a :: b :: c :: d :: t) s = .jump (pos + 5 + signedOf 32 (imm32 a b c d)) s := by rw [x86Exec]

/-- what the code after the `mov` has to be -/
def X86Tail (t : Bytes) : Prop :=
  (∃ u, t = 0xc3 :: u) ∨ (∃ r u, t = 0xeb :: r :: u) ∨ (∃ a b c d u, t = 0xe9 :: a :: b :: c :: d :: u)

theorem x86_tail {R : Type} (m : Bool) (pos : Nat) (t : Bytes) (ht : X86Tail t) (s : X86 R) :
    x86Exec m pos t s = .ret s ∨ ∃ k, x86Exec m pos t s = .jump k s := by
  rcases ht with ⟨u, rfl⟩ | ⟨r, u, rfl⟩ | ⟨a, b, c, d, u, rfl⟩
  · left; exact x86_ret _ _ _ _
  · right; exact ⟨_, x86_jmp8 _ _ _ _ _⟩
  · right; exact ⟨_, x86_jmp32 _ _ _ _ _ _ _ _⟩

/-- the code the check accepts, after an optional `endbr` -/
def X86Body (t : Bytes) : Prop :=
  ∃ i u, (i = 0xda ∨ i = 0xea) ∧ X86Tail u ∧
    (t = 0xb8 :: i :: 0xff :: 0xff :: 0xff :: u ∨ t = 0x48 :: 0xc7 :: 0xc0 :: i :: 0xff :: 0xff :: 0xff :: u)

theorem take_eq_cons {α : Type} {l : List α} {n : Nat} {p : List α} (h : l.take n = p) : l = p ++ l.drop n := by
  rw [← h, List.take_append_drop]

theorem tail_of_byte (pre t : Bytes) (n : Nat) (hn : pre.length = n) (x : UInt8) (b : UInt8) (sz : Nat)
    (hl : (pre ++ t).length = sz) (hb : byteAt (pre ++ t) n = .ok b) (hx : b = x)
    (hk : (x = 0xc3 ∧ sz = n + 1) ∨ (x = 0xeb ∧ sz = n + 2) ∨ (x = 0xe9 ∧ sz = n + 5)) : X86Tail t := by
  subst hx
  simp only [byteAt] at hb
  split at hb
  · next c hc =>
    simp only [Except.ok.injEq] at hb
    subst hb
    rw [List.getElem?_append_right (by omega), hn, Nat.sub_self] at hc
    rw [List.length_append, hn] at hl
    match t, hc with
    | x :: u, hc =>
      simp only [List.getElem?_cons_zero, Option.some.injEq] at hc
      subst hc
      rcases hk with ⟨rfl, hk⟩ | ⟨rfl, hk⟩ | ⟨rfl, hk⟩
      · exact Or.inl ⟨u, rfl⟩
      · match u with
        | [r] => exact Or.inr (Or.inl ⟨r, [], rfl⟩)
        | [] => simp at hl; omega
        | _ :: _ :: _ => simp at hl; omega
      · match u with
        | [a, b, c, d] => exact Or.inr (Or.inr ⟨a, b, c, d, [], rfl⟩)
        | [] => simp at hl; omega
        | [_] => simp at hl; omega
        | [_, _] => simp at hl; omega
        | [_, _, _] => simp at hl; omega
        | _ :: _ :: _ :: _ :: _ :: _ => simp at hl; omega
  · simp at hb

theorem imm_cases {l : Bytes} (h : decide (l = [0xda, 0xff, 0xff, 0xff] ∨ l = [0xea, 0xff, 0xff, 0xff]) = true) :
    ∃ i, (i = 0xda ∨ i = 0xea) ∧ l = [i, 0xff, 0xff, 0xff] := by
  rcases of_decide_eq_true h with h | h
  · exact ⟨_, Or.inl rfl, h⟩
  · exact ⟨_, Or.inr rfl, h⟩

/-- the test of x86.py:317-337 on the code after `endbr`, with its size -/
theorem body_of_hits (code : Bytes) (sz : Int) (hl : (code.length : Int) = sz) :
    ((decide (code.take 1 = [0xb8]) && decide ((code.drop 1).take 4 = [0xda, 0xff, 0xff, 0xff] ∨
        (code.drop 1).take 4 = [0xea, 0xff, 0xff, 0xff])) = true →
      ∀ n x b, (n = 6 ∧ x = 0xc3 ∨ n = 7 ∧ x = 0xeb ∨ n = 10 ∧ x = 0xe9) → sz = (n : Nat) → byteAt code 5 = .ok b →
        (b == x) = true → X86Body code) ∧
    ((decide (code.take 3 = [0x48, 0xc7, 0xc0]) && decide ((code.drop 3).take 4 = [0xda, 0xff, 0xff, 0xff] ∨
        (code.drop 3).take 4 = [0xea, 0xff, 0xff, 0xff])) = true →
      ∀ n x b, (n = 8 ∧ x = 0xc3 ∨ n = 9 ∧ x = 0xeb ∨ n = 12 ∧ x = 0xe9) → sz = (n : Nat) → byteAt code 7 = .ok b →
        (b == x) = true → X86Body code) := by
  constructor
  · intro h n x b hn hsz hb hx
    rw [Bool.and_eq_true] at h
    obtain ⟨i, hi, h2⟩ := imm_cases h.2
    have h1 := take_eq_cons (of_decide_eq_true h.1)
    have h3 := take_eq_cons h2
    rw [h3, List.drop_drop] at h1
    have h4 : code = [0xb8, i, 0xff, 0xff, 0xff] ++ code.drop 5 := by rw [h1]; simp
    refine ⟨i, code.drop 5, hi, ?_, Or.inl h4⟩
    refine tail_of_byte [0xb8, i, 0xff, 0xff, 0xff] _ 5 rfl x b n (by rw [← h4]; omega) (by rw [← h4]; exact hb)
      (eq_of_beq hx) ?_
    rcases hn with ⟨rfl, rfl⟩ | ⟨rfl, rfl⟩ | ⟨rfl, rfl⟩ <;> simp
  · intro h n x b hn hsz hb hx
    rw [Bool.and_eq_true] at h
    obtain ⟨i, hi, h2⟩ := imm_cases h.2
    have h1 := take_eq_cons (of_decide_eq_true h.1)
    have h3 := take_eq_cons h2
    rw [h3, List.drop_drop] at h1
    have h4 : code = [0x48, 0xc7, 0xc0, i, 0xff, 0xff, 0xff] ++ code.drop 7 := by rw [h1]; simp
    refine ⟨i, code.drop 7, hi, ?_, Or.inr h4⟩
    refine tail_of_byte [0x48, 0xc7, 0xc0, i, 0xff, 0xff, 0xff] _ 7 rfl x b n (by rw [← h4]; omega)
      (by rw [← h4]; exact hb) (eq_of_beq hx) ?_
    rcases hn with ⟨rfl, rfl⟩ | ⟨rfl, rfl⟩ | ⟨rfl, rfl⟩ <;> simp

theorem x86Dummy_body (sym : Symbol) (e : Elf) (code : Bytes) (h : x86Dummy sym e = .ok (some code))
    (hl : code.length = sym.size) :
    e.readSymbol sym = .ok code ∧
    (X86Body code ∨ ∃ x t, (x = 0xfa ∨ x = 0xfb) ∧ code = 0xf3 :: 0x0f :: 0x1e :: x :: t ∧ X86Body t) := by
  simp only [x86Dummy] at h
  split at h
  · simp at h
  simp only [bind, Except.bind] at h
  split at h
  · simp at h
  next orig horig =>
  have key : orig = code ∧ ∀ (c : Bytes) (sz : Int), (c.length : Int) = sz →
      (if (startsWith orig [0xf3, 0x0f, 0x1e, 0xfa] || startsWith orig [0xf3, 0x0f, 0x1e, 0xfb]) = true
        then orig.drop 4 else orig) = c →
      (if (startsWith orig [0xf3, 0x0f, 0x1e, 0xfa] || startsWith orig [0xf3, 0x0f, 0x1e, 0xfb]) = true
        then (sym.size : Int) - 4 else sym.size) = sz → X86Body c := by
    constructor
    · split at h
      · simp at h
      split at h
      · simpa using h
      · split at h
        · simp at h
        split at h
        · simpa using h
        · simp at h
    · intro c sz hlc hc hsz
      rw [hc, hsz] at h
      obtain ⟨b1, b2⟩ := body_of_hits c sz hlc
      split at h
      · simp at h
      next hit32 h32 =>
      split at h
      · next ht =>
        rw [ht] at h32
        split at h32
        · next hcond =>
          split at h32
          · split at h32
            · simp at h32
            · next b hb => exact b1 hcond 6 0xc3 b (by simp) (by assumption) hb (by simpa using h32)
          · split at h32
            · split at h32
              · simp at h32
              · next b hb => exact b1 hcond 7 0xeb b (by simp) (by assumption) hb (by simpa using h32)
            · split at h32
              · split at h32
                · simp at h32
                · next b hb => exact b1 hcond 10 0xe9 b (by simp) (by assumption) hb (by simpa using h32)
              · simp at h32
        · simp at h32
      · split at h
        · simp at h
        next hit64 h64 =>
        split at h
        · next ht =>
          rw [ht] at h64
          split at h64
          · next hcond =>
            split at h64
            · split at h64
              · simp at h64
              · next b hb => exact b2 hcond 8 0xc3 b (by simp) (by assumption) hb (by simpa using h64)
            · split at h64
              · split at h64
                · simp at h64
                · next b hb => exact b2 hcond 9 0xeb b (by simp) (by assumption) hb (by simpa using h64)
              · split at h64
                · split at h64
                  · simp at h64
                  · next b hb => exact b2 hcond 12 0xe9 b (by simp) (by assumption) hb (by simpa using h64)
                · simp at h64
          · simp at h64
        · simp at h
  obtain ⟨rfl, key⟩ := key
  refine ⟨horig, ?_⟩
  by_cases he : (startsWith orig [0xf3, 0x0f, 0x1e, 0xfa] || startsWith orig [0xf3, 0x0f, 0x1e, 0xfb]) = true
  · right
    have hx : ∃ x t, (x = 0xfa ∨ x = 0xfb) ∧ orig = 0xf3 :: 0x0f :: 0x1e :: x :: t := by
      rw [Bool.or_eq_true, startsWith_iff, startsWith_iff] at he
      rcases he with ⟨t, ht⟩ | ⟨t, ht⟩
      · exact ⟨_, t, Or.inl rfl, ht.symm⟩
      · exact ⟨_, t, Or.inr rfl, ht.symm⟩
    obtain ⟨x, t, hx, ht⟩ := hx
    refine ⟨x, t, hx, ht, key t ((sym.size : Int) - 4) ?_ ?_ ?_⟩
    · rw [← hl, ht]; simp; omega
    · rw [if_pos he, ht]; rfl
    · rw [if_pos he]
  · left
    exact key orig sym.size (by omega) (by rw [if_neg he]) (by rw [if_neg he])

/-! ## ARM -/

/-! ## MIPS -/

/-! ## PowerPC -/

theorem and_f8210001 (i : Nat) (hi : i < 2 ^ 32) : i &&& 0xffff0003 = 0xf8210001 ↔ i / 2 ^ 16 = 0xf821 ∧ i % 4 = 1 := by
  have h1 : (i &&& 0xffff0003) / 2 ^ 16 = i / 2 ^ 16 := by
    rw [Nat.and_div_two_pow]
    have : (0xffff0003 : Nat) / 2 ^ 16 = 2 ^ 16 - 1 := by decide
    rw [this, Nat.and_two_pow_sub_one_eq_mod]; omega
  have h2 : (i &&& 0xffff0003) % 2 ^ 16 = i % 4 := by
    rw [Nat.and_mod_two_pow]
    have : (0xffff0003 : Nat) % 2 ^ 16 = 2 ^ 2 - 1 := by decide
    rw [this, Nat.and_two_pow_sub_one_eq_mod]; omega
  constructor
  · intro h
    rw [h] at h1 h2
    omega
  · rintro ⟨h3, h4⟩
    have := Nat.div_add_mod (i &&& 0xffff0003) (2 ^ 16)
    rw [h1, h2, h3, h4] at this
    omega

theorem and_fffc (i : Nat) : i &&& 0xfffc = i % 2 ^ 16 / 4 * 4 := by
  have h1 : (i &&& 0xfffc) / 2 ^ 2 = i / 2 ^ 2 % 2 ^ 14 := by
    rw [Nat.and_div_two_pow]
    have : (0xfffc : Nat) / 2 ^ 2 = 2 ^ 14 - 1 := by decide
    rw [this, Nat.and_two_pow_sub_one_eq_mod]
  have h2 : (i &&& 0xfffc) % 2 ^ 2 = 0 := by
    rw [Nat.and_mod_two_pow]
    have : (0xfffc : Nat) % 2 ^ 2 = 0 := by decide
    rw [this, Nat.and_zero]
  omega

theorem and_ffff (i : Nat) : i &&& 0xffff = i % 2 ^ 16 := Nat.and_two_pow_sub_one_eq_mod i 16

theorem scan_insns (l : List Nat) (s s' : PpcScan) (h : ppcScan s (l ++ [0x4e800020]) = some s') :
    ∃ m, s'.insns = s.insns ++ m ++ [0x4e800020] := by
  induction l generalizing s with
  | nil =>
    simp only [List.nil_append, ppcScan, ppcScanStep] at h
    by_cases hl : s.insns.length > 2
    · simp [hl] at h
    · simp [hl] at h
      exact ⟨[], by rw [← h]; simp⟩
  | cons i l ih =>
    simp only [List.cons_append, ppcScan] at h
    split at h
    · simp at h
    · next t ht =>
      obtain ⟨m, hm⟩ := ih t h
      simp only [ppcScanStep] at ht
      repeat' split at ht
      all_goals simp only [Option.some.injEq, reduceCtorEq] at ht
      all_goals first
        | (subst ht; exact ⟨m, hm⟩)
        | (subst ht; exact ⟨i :: m, by rw [hm]; simp⟩)

theorem signed_cancel (d : Nat) (h1 : 1 ≤ d) (h2 : d ≤ 0xffff) (h3 : d ≠ 0x8000) :
    signedOf 16 (0x10000 - d) + signedOf 16 d = 0 := by
  unfold signedOf
  simp only [Nat.add_one_sub_one, show (16 - 1 : Nat) = 15 from rfl]
  split <;> split <;> omega

/-- effect of the recorded push and pop on the stack pointer -/
def frameShift (w : Nat) (s : PpcScan) : BitVec w :=
  (match s.dec with | some d => BitVec.ofInt w (signedOf 16 (0x10000 - d)) | none => 0) +
  (match s.inc with | some d => BitVec.ofInt w (signedOf 16 d) | none => 0)

structure ScanInv {w : Nat} {mem : PpcMem w} (r1 : BitVec w) (s : PpcScan) (st : Ppc mem) : Prop where
  sp : st.r 1 = r1 + frameShift w s
  dec : ∀ d, s.dec = some d → 1 ≤ d ∧ d ≠ 0x8000
  inc : ∀ d, s.inc = some d → d ≤ 0xffff
  order : s.inc.isSome = true → s.dec.isSome = true
  ret : s.insns = [] ∨ (s.insns = [0x3860ffda] ∧ st.r 3 = BitVec.ofInt w (-38))

theorem ScanInv.same {w : Nat} {mem : PpcMem w} {r1 : BitVec w} {s : PpcScan} {st st' : Ppc mem}
    (h : ScanInv r1 s st) (h1 : st'.r 1 = st.r 1) (h3 : st'.r 3 = st.r 3) : ScanInv r1 s st' :=
  ⟨by rw [h1, h.sp], h.dec, h.inc, h.order, by rw [h3]; exact h.ret⟩

theorem exec_scan {w : Nat} {mem : PpcMem w} (call : Ppc mem → Ppc mem)
    (hcall : ∀ s, (call s).r 1 = s.r 1 ∧ (call s).r 3 = s.r 3) (r1 : BitVec w) (l : List Nat) (s s' : PpcScan)
    (st : Ppc mem) (inv : ScanInv r1 s st)
    (hw : ∀ i ∈ l, i < 2 ^ 32)
    (hbl : ∀ i ∈ l, i / 2 ^ 24 = 0x4b → i % 4 = 1)
    (hds : ∀ i ∈ l, i / 2 ^ 16 = 0xf801 ∨ i / 2 ^ 16 = 0xe801 → i % 4 = 0)
    (hdu : ∀ i ∈ l, i / 2 ^ 16 = 0xf821 → i % 4 = 1)
    (hfr : ∀ i ∈ l, isPush i = true → i % 2 ^ 16 / 4 * 4 ≠ 0x8000)
    (hpush : l.countP isPush + s.dec.toList.length ≤ 1)
    (hpop : l.countP isPop + s.inc.toList.length ≤ 1)
    (hs : ppcScan s (l ++ [0x4e800020]) = some s') (hok : ppcScanOk s' = true) :
    ∃ st', ppcExec call (l ++ [0x4e800020]) st = some st' ∧ st'.r 1 = r1 ∧ st'.r 3 = BitVec.ofInt w (-38) := by
  have hfinal : s'.insns = [0x3860ffda, 0x4e800020] ∧ s'.dec = s'.inc := by
    simp only [ppcScanOk] at hok
    split at hok
    · simp at hok
    · next hne =>
      refine ⟨of_decide_eq_true hok, ?_⟩
      cases hd : s'.dec <;> cases hi : s'.inc <;> simp [hd, hi] at hne ⊢
      exact hne
  induction l generalizing s st with
  | nil =>
    refine ⟨st, by simp [ppcExec], ?_⟩
    simp only [List.nil_append, ppcScan, ppcScanStep] at hs
    by_cases hl : s.insns.length > 2
    · simp [hl] at hs
    · simp [hl] at hs
      subst hs
      obtain ⟨h1, h2⟩ := hfinal
      simp only at h1 h2
      rcases inv.ret with hr | ⟨hr, hr3⟩
      · rw [hr] at h1; simp at h1
      · refine ⟨?_, hr3⟩
        rw [inv.sp, frameShift]
        cases hd : s.dec with
        | none => rw [hd] at h2; rw [← h2]; simp
        | some d =>
          rw [hd] at h2
          rw [← h2]
          simp only
          rw [← BitVec.ofInt_add, signed_cancel d (inv.dec d hd).1 (inv.inc d h2.symm) (inv.dec d hd).2]
          simp
  | cons i l ih =>
    have hw' := fun j hj => hw j (List.mem_cons_of_mem _ hj)
    have hbl' := fun j hj => hbl j (List.mem_cons_of_mem _ hj)
    have hds' := fun j hj => hds j (List.mem_cons_of_mem _ hj)
    have hdu' := fun j hj => hdu j (List.mem_cons_of_mem _ hj)
    have hfr' := fun j hj => hfr j (List.mem_cons_of_mem _ hj)
    have hlt := hw i (by simp)
    rw [List.countP_cons] at hpush hpop
    have hpush' : l.countP isPush + s.dec.toList.length ≤ 1 := by omega
    have hpop' : l.countP isPop + s.inc.toList.length ≤ 1 := by omega
    simp only [List.cons_append, ppcScan] at hs
    split at hs
    · simp at hs
    next t ht =>
    -- what is left to do when the instruction is executed and gives `st1`
    have go : ∀ st1 : Ppc mem, ppcExec call (i :: (l ++ [0x4e800020])) st = ppcExec call (l ++ [0x4e800020]) st1 →
        ScanInv r1 t st1 → l.countP isPush + t.dec.toList.length ≤ 1 → l.countP isPop + t.inc.toList.length ≤ 1 →
        ∃ st', ppcExec call (i :: l ++ [0x4e800020]) st = some st' ∧ st'.r 1 = r1 ∧
          st'.r 3 = BitVec.ofInt w (-38) := by
      intro st1 he hinv hp1 hp2
      obtain ⟨st', h1, h2⟩ := ih t st1 hinv hw' hbl' hds' hdu' hfr' hp1 hp2 hs
      exact ⟨st', by rw [List.cons_append, he, h1], h2⟩
    have simple : ∀ st1 : Ppc mem, i ≠ 0x4e800020 → i / 2 ^ 26 ≠ 18 → ppcSimple i st = some st1 →
        ppcExec call (i :: (l ++ [0x4e800020])) st = ppcExec call (l ++ [0x4e800020]) st1 := by
      intro st1 h1 h2 h3
      rw [ppcExec, if_neg h1, if_neg h2, h3]
    simp only [ppcScanStep, and_fffc, and_ffff, and_f8210001 i hlt, Nat.shiftRight_eq_div_pow] at ht
    split at ht
    · next hc =>
      simp only [Option.some.injEq] at ht
      subst ht
      rcases hc with rfl | rfl | rfl
      · exact go (st.set 0 st.lr) (simple _ (by decide) (by decide) (by simp [ppcSimple]))
          (inv.same (by simp [Ppc.set]) (by simp [Ppc.set])) hpush' hpop'
      · exact go { st with lr := st.r 0 } (simple _ (by decide) (by decide) (by simp [ppcSimple]))
          (inv.same rfl rfl) hpush' hpop'
      · exact go st (simple _ (by decide) (by decide) (by simp [ppcSimple])) inv hpush' hpop'
    next hn1 =>
    split at ht
    · next hc =>
      simp only [Option.some.injEq] at ht
      subst ht
      have h24 : i / 2 ^ 24 = 0x4b := by omega
      have hm := hbl i (by simp) h24
      refine go (call st) ?_ (inv.same (hcall st).1 (hcall st).2) hpush' hpop'
      rw [ppcExec, if_neg (by omega), if_pos (by omega), if_pos hm]
    next hn2 =>
    split at ht
    · next hc =>
      simp only [Option.some.injEq] at ht
      subst ht
      rcases hc with hc | hc | hc | hc
      · have h1 : i / 2 ^ 26 = 36 := by omega
        have h2 : ppcSimple i st = some { st with
            m := mem.store st.m (st.base (i / 2 ^ 16 % 32) + ppcSI w i) 4 (st.r (i / 2 ^ 21 % 32)) } := by
          simp only [ppcSimple, h1]; rw [if_neg (by omega)]; simp
        exact go _ (simple _ (by omega) (by omega) h2) (inv.same rfl rfl) hpush' hpop'
      · have h1 : i / 2 ^ 26 = 62 := by omega
        have h0 := hds i (by simp) (Or.inl hc)
        have h2 : ppcSimple i st = some { st with
            m := mem.store st.m (st.base (i / 2 ^ 16 % 32) + ppcSI w (i - i % 4)) 8 (st.r (i / 2 ^ 21 % 32)) } := by
          simp only [ppcSimple, h1, h0]; rw [if_neg (by omega)]; simp
        exact go _ (simple _ (by omega) (by omega) h2) (inv.same rfl rfl) hpush' hpop'
      · have h1 : i / 2 ^ 26 = 58 := by omega
        have h2 := hds i (by simp) (Or.inr hc)
        have h3 : i / 2 ^ 21 % 32 = 0 := by omega
        exact go _ (simple _ (by omega) (by omega) (by
          simp only [ppcSimple, h1, h2]; rw [if_neg (by omega)]; simp; rfl))
          (inv.same (by simp [Ppc.set]; omega) (by simp [Ppc.set]; omega)) hpush' hpop'
      · have h1 : i / 2 ^ 26 = 32 := by omega
        have h3 : i / 2 ^ 21 % 32 = 0 := by omega
        exact go _ (simple _ (by omega) (by omega) (by
          simp only [ppcSimple, h1]; rw [if_neg (by omega)]; simp; rfl))
          (inv.same (by simp [Ppc.set]; omega) (by simp [Ppc.set]; omega)) hpush' hpop'
    next hn3 =>
    -- a push: none was recorded before
    have push : isPush i = true → s.dec = none ∧ s.inc = none ∧ l.countP isPush = 0 := by
      intro hp
      rw [hp] at hpush
      have hd : s.dec = none := by
        cases hd : s.dec with
        | none => rfl
        | some d => rw [hd] at hpush; simp at hpush
      refine ⟨hd, ?_, by simp at hpush; omega⟩
      cases hi : s.inc with
      | none => rfl
      | some d => have := inv.order (by rw [hi]; rfl); rw [hd] at this; simp at this
    split at ht
    · next hc =>
      simp only [Option.some.injEq] at ht
      subst ht
      have hp : isPush i = true := by simp [isPush, hc.1]
      obtain ⟨hd, hinc, hcount⟩ := push hp
      have hne := hfr i (by simp) hp
      have h1 : i / 2 ^ 26 = 62 := by omega
      have h3 : i / 2 ^ 21 % 32 = 1 := by omega
      have h4 : i / 2 ^ 16 % 32 = 1 := by omega
      have h2 : ppcSimple i st = some ⟨fun j => if j = 1 then st.r 1 + ppcSI w (i - i % 4) else st.r j, st.lr,
          mem.store st.m (st.r 1 + ppcSI w (i - i % 4)) 8 (st.r 1)⟩ := by
        simp only [ppcSimple, h1, hc.2, h3, h4]; rw [if_neg (by omega)]; simp
      refine go _ (simple _ (by omega) (by omega) h2) ⟨?_, ?_, inv.inc, ?_, ?_⟩ (by simp [hcount]) hpop'
      · have hsp := inv.sp
        simp only [frameShift, hd, hinc] at hsp ⊢
        simp only [if_true, hsp, ppcSI]
        have e1 : (i - i % 4) % 2 ^ 16 = 0x10000 - (0x10000 - i % 2 ^ 16 / 4 * 4) := by omega
        rw [e1]; simp
      · intro d hd'
        simp only [Option.some.injEq] at hd'
        omega
      · intro hi; rw [hinc] at hi; simp at hi
      · simpa using inv.ret
    next hn4 =>
    split at ht
    · next hc =>
      have hc : i / 2 ^ 16 = 0x9421 := by
        rcases hc with hc | hc
        · exact hc
        · exact absurd ⟨hc, hdu i (by simp) hc⟩ hn4
      simp only [Option.some.injEq] at ht
      subst ht
      have hp : isPush i = true := by simp [isPush, hc]
      obtain ⟨hd, hinc, hcount⟩ := push hp
      have hne := hfr i (by simp) hp
      have h1 : i / 2 ^ 26 = 37 := by omega
      have h3 : i / 2 ^ 21 % 32 = 1 := by omega
      have h4 : i / 2 ^ 16 % 32 = 1 := by omega
      have h2 : ppcSimple i st = some ⟨fun j => if j = 1 then st.r 1 + ppcSI w i else st.r j, st.lr,
          mem.store st.m (st.r 1 + ppcSI w i) 4 (st.r 1)⟩ := by
        simp only [ppcSimple, h1, h3, h4]; rw [if_neg (by omega)]; simp
      refine go _ (simple _ (by omega) (by omega) h2) ⟨?_, ?_, inv.inc, ?_, ?_⟩ (by simp [hcount]) hpop'
      · have hsp := inv.sp
        simp only [frameShift, hd, hinc] at hsp ⊢
        simp only [if_true, hsp, ppcSI]
        have e1 : i % 2 ^ 16 = 0x10000 - (0x10000 - i % 2 ^ 16) := by omega
        rw [← e1]; simp
      · intro d hd'
        simp only [Option.some.injEq] at hd'
        omega
      · intro hi; rw [hinc] at hi; simp at hi
      · simpa using inv.ret
    next hn5 =>
    split at ht
    · next hc =>
      simp only [Option.some.injEq] at ht
      subst ht
      have hp : isPop i = true := by simp [isPop, hc.1]
      rw [hp] at hpop
      have hinc : s.inc = none := by
        cases hi : s.inc with
        | none => rfl
        | some d => rw [hi] at hpop; simp at hpop
      have h1 : i / 2 ^ 26 = 14 := by omega
      have h3 : i / 2 ^ 21 % 32 = 1 := by omega
      have h4 : i / 2 ^ 16 % 32 = 1 := by omega
      have h2 : ppcSimple i st = some (st.set 1 (st.r 1 + ppcSI w i)) := by
        simp only [ppcSimple, h1, h3, h4]; rw [if_neg (by omega)]; simp [Ppc.base]
      refine go _ (simple _ (by omega) (by omega) h2) ⟨?_, inv.dec, ?_, fun _ => hc.2, ?_⟩ hpush'
        (by rw [hinc] at hpop; simp at hpop ⊢; exact hpop)
      · have hsp := inv.sp
        simp only [frameShift, hinc] at hsp ⊢
        simp only [Ppc.set, if_true, hsp, ppcSI]
        rw [show ∀ x : BitVec w, x + 0 = x from fun x => by simp, BitVec.add_assoc]
      · intro d hd'
        simp only [Option.some.injEq] at hd'
        omega
      · simpa [Ppc.set] using inv.ret
    next hn6 =>
    split at ht
    · simp at ht
    · simp only [Option.some.injEq] at ht
      subst ht
      obtain ⟨m, hm⟩ := scan_insns l _ s' hs
      rw [hfinal.1] at hm
      simp only at hm
      have hs0 : s.insns = [] := by
        cases hsi : s.insns with
        | nil => rfl
        | cons a b =>
          have := congrArg List.length hm
          rw [hsi] at this
          simp at this
          omega
      rw [hs0] at hm
      have hi : i = 0x3860ffda := by simp at hm; exact hm.1.symm
      subst hi
      refine go (st.set 3 (BitVec.ofInt w (-38))) (simple _ (by decide) (by decide) ?_) ⟨?_, inv.dec, inv.inc, inv.order, ?_⟩
        hpush' hpop'
      · simp [ppcSimple, Ppc.base, ppcSI, signedOf]
      · simpa [Ppc.set, frameShift] using inv.sp
      · right; simp [hs0, Ppc.set]

end Verif
