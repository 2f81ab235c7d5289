import Verif.Spec.Defined
import Verif.Props.Described
/-! # Properties of the names of defined syscalls (C124) -/
set_option autoImplicit false

namespace Verif
open Spec

theorem baseTranslate_plain (a : Arch) (n : Str) (h : SourceName a n) : baseTranslate n = n := by
  refine noprefix_none fun p hp => h.noWrapper p ?_
  simp only [List.mem_cons, List.not_mem_nil, or_false] at hp
  simp only [knownWrappers, List.mem_cons, List.mem_append, List.not_mem_nil, or_false]
  tauto

theorem not_wrapper_suffix {n : Str} (W : Str) (h : ¬ cs!"_wrapper" <:+ '_' :: n) (hW : W.getLast? = some '_') : ¬ cs!"_wrapper" <:+ W ++ n := by
  intro hs
  obtain ⟨W', rfl⟩ : ∃ W', W = W' ++ ['_'] := by
    rcases List.eq_nil_or_concat W with rfl | ⟨W', c, rfl⟩
    · simp at hW
    · simp at hW
      exact ⟨W', by simp [hW]⟩
  rw [List.append_assoc, List.singleton_append] at hs
  rcases List.suffix_or_suffix_of_suffix hs (List.suffix_append W' ('_' :: n)) with h1 | h1
  · exact h h1
  · -- the underscore is that of `_wrapper`, or inside it
    obtain ⟨t, ht⟩ := h1
    rcases t with _ | ⟨c, t⟩
    · rw [List.nil_append] at ht
      exact h ⟨[], by rw [← ht]; rfl⟩
    · have hm : '_' ∈ cs!"wrapper" := by
        have := congrArg List.tail ht
        simp only [List.cons_append, List.tail_cons] at this
        rw [← this]
        simp
      exact absurd hm (by decide)

theorem nosuffix_wrapper {n : Str} (h : ¬ cs!"_wrapper" <:+ n) : nosuffix n [cs!"_wrapper"] = n := by
  rw [nosuffix_skip _ _ _ h]; rfl

theorem translate_known (a : Arch) (W n : Str) (hW : W ∈ knownWrappers a.kind) (h : SourceName a n) : a.translateName (W ++ n) = n := by
  have hb := baseTranslate_plain a n h
  have hnw : a.kind = .arm → nosuffix n [cs!"_wrapper"] = n := by
    intro hk
    refine nosuffix_wrapper fun hs => h.noArm hk (hs.trans (List.suffix_cons _ _))
  have hbase : W ∈ [cs!"ptregs_sys_", cs!"ptregs_compat_sys_", cs!"__se_compat_sys_", cs!"__se_sys_", cs!"compat_sys_"] →
      baseTranslate (W ++ n) = n := by
    intro hm
    simp only [List.mem_cons, List.not_mem_nil, or_false] at hm
    rcases hm with rfl | rfl | rfl | rfl | rfl <;> simp [baseTranslate, noprefix, startsWith]
  have hdot : W ∈ [cs!"ptregs_sys_", cs!"ptregs_compat_sys_", cs!"__se_compat_sys_", cs!"__se_sys_", cs!"compat_sys_"] →
      noprefix (W ++ n) [cs!".sys_", cs!"."] = W ++ n := by
    intro hm
    simp only [List.mem_cons, List.not_mem_nil, or_false] at hm
    rcases hm with rfl | rfl | rfl | rfl | rfl <;> simp [noprefix, startsWith]
  unfold Arch.translateName
  unfold knownWrappers at hW
  have hx : a.kind = .x86 → noprefix n [cs!"stub32_", cs!"stub_"] = n := by
    intro hk
    refine noprefix_none fun p hp => h.noWrapper p ?_
    simp only [List.mem_cons, List.not_mem_nil, or_false] at hp
    simp only [knownWrappers, hk, List.mem_cons, List.mem_append, List.not_mem_nil, or_false]
    tauto
  rcases hk : a.kind <;> rw [hk] at hW <;> simp only
  · rw [hbase (by simpa using hW)]; exact hnw hk
  · rw [hbase (by simpa using hW)]
  · rw [hbase (by simpa using hW)]
  · rcases List.mem_append.1 hW with hW | hW
    · rw [hdot hW, hbase hW]
    · simp only [List.mem_cons, List.not_mem_nil, or_false] at hW
      rcases hW with rfl | rfl
      · rw [noprefix_hit]; exact hb
      · have : noprefix (cs!".compat_sys_" ++ n) [cs!".sys_", cs!"."] = cs!"compat_sys_" ++ n := by simp [noprefix, startsWith]
        rw [this]
        simp [baseTranslate, noprefix, startsWith]
  · rw [hbase (by simpa using hW)]
  · rcases List.mem_append.1 hW with hW | hW
    · rw [hbase hW]; exact hx hk
    · simp only [List.mem_cons, List.not_mem_nil, or_false] at hW
      rcases hW with rfl | rfl <;> simp [baseTranslate, noprefix, startsWith]

theorem translate_other (a : Arch) (W n : Str) (hW : W ∈ otherWrappers a.kind) (h : SourceName a n) : a.translateName (W ++ n) = W ++ n := by
  have hlast : W.getLast? = some '_' := by
    unfold otherWrappers at hW
    rcases hk : a.kind <;> rw [hk] at hW <;> simp only [List.mem_cons, List.mem_append, List.not_mem_nil, or_false] at hW <;>
      (rcases hW with (rfl | rfl | rfl) | hW; all_goals first | rfl | skip) <;>
      first | (exact hW.elim) | (rcases hW with rfl | rfl | rfl | rfl | rfl <;> rfl)
  have hnw : a.kind = .arm → nosuffix (W ++ n) [cs!"_wrapper"] = W ++ n :=
    fun hk => nosuffix_wrapper (not_wrapper_suffix W (h.noArm hk) hlast)
  have hbase : baseTranslate (W ++ n) = W ++ n ∧ noprefix (W ++ n) [cs!".sys_", cs!"."] = W ++ n ∧
      noprefix (W ++ n) [cs!"stub32_", cs!"stub_"] = W ++ n := by
    unfold otherWrappers at hW
    rcases hk : a.kind <;> rw [hk] at hW <;> simp only [List.mem_cons, List.mem_append, List.not_mem_nil, or_false] at hW <;>
      (rcases hW with (rfl | rfl | rfl) | hW; all_goals first | (refine ⟨?_, ?_, ?_⟩ <;> simp [baseTranslate, noprefix, startsWith]; done) | skip) <;>
      first | (exact hW.elim) | (rcases hW with rfl | rfl | rfl | rfl | rfl <;> refine ⟨?_, ?_, ?_⟩ <;> simp [baseTranslate, noprefix, startsWith])
  unfold Arch.translateName
  rcases hk : a.kind <;> simp only [hbase]
  exact hnw hk

theorem stripped_defined (a : Arch) (names : List Str) (W n orig : Str) (hr : Recognisable a.kind names W n) (h : SourceName a n)
    (hs : Stripped names (a.translateName (W ++ n)) orig) : orig = n ∧ a.normalizeName orig = n := by
  have ho : orig = n := by
    rcases hr with ⟨hW, hq⟩ | ⟨hW, hsh, hmax⟩
    · rw [translate_known a W n hW h] at hs
      rcases hs with ⟨-, hs⟩ | ⟨p, hp, e, -⟩
      · exact hs
      · exact absurd ⟨orig, e.symm⟩ (hq p hp)
    · rw [translate_other a W n hW h] at hs
      rcases hs with ⟨hs, -⟩ | ⟨p, hp, e, hm⟩
      · exact absurd (List.prefix_append _ _) (hs W hsh)
      · have hl : p.length = W.length := Nat.le_antisymm (hmax p hp ⟨orig, e.symm⟩) (hm W hsh (List.prefix_append _ _))
        exact ((List.append_inj e hl.symm).2).symm
  exact ⟨ho, by rw [ho]; exact C23_plain_unchanged a n h.noSource h.noTime⟩

/-! ## C124 -/

/-- C124, partial: a syscall of the table whose symbol is one made for `n` by the macros of the kernel is printed as `n`, if its prefix is
known or shared by twenty entries and no longer prefix is. Missing: other cases (`C124_name_refuted`). -/
theorem C124_name_partial (w : MWorld) (hw : Pythonic w) (help : Str) (args : Args) (s : MState)
    (h0 : (main w help args s).1 = .ok 0) (hb : ¬ BuildMode args) (hh : ¬ AsksForHelp args) :
    ∃ (p : Path) (e : Elf) (a0 : Arch) (ver : Ver) (hist : List Run) (entries : List (Nat × Nat)) (ref : Option Symbol)
      (code : Option Bytes) (cands located scs : List Syscall) (text : Str),
      Analysed w args p e a0 ver hist entries ref code cands located scs ∧
      outputSyscalls w.jinja w.css w.js ⟨ver, cs!"vmlinux", a0.adjustAbi e, scs⟩ args.format = .ok text ∧
      (main w help args s).2.out = some text ∧
      ∀ sc ∈ scs, sc.esoteric = false → ∀ W n, sc.symbol.name = W ++ n → SourceName (a0.adjustAbi e) n →
        Recognisable (a0.adjustAbi e).kind
          (implementedNames e (fun va => dget va (symbolsByVaddr (a0.adjustAbi e) e (w.niOrder e.niSyscalls) (entries.map Prod.snd))) entries) W n →
        sc.origname = n ∧ sc.name = n := by
  obtain ⟨p, e, a0, ver, hist, entries, ref, code, cands, located, scs, text, h1, h2, h3, h4⟩ := C106_run w hw help args s h0 hb hh
  refine ⟨p, e, a0, ver, hist, entries, ref, code, cands, located, scs, text, h1, h3, h4, ?_⟩
  intro sc hsc hes W n hn hsn hr
  obtain ⟨d1, d2⟩ := h2.names sc hsc hes
  rw [hn] at d1
  obtain ⟨g1, g2⟩ := stripped_defined _ _ W n _ hr hsn d1
  exact ⟨g1, d2.trans g2⟩

/-- the names of twenty syscalls that begin with `io_`, and of some others -/
def ioNames : List Str :=
  (List.range 20).map (fun i => cs!"sys_io_" ++ natRepr i) ++ [cs!"sys_read", cs!"sys_write", cs!"sys_io_setup"]

/-- C124 in full is false, for two reasons: if twenty syscalls begin with `io_`, `SYSCALL_DEFINE2(io_setup, …)` is listed as `setup`; and in
a small table with fewer than twenty entries `SYSCALL_DEFINE3(read, …)` is listed as `sys_read`. -/
theorem C124_name_refuted : ¬ ∀ (a : Arch) (v : Ver) (names : List Str) (n : Str) (ps : List Str) (i : Nat) (sym : Symbol),
    SourceName a n → sym.name ∈ names → sym.name = cs!"sys_" ++ n → commonPrefixes names 20 = .ok ps → (makeSyscall a v ps i sym).name = n := by
  intro h
  have := h sampleX64 [5, 10] ioNames cs!"io_setup" [cs!"sys_io_", cs!"sys_"] 0 ⟨0, 0, 0, cs!"FUNC", cs!"sys_io_setup"⟩
    ⟨by unfold NoSourcePrefix; decide, by unfold NoTimeSuffix; decide, by decide, by decide, by decide⟩ (by decide +kernel) rfl (by decide +kernel)
  revert this
  decide +kernel

theorem C124_small_table : commonPrefixes [cs!"sys_read", cs!"sys_write"] 20 = .ok [] ∧
    (makeSyscall sampleX64 [5, 10] [] 0 ⟨0, 0, 0, cs!"FUNC", cs!"sys_read"⟩).name = cs!"sys_read" := by
  decide +kernel

/-! ## The hypotheses can be met -/

example : SourceName sampleX64 cs!"open" ∧ SourceName sampleOabi cs!"clock_settime" ∧ SourceName samplePpc64 cs!"io_uring_setup" := by
  refine ⟨⟨?_, ?_, ?_, ?_, ?_⟩, ⟨?_, ?_, ?_, ?_, ?_⟩, ⟨?_, ?_, ?_, ?_, ?_⟩⟩
  all_goals first | (unfold NoSourcePrefix; decide) | (unfold NoTimeSuffix; decide) | decide

/-- a prefix shared by twenty, and one that is known, among others -/
example : Recognisable .x86 (List.replicate 20 cs!"__x64_sys_read") cs!"__x64_sys_" cs!"open" ∧
    Recognisable .x86 (List.replicate 20 cs!"__x64_sys_read") cs!"compat_sys_" cs!"open" := by
  constructor
  · refine .inr ⟨by decide, ⟨by decide, rfl, by decide +kernel⟩, ?_⟩
    rintro q ⟨-, hq, -⟩ hqp
    have hl := hqp.length_le
    have key : ∀ k ∈ List.range 15, (cs!"__x64_sys_open".take k).getLast? = some '_' → k ≤ 10 := by decide +kernel
    have h2 : q = cs!"__x64_sys_open".take q.length := List.prefix_iff_eq_take.1 hqp
    rw [h2] at hq
    exact key q.length (List.mem_range.2 (by simp at hl; omega)) hq
  · refine .inl ⟨by decide, ?_⟩
    rintro q ⟨-, hq, -⟩ hqp
    have hl := hqp.length_le
    have key : ∀ k ∈ List.range 5, (cs!"open".take k).getLast? ≠ some '_' := by decide +kernel
    have h2 : q = cs!"open".take q.length := List.prefix_iff_eq_take.1 hqp
    rw [h2] at hq
    exact key q.length (List.mem_range.2 (by simp at hl; omega)) hq

end Verif
