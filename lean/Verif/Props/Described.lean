import Verif.Lemmas.Described
/-! # Names, options, signatures and special syscalls in a whole run (C106) -/
set_option autoImplicit false

namespace Verif
open Spec

/-- C106 for an extraction. -/
theorem C106_extraction (a : Arch) (e : Elf) (v : Ver) (env : KEnv) (hok : EnvOk env e) (entries : List (Nat × Nat))
    (hk : (entries.map Prod.fst).Nodup) (lines : List Str) (hsy : e.symbols = (extractSymbols e.machine lines).1)
    (hp : a.kind = .powerpc → e.machine ≠ EM_ARM) (out cands located signed : List Syscall)
    (ps : List Str) (eso : List Esoteric) (esoScs : List Syscall) (ref : Option Symbol) (code : Option Bytes)
    (hx : Extraction a e v env entries out cands located signed)
    (hc : Candidates a e v (env.niOrder e.niSyscalls) entries cands ps eso esoScs ref code) :
    Described a e v env.files
      (implementedNames e (fun va => dget va (symbolsByVaddr a e (env.niOrder e.niSyscalls) (entries.map Prod.snd))) entries)
      ref code located out := by
  obtain ⟨hmem, -, -⟩ := candidates_facts _ _ _ _ _ hk _ _ _ _ _ _ hc
  have hflags := esoteric_flags e eso esoScs hc.esoScs_ok
  have hsig := signature_cases _ _ _ _ _ hx.signed_ok
  have hr := hok.locate _ _ hx.located_ok
  have hsub := (filterRes_sublist _ _ _ hx.out_ok).subset
  -- where a syscall of the table comes from
  have htab : ∀ sc ∈ out, sc.esoteric = false → ∃ i sym, sc.name = (makeSyscall a v ps i sym).name ∧
      sc.origname = (makeSyscall a v ps i sym).origname ∧ sc.kconfig = (makeSyscall a v ps i sym).kconfig ∧ sc.symbol = sym := by
    intro sc hsc hes
    obtain ⟨l, hl, hls, -⟩ := hsig sc (hsub hsc)
    obtain ⟨c, hcm, hcl⟩ := forall2_mem_right hr hl
    obtain ⟨-, -, r1, r2, r3, r5, r4, -⟩ := resigned_fields hls
    obtain ⟨-, -, l1, l2, l3, l5, l4, -⟩ := relocated_fields hcl
    rw [r4, l4] at hes
    obtain ⟨-, (⟨i, va, sym, -, -, -, -, h5⟩ | h6)⟩ := (hmem c).1 hcm
    · refine ⟨i, sym, ?_, ?_, ?_, ?_⟩
      · rw [r1, l1, h5]
      · rw [r2, l2, h5]
      · rw [r5, l5, h5]
      · rw [r3, l3, h5]; rfl
    · rw [(hflags c h6).1] at hes
      cases hes
  refine ⟨?_, ?_, ?_, ?_⟩
  · intro sc hsc hes
    obtain ⟨i, sym, h1, h2, -, h4⟩ := htab sc hsc hes
    rw [h1, h2, h4]
    exact ⟨stripped_of_prefixes _ _ (implementedNames_perm a e _ entries) ps hc.prefixes_ok _, rfl⟩
  · intro sc hsc hes
    obtain ⟨i, sym, h1, h2, h3, -⟩ := htab sc hsc hes
    rw [h1, h2, h3]
    exact makeSyscall_option a v ps i sym
  · intro sc hsc hes
    obtain ⟨l, hl, hls, -, hs⟩ := hsig sc (hsub hsc)
    obtain ⟨c, hcm, hcl⟩ := forall2_mem_right hr hl
    obtain ⟨r1, r2, r3, r4, r5, -, r7, -, r9, r10⟩ := resigned_fields hls
    obtain ⟨-, -, -, -, -, -, l4, l8⟩ := relocated_fields hcl
    have hles : l.esoteric = false := by rw [← r7]; exact hes
    have hnone : l.signature = none := by
      rw [l8]
      obtain ⟨-, (⟨i, va, sym, -, -, -, -, h5⟩ | h6)⟩ := (hmem c).1 hcm
      · rw [h5]; rfl
      · rw [l4, (hflags c h6).1] at hles
        cases hles
    obtain ⟨s1, s2⟩ := hs hles hnone
    refine ⟨l, hl, r1.symm, r2.symm, r5.symm, r3.symm, r4.symm, r9.symm, r10.symm, s1, ?_⟩
    intro hg
    rw [r3, r4]
    exact s2 hg
  · intro num name sig opt sym
    rw [← esoteric_special a e lines hsy hp eso hc.eso_ok]
    constructor
    · rintro ⟨sc, hsc, hes, rfl, rfl, ho, hsg, rfl, rfl⟩
      obtain ⟨l, hl, hls, hss, -⟩ := hsig sc (hsub hsc)
      obtain ⟨c, hcm, hcl⟩ := forall2_mem_right hr hl
      obtain ⟨-, r2, r3, r4, r5, r6, r7, -⟩ := resigned_fields hls
      obtain ⟨-, l2, l3, l4, l5, l6, l7, l8⟩ := relocated_fields hcl
      have hles : l.esoteric = true := by rw [← r7]; exact hes
      obtain ⟨hd, (⟨i, va, sym, -, -, -, -, h5⟩ | h6)⟩ := (hmem c).1 hcm
      · rw [l7, h5] at hles
        cases hles
      · obtain ⟨x, hx', sym', hsym, h7⟩ := (esotericSyscalls_mem e eso esoScs hc.esoScs_ok c).1 h6
        rw [hss hles, l8, h7] at hsg
        simp only [Option.some.injEq] at hsg
        refine ⟨⟨x, hx', ?_, ?_, hsg, ?_, ?_⟩, ?_⟩
        · rw [r2, l2, h7]; rfl
        · rw [r3, l3, h7]; rfl
        · rw [r6, l6, h7]; rfl
        · rw [r5, l5, h7]; exact hsym
        · rw [r5, l5]; exact hd
    · rintro ⟨⟨x, hx', rfl, rfl, rfl, rfl, hsym⟩, hd⟩
      let c : Syscall := { Syscall.new none x.number x.name x.name sym x.kconfig with signature := some x.signature, esoteric := true }
      have hc6 : c ∈ esoScs := (esotericSyscalls_mem e eso esoScs hc.esoScs_ok c).2 ⟨x, hx', sym, hsym, rfl⟩
      have hcm : c ∈ cands := (hmem c).2 ⟨hd, .inr hc6⟩
      obtain ⟨l, hl, hcl⟩ := forall2_mem_left hr hcm
      obtain ⟨l1, l2, l3, l4, l5, l6, l7, l8⟩ := relocated_fields hcl
      obtain ⟨metas, -, hf⟩ := C52_signature_priority _ _ _ _ _ hx.signed_ok
      obtain ⟨y, hy, src, -, hxy⟩ := forall2_mem_left hf hl
      have hles : l.esoteric = true := by rw [l7]
      have hsg : y.signature = some x.signature := by rw [hxy]; simp only [expectedSig, hles, if_true, l8, c]
      have hkeep : keepFinal env.kdir y = .ok true := by
        have : y.esoteric = true := by rw [hxy]; exact hles
        simp [keepFinal, this]
      refine ⟨y, (filterRes_mem _ _ _ hx.out_ok y).2 ⟨hy, hkeep⟩, ?_, ?_, ?_, ?_, hsg, ?_, ?_⟩
      · rw [hxy]; exact hles
      · rw [hxy]; exact l2
      · rw [hxy]; exact l3
      · rw [hxy]; exact l4
      · rw [hxy]; exact l6
      · rw [hxy]; exact l5

/-- C106: the syscalls printed by a successful analysis, in any format, have the names, options and signatures described, and
the special syscalls of the image are among them. -/
theorem C106_run (w : MWorld) (hw : Pythonic w) (help : Str) (args : Args) (s : MState)
    (h0 : (main w help args s).1 = .ok 0) (hb : ¬ BuildMode args) (hh : ¬ AsksForHelp args) :
    ∃ (p : Path) (e : Elf) (a0 : Arch) (ver : Ver) (hist : List Run) (entries : List (Nat × Nat)) (ref : Option Symbol)
      (code : Option Bytes) (cands located scs : List Syscall) (text : Str),
      Analysed w args p e a0 ver hist entries ref code cands located scs ∧
      Described (a0.adjustAbi e) e ver (locWorld w hist p).files
        (implementedNames e (fun va => dget va (symbolsByVaddr (a0.adjustAbi e) e (w.niOrder e.niSyscalls) (entries.map Prod.snd))) entries)
        ref code located scs ∧
      outputSyscalls w.jinja w.css w.js ⟨ver, cs!"vmlinux", a0.adjustAbi e, scs⟩ args.format = .ok text ∧
      (main w help args s).2.out = some text := by
  obtain ⟨p, e, a0, ver, hist, entries, ref, code, cands, located, scs, text, h1, h2, h3, found, signed, ps, eso, esoScs,
    henv, hX, hC, hone, hback⟩ := run_full w hw help args s h0 hb hh
  refine ⟨p, e, a0, ver, hist, entries, ref, code, cands, located, scs, text, h1, ?_, h2, h3⟩
  obtain ⟨hst, hload⟩ := h1.image.2
  obtain ⟨lines, hsy, -⟩ := loaded_symbols hload
  have hk := tableEntries_keys _ _ _ henv _ h1.table
  have hp : (a0.adjustAbi e).kind = .powerpc → e.machine ≠ EM_ARM := by
    intro hkind
    rw [(adjustAbi_fields a0 e).1] at hkind
    exact matches_ppc a0 e h1.kernel.accepted hkind
  obtain ⟨d1, d2, d3, d4⟩ := C106_extraction (a0.adjustAbi e) e ver _ henv entries hk lines hsy hp found cands located signed
    ps eso esoScs ref code hX hC
  refine ⟨?_, ?_, ?_, ?_⟩
  · intro y hy hes
    obtain ⟨x, hx, -, f, rfl⟩ := hone y hy
    exact d1 x hx hes
  · intro y hy hes
    obtain ⟨x, hx, -, f, rfl⟩ := hone y hy
    exact d2 x hx hes
  · intro y hy hes
    obtain ⟨x, hx, -, f, rfl⟩ := hone y hy
    exact d3 x hx hes
  · intro num name sig opt sym
    rw [← d4]
    constructor
    · rintro ⟨y, hy, h⟩
      obtain ⟨x, hx, -, f, rfl⟩ := hone y hy
      exact ⟨x, hx, h⟩
    · rintro ⟨x, hx, h⟩
      obtain ⟨f, hf⟩ := hback x hx
      exact ⟨_, hf, h⟩

/-- C106 with `-f json`: the document lists these syscalls, in this order, one object for each. -/
theorem C106_json_run (w : MWorld) (hw : Pythonic w) (help : Str) (args : Args) (s : MState) (hf : args.format = .json)
    (h0 : (main w help args s).1 = .ok 0) (hb : ¬ BuildMode args) (hh : ¬ AsksForHelp args) :
    ∃ (p : Path) (e : Elf) (a0 : Arch) (ver : Ver) (hist : List Run) (entries : List (Nat × Nat)) (ref : Option Symbol)
      (code : Option Bytes) (cands located scs : List Syscall) (text : Str) (doc : Json) (objs : List Json),
      Analysed w args p e a0 ver hist entries ref code cands located scs ∧
      Described (a0.adjustAbi e) e ver (locWorld w hist p).files
        (implementedNames e (fun va => dget va (symbolsByVaddr (a0.adjustAbi e) e (w.niOrder e.niSyscalls) (entries.map Prod.snd))) entries)
        ref code located scs ∧
      (main w help args s).2.out = some text ∧ IsJson text doc ∧ Member doc cs!"syscalls" (.arr objs) ∧ objs.length = scs.length ∧
      ∀ (i : Nat) (sc : Syscall), scs[i]? = some sc → ∃ j, objs[i]? = some j ∧ SyscallObject sc j := by
  obtain ⟨p, e, a0, ver, hist, entries, ref, code, cands, located, scs, text, hA, hD, f5, hout⟩ := C106_run w hw help args s h0 hb hh
  have htag : ∃ tag, versionTag ver = .ok tag := by
    rw [hf] at f5
    simp only [outputSyscalls, outputJson, jsonData, bind, Except.bind] at f5
    cases ht : versionTag ver with
    | ok t => exact ⟨t, rfl⟩
    | error x => rw [ht] at f5; simp at f5
  obtain ⟨tag, htag⟩ := htag
  obtain ⟨text', doc, kobj, objs, j1, j2, ⟨l, hl, hperm, -⟩, j4, j5, j6⟩ := C71_json ⟨ver, cs!"vmlinux", a0.adjustAbi e, scs⟩ tag htag
  have htext : text' = text := by
    rw [hf] at f5
    simp only [outputSyscalls] at f5
    rw [j1] at f5
    simpa using f5
  subst htext
  exact ⟨p, e, a0, ver, hist, entries, ref, code, cands, located, scs, text', doc, objs, hA, hD, hout, j2,
    ⟨l, hl, by rw [hperm.mem_iff]; simp⟩, j5, j6⟩

/-! The hypotheses hold of a run with sources; the signature comes from the file. -/

/-- the line with the definition, and what is to be reported for it -/
example : DefinitionAt false [cs!"SYSCALL_DEFINE1(__riscv_sys_open, int, fd)\n", cs!"{\n", cs!"\treturn 0;\n", cs!"}\n"] 1 [cs!"int fd"] := by
  refine .define cs!"SYSCALL_DEFINE" cs!"__riscv_sys_open" [.arg [cs!"int"] cs!"fd"] [cs!" int", cs!" fd"] (by decide) (by decide) (by simp)
    ?_ (by decide) ?_ ⟨[cs!"SYSCALL_DEFINE1(__riscv_sys_open, int, fd)\n"], _, rfl, ⟨by simp, by decide +kernel, ?_⟩, by decide +kernel⟩
  · intro it hit
    rw [List.mem_singleton.1 hit]
    refine ⟨by simp, ?_, noTriple_single _, ?_⟩ <;> (simp only [CleanWord]; decide)
  · refine .cons ?_ (.cons ?_ .nil)
    · exact .mk cs!" " cs!"int" [] _ (by decide) (.done [] (by simp))
    · exact .mk cs!" " cs!"fd" [] _ (by decide) (.done [] (by simp))
  · intro k h1 h2
    simp at h2; omega

example : Pythonic tinySources ∧
    (main tinySources [] { kdir := some cs!"/k", vmlinux := some cs!"vmlinux", format := .json } {}).1 = .ok 0 ∧
    ((main tinySources [] { kdir := some cs!"/k", vmlinux := some cs!"vmlinux", format := .json } {}).2.out.map
      (isInfix cs!"\"int fd\"")) = some true ∧
    ¬ BuildMode { kdir := some cs!"/k", vmlinux := some cs!"vmlinux", format := .json } ∧
    ¬ AsksForHelp { kdir := some cs!"/k", vmlinux := some cs!"vmlinux", format := .json } := by
  refine ⟨⟨?_, ?_⟩, by decide +kernel, by decide +kernel, by simp [BuildMode], by simp [AsksForHelp]⟩
  · intro l; exact .refl _
  · exact ⟨fun _ => .refl _, fun _ => .refl _⟩

/-- a name with an option: that of the architecture, that for all, none -/
example : OptionFor .x86 [5, 10] cs!"pkey_alloc" cs!"X86_INTEL_MEMORY_PROTECTION_KEYS" ∧ OptionFor .arm [5, 10] cs!"acct" cs!"BSD_PROCESS_ACCT" ∧
    OptionOf .arm [5, 10] cs!"read" cs!"read" none := by
  refine ⟨?_, ?_, ?_⟩
  · obtain ⟨x, hx, h⟩ := (shippedSyscallDeps_iff .x86 [5, 10] cs!"pkey_alloc" cs!"CONFIG_X86_INTEL_MEMORY_PROTECTION_KEYS").1 (by decide +kernel)
    rw [← List.append_cancel_left (as := cs!"CONFIG_") (bs := cs!"X86_INTEL_MEMORY_PROTECTION_KEYS") (cs := x) (by rw [← hx]; rfl)] at h
    exact h
  · obtain ⟨x, hx, h⟩ := (shippedSyscallDeps_iff .arm [5, 10] cs!"acct" cs!"CONFIG_BSD_PROCESS_ACCT").1 (by decide +kernel)
    rw [← List.append_cancel_left (as := cs!"CONFIG_") (bs := cs!"BSD_PROCESS_ACCT") (cs := x) (by rw [← hx]; rfl)] at h
    exact h
  · have := (shippedSyscallDeps_none .arm [5, 10] cs!"read").1 (by decide +kernel)
    exact fun x => ⟨this x, this x⟩

/-- a kernel with private syscalls -/
example : Special sampleOabi { sampleArmElf with
      symbols := [(cs!"arm_syscall", ⟨0x1000, 0x1000, 64, cs!"FUNC", cs!"arm_syscall"⟩)]
      functions := [(cs!"arm_syscall", ⟨0x1000, 0x1000, 64, cs!"FUNC", cs!"arm_syscall"⟩)] }
    (sampleOabi.numBase + 0xf0005) cs!"set_tls" [cs!"unsigned long val"] none ⟨0x1000, 0x1000, 64, cs!"FUNC", cs!"arm_syscall"⟩ := by
  refine ⟨⟨_, List.mem_singleton.2 rfl⟩, rfl, rfl, (5, cs!"set_tls", [cs!"unsigned long val"]), by decide, rfl, rfl, rfl, by decide⟩

/-- names left by a prefix that twenty share -/
example : Stripped (List.replicate 20 cs!"__x64_sys_read") cs!"__x64_sys_open" cs!"open" := by
  right
  refine ⟨cs!"__x64_sys_", ⟨by decide, rfl, by decide +kernel⟩, rfl, ?_⟩
  rintro q ⟨-, hq, -⟩ hqp
  have hl := hqp.length_le
  have key : ∀ k ∈ List.range 15, (cs!"__x64_sys_open".take k).getLast? = some '_' → k ≤ 10 := by decide +kernel
  have h2 : q = cs!"__x64_sys_open".take q.length := List.prefix_iff_eq_take.1 hqp
  rw [h2] at hq
  exact key q.length (List.mem_range.2 (by simp at hl; omega)) hq

/-- an image with metadata -/
example : HasMetadata metaElf [⟨cs!"dup", [([cs!"unsigned", cs!"int"], cs!"fildes")]⟩] := by
  refine ⟨_, _, [0x1004], rfl, rfl, rfl, ⟨0, by decide +kernel, by decide +kernel⟩, by decide, .cons metaElf_holds .nil, ?_, by decide⟩
  intro m hm
  rw [List.mem_singleton.1 hm]
  refine ⟨by decide, ?_⟩
  intro x hx
  rw [List.mem_singleton.1 hx]
  refine ⟨by simp, ?_, by decide, by decide, by decide⟩
  intro pre b c post h
  have := congrArg List.length h
  simp at this; omega

end Verif
