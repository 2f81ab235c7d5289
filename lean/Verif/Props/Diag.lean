import Verif.Lemmas.Diag2
import Verif.Props.EndToEnd
/-! # Messages of the analysis (C99) -/
set_option autoImplicit false

namespace Verif
open Spec

/-- the messages are logged beside the extraction described by the other properties -/
theorem C99_same (sh : Symbol → Str) (a0 : Arch) (e : Elf) (v : Ver) (env : KEnv) :
    (extractL sh a0 e v env).2 = extractSyscalls a0 e v env := extractL_snd sh a0 e v env

/-- C99, the messages: each address that occurs more than once in the table, without being that of a ni_syscall, is told with
how often; each syscall assumed not to be implemented, each listed syscall with an unconfirmed location, without location or
without signature (where these can be known) is told exactly once, in order, and nothing else is. The text about a syscall
assumed not to be implemented is lost if its line is not known. -/
theorem C99_told (sh : Symbol → Str) (a0 : Arch) (e : Elf) (v : Ver) (env : KEnv) (entries : List (Nat × Nat)) (out : List Syscall)
    (hb : a0.bits32 = e.bits32) (he : tableEntries (a0.adjustAbi e) e env = .ok entries) (hne : entries ≠ []) (hni : ∃ s, IsNi e s)
    (h : extractSyscalls a0 e v env = .ok out) :
    let log := (extractL sh a0 e v env).1
    let chosen := fun va => dget va (symbolsByVaddr (a0.adjustAbi e) e (env.niOrder e.niSyscalls) (entries.map Prod.snd))
    (∃ vas : List Nat, vas.Nodup ∧
      (∀ va, va ∈ vas ↔ 1 < (entries.map Prod.snd).count va ∧ ∀ s, chosen va = some s → ¬ IsNi e s) ∧
      texts fmtRepeated log = vas.map fun va => some (cs!"Interesting! Vaddr found " ++ natRepr ((entries.map Prod.snd).count va) ++ cs!" times: " ++
        (match chosen va with
         | some s => sh s
         | none => cs!"0x" ++ Nat.toDigits 16 va ++ cs!" <unknown symbol!>"))) ∧
    (∃ cands located signed, candidateSyscalls (a0.adjustAbi e) e v (env.niOrder e.niSyscalls) entries = .ok cands ∧
      env.locate cands = .ok located ∧ extractSignatures env.files e env.kdir.isSome located = .ok signed ∧
      out = signed.filter (fun sc => !inSysNi env.kdir sc) ∧
      texts fmtNotImplemented log = (signed.filter (inSysNi env.kdir)).map fun sc => sc.line.map fun n =>
        cs!"Assuming " ++ sc.name ++ cs!" is not implemented as it points to " ++ (sc.file.map fun f => (shownPath env.kdir f).str).getD [] ++ cs!":" ++ natRepr n ++
          cs!" after adjustments") ∧
    texts fmtBadLocation log = (out.filter fun sc => unconfirmed sc && env.kdir.isSome).map (fun sc =>
      some (cs!"Potentially bad location for " ++ sc.name ++ cs!" (" ++ sc.symbol.name ++ cs!"): " ++
        (sc.file.map fun f => (shownPath env.kdir f).str).getD [] ++ cs!":" ++ lineText sc.line ++ (sc.file.map reason).getD [])) ∧
    texts fmtNoLocation log = (out.filter fun sc => sc.file.isNone && dmem cs!".debug_line" e.sections).map (fun sc =>
      some (cs!"Unable to find location for " ++ sc.name ++ cs!" (" ++ sc.symbol.name ++ cs!")")) ∧
    texts fmtNoSignature log = (out.filter fun sc => sc.signature.isNone &&
        (dmem cs!"__start_syscalls_metadata" e.symbols || dmem cs!".debug_line" e.sections)).map (fun sc =>
      some (cs!"Unable to extract signature for " ++ sc.name ++ cs!" (" ++ sc.symbol.name ++ cs!")")) := by
  intro log chosen
  have hni' : e.niSyscalls ≠ [] := by
    obtain ⟨s, hs⟩ := hni
    intro h0
    rw [IsNi, ← mem_niSyscalls, h0] at hs
    cases hs
  obtain ⟨cands, located, signed, hx⟩ := extraction_of_ok a0 e v env entries out hb he hne hni' h
  obtain ⟨pre, hpre, hcl⟩ := candidatesL_fst sh _ e v _ entries cands hx.cands_ok
  have hout : out = signed.filter (fun sc => !inSysNi env.kdir sc) := by
    have h1 := finalL_snd env.kdir e signed
    rw [finalL_eq, hx.out_ok] at h1
    exact (Except.ok.inj h1).symm
  have hlog : log = (tableEntriesL (a0.adjustAbi e) e env).1 ++ (repeatedCalls sh e.niSyscalls (symbolsByVaddr (a0.adjustAbi e) e (env.niOrder e.niSyscalls) (entries.map Prod.snd)) (entries.map Prod.snd) ++
      (unresolvedCalls (a0.adjustAbi e).tableName (symbolsByVaddr (a0.adjustAbi e) e (env.niOrder e.niSyscalls) (entries.map Prod.snd)) entries ++
      (pre ++ (assumeCalls env.kdir signed ++ (badCalls env.kdir out ++ (noLocCalls (canLocate e) out ++ noSigCalls (canSign e) out)))))) := by
    show (extractL sh a0 e v env).1 = _
    rw [extractL_fst sh a0 e v env entries out cands located signed hb he hne hni' hx, hcl, finalL_eq, ← hout]
    simp only [List.append_assoc]
  have t1 : ∀ f, f = fmtRepeated ∨ f = fmtNotImplemented ∨ f = fmtBadLocation ∨ f = fmtNoLocation ∨ f = fmtNoSignature →
      texts f (tableEntriesL (a0.adjustAbi e) e env).1 = [] := by
    intro f hf
    apply texts_none
    intro c hc
    rcases tableEntriesL_calls _ _ _ _ he c hc with hc | ⟨-, hc⟩
    · have := tableCall_fmt hc
      rcases hf with rfl | rfl | rfl | rfl | rfl <;> simp [this]
    · exact absurd hc hne
  have t2 : ∀ f, f = fmtRepeated ∨ f = fmtNotImplemented ∨ f = fmtBadLocation ∨ f = fmtNoLocation ∨ f = fmtNoSignature →
      texts f pre = [] := by
    intro f hf
    rcases hpre with rfl | rfl
    · rfl
    · rcases hf with rfl | rfl | rfl | rfl | rfl <;> decide
  have t3 : ∀ (t : Option Str) (by_ : Dict Nat Symbol) f, f = fmtRepeated ∨ f = fmtNotImplemented ∨ f = fmtBadLocation ∨ f = fmtNoLocation ∨ f = fmtNoSignature →
      texts f (unresolvedCalls t by_ entries) = [] := by
    intro t by_ f hf
    apply texts_none
    intro c hc
    simp only [unresolvedCalls, List.mem_map] at hc
    obtain ⟨p, -, rfl⟩ := hc
    intro h
    cases t <;> rcases hf with rfl | rfl | rfl | rfl | rfl <;>
      simp [unresolvedCall, fmtRepeated, fmtNotImplemented, fmtBadLocation, fmtNoLocation, fmtNoSignature] at h
  have other : ∀ (F : Str) {α : Type} (l : List α) (g : α → LogCall) (f : Str), (∀ x, (g x).fmt = F) → F ≠ f → texts f (l.map g) = [] := by
    intro F α l g f hg hF
    apply texts_none
    intro c hc
    obtain ⟨x, -, rfl⟩ := List.mem_map.1 hc
    rw [hg x]; exact hF
  have r1 : ∀ f, fmtRepeated ≠ f → texts f (repeatedCalls sh e.niSyscalls (symbolsByVaddr (a0.adjustAbi e) e (env.niOrder e.niSyscalls) (entries.map Prod.snd)) (entries.map Prod.snd)) = [] :=
    fun f hf => other fmtRepeated _ _ f (fun _ => rfl) hf
  have r2 : ∀ f, fmtNotImplemented ≠ f → texts f (assumeCalls env.kdir signed) = [] := fun f hf => other _ _ _ f (fun _ => rfl) hf
  have r3 : ∀ f, fmtBadLocation ≠ f → texts f (badCalls env.kdir out) = [] := fun f hf => other _ _ _ f (fun _ => rfl) hf
  have r4 : ∀ b f, fmtNoLocation ≠ f → texts f (noLocCalls b out) = [] := fun b f hf => other _ _ _ f (fun _ => rfl) hf
  have r5 : ∀ b f, fmtNoSignature ≠ f → texts f (noSigCalls b out) = [] := fun b f hf => other _ _ _ f (fun _ => rfl) hf
  have d : fmtRepeated ≠ fmtNotImplemented ∧ fmtRepeated ≠ fmtBadLocation ∧ fmtRepeated ≠ fmtNoLocation ∧ fmtRepeated ≠ fmtNoSignature ∧
      fmtNotImplemented ≠ fmtBadLocation ∧ fmtNotImplemented ≠ fmtNoLocation ∧ fmtNotImplemented ≠ fmtNoSignature ∧ fmtBadLocation ≠ fmtNoLocation ∧
      fmtBadLocation ≠ fmtNoSignature ∧ fmtNoLocation ≠ fmtNoSignature := by decide
  obtain ⟨d1, d2, d3, d4, d5, d6, d7, d8, d9, d10⟩ := d
  rw [hlog]
  simp only [texts_append]
  refine ⟨?_, ⟨cands, located, signed, hx.cands_ok, hx.located_ok, hx.signed_ok, hout, ?_⟩, ?_, ?_, ?_⟩
  · rw [t1 _ (by simp), t2 _ (by simp), t3 _ _ _ (by simp), r2 _ d1.symm, r3 _ d2.symm, r4 _ _ d3.symm, r5 _ _ d4.symm]
    simp only [List.nil_append, List.append_nil]
    refine ⟨((counts (entries.map Prod.snd)).filter fun c => !(chosen c.1).any e.niSyscalls.contains).map Prod.fst, ?_, ?_, ?_⟩
    · exact (List.filter_sublist.map Prod.fst).nodup (counts_nodup _)
    · intro va
      simp only [List.mem_map, List.mem_filter, mem_counts]
      constructor
      · rintro ⟨p, ⟨⟨h1, h2⟩, h3⟩, rfl⟩
        refine ⟨by omega, fun s hs hn => ?_⟩
        rw [hs] at h3
        rw [IsNi, ← mem_niSyscalls] at hn
        simp [hn] at h3
      · rintro ⟨h1, h2⟩
        refine ⟨(va, _), ⟨⟨rfl, h1⟩, ?_⟩, rfl⟩
        cases hc : chosen va with
        | none => rfl
        | some s =>
          have := h2 s hc
          rw [IsNi, ← mem_niSyscalls] at this
          simp [this]
    · unfold repeatedCalls
      rw [List.map_map]
      apply texts_map
      · intro _ _; rfl
      · intro c hc
        have hc := (mem_counts _ _).1 (List.mem_filter.1 hc).1
        rw [repeated_text, hc.1]
        simp only [symbolText, hexRepr, List.append_assoc, List.append_nil]
        rfl
  · rw [t1 _ (by simp), t2 _ (by simp), t3 _ _ _ (by simp), r1 _ d1, r3 _ d5.symm, r4 _ _ d6.symm, r5 _ _ d7.symm]
    simp only [List.nil_append, List.append_nil]
    apply texts_map
    · intro _ _; rfl
    · intro sc hsc
      obtain ⟨-, hf⟩ := List.mem_filter.1 hsc
      rw [assumeNi_text]
      cases hfile : sc.file with
      | none => simp [inSysNi, hfile] at hf
      | some f => simp only [Option.getD_some, Option.map_some, List.append_assoc]
  · rw [t1 _ (by simp), t2 _ (by simp), t3 _ _ _ (by simp), r1 _ d2, r2 _ d5, r4 _ _ d8.symm, r5 _ _ d9.symm]
    simp only [List.nil_append, List.append_nil]
    apply texts_map
    · intro _ _; rfl
    · intro sc hsc
      obtain ⟨-, hf⟩ := List.mem_filter.1 hsc
      rw [badLocation_text]
      cases hfile : sc.file with
      | none => simp [unconfirmed, hfile] at hf
      | some f => simp only [Option.getD_some, Option.map_some, List.append_assoc, List.append_nil, locationHint_eq]
  · rw [t1 _ (by simp), t2 _ (by simp), t3 _ _ _ (by simp), r1 _ d3, r2 _ d6, r3 _ d8, r5 _ _ d10.symm]
    simp only [List.nil_append, List.append_nil]
    apply texts_map
    · intro _ _; rfl
    · intro sc hsc
      rw [noLocation_text]
      simp only [List.append_assoc]
  · rw [t1 _ (by simp), t2 _ (by simp), t3 _ _ _ (by simp), r1 _ d4, r2 _ d7, r3 _ d9, r4 _ _ d10]
    simp only [List.nil_append, List.append_nil]
    apply texts_map
    · intro _ _; rfl
    · intro sc hsc
      rw [noSignature_text]
      simp only [List.append_assoc]

/-- C99: a fatal message means that there is no result. -/
theorem C99_fatal (sh : Symbol → Str) (a0 : Arch) (e : Elf) (v : Ver) (env : KEnv) (out : List Syscall)
    (h : extractSyscalls a0 e v env = .ok out) (hc : ∃ c ∈ (extractL sh a0 e v env).1, c.level = .critical) : out = [] := by
  obtain ⟨c, hc, hl⟩ := hc
  rcases extractL_calls sh a0 e v env out h c hc with ⟨ho, -⟩ | hc | ⟨_, _, rfl⟩ | ⟨t, _, _, rfl⟩ | rfl | ⟨_, _, _, rfl⟩ | ⟨_, _, _, rfl⟩ | ⟨_, rfl⟩ | ⟨_, rfl⟩
  · exact ho
  · cases hc <;> cases hl
  · cases hl
  · cases t <;> cases hl
  all_goals cases hl

/-- C99: an empty result comes with a fatal message, unless entries were found, but each of them is a ni_syscall, a dummy, not of
this ABI, or located in kernel/sys_ni.c. (What is missing: there is no message in that case.) -/
theorem C99_empty_partial (sh : Symbol → Str) (a0 : Arch) (e : Elf) (v : Ver) (env : KEnv) (hok : EnvOk env e)
    (h : extractSyscalls a0 e v env = .ok []) :
    (∃ c ∈ (extractL sh a0 e v env).1, c.level = .critical) ∨
    ∃ (entries : List (Nat × Nat)) (ref : Option Symbol) (code : Option Bytes) (located : List Syscall),
      let a := a0.adjustAbi e
      let chosen := fun va => dget va (symbolsByVaddr a e (env.niOrder e.niSyscalls) (entries.map Prod.snd))
      tableEntries a e env = .ok entries ∧ entries ≠ [] ∧ (∃ s, IsNi e s) ∧
      (∀ r, ref = some r → IsNi e r ∧ 0 < uses chosen entries r ∧ ∃ c, e.readSymbol r = .ok c ∧ code = some c) ∧
      (ref = none → code = none) ∧
      ∀ i sym num, Implemented a e chosen ref code entries i sym num →
        ∃ sc ∈ located, sc.index = some i ∧ sc.symbol = sym ∧ BadNi env.kdir sc := by
  by_cases hb : a0.bits32 = e.bits32
  · have h' := h
    unfold extractSyscalls at h
    rw [if_neg (by simpa using hb)] at h
    simp only at h
    cases he : tableEntries (a0.adjustAbi e) e env with
    | error x => rw [he] at h; cases h
    | ok entries =>
      by_cases h1 : entries.isEmpty = true
      · left
        refine ⟨noVaddrCall, ?_, rfl⟩
        unfold extractL
        rw [if_neg (by simpa using hb)]
        simp only
        rw [lm_bind_fst _ _ entries (by rw [tableEntriesL_snd]; exact he), if_pos h1, List.mem_append]
        exact .inr (by simp [bind, LM.bind, LM.log, LM.pure])
      · by_cases h2 : e.niSyscalls.isEmpty = true
        · left
          refine ⟨noNiCall, ?_, rfl⟩
          unfold extractL
          rw [if_neg (by simpa using hb)]
          simp only
          rw [lm_bind_fst _ _ entries (by rw [tableEntriesL_snd]; exact he), if_neg h1, if_pos h2, List.mem_append]
          exact .inr (by simp [bind, LM.bind, LM.log, LM.pure])
        · right
          have hni : ∃ s, IsNi e s := by
            obtain ⟨s, hs⟩ := List.exists_mem_of_ne_nil _ (by simpa using h2 : e.niSyscalls ≠ [])
            exact ⟨s, (mem_niSyscalls e s).1 hs⟩
          obtain ⟨ref, code, cands, located, hr0, hr1, hloc, hcand, himpl, hrep, -⟩ :=
            C35_reported_iff a0 e v env hok entries [] hb he (by simpa using h1) hni h'
          refine ⟨entries, ref, code, located, he, by simpa using h1, hni, fun r hr => ⟨(hr1 r hr).1, (hr1 r hr).2.1, (hr1 r hr).2.2.2⟩,
            fun hr => (hr0 hr).1, ?_⟩
          intro i sym num himp
          obtain ⟨sc, hsc, hi, hsym, -⟩ := himpl i sym num himp
          obtain ⟨sc', hsc', hrel⟩ := forall2_mem_left (hok.locate _ _ hloc) hsc
          obtain ⟨e1, -, -, -, e2, -⟩ := relocated_fields hrel
          refine ⟨sc', hsc', by rw [e1, hi], by rw [e2, hsym], ?_⟩
          apply Classical.byContradiction
          intro hn
          obtain ⟨x, hx, -⟩ := (hrep i sym num).2 ⟨himp, sc', hsc', by rw [e1, hi], hn⟩
          cases hx
  · left
    refine ⟨bitsCall a0.bits32, ?_, rfl⟩
    unfold extractL
    rw [if_pos (by simpa using hb)]
    simp [bind, LM.bind, LM.log, LM.pure]

/-- a kernel where the only syscall other than ni_syscall consists of the same code -/
def dummyElf : Elf :=
  { smallElf [0x100, 0x108] with
    data := smallText.take 8 ++ smallText.take 8 ++ smallText.drop 16 ++ encTable false 8 [0x100, 0x108, 0] }

/-- C99 is false of the code: an extraction that finds nothing may end without any error message. -/
theorem C99_empty_refuted : ∃ a0, newArch .riscv [6, 0] cs!"rv64" false = .ok a0 ∧
    extractSyscalls a0 dummyElf [6, 0] plainEnv = .ok [] ∧
    ∀ c ∈ (extractL Symbol.name a0 dummyElf [6, 0] plainEnv).1, c.level ≠ .critical ∧ c.level ≠ .error := by
  refine ⟨_, rfl, by decide +kernel, by decide +kernel⟩

/-- C99: the check that a ni_syscall is the most frequent function of the table never reports anything, and the text of a warning
about an address of the table outside the section of the code is never shown. -/
theorem C99_lost (sh : Symbol → Str) (a0 : Arch) (e : Elf) (v : Ver) (env : KEnv) (out : List Syscall)
    (h : extractSyscalls a0 e v env = .ok out) :
    texts fmtMostFrequent (extractL sh a0 e v env).1 = [] ∧ ∀ t ∈ texts fmtOutside (extractL sh a0 e v env).1, t = none := by
  constructor
  · apply texts_none
    intro c hc
    rcases extractL_calls sh a0 e v env out h c hc with ⟨-, rfl | rfl | rfl | hc⟩ | hc | ⟨_, _, rfl⟩ | ⟨t, _, _, rfl⟩ | rfl | ⟨_, _, _, rfl⟩ | ⟨_, _, _, rfl⟩ | ⟨_, rfl⟩ | ⟨_, rfl⟩
    · show (bitsCall a0.bits32).fmt ≠ _
      intro h; simp [bitsCall, fmtMostFrequent] at h
    · decide
    · decide
    · exact tableFatal_fmt hc (by decide) (by decide) (by decide) (by decide)
    · exact (tableCall_fmt hc).2.2.2.2.2
    · show fmtRepeated ≠ _; decide
    · cases t <;> (intro h; simp [unresolvedCall, fmtMostFrequent] at h)
    · decide
    · show fmtNotImplemented ≠ _; decide
    · show fmtBadLocation ≠ _; decide
    · show fmtNoLocation ≠ _; decide
    · show fmtNoSignature ≠ _; decide
  · intro t ht
    unfold texts at ht
    obtain ⟨c, hc, rfl⟩ := List.mem_map.1 ht
    obtain ⟨hc, hf⟩ := List.mem_filter.1 hc
    rcases extractL_calls sh a0 e v env out h c hc with ⟨-, rfl | rfl | rfl | hc⟩ | hc | ⟨_, _, rfl⟩ | ⟨t, _, _, rfl⟩ | rfl | ⟨_, _, _, rfl⟩ | ⟨_, _, _, rfl⟩ | ⟨_, rfl⟩ | ⟨_, rfl⟩
    all_goals replace hf := of_decide_eq_true hf
    · simp [bitsCall, fmtOutside] at hf
    · exact absurd hf (by decide)
    · exact absurd hf (by decide)
    · exact absurd hf (tableFatal_fmt hc (by decide) (by decide) (by decide) (by decide))
    · cases hc
      · exact outside_text _ _ _ _
      all_goals simp [badSizeCall, descriptorCall, noTableCall, fmtOutside] at hf
    · exact absurd (show fmtRepeated = fmtOutside from hf) (by decide)
    · cases t <;> simp [unresolvedCall, fmtOutside] at hf
    · exact absurd hf (by decide)
    · exact absurd (show fmtNotImplemented = fmtOutside from hf) (by decide)
    · exact absurd (show fmtBadLocation = fmtOutside from hf) (by decide)
    · exact absurd (show fmtNoLocation = fmtOutside from hf) (by decide)
    · exact absurd (show fmtNoSignature = fmtOutside from hf) (by decide)

/-- a kernel with a table of known size: a syscall used 15 times, ni_syscall used once, and a function outside of .text -/
def farElf : Elf :=
  let tbl := [0x100] ++ List.replicate 15 0x108 ++ [0x110, 0x200]
  let e := smallElf tbl
  { e with
    sections := dset cs!".init.text" ⟨cs!".init.text", 0x200, 8, 8⟩ e.sections
    symbols := dset cs!"sys_call_table" ⟨0x400, 0x400, 8 * tbl.length, cs!"OBJECT", cs!"sys_call_table"⟩
      (dset cs!"__riscv_sys_far" ⟨0x200, 0x200, 8, cs!"FUNC", cs!"__riscv_sys_far"⟩ e.symbols) }

/-- C99 is false of the code: there are table addresses outside .text, and the text of the warning about them is not shown;
a syscall is used more often than ni_syscall, and the error about that is not logged. -/
theorem C99_lost_refuted : ∃ a0 text, newArch .riscv [6, 0] cs!"rv64" false = .ok a0 ∧ dget cs!".text" farElf.sections = some text ∧
    tableEntries (a0.adjustAbi farElf) farElf plainEnv =
      .ok (enumerate ([0x100] ++ List.replicate 15 0x108 ++ [0x110, 0x200])) ∧ text.contains 0x200 = false ∧
    (extractSyscalls a0 farElf [6, 0] plainEnv).map List.length = .ok 17 ∧
    (extractL Symbol.name a0 farElf [6, 0] plainEnv).1.map LogCall.text =
      [none, some cs!"Interesting! Vaddr found 15 times: __riscv_sys_open", some cs!"No common syscall symbol prefixes found (weird!)"] := by
  refine ⟨_, _, rfl, rfl, by decide +kernel, by decide +kernel, by decide +kernel, by decide +kernel⟩

/-- C99: an image whose class or byte order is invalid is rejected with a message about it; the one about the class shows the byte
order instead. -/
theorem C99_header_partial (data : Bytes) (c d : UInt8) (hc : data[4]? = some c) (hd : data[5]? = some d) :
    (c ≠ 1 → c ≠ 2 → parseElfHeader data = .error (.exit 1) ∧
      (headerCalls data).map LogCall.text = [some (cs!"Invalid ELF e_ident[EI_CLASS] = " ++ natRepr d.toNat)]) ∧
    (c = 1 ∨ c = 2 → d ≠ 1 → d ≠ 2 → parseElfHeader data = .error (.exit 1) ∧
      (headerCalls data).map LogCall.text = [some (cs!"Invalid ELF e_ident[EI_DATA] = " ++ natRepr d.toNat)]) ∧
    (c = 1 ∨ c = 2 → d = 1 ∨ d = 2 → headerCalls data = []) := by
  have h6 : 6 ≤ data.length := by
    have := (List.getElem?_eq_some_iff.1 hd).1
    omega
  have h4 : (readAt data 0 6)[4]? = some c := by simp [readAt, List.getElem?_take, hc]
  have h5 : (readAt data 0 6)[5]? = some d := by simp [readAt, List.getElem?_take, hd]
  have hl : (readAt data 0 6).length = 6 := by simp [readAt]; omega
  refine ⟨?_, ?_, ?_⟩
  · intro h1 h2
    constructor
    · unfold parseElfHeader
      rw [if_pos hl]
      simp only [h4, h5]
      rw [if_neg h1, if_neg h2]
      rfl
    · unfold headerCalls
      simp only [h4, h5]
      rw [if_neg (by simp [h1, h2])]
      simp [LogCall.text, pyFormat]
  · intro h0 h1 h2
    constructor
    · unfold parseElfHeader
      rw [if_pos hl]
      simp only [h4, h5]
      rw [if_neg h1, if_neg h2]
      rcases h0 with rfl | rfl <;> rfl
    · unfold headerCalls
      simp only [h4, h5]
      rw [if_pos h0, if_neg (by simp [h1, h2])]
      simp [LogCall.text, pyFormat]
  · intro h0 h1
    unfold headerCalls
    simp only [h4, h5]
    rw [if_pos h0, if_pos h1]

/-- C99 is false of the code: the class is 0, the message says 1. -/
theorem C99_header_refuted : parseElfHeader [0x7f, 0x45, 0x4c, 0x46, 0, 1] = .error (.exit 1) ∧
    (headerCalls [0x7f, 0x45, 0x4c, 0x46, 0, 1]).map LogCall.text = [some cs!"Invalid ELF e_ident[EI_CLASS] = 1"] := by
  decide +kernel

example : ([0x7f, 0x45, 0x4c, 0x46, 1, 3] : Bytes)[4]? = some 1 ∧ ([0x7f, 0x45, 0x4c, 0x46, 1, 3] : Bytes)[5]? = some 3 := ⟨rfl, rfl⟩

/-- sources: `open` in kernel/sys_ni.c, everything else in an assembly file, nothing confirmed -/
def guessEnv : KEnv :=
  { plainEnv with
    locate := fun l => .ok (l.map fun sc =>
      { sc with file := some (if sc.number = 1 then ⟨true, [cs!"src", cs!"kernel", cs!"sys_ni.c"]⟩
                  else ⟨true, [cs!"src", cs!"arch", cs!"entry.S"]⟩),
                line := some (10 + sc.number) }),
    kdir := some ⟨true, [cs!"src"]⟩ }

/-- the hypotheses of `C99_told` hold, and there are messages about repeated addresses, unimplemented syscalls and locations -/
example : ∃ a0 entries, newArch .riscv [6, 0] cs!"rv64" false = .ok a0 ∧
    a0.bits32 = (smallElf [0x100, 0x108, 0x110, 0x110]).bits32 ∧
    tableEntries (a0.adjustAbi (smallElf [0x100, 0x108, 0x110, 0x110])) (smallElf [0x100, 0x108, 0x110, 0x110]) guessEnv = .ok entries ∧
    entries.map Prod.snd = [0x100, 0x108, 0x110, 0x110] ∧
    (extractSyscalls a0 (smallElf [0x100, 0x108, 0x110, 0x110]) [6, 0] guessEnv).map (fun l => l.map Syscall.number) = .ok [2, 3] ∧
    texts fmtRepeated (extractL Symbol.name a0 (smallElf [0x100, 0x108, 0x110, 0x110]) [6, 0] guessEnv).1 =
      [some cs!"Interesting! Vaddr found 2 times: __riscv_sys_read"] ∧
    texts fmtNotImplemented (extractL Symbol.name a0 (smallElf [0x100, 0x108, 0x110, 0x110]) [6, 0] guessEnv).1 =
      [some cs!"Assuming __riscv_sys_open is not implemented as it points to kernel/sys_ni.c:11 after adjustments"] ∧
    texts fmtBadLocation (extractL Symbol.name a0 (smallElf [0x100, 0x108, 0x110, 0x110]) [6, 0] guessEnv).1 =
      [some cs!"Potentially bad location for __riscv_sys_read (__riscv_sys_read): arch/entry.S:12 (implemented in asm?)",
       some cs!"Potentially bad location for __riscv_sys_read (__riscv_sys_read): arch/entry.S:13 (implemented in asm?)"] := by
  refine ⟨_, _, rfl, rfl, rfl, by decide +kernel, by decide +kernel, by decide +kernel, by decide +kernel, by decide +kernel⟩

/-- the hypotheses of `C99_fatal` hold of an image without the table of the ABI -/
example : ∃ a0, newArch .riscv [6, 0] cs!"rv32" false = .ok a0 ∧ extractSyscalls a0 (smallElf [0x100, 0x108]) [6, 0] plainEnv = .ok [] ∧
    (extractL Symbol.name a0 (smallElf [0x100, 0x108]) [6, 0] plainEnv).1.map LogCall.level = [.critical, .critical] :=
  ⟨_, rfl, by decide +kernel, by decide +kernel⟩

end Verif
