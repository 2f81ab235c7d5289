import Verif.Lemmas.Whole
import Verif.Spec.Whole
import Verif.Props.Record
import Verif.Props.LocDiag
import Verif.Props.EmuDiag
import Verif.Props.Location
import Verif.Props.Source
/-! # The complete record of a whole extraction (C118) -/
set_option autoImplicit false

namespace Verif
open Spec

/-- The model with all messages computes what the model without them computes. -/
theorem C118_same (text : Insn → Str) (sh : Symbol → Str) (w : Surroundings) (a0 : Arch) (e : Elf) (v : Ver) :
    (wholeL text sh w a0 e v).2 = extractSyscalls a0 e v (w.kenv (a0.adjustAbi e)) := wholeL_snd text sh w a0 e v

/-- and that is what a run of the program does -/
theorem C118_run (w : MWorld) (hist : List Run) (a : Arch) (e : Elf) (vmlinux : Path) (kdir rdir : Option Path) :
    kenvOf w hist a e vmlinux kdir rdir = Surroundings.kenv
      ⟨w.niOrder, w.x86, { w.locEnv hist with haveAddr2line := w.available hist cs!"addr2line", elfPath := vmlinux }, kdir, rdir⟩
      (a.adjustAbi e) := rfl

theorem candidates_unlocated (a : Arch) (e : Elf) (v : Ver) (niOrder : List Symbol) (entries : List (Nat × Nat)) (cands : List Syscall)
    (h : candidateSyscalls a e v niOrder entries = .ok cands) :
    ∀ sc ∈ cands, Unlocated sc ∧ (sc.esoteric = true → sc.signature ≠ none) := by
  obtain ⟨ps, eso, esoScs, ref, code, hc⟩ := candidates_of_ok _ _ _ _ _ _ h
  intro sc hsc
  have hm := (filterRes_sublist _ _ _ hc.filtered).subset hsc
  rcases List.mem_append.1 hm with hm | hm
  · obtain ⟨i, s, -, rfl, -⟩ := (buildSyscalls_mem a v ps _ sc).1 hm
    exact ⟨⟨rfl, rfl, rfl, rfl⟩, fun h => by simp [makeSyscall, Syscall.new] at h⟩
  · refine ⟨esoteric_unlocated e eso esoScs hc.esoScs_ok sc hm, fun _ => ?_⟩
    obtain ⟨x, -, hx⟩ := forall2_mem_right (mapRes_get _ _ _ hc.esoScs_ok) hm
    split at hx
    · cases hx
    · cases hx; simp

/-- C118: a location confirmed by the sources always gives a signature, if the extraction ends. -/
theorem C118_signed (w : Surroundings) (a0 : Arch) (e : Elf) (v : Ver) (out : List Syscall)
    (h : extractSyscalls a0 e v (w.kenv (a0.adjustAbi e)) = .ok out) : ∀ sc ∈ out, sc.goodLocation = true → sc.signature ≠ none := by
  intro sc hsc hg
  rcases extract_cases a0 e v _ out h with rfl | ⟨entries, hb, he, hne, hni⟩
  · cases hsc
  obtain ⟨cands, located, signed, hx⟩ := extraction_of_ok a0 e v _ entries out hb he hne hni h
  have hu := candidates_unlocated _ _ _ _ _ _ hx.cands_ok
  have hl := C53_good_locations w.loc (a0.adjustAbi e) w.kdir w.rdir cands located (fun c hc => ⟨(hu c hc).1.2.2.1, (hu c hc).1.2.2.2⟩) hx.located_ok
  have hsc := (filterRes_sublist _ _ _ hx.out_ok).subset hsc
  obtain ⟨metas, -, hf⟩ := C52_signature_priority _ _ _ _ _ hx.signed_ok
  obtain ⟨l, hlm, src, hsrc, rfl⟩ := forall2_mem_right hf hsc
  unfold expectedSig
  have hg : l.goodLocation = true := hg
  by_cases he : l.esoteric = true
  · have hr := (extractLocations_ok w.loc (a0.adjustAbi e) w.kdir w.rdir cands located hx.located_ok).1
    obtain ⟨c, hc, ht⟩ := forall2_mem_right hr hlm
    have hfld := relocated_fields ht.rel
    rw [if_pos he]
    have h1 := (hu c hc).2
    rw [← hfld.2.2.2.2.2.2.1, ← hfld.2.2.2.2.2.2.2] at h1
    exact h1 he
  · obtain ⟨f, n, lines, text, h1, h2, h3, h4, h5⟩ := hl.1 l hlm hg
    obtain ⟨f', n', lines', g1, g2, g3, g4⟩ := hsrc (by simpa using he) hg
    rw [h1] at g1; cases g1
    rw [h2] at g2; cases g2
    have g3 : w.loc.files f = some lines' := g3
    rw [h3] at g3; cases g3
    simp only [if_neg he, if_pos hg]
    rintro rfl
    rcases h5 with h5 | h5
    · exact signatureFromSource_known _ _ _ _ _ _ h4 h5 g4
    · exact signatureFromSource_known _ _ _ _ _ _ h4 h5 g4

/-- C118: nothing is ever told while signatures are extracted, whether that succeeds or not. -/
theorem C118_no_strange (w : Surroundings) (a : Arch) (e : Elf) (v : Ver) (entries : List (Nat × Nat)) (cands located : List Syscall)
    (hc : candidateSyscalls a e v (w.niOrder e.niSyscalls) entries = .ok cands)
    (hl : extractLocations w.loc a w.kdir w.rdir cands = .ok located) :
    (extractSignaturesL w.loc.files e w.kdir.isSome located).1 = [] := by
  have hu := candidates_unlocated _ _ _ _ _ _ hc
  have hgood := (C53_good_locations w.loc a w.kdir w.rdir cands located (fun c hc => ⟨(hu c hc).1.2.2.1, (hu c hc).1.2.2.2⟩) hl).1
  refine extractSignaturesL_quiet _ _ _ _ fun sc hsc metas => signSyscallL_quiet _ _ _ _ _ fun hg f l lines h1 h2 h3 => ?_
  obtain ⟨f', l', lines', text, g1, g2, g3, g4, g5⟩ := hgood sc hsc hg
  rw [h1] at g1; cases g1
  rw [h2] at g2; cases g2
  rw [h3] at g3; cases g3
  rcases g5 with g5 | g5
  · exact signatureFromSource_known _ _ _ _ _ _ g4 g5
  · exact signatureFromSource_known _ _ _ _ _ _ g4 g5

theorem candidates_said (sh : Symbol → Str) (a : Arch) (e : Elf) (v : Ver) (niOrder : List Symbol) (entries : List (Nat × Nat))
    (cands : List Syscall) (h : candidateSyscalls a e v niOrder entries = .ok cands) :
    let chosen := fun va => dget va (symbolsByVaddr a e niOrder (entries.map Prod.snd))
    ∃ counts prefixes, IsRepeated e chosen (entries.map Prod.snd) counts ∧
      SaidPrefixes (implementedNames e chosen entries) prefixes ∧
      said (candidatesL sh a e v niOrder entries).1 = (counts.map fun c => saidRepeated sh chosen c.1 c.2) ++ prefixes := by
  intro chosen
  obtain ⟨pre, hpre, hcl⟩ := candidatesL_prefixes sh a e v niOrder entries cands h
  obtain ⟨cs, hcs, hsaid⟩ := repeated_said sh e (symbolsByVaddr a e niOrder (entries.map Prod.snd)) (entries.map Prod.snd)
  have hun : unresolvedCalls a.tableName (symbolsByVaddr a e niOrder (entries.map Prod.snd)) entries = [] := by
    obtain ⟨ps, eso, esoScs, ref, code, hc⟩ := candidates_of_ok _ _ _ _ _ _ h
    have hcount := hc.count
    rw [← (sortEntries_perm entries).length_eq, resolved_length_eq] at hcount
    unfold unresolvedCalls
    rw [List.filter_eq_nil_iff.2, List.map_nil]
    intro p hp
    have := hcount p hp
    cases hg : dget p.2 (symbolsByVaddr a e niOrder (entries.map Prod.snd)) with
    | none => simp [hg] at this
    | some s => simp
  refine ⟨cs, _, hcs, hpre, ?_⟩
  rw [hcl, hun]
  simp only [said_append, hsaid, List.nil_append]
  rfl

theorem wholeEntries_said (text : Insn → Str) (w : Surroundings) (hx : OrdersOk w.x86) (a : Arch) (e : Elf) (entries : List (Nat × Nat))
    (h : tableEntries a e (w.kenv a) = .ok entries) (hne : entries ≠ []) :
    said (wholeEntriesL text w a e).1 = said (tableEntriesL a e (w.kenv a)).1 := by
  unfold wholeEntriesL tableEntriesL
  unfold tableEntries at h
  cases ht : a.tableName with
  | some t => rfl
  | none =>
    rw [ht] at h
    have h : extractVaddrs w.x86 a e = .ok entries := h
    simp only
    rw [lm_bind_fst _ _ () rfl, lm_bind_fst _ _ () rfl, said_append, said_append]
    congr 1
    rcases C116_one_error text w.x86 hx a e with h1 | ⟨t, -, h1⟩
    · rw [h1]; rfl
    · rw [C116_same, h] at h1
      cases h1
      exact absurd rfl hne

theorem locations_said (w : Surroundings) (row : Nat → Str) (a : Arch) (cands located : List Syscall)
    (hrow : RowPerAddress w.loc row) (hnames : ∀ sc ∈ cands, Ident sc.origname ∧ Ident sc.name)
    (hfresh : ∀ sc ∈ cands, sc.greppedLocation = false) (h : extractLocations w.loc a w.kdir w.rdir cands = .ok located) :
    LocationsSaid w row a cands located (said (extractLocationsL w.loc a w.kdir w.rdir cands).1) := by
  cases ht : w.loc.haveAddr2line with
  | false => rw [(C113_no_tool w.loc a w.kdir w.rdir cands ht).1]; exact .noTool ht
  | true =>
    cases hk : w.kdir with
    | none =>
      rw [hk] at h
      rw [C113_no_sources w.loc a w.rdir cands located ht h]
      split
      · next hs =>
        rw [List.any_eq_true] at hs
        obtain ⟨sc, hsc, h1⟩ := hs
        exact .trusted ht hk ⟨sc, hsc, by intro h0; rw [h0] at h1; cases h1⟩
      · next hs =>
        refine .nothing ht hk fun sc hsc => ?_
        cases hf : sc.file with
        | none => rfl
        | some f => exact absurd (List.any_eq_true.2 ⟨sc, hsc, by rw [hf]; rfl⟩) hs
    | some k =>
      rw [hk] at h
      have hr : (Surroundings.sources w row a k).Ready cands := ⟨hrow, ht, hnames, hfresh⟩
      by_cases hh : (Surroundings.sources w row a k).Hopeless cands
      · have := C113_wrong_dir (Surroundings.sources w row a k) cands located hr h hh
        rw [show said (extractLocationsL w.loc a (some k) w.rdir cands).1 = _ from this]
        exact .wrongDir k ht hk hh
      · by_cases ho : (Surroundings.sources w row a k).Outside cands
        · have := C113_outside (Surroundings.sources w row a k) cands located hr h hh ho
          rw [show said (extractLocationsL w.loc a (some k) w.rdir cands).1 = _ from this]
          exact .outside k ht hk hh ho
        · obtain ⟨hits, h1, h2, h3⟩ := C113_searched (Surroundings.sources w row a k) cands located hr h hh ho
          rw [show said (extractLocationsL w.loc a (some k) w.rdir cands).1 = _ from h1]
          exact .searched k hits ht hk hh ho h2 h3

/-- C118, extractions that find entries: everything shown, in order, with levels. Nothing is told about the code that stands for a
table, nor while signatures are extracted. Only syscalls without a confirmed location are told to have no signature. -/
theorem C118_record (text : Insn → Str) (sh : Symbol → Str) (w : Surroundings) (row : Nat → Str) (a0 : Arch) (e : Elf) (v : Ver)
    (entries : List (Nat × Nat)) (out : List Syscall) (hx : OrdersOk w.x86) (hrow : RowPerAddress w.loc row)
    (hb : a0.bits32 = e.bits32) (he : tableEntries (a0.adjustAbi e) e (w.kenv (a0.adjustAbi e)) = .ok entries)
    (hne : entries ≠ []) (hni : ∃ s, IsNi e s)
    (hid : ∀ cands, candidateSyscalls (a0.adjustAbi e) e v (w.niOrder e.niSyscalls) entries = .ok cands →
      ∀ sc ∈ cands, Ident sc.origname ∧ Ident sc.name)
    (h : extractSyscalls a0 e v (w.kenv (a0.adjustAbi e)) = .ok out) :
    let chosen := fun va => dget va (symbolsByVaddr (a0.adjustAbi e) e (w.niOrder e.niSyscalls) (entries.map Prod.snd))
    ∃ cands located signed table counts prefixes locs,
      candidateSyscalls (a0.adjustAbi e) e v (w.niOrder e.niSyscalls) entries = .ok cands ∧
      extractLocations w.loc (a0.adjustAbi e) w.kdir w.rdir cands = .ok located ∧
      extractSignatures w.loc.files e w.kdir.isSome located = .ok signed ∧
      out = signed.filter (fun sc => !inSysNi w.kdir sc) ∧
      EntriesSaid (a0.adjustAbi e) e (w.kenv (a0.adjustAbi e)) entries table ∧
      IsRepeated e chosen (entries.map Prod.snd) counts ∧
      SaidPrefixes (implementedNames e chosen entries) prefixes ∧
      LocationsSaid w row (a0.adjustAbi e) cands located locs ∧
      said (wholeL text sh w a0 e v).1 =
        table ++ (counts.map fun c => saidRepeated sh chosen c.1 c.2) ++ prefixes ++ locs ++
        (signed.filter (inSysNi w.kdir)).map (saidNotImplemented w.kdir) ++
        (out.filter fun sc => unconfirmed sc && w.kdir.isSome).map (saidBadLocation w.kdir) ++
        (out.filter fun sc => sc.file.isNone && tellsLocations e).map saidNoLocation ++
        (out.filter fun sc => !sc.goodLocation && sc.signature.isNone && tellsSignatures e).map saidNoSignature := by
  intro chosen
  have hni' : e.niSyscalls ≠ [] := by
    obtain ⟨s, hs⟩ := hni
    intro h0
    rw [IsNi, ← mem_niSyscalls, h0] at hs
    cases hs
  obtain ⟨cands, located, signed, hxt⟩ := extraction_of_ok a0 e v _ entries out hb he hne hni' h
  have h1 : candidateSyscalls (a0.adjustAbi e) e v (w.niOrder e.niSyscalls) entries = .ok cands := hxt.cands_ok
  have h2 : extractLocations w.loc (a0.adjustAbi e) w.kdir w.rdir cands = .ok located := hxt.located_ok
  have h3 : extractSignatures w.loc.files e w.kdir.isSome located = .ok signed := hxt.signed_ok
  obtain ⟨counts, prefixes, h6, h7, h8⟩ := candidates_said sh (a0.adjustAbi e) e v (w.niOrder e.niSyscalls) entries cands h1
  have h4 : out = signed.filter (fun sc => !inSysNi w.kdir sc) := by
    have g1 := finalL_snd w.kdir e signed
    rw [finalL_eq, show filterRes (keepFinal w.kdir) signed = _ from hxt.out_ok] at g1
    exact (Except.ok.inj g1).symm
  have hu := candidates_unlocated _ _ _ _ _ _ hxt.cands_ok
  have hloc := locations_said w row (a0.adjustAbi e) cands located hrow (hid cands h1) (fun c hc => (hu c hc).1.2.2.2) h2
  refine ⟨cands, located, signed, _, counts, prefixes, _, h1, h2, h3, h4, entries_said _ e _ entries he, h6, h7, hloc, ?_⟩
  have hq := C118_no_strange w (a0.adjustAbi e) e v entries cands located h1 h2
  have hent := wholeEntries_said text w hx (a0.adjustAbi e) e entries he hne
  have g1 : entries.isEmpty = false := by cases entries with | nil => exact absurd rfl hne | cons => rfl
  have g2 : e.niSyscalls.isEmpty = false := by
    cases hn : e.niSyscalls with | nil => exact absurd hn hni' | cons => rfl
  have hlog : (wholeL text sh w a0 e v).1 = (wholeEntriesL text w (a0.adjustAbi e) e).1 ++
      ((candidatesL sh (a0.adjustAbi e) e v (w.niOrder e.niSyscalls) entries).1 ++
        ((extractLocationsL w.loc (a0.adjustAbi e) w.kdir w.rdir cands).1 ++ (finalL w.kdir e signed).1)) := by
    unfold wholeL
    rw [if_neg (by simpa using hb)]
    simp only
    rw [lm_bind_fst _ _ entries (by rw [wholeEntriesL_snd]; exact he)]
    simp only [g1, g2, Bool.false_eq_true, if_false]
    rw [lm_bind_fst _ _ cands (by rw [candidatesL_snd]; exact h1), lm_bind_fst _ _ located (by rw [extractLocationsL_snd]; exact h2),
      lm_bind_fst _ _ signed (by rw [extractSignaturesL_snd]; exact h3), hq, List.nil_append]
  have hsig : (out.filter fun sc => !sc.goodLocation && sc.signature.isNone && tellsSignatures e) =
      out.filter fun sc => sc.signature.isNone && tellsSignatures e := by
    refine List.filter_congr fun sc hsc => ?_
    cases hg : sc.goodLocation with
    | false => simp
    | true =>
      cases hs : sc.signature with
      | none => exact absurd hs (C118_signed w a0 e v out h sc hsc hg)
      | some s => simp
  rw [hlog, hsig, said_append, said_append, said_append, hent, h8, finalL_eq, ← h4]
  simp only [said_append, assume_said, bad_said, noLoc_said, noSig_said, List.append_assoc]
  rfl

/-- C118, extractions that find nothing to start from: an image of the wrong kind, no entries (with what is told about the table or
about the code that stands for it), no ni_syscall. -/
theorem C118_given_up (text : Insn → Str) (sh : Symbol → Str) (w : Surroundings) (hx : OrdersOk w.x86) (a0 : Arch) (e : Elf) (v : Ver) :
    (a0.bits32 ≠ e.bits32 → said (wholeL text sh w a0 e v).1 =
      [(.critical, some (if a0.bits32 then cs!"Selected arch is 32-bit, but kernel is 64-bit"
        else cs!"Selected arch is 64-bit, but kernel is 32-bit"))]) ∧
    (a0.bits32 = e.bits32 → tableEntries (a0.adjustAbi e) e (w.kenv (a0.adjustAbi e)) = .ok [] →
      ∃ before, NothingSaid text w (a0.adjustAbi e) e before ∧
        said (wholeL text sh w a0 e v).1 = before ++ [(.critical, some cs!"Unable to extract any syscall vaddr, giving up!")]) ∧
    (∀ entries, a0.bits32 = e.bits32 → tableEntries (a0.adjustAbi e) e (w.kenv (a0.adjustAbi e)) = .ok entries → entries ≠ [] →
      (∀ s, ¬ IsNi e s) →
      ∃ table, EntriesSaid (a0.adjustAbi e) e (w.kenv (a0.adjustAbi e)) entries table ∧
        said (wholeL text sh w a0 e v).1 = table ++ [(.critical, some cs!"No ni_syscall found!")]) := by
  refine ⟨?_, ?_, ?_⟩
  · intro hb
    unfold wholeL
    rw [if_pos hb]
    unfold bitsCall
    cases a0.bits32 <;> rfl
  · intro hb he
    refine ⟨said (wholeEntriesL text w (a0.adjustAbi e) e).1, ?_, ?_⟩
    · have hen := entries_said _ e _ _ he
      unfold wholeEntriesL
      cases ht : (a0.adjustAbi e).tableName with
      | some t =>
        unfold tableEntriesL at hen
        rw [ht] at hen
        simp only at hen ⊢
        generalize hs : said (do let vs ← vaddrsFromTableL (a0.adjustAbi e) e t; LM.pure (enumerate vs) : LM (List (Nat × Nat))).1 = s at hen ⊢
        generalize hl : ([] : List (Nat × Nat)) = l at hen
        cases hen with
        | table t' vaddrs s h1 h2 =>
          rw [ht] at h1
          cases h1
          cases vaddrs with
          | nil => exact .table t s ht h2
          | cons v vs => exact absurd hl (by simp [enumerate, List.zipIdx])
        | code entries h1 h2 => rw [ht] at h1; cases h1
      | none =>
        simp only
        rw [lm_bind_fst _ _ () rfl, said_append]
        rcases C116_one_error text w.x86 hx (a0.adjustAbi e) e with h1 | ⟨t, h1, -⟩
        · rw [h1]; exact .silent ht
        · rw [h1]; exact .code t ht h1
    · unfold wholeL
      rw [if_neg (by simpa using hb)]
      simp only
      rw [lm_bind_fst _ _ [] (by rw [wholeEntriesL_snd]; exact he), said_append]
      rfl
  · intro entries hb he hne hni
    refine ⟨_, entries_said _ e _ entries he, ?_⟩
    have h1 : entries.isEmpty = false := by cases entries with | nil => exact absurd rfl hne | cons => rfl
    have h2 : e.niSyscalls.isEmpty = true := by
      cases h0 : e.niSyscalls with
      | nil => rfl
      | cons s ss => exact absurd ((mem_niSyscalls e s).1 (by rw [h0]; simp)) (hni s)
    unfold wholeL
    rw [if_neg (by simpa using hb)]
    simp only
    rw [lm_bind_fst _ _ entries (by rw [wholeEntriesL_snd]; exact he), said_append, wholeEntries_said text w hx _ e entries he hne]
    simp only [h1, h2, Bool.false_eq_true, if_false, if_true]
    rfl

/-- a file with a carriage return in the line above the definition -/
def shiftBytes : Bytes := encoded cs!"/*\rSee open(2) (and close(2))\nSYSCALL_DEFINE1(open, int, fd)\n"

/-- The model takes source files as lines. For files with a carriage return alone (C115) it is otherwise: a confirmed location can
be one where no signature is found. -/
theorem C118_restriction (early : Nat → Bool) :
    goodLocationB (oneFile shiftBytes) smallFile 2 x64Arch openSc = .ok true ∧
    signatureFromSourceB early shiftBytes 2 false = .ok none := by
  refine ⟨by decide +kernel, ?_⟩
  have e : openedLines early shiftBytes = [.ok cs!"/*\n", .ok cs!"See open(2) (and close(2))\n", .ok cs!"SYSCALL_DEFINE1(open, int, fd)\n"] := by
    unfold shiftBytes
    rw [openedLines_sound]
    decide +kernel
  unfold signatureFromSourceB
  rw [e]
  decide +kernel

/-- C118: what the reading of a signature tells by itself. -/
theorem C118_strange (file : Path) (lines : List Str) (line : Nat) (big : Bool) :
    said (signatureFromSourceL file lines line big).1 =
      if (signatureFromSource lines line big) = .ok none then
        [(.error, some (cs!"This doesn't look like a syscall signature: " ++ file.str ++ cs!":" ++ natRepr line))]
      else [] := by
  unfold signatureFromSourceL
  rcases h : signatureFromSource lines line big with x | ⟨_ | sig⟩
  · rw [if_neg (by simp)]; rfl
  · rw [if_pos rfl]
    show said [strangeCall file line] = _
    simp [said, strangeCall, LogCall.text, pyFormat, LogArg.str]
  · rw [if_neg (by simp)]; rfl

/-! Examples -/

/-- what addr2line says about the two syscalls of `smallElf` -/
def partRow (a : Nat) : Str := if a = 0x108 then cs!"/k/fs/open.c:4" else if a = 0x117 then cs!"/k/entry.S:9" else cs!"??:?"

/-- sources with a definition of the first one -/
def partSources : Surroundings where
  niOrder := fun l => l
  x86 := switchEnv []
  loc := { haveAddr2line := true, addr2line := fun l => .ok (l.map partRow), elfPath := ⟨true, [cs!"out", cs!"vmlinux"]⟩,
           files := fun p => if p = smallFile then some ([cs!"#include <x.h>\n", cs!"SYSCALL_DEFINE1(__riscv_sys_open, int, fd)\n", cs!"{\n", cs!"\treturn 0;\n", cs!"}\n"]) else none,
           resolve := id, grep := .ok [] }
  kdir := some ⟨true, [cs!"k"]⟩
  rdir := none

/-- with debug information -/
def partElf : Elf :=
  { smallElf [0x100, 0x108, 0x110] with sections := (smallElf [0x100, 0x108, 0x110]).sections ++ [(cs!".debug_line", ⟨cs!".debug_line", 0, 0, 0⟩)] }

/-- the hypotheses of `C118_record` hold, and the whole record is -/
example : ∃ a0 entries cands out, newArch .riscv [6, 0] cs!"rv64" false = .ok a0 ∧ OrdersOk partSources.x86 ∧
    RowPerAddress partSources.loc partRow ∧ a0.bits32 = partElf.bits32 ∧
    tableEntries (a0.adjustAbi partElf) partElf (partSources.kenv (a0.adjustAbi partElf)) = .ok entries ∧
    entries.map Prod.snd = [0x100, 0x108, 0x110] ∧ partElf.niSyscalls.length = 1 ∧
    candidateSyscalls (a0.adjustAbi partElf) partElf [6, 0] (partSources.niOrder partElf.niSyscalls) entries = .ok cands ∧
    (∀ sc ∈ cands, Ident sc.origname ∧ Ident sc.name) ∧
    extractSyscalls a0 partElf [6, 0] (partSources.kenv (a0.adjustAbi partElf)) = .ok out ∧
    (out.map fun sc => (sc.number, sc.goodLocation, sc.signature)) = [(1, true, some [cs!"int fd"]), (2, false, none)] ∧
    said (wholeL showInsn Symbol.name partSources a0 partElf [6, 0]).1 =
      [(.warning, some cs!"Syscall table (sys_call_table) has bad size (0), doing my best to figure out when to stop"),
       (.warning, some cs!"No common syscall symbol prefixes found (weird!)"),
       (.error, some cs!"Unable to find location for __riscv_sys_read (__riscv_sys_read)"),
       (.error, some cs!"Unable to extract signature for __riscv_sys_read (__riscv_sys_read)")] := by
  refine ⟨_, _, _, _, rfl, ?_, ?_, rfl, rfl, by decide +kernel, by decide +kernel, rfl, ?_, rfl, by decide +kernel, by decide +kernel⟩
  · exact switchEnv_orders _
  · intro addrs rows h; cases h; rfl
  · show ∀ sc : Syscall, sc ∈ _ → (sc.origname ≠ [] ∧ ∀ c ∈ sc.origname, isWord c = true) ∧ (sc.name ≠ [] ∧ ∀ c ∈ sc.name, isWord c = true)
    decide +kernel

/-- the second case of `C118_given_up`, for code that cannot be analysed -/
example : OrdersOk (switchEnv deadCompare) ∧ x64Switch.bits32 = switchElf.bits32 ∧
    tableEntries (x64Switch.adjustAbi switchElf) switchElf (Surroundings.kenv { partSources with x86 := switchEnv deadCompare } (x64Switch.adjustAbi switchElf)) = .ok [] ∧
    said (wholeL showInsn Symbol.name { partSources with x86 := switchEnv deadCompare } x64Switch switchElf [6, 9]).1 =
      [(.warning, some cs!"No syscall table available! Trying my best..."),
       (.error, some cs!"Unexpected register in CMP instruction 0x100e: insn 3"),
       (.critical, some cs!"Unable to extract any syscall vaddr, giving up!")] :=
  ⟨switchEnv_orders _, rfl, by decide +kernel, by decide +kernel⟩

/-- a confirmed location, as in `C118_signed` -/
example : ∃ out, extractSyscalls { kind := .riscv, version := [6, 0], abi := cs!"rv64", bits32 := false } partElf [6, 0]
      (partSources.kenv { kind := .riscv, version := [6, 0], abi := cs!"rv64", bits32 := false }) = .ok out ∧
    (out.map fun sc => (sc.goodLocation, sc.signature)) = [(true, some [cs!"int fd"]), (false, none)] :=
  ⟨_, rfl, by decide +kernel⟩

end Verif
