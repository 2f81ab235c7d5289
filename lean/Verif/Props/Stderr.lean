import Verif.Lemmas.Stderr6
import Verif.Lemmas.Popen
import Verif.Lemmas.Stderr5
import Verif.Props.Log
import Verif.Props.Failures
/-! # The whole standard error of a run (C120) -/
set_option autoImplicit false
set_option maxRecDepth 8000

namespace Verif
open Spec

/-- what is written changes nothing else: status, commands, files and output are those of `main` -/
theorem C120_same (w : MWorld) (t : Telling) (help : Str) (args : Args) (s : MState) :
    (mainR w t help args s).2 = main w help args s :=
  congrFun (mainBodyR_run w t help args) s

/-- C120: a run that fails says why at the end of its messages — with a traceback if an exception is not caught, otherwise with the
report of the interruption, the fatal message about the last command, one about the image or one of the known paragraphs — except when the analysis finds a syscall table none of
whose entries is implemented. -/
theorem C120_reason_partial (w : MWorld) (t : Telling) (help : Str) (args : Args) (s : MState) :
    (∀ e, (∀ n, e ≠ .exit n) → (mainR w t help args s).2.1 = .error e →
      ∃ before, (mainR w t help args s).1 = before ++ [.uncaught (t.traceback e)]) ∧
    (∀ n, ((mainR w t help args s).2.1 = .ok n ∧ n ≠ 0) ∨ (mainR w t help args s).2.1 = .error (.exit n) →
      TellsWhy w.toWorld t (decide (3 ≤ args.verbose)) (mainR w t help args s).2.2.b.hist (mainR w t help args s).1 ∨ NothingLeft w args (mainR w t help args s).2.2.b.hist) := by
  have hx := cx_body w t help args s
  have key : ∀ r, (mainBodyR w t help args s).2.1 = r → (mainR w t help args s).1 = (mainBodyR w t help args s).1 ++
      (match r with | .ok _ => [] | .error (.exit _) => [] | .error e => [.uncaught (t.traceback e)]) := by
    rintro r rfl; rfl
  refine ⟨fun e he h => ⟨(mainBodyR w t help args s).1, ?_⟩, fun n h => ?_⟩
  · rw [key _ h]
    cases e <;> first | rfl | exact absurd rfl (he _)
  · have h2 : (mainR w t help args s).1 = (mainBodyR w t help args s).1 := by
      rcases h with ⟨h, -⟩ | h
      · rw [key _ h, List.append_nil]
      · rw [key _ h, List.append_nil]
    rw [h2]
    refine hx ?_
    rcases h with ⟨h, hn⟩ | h
    · exact .inr ⟨n, h, hn⟩
    · exact .inl ⟨n, h⟩

/-- C120: and this is what is at the end of standard error, when it is not suppressed. -/
theorem C120_shown (w : MWorld) (t : Telling) (help lost : Str) (args : Args) (s : MState) (ht : Talkative args) (n : Nat)
    (h : ((main w help args s).1 = .ok n ∧ n ≠ 0) ∨ (main w help args s).1 = .error (.exit n))
    (hl : ¬ NothingLeft w args (main w help args s).2.b.hist) :
    ∃ before text, EndText w.toWorld t (decide (3 ≤ args.verbose)) (main w help args s).2.b.hist text ∧ stderrOf w t help lost args false s = before ++ text := by
  rw [← C120_same w t] at h hl ⊢
  rcases (C120_reason_partial w t help args s).2 n h with ⟨before, last, hc, he⟩ | hn
  · refine ⟨stderrText args.quiet args.verbose false lost before, stderrText args.quiet args.verbose false lost last, ?_, ?_⟩
    · have hsay : ∀ ls : List Str, stderrText args.quiet args.verbose false lost (ls.map .say) = ls.flatMap (· ++ ['\n']) := by
        intro ls
        induction ls with
        | nil => rfl
        | cons l ls ih =>
          have h1 := C110_program_messages args.quiet args.verbose false lost l
          rw [if_pos (show args.quiet = 0 ∨ 0 < args.verbose from ht)] at h1
          have h2 : stderrText args.quiet args.verbose false lost ((l :: ls).map .say) =
              stderrText args.quiet args.verbose false lost [.say l] ++ stderrText args.quiet args.verbose false lost (ls.map .say) := by
            simp [stderrText]
          rw [h2, h1, ih]
          rfl
      have hf : ∀ m, stderrText args.quiet args.verbose false lost [.log .critical (some m)] = cs!"[FATAL] " ++ m ++ ['\n'] := by
        intro m
        have hw : Wanted args.quiet args.verbose .critical := by
          rcases ht with h | h
          · exact .inr (by omega)
          · exact .inl h
        unfold stderrText
        simp only [List.flatMap_cons, List.flatMap_nil, List.append_nil, ErrEvent.text, shows_wanted, hw, decide_true, if_true]
        rfl
      cases hc with
      | interrupted p hp => exact .interrupted p hp
      | command m hm => rw [hf]; exact .fatal m (.inl hm)
      | helper => rw [hf]; exact .fatal _ (.inr (.inl rfl))
      | rejected m hm => rw [hf]; exact .fatal m (.inr (.inr hm))
      | lines ls ha => rw [hsay]; exact .lines ls ha
    · unfold stderrOf
      rw [he]
      unfold stderrText
      exact List.flatMap_append
  · exact absurd hn hl

theorem ok_valid (w : MWorld) (t : Telling) (help : Str) (args : Args) (s : MState) (hh : ¬ AsksForHelp args)
    (h : (main w help args s).1 = .ok 0) :
    ∃ s1, mainR w t help args s = ((checkoutLine args).map .say ++
      (mainTailR w t (setupLogging args.quiet args.verbose) args (args.arch.map lower) s1).1,
      (mainTailR w t (setupLogging args.quiet args.verbose) args (args.arch.map lower) s1).2) := by
  have hi : ¬ Invalid args := by
    intro hi
    rw [(C73_invalid w help args s hi hh).1] at h
    cases h
  rw [← C120_same w t] at h
  have h' : (mainBodyR w t help args s).2.1 = .ok 0 := h
  have hm : mainR w t help args s = mainBodyR w t help args s := by
    unfold mainR
    simp only
    rw [h']
    simp
  rw [hm, bodyR_valid w t help args hi]
  rw [bodyR_valid w t help args hi] at h'
  exact runR_ok w t _ args _ s h'

/-- C120: everything a successful analysis writes to standard error: the line about the checkout asked for, a warning if the file does
not start as an ELF file does, the version, the line about the automatic checkout, the messages of the extraction (C118), the summary. -/
theorem C120_analysis (w : MWorld) (t : Telling) (help : Str) (args : Args) (s : MState) (hb : ¬ BuildMode args) (hh : ¬ AsksForHelp args)
    (h : (main w help args s).1 = .ok 0) :
    ∃ vmlinux s1 data k found scs auto,
      vmlinuxPath args = some vmlinux ∧ w.content s1.b.hist vmlinux = some data ∧
      (newAnalysis w (args.arch.map lower) vmlinux (pathOf args.kdir) s1).1 = .ok k ∧
      ((args.checkout ≠ some cs!"auto" ∧ auto = []) ∨
        (args.checkout = some cs!"auto" ∧ ∃ tag, versionTag k.version = .ok tag ∧ auto = [cs!"Checking out to " ++ tag])) ∧
      extractSyscalls k.arch k.elf k.version
        (kenvOf w (main w help args s).2.b.hist k.arch k.elf vmlinux (pathOf args.kdir) (pathOf args.remap)) = .ok found ∧
      found ≠ [] ∧ mapRes (relativize (pathOf args.kdir) args.absolutePaths) found = .ok scs ∧
      (mainR w t help args s).1 =
        (checkoutLine args).map .say ++ magicSaid data ++ [.say (cs!"Detected kernel version: " ++ versionStr k.version cs!"vmlinux")] ++
        auto.map .say ++
        (wholeL t.insn t.symbol (surroundingsOf w (main w help args s).2.b.hist vmlinux (pathOf args.kdir) (pathOf args.remap))
          k.arch k.elf k.version).1.map LogCall.event ++
        (Summary (given args.kdir) scs).map .say := by
  obtain ⟨s1, he⟩ := ok_valid w t help args s hh h
  rw [← C120_same w t] at h ⊢
  rw [he] at h ⊢
  have ht : mainTailR w t (setupLogging args.quiet args.verbose) args (args.arch.map lower) =
      mainAnalyzeR w t (setupLogging args.quiet args.verbose) args (args.arch.map lower) := if_neg (fun x => hb ((build_iff args).1 x))
  rw [ht] at h ⊢
  obtain ⟨vm, data, k, hist, found, scs, auto, g1, g2, g3, g4, g5, g6, g7, g8, g9⟩ :=
    analyze_events w t _ args _ s1 _ (Prod.ext h rfl)
  have hg : (pathOf args.kdir).isSome = given args.kdir := by
    cases args.kdir with
    | none => rfl
    | some k => cases k <;> rfl
  subst g4
  rw [hg] at g9
  rcases g5 with ⟨ha, rfl⟩ | ⟨ha, tag, htag, rfl⟩
  · refine ⟨vm, s1, data, k, found, scs, [], g1, g2, g3, .inl ⟨ha, rfl⟩, g6, g7, g8, ?_⟩
    simp only
    rw [g9]
    simp only [List.map_nil, List.append_nil, List.append_assoc]
  · refine ⟨vm, s1, data, k, found, scs, [_], g1, g2, g3, .inr ⟨ha, tag, htag, rfl⟩, g6, g7, g8, ?_⟩
    simp only
    rw [g9]
    simp only [List.map_cons, List.map_nil, List.append_assoc]

/-- C120: everything a successful --clean, --config or --build writes to standard error: the line about the checkout asked for, the
compiler, the steps and the version printed by make, the messages about options (C119) and those about levels of optimization that could
not be used, the time. -/
theorem C120_built (w : MWorld) (t : Telling) (help : Str) (args : Args) (s : MState) (hb : BuildMode args) (hh : ¬ AsksForHelp args)
    (h : (main w help args s).1 = .ok 0) :
    ∃ compiler ver conf build,
      (args.build = true ∨ args.config = true →
        CompilerSays w.toWorld (args.cross.getD []) (main w help args s).2.b.hist compiler ∧
        PrintedBy w.toWorld (main w help args s).2.b.hist ver ∧
        ∃ b s1, (newBuilder w (args.arch.map lower) (pathOf args.kdir) (pathOf args.out) (args.cross.getD []) s1).1 = .ok b ∧
          ConfigSaid w.toWorld b (main w help args s).2.b.hist conf) ∧
      (args.build = true → BuildSaid w.toWorld t args.disableOpt (main w help args s).2.b.hist build) ∧
      (mainR w t help args s).1 =
        buildSaid args compiler (versionStr ver cs!"make") (t.took (main w help args s).2.b.hist) conf build := by
  obtain ⟨s1, he⟩ := ok_valid w t help args s hh h
  rw [← C120_same w t] at h ⊢
  rw [he] at h ⊢
  have ht : mainTailR w t (setupLogging args.quiet args.verbose) args (args.arch.map lower) =
      mainBuildR w t (setupLogging args.quiet args.verbose) args (args.arch.map lower) := if_pos ((build_iff args).2 hb)
  rw [ht] at h ⊢
  exact mainBuild_events w t _ args _ s1 _ (Prod.ext h rfl)

/-! Examples -/

/-- nothing special is said -/
def plainTelling : Telling :=
  ⟨fun _ => true, fun _ _ => [], fun _ _ => .noCommand, fun _ => [], fun _ => [], fun _ => [], fun _ => cs!"1 s", fun _ => cs!"Traceback\n"⟩

/-- the image of Props/Main whose functions all have the code of the first, __riscv_sys_ni_syscall -/
def emptyImage : Bytes :=
  [0x7f, 0x45, 0x4c, 0x46, 2, 1, 1, 0, 0, 0, 0, 0, 0, 0, 0, 0, 2, 0, 243, 0] ++ List.replicate 44 0 ++
  smallText.take 8 ++ smallText.take 8 ++ smallText.take 8 ++ encTable false 8 [0x100, 0x108, 0x110, 0] ++ (cs!"Linux version 6.0.3 (gcc)\n").map (fun c => UInt8.ofNat c.toNat)

def emptyWorld : MWorld := { tinyWorld cs!"6.0.3" tinySymbols with content := fun _ _ => some emptyImage }

theorem closing_last {w : World} {t : Telling} {high : Bool} {hist : List Run} {last : List ErrEvent} (h : Closing w t high hist last) : ∃ ev, last.getLast? = some ev ∧
    (ev = .sigint ∨ (∃ m, ev = .log .critical (some m)) ∨ ∃ m, ev = .say m) := by
  cases h with
  | interrupted => exact ⟨_, rfl, .inl rfl⟩
  | command m => exact ⟨_, rfl, .inr (.inl ⟨m, rfl⟩)⟩
  | helper => exact ⟨_, rfl, .inr (.inl ⟨_, rfl⟩)⟩
  | rejected m => exact ⟨_, rfl, .inr (.inl ⟨m, rfl⟩)⟩
  | lines ls ha => cases ha <;> exact ⟨_, rfl, .inr (.inr ⟨_, rfl⟩)⟩

/-- C120: the exception: the run ends with status 1 after three warnings of which none says that nothing was found. -/
theorem C120_reason_refuted : ¬ ∀ (w : MWorld) (t : Telling) (help : Str) (args : Args) (s : MState) (n : Nat), n ≠ 0 →
    (mainR w t help args s).2.1 = .ok n →
      TellsWhy w.toWorld t (decide (3 ≤ args.verbose)) (mainR w t help args s).2.2.b.hist (mainR w t help args s).1 := by
  intro h
  obtain ⟨before, last, hc, he⟩ := h emptyWorld plainTelling [] { vmlinux := some cs!"vmlinux" } {} 1 (by simp) (by decide +kernel)
  obtain ⟨ev, hl, hk⟩ := closing_last hc
  have h2 : (mainR emptyWorld plainTelling [] { vmlinux := some cs!"vmlinux" } {}).1 =
    [.say cs!"Detected kernel version: 6.0.3 (from vmlinux)",
      .log .warning (some cs!"Syscall table (sys_call_table) has bad size (24), doing my best to figure out when to stop"),
      .log .warning (some cs!"No common syscall symbol prefixes found (weird!)"),
      .log .warning (some cs!"No kernel source available and no addr2line output, cannot extract location info")] := by decide +kernel
  rw [h2] at he
  have h3 := congrArg List.getLast? he
  rw [List.getLast?_append, hl] at h3
  simp only [Option.some_or] at h3
  have h4 : ev = .log .warning (some cs!"No kernel source available and no addr2line output, cannot extract location info") := by
    injection h3.symm
  rcases hk with rfl | ⟨m, rfl⟩ | ⟨m, rfl⟩ <;> cases h4

/-- C120: a single -q, documented as "no info", also hides why a run fails: here the image does not exist, the status is 1 and standard
error is empty. -/
theorem C120_quiet_refuted : ¬ ∀ (w : MWorld) (t : Telling) (help lost : Str) (args : Args) (s : MState) (n : Nat), args.quiet = 1 → n ≠ 0 →
    (main w help args s).1 = .ok n → stderrOf w t help lost args false s ≠ [] := by
  intro h
  exact h (mainWorld cs!"6.0.3" none) plainTelling [] [] { vmlinux := some cs!"vmlinux", quiet := 1 } {} 1 rfl (by simp) (by decide +kernel)
    (by decide +kernel)

/-- an image that does not exist -/
example : let w := mainWorld cs!"6.0.3" none
    let args : Args := { vmlinux := some cs!"vmlinux" }
    ((main w [] args {}).1 = .ok 1) ∧ Talkative args ∧
    stderrOf w plainTelling [] [] args false {} =
      cs!"Unable to find vmlinux at \"vmlinux\".\nBuild the kernel or provide a valid path.\n" :=
  ⟨by decide +kernel, .inl rfl, by decide +kernel⟩

/-- an analysis -/
example : ¬ BuildMode { vmlinux := some cs!"vmlinux" } ∧ ¬ AsksForHelp { vmlinux := some cs!"vmlinux" } ∧
    (main (tinyWorld cs!"6.0.3" tinySymbols) [] { vmlinux := some cs!"vmlinux" } {}).1 = .ok 0 ∧
    (mainR (tinyWorld cs!"6.0.3" tinySymbols) plainTelling [] { vmlinux := some cs!"vmlinux" } {}).1 =
    [.say cs!"Detected kernel version: 6.0.3 (from vmlinux)",
      .log .warning (some cs!"Syscall table (sys_call_table) has bad size (24), doing my best to figure out when to stop"),
      .log .warning (some cs!"No common syscall symbol prefixes found (weird!)"),
      .log .warning (some cs!"No kernel source available and no addr2line output, cannot extract location info"),
      .say cs!"Found 2 implemented syscalls", .say cs!"Could not find definition location for 2 syscalls", .say []] := by
  refine ⟨?_, ?_, tiny_run.1, by decide +kernel⟩
  · rintro (h | h | h) <;> cases h
  · rintro ⟨a, h, -⟩; cases h

/-- cleaning -/
example : let args : Args := { kdir := some cs!"linux", clean := true, arch := some cs!"x86-64" }
    BuildMode args ∧ ¬ AsksForHelp args ∧ (main (mainWorld cs!"6.0.3" none) [] args {}).1 = .ok 0 ∧
    (mainR (mainWorld cs!"6.0.3" none) plainTelling [] args {}).1 = [.say cs!"Cleaning kernel sources", .say cs!"Done"] := by
  refine ⟨.inr (.inr rfl), ?_, by decide +kernel, by decide +kernel⟩
  rintro ⟨a, h, h'⟩
  injection h with h
  subst h
  revert h'
  decide +kernel

/-- building: there are messages about options that are not set, and the first attempt at the image fails -/
example : let args : Args := { kdir := some cs!"linux", arch := some cs!"x86-64", build := true, disableOpt := true }
    let s : MState := { b := { makefile := exampleMakefile } }
    let said := (mainR (failingWorld 1 0) plainTelling [] args s).1
    BuildMode args ∧ (main (failingWorld 1 0) [] args s).1 = .ok 0 ∧ said.length = 30 ∧
    said.take 5 = [.say cs!"Compiler: undef", .say cs!"Cleaning kernel sources", .say cs!"Detected kernel version: 5.10.0 (from make)",
      .say cs!"Configuring kernel", .log .error (some cs!"CONFIG_BLOCK=y wants CONFIG_EXPERT=y, but CONFIG_EXPERT is not set!")] ∧
    said.drop 27 = [.say cs!"Building kernel (might take a while)", .log .error (some cs!"Failed to build with -O0, trying -O1"),
      .say cs!"Build took 1 s"] := by
  refine ⟨.inl rfl, ?_⟩
  decide +kernel

theorem byteRepr_char (q : Char) (b : UInt8) : byteRepr q b = reprChar (fun _ => false) q (Char.ofNat b.toNat) := by
  have h : ∀ n < 256, (Char.ofNat n).toNat = n := by decide +kernel
  have hb := h b.toNat b.toNat_lt
  have := b.toNat_lt
  unfold byteRepr reprChar
  simp only [hb, Bool.false_eq_true, if_false]
  repeat' split
  all_goals first | rfl | omega

theorem bytes_quote (bs : Bytes) : (if bs.contains 39 && !bs.contains 34 then '"' else '\'') = reprQuote (bs.map fun b => Char.ofNat b.toNat) := by
  have h : ∀ m < 256, ∀ n < 256, Char.ofNat m = Char.ofNat n → m = n := by decide +kernel
  have k : ∀ b0 : UInt8, (bs.map fun b => Char.ofNat b.toNat).contains (Char.ofNat b0.toNat) = bs.contains b0 := by
    intro b0
    induction bs with
    | nil => rfl
    | cons b bs ih =>
      rw [List.map_cons, List.contains_cons, List.contains_cons, ih]
      congr 1
      rw [Bool.eq_iff_iff, beq_iff_eq, beq_iff_eq]
      exact ⟨fun e => UInt8.toNat_inj.1 (h _ b0.toNat_lt _ b.toNat_lt e), fun e => by rw [e]⟩
  unfold reprQuote
  have k1 := k 39
  have k2 := k 34
  rw [← k1, ← k2]; rfl

theorem reprChar_ascii (q c : Char) (hq : q = '\'' ∨ q = '"') (hc : c.toNat < 256) :
    ∀ d ∈ reprChar (fun _ => false) q c, 32 ≤ d.toNat ∧ d.toNat < 127 := by
  have h : ∀ q ∈ ['\'', '"'], ∀ n < 256, ∀ d ∈ reprChar (fun _ => false) q (Char.ofNat n), 32 ≤ d.toNat ∧ d.toNat < 127 := by decide +kernel
  have := h q (by rcases hq with rfl | rfl <;> simp) c.toNat hc
  rwa [ofNat_of_toNat] at this

/-- C120: the bytes shown when a file does not start like an ELF file are those of the file: read as a Python literal, the text gives them
back, and it is plain printable ASCII. -/
theorem C120_bytes_shown (bs : Bytes) :
    (∃ q body, (q = '\'' ∨ q = '"') ∧ bytesRepr bs = 'b' :: q :: body ∧
      readPyString q body = some (bs.map fun b => Char.ofNat b.toNat, [])) ∧
    ∀ c ∈ bytesRepr bs, 32 ≤ c.toNat ∧ c.toNat < 127 := by
  have hf : ∀ q, (q = '\'' ∨ q = '"') → bs.flatMap (byteRepr q) = (bs.map fun b => Char.ofNat b.toNat).flatMap (reprChar (fun _ => false) q) := by
    intro q _
    rw [List.flatMap_map]
    exact congrArg (fun f => List.flatMap f bs) (funext fun b => byteRepr_char q b)
  have hq := reprQuote_cases (bs.map fun b => Char.ofNat b.toNat)
  have he : bytesRepr bs = 'b' :: reprQuote (bs.map fun b => Char.ofNat b.toNat) ::
      ((bs.map fun b => Char.ofNat b.toNat).flatMap (reprChar (fun _ => false) (reprQuote (bs.map fun b => Char.ofNat b.toNat))) ++
        [reprQuote (bs.map fun b => Char.ofNat b.toNat)]) := by
    unfold bytesRepr
    simp only
    rw [bytes_quote, hf _ hq]; rfl
  refine ⟨⟨_, _, hq, he, readPyString_body _ _ hq _ _⟩, ?_⟩
  rw [he]
  intro c hc
  have hq' : ∀ q, (q = '\'' ∨ q = '"') → 32 ≤ q.toNat ∧ q.toNat < 127 := by rintro q (rfl | rfl) <;> decide
  have h256 : ∀ n < 256, (Char.ofNat n).toNat < 256 := by decide +kernel
  simp only [List.mem_cons, List.mem_append, List.mem_flatMap, List.mem_map, List.not_mem_nil, or_false] at hc
  rcases hc with rfl | rfl | ⟨d, ⟨b, _, rfl⟩, hd⟩ | rfl
  · decide
  · exact hq' _ hq
  · exact reprChar_ascii _ _ hq (h256 _ b.toNat_lt) c hd
  · exact hq' _ hq
example : bytesRepr [0x7f, 0x27, 0x5c, 0x0a, 0x41] = cs!"b\"\\x7f'\\\\\\nA\"" := by decide

/-- C120: all that a build can write, whatever happens: the report of an interruption, fatal messages of the command that fails, and
three messages about the optimization level. In particular never "Restoring Makefile without backing it up first???" (kernel.py:609). -/
theorem C120_build_messages (w : World) (t : Telling) (high : Bool) (b : Builder) (opt : Bool) (s : BState) :
    ∀ e ∈ (buildR w t high b opt s).1, e = .sigint ∨ (∃ m, e = .log .critical (some m)) ∨
      e = .log .error (some cs!"Failed to build with -O0, trying -O1") ∨
      e = .log .error (some cs!"Failed to build with -O1, doing a normal build") ∨
      e = .log .warning (some cs!"Unable to patch Makefile to disable optimizations, doing a normal build instead") :=
  (holds_build (.inl rfl) (fun m => .inr (.inl ⟨m, rfl⟩)) (.inr (.inr (.inl rfl))) (.inr (.inr (.inr (.inl rfl))))
    (.inr (.inr (.inr (.inr rfl)))) opt s trivial).1

end Verif
