import Verif.Lemmas.Rejected
import Verif.Props.Main
/-! # Images that are not analysed (C102) -/
set_option autoImplicit false

namespace Verif
open Spec

theorem isEmpty_symbols {e : Elf} (h : e.symbols ≠ []) : e.symbols.isEmpty = false := by
  cases he : e.symbols with
  | nil => exact absurd he h
  | cons _ _ => rfl

/-- no version: the exception -/
theorem kernelVersion_none {e : Elf} {kd : Bool} {m : Res Str} (h : versionFromVmlinux e = .ok none) :
    kernelVersion (some e) kd m = .error (.named "KernelVersionError") := by
  unfold kernelVersion
  simp only [bind, Except.bind, h]

theorem bits_of_row (row : HelpRow) (h : row ∈ helpTable) :
    (row.kind = .arm → row.kernel32 = true) ∧ (row.kind = .arm64 → row.kernel32 = false) := by
  revert row
  decide

deriving instance DecidableEq for HelpRow

/-- no name is in two rows -/
theorem row_unique : ∀ r1 ∈ helpTable, ∀ r2 ∈ helpTable, ∀ n ∈ r1.value :: r1.aliases, n ∈ r2.value :: r2.aliases → r1 = r2 := by
  decide +kernel

/-- constructors fail for kernels that are too old -/
theorem detected_recent {e : Elf} {k : Kind} {b : Bool} {abis : List Str} {abi : Str} {v : Ver} {a : Arch}
    (hd : archFromVmlinux e = .ok (some (k, b, abis))) (habi : abi ∈ abis) (ha : newArch k v abi b = .ok a) :
    minVersion k abi b ≤ v ∧ a.kind = k := by
  obtain ⟨hf, h⟩ := ((C24_detection e).1 k b abis).1 hd
  rw [match_detected k e hf] at h
  simp only [Except.ok.injEq, Option.some.injEq, Prod.mk.injEq] at h
  obtain ⟨rfl, rfl⟩ := h
  obtain ⟨row, hr, rfl, rfl, hb⟩ := detected_row k e hf abi habi
  rw [← hb] at ha ⊢
  cases hl : verLe (minVersion row.kind row.abi row.kernel32) v with
  | true =>
    obtain ⟨a', ha', h1, -⟩ := (newArch_row row hr v).1 hl
    rw [ha] at ha'
    cases ha'
    exact ⟨(verLe_iff _ _).1 hl, h1⟩
  | false => rw [(newArch_row row hr v).2 hl] at ha; cases ha

/-- C102: the reasons for the constructor of kernel objects to fail with one of its own exceptions -/
theorem C102_reasons (prog : Str) (n : Option Str) (e : Elf) (kd : Bool) (m : Res Str) (hs : e.symbols ≠ [])
    (hn : ∀ x, n = some x → ∃ row ∈ helpTable, x ∈ row.value :: row.aliases) (lines : List Str) :
    (∃ x, InitError x ∧ kernelInit n (some e) kd m = .error x ∧
      initMessages prog n ((archFromVmlinux e).toOption.join) x = some lines) ↔ Rejected prog n e lines := by
  have hinit : kernelInit n (some e) kd m = (do
      let arch ← (
        match n with
        | none => do
          let mm ← archFromVmlinux e
          match mm with
          | none => .error (.named "KernelArchError")
          | some (k, bits32, abis) =>
            if abis.length > 1 then .error (.named "KernelMultiABIError")
            else match abis with
              | [] => .error .index
              | abi :: _ => do
                let v ← kernelVersion (some e) kd m
                newArch k v abi bits32
        | some n => do
          let v ← kernelVersion (some e) kd m
          archFromName n v : Res Arch)
      let ok ← arch.matches e
      if ok then .ok arch else .error (.named "KernelArchError")) := by
    unfold kernelInit
    simp only [Option.isNone_some, Bool.and_false, Bool.false_eq_true, if_false, Option.any_some, isEmpty_symbols hs]
    cases n <;> rfl
  have hKV : InitError (.named "KernelVersionError") := .inl rfl
  have hKA : InitError (.named "KernelArchError") := .inr (.inl rfl)
  have hKM : InitError (.named "KernelMultiABIError") := .inr (.inr (.inr rfl))
  rw [hinit]
  cases n with
  | some n =>
    obtain ⟨row, hrow, hmem⟩ := hn n rfl
    simp only [bind, Except.bind]
    cases hv : versionFromVmlinux e with
    | error y =>
      have hk : kernelVersion (some e) kd m = .error y := by unfold kernelVersion; simp only [bind, Except.bind, hv]
      rw [hk]
      constructor
      · rintro ⟨x, hx, h, -⟩; cases h; exact absurd hx (tame_version e _ hv)
      · intro h
        cases h with
        | noVersionNamed _ _ h => rw [hv] at h; cases h
        | mismatch _ _ _ _ _ _ h => rw [hv] at h; cases h
    | ok o =>
      cases o with
      | none =>
        rw [kernelVersion_none hv]
        constructor
        · rintro ⟨x, hx, h, hl⟩
          cases h
          have : lines = versionLines := by
            simp only [initMessages, if_true, Option.some.injEq] at hl
            exact hl.symm
          rw [this]
          exact .noVersionNamed e n hv
        · intro h
          cases h with
          | noVersionNamed _ _ h => exact ⟨_, hKV, rfl, by simp [initMessages, versionLines]⟩
          | mismatch _ _ _ _ _ _ h => rw [hv] at h; cases h
      | some v =>
        rw [kernelVersion_ok.2 hv]
        simp only []
        obtain ⟨-, hgood, hbad⟩ := C27_aliases row hrow n hmem v
        by_cases hmin : minVersion row.kind row.abi row.kernel32 ≤ v
        · obtain ⟨a, ha, hattr⟩ := hgood hmin
          rw [ha]
          simp only []
          have hkind : a.kind = row.kind := hattr.1
          have hbits : a.bits32 = row.kernel32 := hattr.2.2.1
          constructor
          · rintro ⟨x, hx, h, hl⟩
            cases hma : a.matches e with
            | error y => rw [hma] at h; cases h; exact absurd hx (tame_matches a e _ hma)
            | ok t =>
              rw [hma] at h
              cases t with
              | true => cases h
              | false =>
                cases h
                have hl' : lines = [cs!"Architecture " ++ n ++ cs!" does not match provided vmlinux", archHint prog] := by
                  simp only [initMessages] at hl
                  simpa [archHint] using hl.symm
                rw [hl']
                have hbe : row.kind = .powerpc → e.bigEndian = true := by
                  intro hp
                  rw [← hkind] at hp
                  unfold Arch.matches at hma
                  rw [hp] at hma
                  cases hb : e.bigEndian with
                  | true => rfl
                  | false => simp only [hb, pyAssert, bind, Except.bind] at hma; cases hma
                refine .mismatch e row n v hrow hmem hv hmin hbe ?_
                rcases C25_matches_partial a e (by rw [hkind]; exact hbe)
                  (by rw [hkind, hbits]; exact (bits_of_row row hrow).1) (by rw [hkind, hbits]; exact (bits_of_row row hrow).2) with h | h
                · rw [hma] at h; cases h.1
                · rw [hkind, hbits] at h; exact h.2
          · intro h
            cases h with
            | noVersionNamed _ _ h => rw [hv] at h; cases h
            | mismatch _ row' _ v' hrow' hmem' hv' _ hbe hno =>
              have hrr : row' = row := by
                exact row_unique row' hrow' row hrow n hmem' hmem
              subst hrr
              refine ⟨_, hKA, ?_, ?_⟩
              · rcases C25_matches_partial a e (by rw [hkind]; exact hbe)
                  (by rw [hkind, hbits]; exact (bits_of_row row' hrow).1) (by rw [hkind, hbits]; exact (bits_of_row row' hrow).2) with h | h
                · rw [hkind, hbits] at h; exact absurd h.2 hno
                · rw [h.1]; rfl
              · simp [initMessages, archHint]
        · rw [hbad hmin]
          constructor
          · rintro ⟨x, hx, h, -⟩
            cases h
            rcases hx with h | h | h | h <;> cases h
          · intro h
            cases h with
            | noVersionNamed _ _ h => rw [hv] at h; cases h
            | mismatch _ row' _ v' hrow' hmem' hv' hmin' =>
              have hrr : row' = row := row_unique row' hrow' row hrow n hmem' hmem
              subst hrr
              rw [hv] at hv'
              cases hv'
              exact absurd hmin' hmin
  | none =>
    simp only [bind, Except.bind]
    cases hd : archFromVmlinux e with
    | error y =>
      simp only []
      constructor
      · rintro ⟨x, hx, h, -⟩; cases h; exact absurd hx (tame_detect e _ _ hd)
      · intro h
        cases h with
        | unsupported _ h => rw [(C24_detection e).2.2.2 h] at hd; cases hd
        | several _ _ _ _ h => rw [hd] at h; cases h
        | noVersion _ _ _ _ h => rw [hd] at h; cases h
    | ok o =>
      cases o with
      | none =>
        simp only []
        constructor
        · rintro ⟨x, hx, h, hl⟩
          cases h
          have hl' : lines = [cs!"Failed to detect kernel architecture/ABI", archHint prog] := by
            simp only [initMessages] at hl
            simpa [archHint, Except.toOption] using hl.symm
          rw [hl']
          exact .unsupported e ((C24_detection e).2.2.1 hd)
        · intro h
          cases h with
          | unsupported _ h => exact ⟨_, hKA, rfl, by simp [initMessages, archHint, Except.toOption]⟩
          | several _ _ _ _ h => rw [hd] at h; cases h
          | noVersion _ _ _ _ h => rw [hd] at h; cases h
      | some p =>
        obtain ⟨k, b, abis⟩ := p
        simp only []
        have hun : ¬ ∀ k b, (e.machine, k, b) ∉ machineTable := by
          intro h; rw [(C24_detection e).2.2.2 h] at hd; cases hd
        by_cases hlen : abis.length > 1
        · rw [if_pos hlen]
          simp only []
          constructor
          · rintro ⟨x, hx, h, hl⟩
            cases h
            have hl' : lines = [cs!"Detected architecture: " ++ k.name, cs!"Detected ABIs: " ++ joinWith cs!", " abis,
                cs!"This kernel was built with support for multiple syscall ABIs.",
                cs!"Select one using --arch NAME (see --arch HELP for more info)."] := by
              simp only [initMessages] at hl
              simpa [Except.toOption] using hl.symm
            rw [hl']
            exact .several e k b abis hd hlen
          · intro h
            cases h with
            | unsupported _ h => exact absurd h hun
            | several _ k' b' abis' h =>
              rw [hd] at h; cases h
              exact ⟨_, hKM, rfl, by simp [initMessages, Except.toOption]⟩
            | noVersion _ _ _ _ h => rw [hd] at h; cases h; simp at hlen
        · rw [if_neg hlen]
          have hne := C24_some_abi e k b abis hd
          cases abis with
          | nil => exact absurd rfl hne
          | cons abi rest =>
            have hrest : rest = [] := by
              cases rest with
              | nil => rfl
              | cons _ _ => simp at hlen
            subst hrest
            simp only []
            cases hv : versionFromVmlinux e with
            | error y =>
              have hk : kernelVersion (some e) kd m = .error y := by unfold kernelVersion; simp only [bind, Except.bind, hv]
              rw [hk]
              constructor
              · rintro ⟨x, hx, h, -⟩; cases h; exact absurd hx (tame_version e _ hv)
              · intro h
                cases h with
                | unsupported _ h => exact absurd h hun
                | several _ _ _ _ h h2 => rw [hd] at h; cases h; simp at h2
                | noVersion _ _ _ _ _ h => rw [hv] at h; cases h
            | ok o =>
              cases o with
              | none =>
                rw [kernelVersion_none hv]
                constructor
                · rintro ⟨x, hx, h, hl⟩
                  cases h
                  have : lines = versionLines := by
                    simp only [initMessages, if_true, Option.some.injEq] at hl
                    exact hl.symm
                  rw [this]
                  exact .noVersion e k b abi hd hv
                · intro h
                  cases h with
                  | unsupported _ h => exact absurd h hun
                  | several _ _ _ _ h h2 => rw [hd] at h; cases h; simp at h2
                  | noVersion _ _ _ _ _ h => exact ⟨_, hKV, rfl, by simp [initMessages, versionLines]⟩
              | some v =>
                rw [kernelVersion_ok.2 hv]
                simp only []
                constructor
                · rintro ⟨x, hx, h, hl⟩
                  exfalso
                  cases ha : newArch k v abi b with
                  | error y => rw [ha] at h; cases h; exact tame_newArch k v abi b _ ha hx
                  | ok a =>
                    rw [ha] at h
                    simp only [] at h
                    cases hma : a.matches e with
                    | error y => rw [hma] at h; cases h; exact tame_matches a e _ hma hx
                    | ok t =>
                      rw [hma] at h
                      cases t with
                      | true => cases h
                      | false =>
                        obtain ⟨hmin, hkind⟩ := detected_recent hd (by simp) ha
                        have hbe : k = .powerpc → e.bigEndian = true := by
                          intro hp
                          rw [← hkind] at hp
                          unfold Arch.matches at hma
                          rw [hp] at hma
                          cases hb : e.bigEndian with
                          | true => rfl
                          | false => simp only [hb, pyAssert, bind, Except.bind] at hma; cases hma
                        obtain ⟨a', ha', -, -, -, -, hm'⟩ := C24_instance_matches e k b [abi] abi v hd (by simp) hmin hbe
                        rw [ha] at ha'
                        cases ha'
                        rw [hma] at hm'
                        cases hm'
                · intro h
                  cases h with
                  | unsupported _ h => exact absurd h hun
                  | several _ _ _ _ h h2 => rw [hd] at h; cases h; simp at h2
                  | noVersion _ _ _ _ _ h => rw [hv] at h; cases h

/-- the messages for an exception of the constructor, seen from the command line -/
theorem told_main (w : MWorld) (help : Str) (args : Args) (s s1 : MState) (p : Path) (x : Exc) (lines : List Str) (hv : ¬ Invalid args)
    (hb : ¬ BuildMode args) (hco : ¬ Given args.checkout) (hp : pathOf args.vmlinux = some p) (hf : w.isFile s.b.hist p = true)
    (hr : w.available s.b.hist cs!"readelf" = true)
    (h : newAnalysis w (args.arch.map lower) p (pathOf args.kdir) s = (.error x, s1))
    (hm : initMessages w.prog (args.arch.map lower) (detectedArch w p s) x = some lines) :
    (main w help args s).1 = .error (.exit 1) ∧ (main w help args s).2.out = s.out ∧
    (Talkative args → (main w help args s).2.err = s.err ++ lines) ∧ (¬ Talkative args → (main w help args s).2.err = s.err) := by
  have hna : args.checkout ≠ some cs!"auto" := fun hx => hco ⟨_, hx, by simp⟩
  have hpath : vmlinuxPath args = some p := by unfold vmlinuxPath; rw [hp]
  have hout : s1.out = s.out ∧ s1.err = s.err := by
    have g1 := goes_newAnalysis w (args.arch.map lower) p (pathOf args.kdir) s
    have g2 := wordless_newAnalysis w (args.arch.map lower) p (pathOf args.kdir) s
    rw [h] at g1 g2
    exact ⟨g1.2.2.1, g2⟩
  have h1 : catchInit w (setupLogging args.quiet args.verbose) (args.arch.map lower) (detectedArch w p s)
      (newAnalysis w (args.arch.map lower) p (pathOf args.kdir)) s =
      (.error (.exit 1), s1.sayAll (setupLogging args.quiet args.verbose) lines) := by
    unfold catchInit
    rw [h]
    simp only [hm]
    rw [mm_bind, eprints_eq]
    rfl
  have key : main w help args s = (.error (.exit 1), s1.sayAll (setupLogging args.quiet args.verbose) lines) := by
    rw [main_valid w help _ hv, run_none _ _ _ _ _ (by rintro ⟨r, h, h', -⟩; exact hco ⟨r, h, h'⟩), tail_analyze _ _ _ _ hb]
    unfold mainAnalyze
    simp only [hna, false_and, if_false, hpath]
    rw [mm_bind, mm_get]
    simp only [hf, hr, Bool.not_true, Bool.false_eq_true, if_false]
    rw [mm_bind, h1]
  rw [key]
  unfold MState.sayAll
  refine ⟨rfl, ?_, fun ht => ?_, fun ht => ?_⟩
  · split <;> exact hout.1
  · rw [(talkative args).1 ht]; simp [hout.2]
  · rw [talkative, Bool.not_eq_false] at ht; rw [ht]; simp [hout.2]

/-- the architectures named are those of the help -/
theorem named_row {args : Args} (hv : ¬ Invalid args) (x : Str) (h : args.arch.map lower = some x) :
    ∃ row ∈ helpTable, x ∈ row.value :: row.aliases := by
  cases ha : args.arch with
  | none => rw [ha] at h; cases h
  | some a =>
    rw [ha] at h
    simp only [Option.map_some, Option.some.injEq] at h
    apply Classical.byContradiction
    intro hn
    refine hv (.arch ⟨a, ha, fun hx => hn ?_⟩)
    rw [← h]
    exact hx

/-- C102: what the user is told when an image is rejected: exactly these lines, and the status is 1. -/
theorem C102_told (w : MWorld) (help : Str) (args : Args) (s s1 : MState) (p : Path) (e : Elf) (lines : List Str) (hv : ¬ Invalid args)
    (hb : ¬ BuildMode args) (hco : ¬ Given args.checkout) (hp : pathOf args.vmlinux = some p) (hf : w.isFile s.b.hist p = true)
    (hr : w.available s.b.hist cs!"readelf" = true) (hl : loadElf w p s = (.ok e, s1))
    (h : Rejected w.prog (args.arch.map lower) e lines) :
    (main w help args s).1 = .error (.exit 1) ∧ (main w help args s).2.out = s.out ∧
    (Talkative args → (main w help args s).2.err = s.err ++ lines) ∧ (¬ Talkative args → (main w help args s).2.err = s.err) := by
  obtain ⟨-, -, -, -, -, -, -, -, -, hsym⟩ := loadElf_ok w p s s1 e hl
  obtain ⟨x, -, h1, h2⟩ := (C102_reasons w.prog (args.arch.map lower) e (pathOf args.kdir).isSome (.error .hang) hsym
    (named_row hv) lines).2 h
  refine told_main w help args s s1 p x lines hv hb hco hp hf hr ?_ ?_
  · unfold newAnalysis
    rw [mm_bind, hl]
    simp only []
    rw [mm_bind, mm_lift, h1]
  · unfold detectedArch
    rw [hl]
    exact h2

/-- C102: an image without symbols is rejected as such: the status is 1, and two lines say why. -/
theorem C102_stripped (w : MWorld) (help : Str) (args : Args) (s s1 : MState) (p : Path) (hv : ¬ Invalid args)
    (hb : ¬ BuildMode args) (hco : ¬ Given args.checkout) (hp : pathOf args.vmlinux = some p) (hf : w.isFile s.b.hist p = true)
    (hr : w.available s.b.hist cs!"readelf" = true) (data : Bytes) (hd : ElfHeader) (hc : w.content s.b.hist p = some data)
    (hh : parseElfHeader data = .ok hd) (symOut : Str)
    (hrun : MM.ofB (ensureCommand w.toWorld [cs!"readelf", cs!"-Ws", p.str] none none) s = (.ok symOut, s1))
    (hnone : (extractSymbols hd.machine (splitLines symOut)).1 = []) :
    (main w help args s).1 = .error (.exit 1) ∧ (main w help args s).2.out = s.out ∧
    (Talkative args → (main w help args s).2.err = s.err ++ symbolLines) ∧ (¬ Talkative args → (main w help args s).2.err = s.err) := by
  have hl : loadElf w p s = (.error (.named "KernelWithoutSymbolsError"), s1) := by
    unfold loadElf
    rw [mm_bind, mm_get]
    simp only [hc]
    rw [mm_bind, mm_lift, hh]
    simp only []
    rw [mm_bind, hrun]
    simp only [hnone, List.isEmpty_nil, if_true]
    rfl
  refine told_main w help args s s1 p (.named "KernelWithoutSymbolsError") symbolLines hv hb hco hp hf hr ?_ ?_
  · unfold newAnalysis
    rw [mm_bind, hl]
  · simp [initMessages, symbolLines]

/-- C102: conversely, images that are not rejected are analysed, or the instantiation fails with an exception that is not
caught (C77). -/
theorem C102_otherwise (w : MWorld) (v : Verbosity) (n : Option Str) (p : Path) (kdir : Option Path) (s s1 : MState) (e : Elf)
    (hn : ∀ x, n = some x → ∃ row ∈ helpTable, x ∈ row.value :: row.aliases)
    (hl : loadElf w p s = (.ok e, s1)) (h : ∀ lines, ¬ Rejected w.prog n e lines) :
    ∃ res, catchInit w v n (detectedArch w p s) (newAnalysis w n p kdir) s = (res, s1) ∧
      ∀ x, res = .error x → ¬ InitError x ∧ kernelInit n (some e) kdir.isSome (.error .hang) = .error x := by
  obtain ⟨-, -, -, -, -, -, -, -, -, hsym⟩ := loadElf_ok w p s s1 e hl
  have hno : ∀ x, kernelInit n (some e) kdir.isSome (.error .hang) = .error x → ¬ InitError x := by
    intro x hx hi
    have hdet : x = .named "KernelMultiABIError" → ∃ d, (archFromVmlinux e).toOption.join = some d := by
      rintro rfl
      obtain ⟨d, hd⟩ := multi_detected hx
      exact ⟨d, by rw [hd]; rfl⟩
    obtain ⟨l, ls, h1, -⟩ := init_messages w.prog n ((archFromVmlinux e).toOption.join) hi hdet
    exact h _ ((C102_reasons w.prog n e kdir.isSome (.error .hang) hsym hn _).1 ⟨x, hi, hx, h1⟩)
  cases hk : kernelInit n (some e) kdir.isSome (.error .hang) with
  | error x =>
    have hx : newAnalysis w n p kdir s = (.error x, s1) := by
      unfold newAnalysis
      rw [mm_bind, hl]
      simp only []
      rw [mm_bind, mm_lift, hk]
    refine ⟨.error x, (C77_others w v n p kdir s s1 x).1 hx (hno x hk), ?_⟩
    intro y hy
    cases hy
    exact ⟨hno x hk, rfl⟩
  | ok a =>
    obtain ⟨ver, hver, -⟩ := kernelInit_ok hk
    have hx : newAnalysis w n p kdir s = (.ok ⟨e, a, ver⟩, s1) := by
      unfold newAnalysis
      rw [mm_bind, hl]
      simp only []
      rw [mm_bind, mm_lift, hk]
      simp only []
      rw [mm_bind, mm_lift, hver]
      rfl
    refine ⟨.ok ⟨e, a, ver⟩, ?_, fun x hx => by cases hx⟩
    unfold catchInit
    rw [hx]

/-- C102: nobody is told that the architecture "None" does not match. -/
theorem C102_never_none (prog : Str) (e : Elf) (lines : List Str) (h : Rejected prog none e lines) :
    cs!"Architecture None does not match provided vmlinux" ∉ lines := by
  cases h with
  | unsupported _ _ => simp [archHint]
  | several _ k b abis _ _ => simp
  | noVersion _ _ _ _ _ => simp [versionLines]

/-- the image of `tiny_run` with another machine, another architecture, or stripped -/
theorem tiny_rejected :
    (main (tinyWorld cs!"6.0.3" tinySymbols) [] { vmlinux := some cs!"vmlinux", arch := some cs!"X86" } {}).2.err =
      [cs!"Architecture x86 does not match provided vmlinux", cs!"See 'systrack --arch help' for more information"] ∧
    (main (tinyWorld cs!"6.0.3" []) [] { vmlinux := some cs!"vmlinux" } {}).2.err = symbolLines := by
  decide +kernel

end Verif
