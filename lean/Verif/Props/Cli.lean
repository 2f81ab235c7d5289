import Verif.Lemmas.Cli3
import Verif.Props.Main
/-! # Command lines (C94) -/
set_option autoImplicit false

namespace Verif
open Spec

deriving instance DecidableEq for Args

/-- C94: a command line is accepted exactly when it is a sequence of options and at most one VMLINUX said properly, and then
what is run is what it says. -/
theorem C94_command_line (argv : List Str) (a : Args) :
    parseArgs argv = .ok a ↔ ∃ l : Line, l.Ok digitZeros ∧ l.args = argv ∧ l.meaning = a := by
  constructor
  · intro h
    unfold parseArgs at h
    simp only [bind, Except.bind] at h
    split at h
    · cases h
    next ts hts =>
    split at h
    · cases h
    next r hr =>
    split at h
    · next hex =>
      cases h
      obtain ⟨a, ex⟩ := r
      cases hex
      obtain ⟨items, ending, h1, h2, h3⟩ := line_backward _ argv ts true {} a hts (fun _ => rfl) hr
      refine ⟨⟨items, ending⟩, ?_, h2, ?_⟩
      · cases ending <;> simpa [LineOk, Line.Ok] using h1
      · cases ending <;> exact h3
    · cases h
  · rintro ⟨⟨items, ending⟩, h1, h2, h3⟩
    have hok : LineOk true items ending := by cases ending <;> simpa [LineOk, Line.Ok] using h1
    obtain ⟨ts, hts, _, _, hloop⟩ := line_forward ending items true {} hok (fun _ => rfl)
    have harg : lineArgs items ending = argv := h2
    rw [harg] at hts
    unfold parseArgs
    simp only [hts, hloop ts.length (Nat.le_refl _), bind, Except.bind, if_true]
    rw [← h3]
    cases ending <;> rfl

/-- letters, abbreviations, values attached or not, the image in the middle -/
example : parseArgs [cs!"-bqqk", cs!"linux", cs!"--ar=x86-64", cs!"-xarm-", cs!"vmlinux", cs!"-f=json", cs!"--abs"] =
    .ok { vmlinux := some cs!"vmlinux", kdir := some cs!"linux", arch := some cs!"x86-64", build := true, cross := some cs!"arm-",
          format := .json, absolutePaths := true, quiet := 2 } := by decide +kernel

/-- the line that says it -/
def exampleLine : Line where
  items := [.group [.build, .quiet, .quiet] (some (.kdir, cs!"linux", .detached)), .setting .arch cs!"--ar" cs!"x86-64" true,
    .group [] (some (.cross, cs!"arm-", .attached)), .vmlinux cs!"vmlinux", .group [] (some (.format, cs!"json", .equals)),
    .switch .absolutePaths cs!"--abs"]

example : exampleLine.Ok digitZeros ∧ exampleLine.args =
      [cs!"-bqqk", cs!"linux", cs!"--ar=x86-64", cs!"-xarm-", cs!"vmlinux", cs!"-f=json", cs!"--abs"] ∧
    exampleLine.meaning.quiet = 2 := by
  refine ⟨⟨?_, (by decide : List.countP CliItem.isVmlinux exampleLine.items ≤ 1)⟩, by decide, by decide⟩
  intro i hi
  simp [exampleLine] at hi
  rcases hi with rfl | rfl | rfl | rfl | rfl | rfl
  · exact ⟨by decide, by decide, (fun h => by cases h), .inl (by decide)⟩
  · exact ⟨⟨by decide, by decide +kernel⟩, (fun h => by cases h), (fun h => by cases h)⟩
  · exact ⟨by decide, by decide, (fun h => by cases h), by decide, by decide⟩
  · exact .inl (by decide)
  · exact ⟨by decide, by decide, fun _ => by decide, trivial⟩
  · exact ⟨by decide, by decide +kernel⟩

/-- a `--` after the image and an option is refused, an image and a `--` are not -/
example : parseArgs [cs!"vmlinux", cs!"-q", cs!"--"] = .error .usage ∧ parseArgs [cs!"-q", cs!"vmlinux", cs!"--"] =
    .ok { vmlinux := some cs!"vmlinux", quiet := 1 } ∧ parseArgs [cs!"-q", cs!"--", cs!"-x"] = .ok { vmlinux := some cs!"-x", quiet := 1 } := by
  decide +kernel

/-- C94: a line says one thing only. -/
theorem C94_one_meaning (l l' : Line) (h : l.Ok digitZeros) (h' : l'.Ok digitZeros) (e : l.args = l'.args) : l.meaning = l'.meaning := by
  have h1 := (C94_command_line l.args l.meaning).mpr ⟨l, h, rfl, rfl⟩
  have h2 := (C94_command_line l.args l'.meaning).mpr ⟨l', h', e.symm, rfl⟩
  rw [h1] at h2
  exact Except.ok.inj h2

/-- two ways to read `-vq`, one meaning -/
example : (⟨[.group [.verbose, .quiet] none], .nothing⟩ : Line).Ok digitZeros ∧
    (⟨[.group [.verbose, .quiet] none], .nothing⟩ : Line).args = [cs!"-vq"] := by
  refine ⟨⟨?_, (by decide : List.countP CliItem.isVmlinux [CliItem.group [.verbose, .quiet] none] ≤ 1)⟩, by decide⟩
  intro i hi
  simp at hi
  subst hi
  exact ⟨by decide, by simp⟩

/-- C94: `-h`, `--help` or an abbreviation ends the program with the help, whatever follows, unless an ambiguous option does. -/
theorem C94_help (items : List CliItem) (hok : ∀ i ∈ items, i.Ok digitZeros) (hcount : items.countP CliItem.isVmlinux ≤ 1) (s : Str)
    (hs : s = cs!"-h" ∨ Abbreviates s cs!"--help") (rest : List Str) (hrest : ∀ x ∈ beforeDashes rest, ¬ Ambiguous x) :
    parseArgs (items.flatMap CliItem.args ++ s :: rest) = .error .help := by
  have hst : ∀ a, takeAction a (Opt.help, none) = .error Stop.help := fun a => rfl
  rcases hs with rfl | hs
  · have hp := parseOptional_reads _ _ (ReadsAs.letter 'h' .help (by decide +kernel))
    exact ending_option .help .help hst rfl _ _ (dashes_not_read _ _ hp) hp rfl rfl items hok hcount rest hrest
  · have hp := parseOptional_reads _ _ (ReadsAs.long s cs!"--help" .help (by decide +kernel) (by decide +kernel) hs)
    exact ending_option .help .help hst rfl _ _ (dashes_not_read _ _ hp) hp rfl rfl items hok hcount rest hrest

example : Abbreviates cs!"--h" cs!"--help" ∧ parseArgs [cs!"-b", cs!"--h", cs!"a", cs!"b"] = .error .help :=
  ⟨⟨by decide, by decide +kernel⟩, by decide +kernel⟩

/-- C94: likewise for the version. -/
theorem C94_version (items : List CliItem) (hok : ∀ i ∈ items, i.Ok digitZeros) (hcount : items.countP CliItem.isVmlinux ≤ 1) (s : Str)
    (hs : s = cs!"-V" ∨ Abbreviates s cs!"--version") (rest : List Str) (hrest : ∀ x ∈ beforeDashes rest, ¬ Ambiguous x) :
    parseArgs (items.flatMap CliItem.args ++ s :: rest) = .error .version := by
  have hst : ∀ a, takeAction a (Opt.version, none) = .error Stop.version := fun a => rfl
  rcases hs with rfl | hs
  · have hp := parseOptional_reads _ _ (ReadsAs.letter 'V' .version (by decide +kernel))
    exact ending_option .version .version hst rfl _ _ (dashes_not_read _ _ hp) hp rfl rfl items hok hcount rest hrest
  · have hp := parseOptional_reads _ _ (ReadsAs.long s cs!"--version" .version (by decide +kernel) (by decide +kernel) hs)
    exact ending_option .version .version hst rfl _ _ (dashes_not_read _ _ hp) hp rfl rfl items hok hcount rest hrest

example : Abbreviates cs!"--vers" cs!"--version" ∧ ¬ Abbreviates cs!"--ver" cs!"--version" :=
  ⟨⟨by decide, by decide +kernel⟩, fun h => by have := h.2 cs!"--verbose" (by decide +kernel) (by decide); simp at this⟩

/-- C94: an argument that begins like several options is refused, wherever it is before `--`. -/
theorem C94_ambiguous (argv : List Str) (s : Str) (hs : s ∈ beforeDashes argv) (ha : Ambiguous s) : parseArgs argv = .error .usage := by
  unfold parseArgs
  simp only [classify_ambiguous argv s hs ha, bind, Except.bind]

example : Ambiguous cs!"--c=v5.1" ∧ cs!"--c=v5.1" ∈ beforeDashes [cs!"-h", cs!"--c=v5.1", cs!"--", cs!"x"] := by
  refine ⟨⟨by decide, cs!"--config", by decide +kernel, cs!"--clean", by decide +kernel, by decide, by decide, by decide⟩, by decide⟩

/-- C94: the help is shown only when some argument before `--` asks for it, -/
theorem C94_help_asked (argv : List Str) (h : parseArgs argv = .error .help) : ∃ s ∈ beforeDashes argv, Names cs!"--help" 'h' s := by
  obtain ⟨s, hs, ⟨o, x⟩, b, ht, hn⟩ := parse_stop argv .help h (by decide)
  have ho : o = .help := by
    cases o <;> cases x <;> simp [takeAction] at ht <;> first | rfl | (split at ht <;> cases ht)
  subst ho
  refine ⟨s, hs, ?_⟩
  rcases hn rfl with ⟨full, hf, hd, ha⟩ | ⟨u, l, v, e, hu, hd⟩
  · have : ∀ f ∈ longNames, dget f optionStrings = some .help → f = cs!"--help" := by decide +kernel
    rw [this full hf hd] at ha
    exact .inl ha
  · have : ∀ c ∈ letters, dget ['-', c] optionStrings = some .help → c = 'h' := by decide +kernel
    rw [this l (letter_mem l _ hd) hd] at e
    exact .inr ⟨u, v, e, hu⟩

example : parseArgs [cs!"-kx", cs!"-bqhv"] = .error .help ∧ parseArgs [cs!"-kh"] = .ok { kdir := some cs!"h" } := by decide +kernel

/-- C94: and so the version. -/
theorem C94_version_asked (argv : List Str) (h : parseArgs argv = .error .version) :
    ∃ s ∈ beforeDashes argv, Names cs!"--version" 'V' s := by
  obtain ⟨s, hs, ⟨o, x⟩, b, ht, hn⟩ := parse_stop argv .version h (by decide)
  have ho : o = .version := by
    cases o <;> cases x <;> simp [takeAction] at ht <;> first | rfl | (split at ht <;> cases ht)
  subst ho
  refine ⟨s, hs, ?_⟩
  rcases hn rfl with ⟨full, hf, hd, ha⟩ | ⟨u, l, v, e, hu, hd⟩
  · have : ∀ f ∈ longNames, dget f optionStrings = some .version → f = cs!"--version" := by decide +kernel
    rw [this full hf hd] at ha
    exact .inl ha
  · have : ∀ c ∈ letters, dget ['-', c] optionStrings = some .version → c = 'V' := by decide +kernel
    rw [this l (letter_mem l _ hd) hd] at e
    exact .inr ⟨u, v, e, hu⟩

example : parseArgs [cs!"-qV", cs!"-h"] = .error .version := by decide +kernel

/-- C94: a proper line runs the program with what it says; any other ends it before anything is done, with status 0 (the help or
the version asked for) or 2. -/
theorem C94_run (w : MWorld) (help : Str) (argv : List Str) (s : MState) :
    (∀ l : Line, l.Ok digitZeros → l.args = argv → systrack w help argv s = main w help l.meaning s) ∧
    ((¬ ∃ l : Line, l.Ok digitZeros ∧ l.args = argv) →
      (systrack w help argv s = (.error (.exit 0), s) ∧
        ∃ x ∈ beforeDashes argv, Names cs!"--help" 'h' x ∨ Names cs!"--version" 'V' x) ∨
      systrack w help argv s = (.error (.exit 2), s)) := by
  constructor
  · intro l hok harg
    have := (C94_command_line argv l.meaning).mpr ⟨l, hok, harg, rfl⟩
    unfold systrack
    rw [this]
  · intro hno
    unfold systrack
    cases hp : parseArgs argv with
    | ok a =>
      obtain ⟨l, h1, h2, _⟩ := (C94_command_line argv a).mp hp
      exact absurd ⟨l, h1, h2⟩ hno
    | error e =>
      cases e with
      | help =>
        obtain ⟨x, hx, hn⟩ := C94_help_asked argv hp
        exact .inl ⟨rfl, x, hx, .inl hn⟩
      | version =>
        obtain ⟨x, hx, hn⟩ := C94_version_asked argv hp
        exact .inl ⟨rfl, x, hx, .inr hn⟩
      | usage => exact .inr rfl

/-- no line says `--kdir` without a directory -/
example : ¬ ∃ l : Line, l.Ok digitZeros ∧ l.args = [cs!"-q", cs!"--kdir"] := by
  rintro ⟨l, h1, h2⟩
  have := (C94_command_line _ _).mpr ⟨l, h1, h2, rfl⟩
  have h : parseArgs [cs!"-q", cs!"--kdir"] = .error .usage := by decide +kernel
  rw [h] at this
  cases this

end Verif
