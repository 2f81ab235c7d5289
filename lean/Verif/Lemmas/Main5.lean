import Verif.Lemmas.Main4
import Verif.Lemmas.Configure
/-! # Lemmas: errors of the instantiation, cleaning -/
set_option autoImplicit false

namespace Verif
open Spec

/-- a result is not this exception -/
def Avoids {α : Type} (x : Exc) (r : Res α) : Prop := r ≠ .error x

theorem Avoids.bind {α β : Type} {x : Exc} {r : Res α} {f : α → Res β} (h : Avoids x r) (hf : ∀ y, Avoids x (f y)) :
    Avoids x (r >>= f) := by
  cases r with
  | error e => intro he; injection he with he; exact h (by rw [he])
  | ok y => exact hf y

theorem avoids_ok {α : Type} (x : Exc) (y : α) : Avoids x (.ok y : Res α) := by intro h; cases h

theorem avoids_assert (b : Bool) (x : Exc) (h : x ≠ .assertion) : Avoids x (pyAssert b) := by
  unfold pyAssert
  split
  · exact avoids_ok _ _
  · intro he; injection he with he; exact h he.symm

/-- the exception for several ABIs -/
abbrev multiABI : Exc := .named "KernelMultiABIError"

theorem avoids_err {α : Type} {x e : Exc} (h : e ≠ x) : Avoids x (.error e : Res α) := by
  intro he; injection he with he; exact h he

theorem avoids_unpack (big : Bool) (n : Nat) (bs : Bytes) : Avoids multiABI (unpackUint big n bs) := by
  unfold unpackUint
  split
  · exact avoids_ok _ _
  · exact avoids_err (by decide)

theorem avoids_header (data : Bytes) : Avoids multiABI (parseElfHeader data) := by
  unfold parseElfHeader
  split
  · split
    · refine Avoids.bind ?_ fun _ => Avoids.bind ?_ fun _ => (avoids_unpack _ _ _).bind fun _ => (avoids_unpack _ _ _).bind fun _ => avoids_ok _ _
      · split
        · exact avoids_ok _ _
        · split
          · exact avoids_ok _ _
          · exact avoids_err (by decide)
      · split
        · exact avoids_ok _ _
        · split
          · exact avoids_ok _ _
          · exact avoids_err (by decide)
    · exact avoids_err (by decide)
  · exact avoids_err (by decide)

theorem avoids_load (data : Bytes) (o : Str) (ls : List Str) : Avoids multiABI (Elf.load data o ls) := by
  unfold Elf.load
  exact (avoids_header data).bind fun _ => avoids_ok _ _

theorem avoids_match (k : Kind) (e : Elf) : Avoids multiABI (k.match e) := by
  have ha : ∀ b, Avoids multiABI (pyAssert b) := fun b => avoids_assert b _ (by decide)
  cases k <;> unfold Kind.match <;> simp only []
  all_goals
    repeat' first
      | exact avoids_ok _ _
      | exact ha _
      | exact avoids_err (by decide)
      | refine Avoids.bind ?_ fun _ => ?_
      | split

theorem avoids_detect (e : Elf) (ks : List Kind) : Avoids multiABI (archFromVmlinuxGo e ks) := by
  induction ks with
  | nil => exact avoids_ok _ _
  | cons k ks ih =>
    unfold archFromVmlinuxGo
    refine (avoids_match k e).bind fun m => ?_
    split
    · exact avoids_ok _ _
    · exact ih

theorem avoids_matches (a : Arch) (e : Elf) : Avoids multiABI (a.matches e) := by
  unfold Arch.matches
  split
  all_goals first
    | exact avoids_ok _ _
    | exact (avoids_assert _ _ (by decide)).bind fun _ => avoids_ok _ _

theorem avoids_newArch (k : Kind) (v : Ver) (abi : Str) (b : Bool) : Avoids multiABI (newArch k v abi b) := by
  have ha : ∀ b, Avoids multiABI (pyAssert b) := fun b => avoids_assert b _ (by decide)
  cases k <;> simp only [newArch, newArm, newArm64, newMips, newPowerPC, newRiscV, newX86]
  all_goals
    repeat' first
      | exact avoids_ok _ _
      | exact ha _
      | exact avoids_err (by decide)
      | refine Avoids.bind ?_ fun _ => ?_
      | split

theorem avoids_fromName (n : Str) (v : Ver) : Avoids multiABI (archFromName n v) := by
  unfold archFromName
  split
  · exact avoids_err (by decide)
  · exact avoids_newArch _ _ _ _

theorem avoids_offset (secs : List Section) (a : Nat) : Avoids multiABI (vaddrToOffset secs a) := by
  induction secs with
  | nil => exact avoids_err (by decide)
  | cons x secs ih =>
    unfold vaddrToOffset
    split
    · exact avoids_ok _ _
    · exact ih

theorem avoids_decode (bs : Bytes) : Avoids multiABI (decodeUtf8 bs) := by
  cases h : decodeUtf8 bs with
  | ok _ => exact avoids_ok _ _
  | error x => rw [decodeUtf8_error bs x h]; exact avoids_err (by decide)

theorem avoids_loop (bs : Bytes) : ∀ acc, Avoids multiABI (readStrLoop acc bs) := by
  induction bs with
  | nil =>
    intro acc
    unfold readStrLoop
    split
    · exact avoids_ok _ _
    · exact avoids_err (by decide)
  | cons b bs ih =>
    intro acc
    unfold readStrLoop
    split
    · exact avoids_ok _ _
    · exact ih _

theorem avoids_version (e : Elf) (kd : Bool) (m : Res Str) : Avoids multiABI (kernelVersion (some e) kd m) := by
  unfold kernelVersion
  refine Avoids.bind ?_ fun v => ?_
  · simp only []
    unfold versionFromVmlinux
    split
    · exact avoids_ok _ _
    · split
      · refine Avoids.bind ?_ fun _ => (avoids_decode _).bind fun _ => avoids_ok _ _
        exact (avoids_offset _ _).bind fun _ => avoids_ok _ _
      · refine Avoids.bind ?_ fun _ => avoids_ok _ _
        refine (avoids_offset _ _).bind fun _ => ?_
        split
        · exact avoids_err (by decide)
        · exact (avoids_loop _ _).bind fun _ => avoids_decode _
  · split
    · exact avoids_ok _ _
    · exact avoids_err (by decide)

/-- the exception for several ABIs comes with the detected architecture -/
theorem multi_detected {n : Option Str} {e : Elf} {kd : Bool} {m : Res Str} (h : kernelInit n (some e) kd m = .error multiABI) :
    ∃ d, archFromVmlinux e = .ok (some d) := by
  cases hd : archFromVmlinux e with
  | ok o =>
    cases o with
    | some d => exact ⟨d, rfl⟩
    | none =>
      exfalso
      revert h
      change Avoids multiABI _
      unfold kernelInit
      simp only [Option.isNone_some, Bool.and_false, Bool.false_eq_true, if_false]
      split
      · exact avoids_err (by decide)
      · refine Avoids.bind ?_ fun a => (avoids_matches a e).bind fun _ => ?_
        · cases n with
          | none =>
            simp only [hd]
            exact avoids_err (by decide)
          | some n => exact (avoids_version e kd m).bind fun _ => avoids_fromName _ _
        · split
          · exact avoids_ok _ _
          · exact avoids_err (by decide)
  | error x =>
    exfalso
    have hx : x ≠ multiABI := fun hx => avoids_detect e archClasses (by rw [← hx]; exact hd)
    revert h
    change Avoids multiABI _
    unfold kernelInit
    simp only [Option.isNone_some, Bool.and_false, Bool.false_eq_true, if_false]
    split
    · exact avoids_err (by decide)
    · refine Avoids.bind ?_ fun a => (avoids_matches a e).bind fun _ => ?_
      · cases n with
        | none =>
          simp only [hd]
          exact avoids_err hx
        | some n => exact (avoids_version e kd m).bind fun _ => avoids_fromName _ _
      · split
        · exact avoids_ok _ _
        · exact avoids_err (by decide)

/-- an action never ends with this exception -/
def MAvoids {α : Type} (x : Exc) (m : MM α) : Prop := ∀ s, Avoids x (m s).1

theorem MAvoids.bind {α β : Type} {x : Exc} {m : MM α} {f : α → MM β} (h : MAvoids x m) (hf : ∀ y, MAvoids x (f y)) :
    MAvoids x (m >>= f) := by
  intro s
  have h := h s
  rw [mm_bind]
  cases he : m s with
  | mk res s' =>
    rw [he] at h
    cases res with
    | error e => intro hh; injection hh with hh; subst hh; exact h rfl
    | ok y => exact hf y s'

theorem mavoids_ensure (w : World) (argv : List Str) (cwd : Option Path) (input : Option Str) (x : Exc) (hx : x ≠ .attr)
    (hx' : ∀ n, x ≠ .exit n) : MAvoids x (MM.ofB (ensureCommand w argv cwd input)) := by
  intro s
  change Avoids x (ensureCommand w argv cwd input s.b).1
  unfold ensureCommand
  rw [bm_bind, exec_eq]
  split
  · rename_i heq
    injection heq with h1 h2
    split at h1
    · cases h1
    · injection h1 with h1
      subst h1
      simp only []
      cases w.status s.b.hist (s.b.runOf argv cwd input) with
      | none =>
        cases cwd with
        | none => exact avoids_err (fun h => hx h.symm)
        | some p => exact avoids_err (fun h => hx' _ h.symm)
      | some st =>
        by_cases h0 : st ≠ 0
        · simp only [if_pos h0]
          exact avoids_err (fun h => hx' _ h.symm)
        · simp only [if_neg h0]
          exact avoids_ok _ _
  · rename_i heq
    injection heq with h1 h2
    split at h1
    · injection h1 with h1
      subst h1
      exact avoids_err (fun h => hx' _ h.symm)
    · cases h1

theorem mavoids_loadElf (w : MWorld) (p : Path) : MAvoids multiABI (loadElf w p) := by
  unfold loadElf
  refine MAvoids.bind (fun s => avoids_ok _ _) fun s => ?_
  split
  · exact fun s => avoids_err (by decide)
  · refine MAvoids.bind (fun s => avoids_header _) fun h => ?_
    refine MAvoids.bind (mavoids_ensure _ _ _ _ _ (by decide) (by simp)) fun o => ?_
    split
    · exact fun s => avoids_err (by decide)
    · refine MAvoids.bind (mavoids_ensure _ _ _ _ _ (by decide) (by simp)) fun o' => ?_
      exact fun s => avoids_load _ _ _

theorem multi_detectedArch (w : MWorld) (n : Option Str) (p : Path) (kdir : Option Path) (s s' : MState)
    (h : newAnalysis w n p kdir s = (.error multiABI, s')) : ∃ d, detectedArch w p s = some d := by
  unfold newAnalysis at h
  rw [mm_bind] at h
  cases hl : loadElf w p s with
  | mk res s1 =>
    rw [hl] at h
    cases res with
    | error e =>
      injection h with h1 h2
      injection h1 with h1
      subst h1
      exact absurd (by rw [hl]) (mavoids_loadElf w p s)
    | ok e =>
      simp only [] at h
      rw [mm_bind, mm_lift] at h
      cases hk : kernelInit n (some e) kdir.isSome (.error .hang) with
      | error x =>
        rw [hk] at h
        injection h with h1 h2
        injection h1 with h1
        subst h1
        obtain ⟨d, hd⟩ := multi_detected hk
        refine ⟨d, ?_⟩
        unfold detectedArch
        rw [hl]
        simp only [hd]
        rfl
      | ok a =>
        rw [hk] at h
        simp only [] at h
        rw [mm_bind, mm_lift] at h
        cases hv : kernelVersion (some e) kdir.isSome (.error .hang) with
        | error x =>
          rw [hv] at h
          injection h with h1 h2
          injection h1 with h1
          subst h1
          exact absurd hv (avoids_version _ _ _)
        | ok v => rw [hv] at h; injection h with h1; cases h1

theorem init_messages {e : Exc} (prog : Str) (n : Option Str) (d : Option (Kind × Bool × List Str)) (h : InitError e)
    (hd : e = multiABI → ∃ x, d = some x) :
    ∃ (l : Str) (ls : List Str), initMessages prog n d e = some (l :: ls) ∧ l ≠ [] := by
  rcases h with h | h | h | h
  · subst h; exact ⟨_, _, rfl, by simp⟩
  · subst h
    refine ⟨_, _, rfl, ?_⟩
    cases n <;> cases d <;> simp
  · subst h; exact ⟨_, _, rfl, by simp⟩
  · subst h
    obtain ⟨⟨k, b, abis⟩, rfl⟩ := hd rfl
    exact ⟨_, _, rfl, by simp⟩

theorem init_messages_none {e : Exc} (prog : Str) (n : Option Str) (d : Option (Kind × Bool × List Str)) (h : ¬ InitError e) :
    initMessages prog n d e = none := by
  unfold InitError at h
  simp only [not_or] at h
  unfold initMessages
  rw [if_neg h.1, if_neg h.2.1, if_neg h.2.2.1, if_neg h.2.2.2]

/-! ## Cleaning -/

theorem ensured_cases (o : Option Nat) : (ensured o = .ok () ∧ o = some 0) ∨ ensured o = .error (.exit 1) ∨ ensured o = .error (.exit 127) := by
  unfold ensured
  split <;> simp

theorem newBuilder_spec (w : MWorld) (row : HelpRow) (hrow : row ∈ helpTable) (n : Str) (hn : n ∈ row.value :: row.aliases)
    (k : Path) (o : Option Path) (cross : Str) (s : MState) :
    ∃ s', s'.out = s.out ∧
      ((∃ b, newBuilder w (some n) (some k) o cross s = (.ok b, s') ∧ b.kdir = k ∧ b.arch.kind = row.kind) ∨
       (∃ x, newBuilder w (some n) (some k) o cross s = (.error x, s') ∧
        (x = .exit 1 ∨ x = .exit 127 ∨ x = .named "KernelVersionError" ∨ x = .assertion ∧ TooOld w s.b.hist k row))) := by
  refine ⟨(newBuilder w (some n) (some k) o cross s).2, mute_newBuilder _ _ _ _ _ s, ?_⟩
  generalize hres : newBuilder w (some n) (some k) o cross s = res
  unfold newBuilder at hres
  simp only [] at hres
  rw [mm_bind] at hres
  unfold firstVersion MM.ofB at hres
  simp only [bm_bind, ensureCommand_eq] at hres
  by_cases hi : w.interrupt = some (.run s.b.hist.length)
  · simp only [if_pos hi] at hres
    subst hres
    exact Or.inr ⟨_, rfl, Or.inl rfl⟩
  simp only [if_neg hi] at hres
  generalize hr : s.b.runOf [cs!"make", cs!"kernelversion"] (some k) none = r at hres
  rcases ensured_cases (w.status s.b.hist r) with ⟨he, -⟩ | he | he
  · simp only [he] at hres
    cases hv : versionFromStr (w.output s.b.hist r) with
    | none =>
      simp only [hv] at hres
      subst hres
      exact Or.inr ⟨_, rfl, Or.inr (Or.inr (Or.inl rfl))⟩
    | some v =>
      simp only [hv, bm_bind, bm_modify, bm_pure] at hres
      rw [mm_bind, mm_get] at hres
      simp only [] at hres
      rw [mm_bind, mm_lift] at hres
      unfold archFromNameSt createArch at hres
      simp only [supportedArchs_rows row hrow n hn] at hres
      obtain ⟨h1, h2⟩ := newArch_row row hrow v
      cases hl : verLe (minVersion row.kind row.abi row.kernel32) v with
      | true =>
        obtain ⟨a, ha, hra⟩ := h1 hl
        simp only [ha, bind, Except.bind] at hres
        subst hres
        exact Or.inl ⟨_, rfl, rfl, hra.1⟩
      | false =>
        simp only [h2 hl, bind, Except.bind] at hres
        subst hres
        refine Or.inr ⟨_, rfl, Or.inr (Or.inr (Or.inr ⟨rfl, r, v, by rw [← hr]; rfl, by rw [← hr]; rfl, hv, ?_⟩))⟩
        intro hle
        rw [(verLe_iff _ _).2 hle] at hl
        cases hl
  · simp only [he] at hres
    subst hres
    exact Or.inr ⟨_, rfl, Or.inl rfl⟩
  · simp only [he] at hres
    subst hres
    exact Or.inr ⟨_, rfl, Or.inr (Or.inl rfl)⟩

/-- the outcome of `--clean` -/
structure CleanDone (w : MWorld) (k : Path) (row : HelpRow) (hist : List Run) (res : Res Nat) (s' : MState) : Prop where
  status : (∃ c, ExitStatus res c ∧ (c = 0 ∨ c = 1 ∨ c = 127)) ∨ (res = .error .assertion ∧ TooOld w hist k row)
  cleaned : ExitStatus res 0 → ∃ h0 r, s'.b.hist = h0 ++ [r] ∧ MakeCall k row.kind.name cs!"distclean" r ∧ w.status h0 r = some 0

theorem cleanDone_ok {w : MWorld} {k : Path} {row : HelpRow} {hist : List Run} {c : Nat} {s' : MState} (h : c = 1 ∨ c = 127) :
    CleanDone w k row hist (.ok c) s' := by
  refine ⟨Or.inl ⟨c, Or.inl rfl, Or.inr h⟩, ?_⟩
  rintro (h' | h')
  · injection h' with h'; omega
  · cases h'

theorem cleanDone_exit {w : MWorld} {k : Path} {row : HelpRow} {hist : List Run} {c : Nat} {s' : MState} (h : c = 1 ∨ c = 127) :
    CleanDone w k row hist (.error (.exit c)) s' := by
  refine ⟨Or.inl ⟨c, Or.inr rfl, Or.inr h⟩, ?_⟩
  rintro (h' | h')
  · cases h'
  · injection h' with h'; injection h' with h'; omega

theorem clean_spec (w : MWorld) (v : Verbosity) (args : Args) (row : HelpRow) (hrow : row ∈ helpTable) (n : Str)
    (hn : n ∈ row.value :: row.aliases) (k : Path) (hk : pathOf args.kdir = some k) (hc : args.config = false) (hb : args.build = false)
    (s : MState) : CleanDone w k row s.b.hist (mainBuild w v args (some n) s).1 (mainBuild w v args (some n) s).2 := by
  unfold mainBuild
  simp only [hc, hb, Bool.or_self, Bool.false_eq_true, if_false, hk]
  rw [mm_bind, mm_get]
  simp only []
  cases outState w s.b.hist (pathOf args.out) with
  | notADirectory => simp only []; rw [mm_bind, eprint_eq]; exact cleanDone_ok (Or.inl rfl)
  | mkdirFails reason => simp only []; rw [mm_bind, eprint_eq]; exact cleanDone_ok (Or.inl rfl)
  | usable =>
    simp only []
    rw [mm_bind, mm_modify]
    simp only []
    by_cases hg : (!w.available s.b.hist (args.cross.getD [] ++ cs!"gcc")) = true
    · rw [if_pos hg, mm_bind, eprint_eq]
      simp only []
      rw [mm_bind, eprint_eq]
      exact cleanDone_ok (Or.inr rfl)
    · rw [if_neg hg, mm_bind, mm_pure]
      simp only []
      generalize hs : ({ s with dirs := s.dirs ++ (pathOf args.out).toList } : MState) = s0
      have e0 : s0.b = s.b := by rw [← hs]
      rw [← e0]
      obtain ⟨s1, -, h | h⟩ := newBuilder_spec w row hrow n hn k (pathOf args.out) (args.cross.getD []) s0
      · obtain ⟨b, h1, h2, h3⟩ := h
        rw [mm_bind]
        unfold catchInit
        rw [h1]
        simp only []
        rw [mm_bind, eprint_eq]
        simp only []
        generalize s1.say v cs!"Cleaning kernel sources" = s2
        rw [mm_bind]
        unfold MM.ofB clean
        simp only [bm_bind, bm_modify, make_eq]
        split
        · rename_i heq
          split at heq
          · injection heq with heq; cases heq
          · rename_i hne
            injection heq with g1 g2
            subst g2
            rw [mm_bind, eprint_eq]
            refine ⟨Or.inl ⟨0, Or.inl rfl, Or.inl rfl⟩, fun _ => ?_⟩
            refine ⟨_, _, by simp only [mm_pure, say_b]; rfl, ?_, ?_⟩
            · rw [← h2, ← h3]; exact makeCall w.toWorld b _ _ _
            · rcases ensured_cases (w.status s2.b.hist (({ s2.b with version := none } : BState).runOf (makeArgv w.toWorld b cs!"distclean") (some b.kdir) none)) with ⟨-, he⟩ | he | he
              · exact he
              · rw [he] at g1; cases g1
              · rw [he] at g1; cases g1
        · rename_i heq
          split at heq
          · injection heq with g1 g2
            injection g1 with g1
            subst g1
            exact cleanDone_exit (Or.inl rfl)
          · injection heq with g1 g2
            rcases ensured_cases (w.status s2.b.hist (({ s2.b with version := none } : BState).runOf (makeArgv w.toWorld b cs!"distclean") (some b.kdir) none)) with ⟨he, -⟩ | he | he
            · rw [he] at g1; cases g1
            · rw [he] at g1; injection g1 with g1; subst g1; exact cleanDone_exit (Or.inl rfl)
            · rw [he] at g1; injection g1 with g1; subst g1; exact cleanDone_exit (Or.inr rfl)
      · obtain ⟨x, h1, hx⟩ := h
        rw [mm_bind]
        unfold catchInit
        rw [h1]
        simp only []
        rcases hx with rfl | rfl | rfl | ⟨rfl, hold⟩
        · rw [init_messages_none _ _ _ (by unfold InitError; decide)]; exact cleanDone_exit (Or.inl rfl)
        · rw [init_messages_none _ _ _ (by unfold InitError; decide)]; exact cleanDone_exit (Or.inr rfl)
        · obtain ⟨l, ls, hl, -⟩ := init_messages (e := .named "KernelVersionError") w.prog (some n) none (Or.inl rfl) (fun h => absurd h (by decide))
          rw [hl]
          simp only []
          rw [mm_bind, eprints_eq]
          exact cleanDone_exit (Or.inl rfl)
        · rw [init_messages_none _ _ _ (by unfold InitError; decide)]
          refine ⟨Or.inr ⟨rfl, hold⟩, ?_⟩
          rintro (h | h) <;> cases h

end Verif
