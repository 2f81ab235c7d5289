import Verif.Lemmas.Stderr3
import Verif.Props.Main
/-! # What is written by actions that succeed -/
set_option autoImplicit false
set_option maxRecDepth 8000

namespace Verif
open Spec

theorem rm_bind_ok {α β : Type} (m : RM α) (f : α → RM β) (s : MState) (y : β) (h : ((m >>= f) s).2.1 = .ok y) :
    ∃ x s', (m s).2 = (.ok x, s') ∧ (m >>= f) s = ((m s).1 ++ (f x s').1, (f x s').2) := by
  change (RM.bind m f s).2.1 = _ at h
  show ∃ x s', _ ∧ RM.bind m f s = _
  unfold RM.bind at h ⊢
  rcases hr : (m s).2 with ⟨e | x, s'⟩
  · rw [hr] at h; cases h
  · exact ⟨x, s', rfl, rfl⟩

theorem rb_bind_ok {α β : Type} (m : RB α) (f : α → RB β) (s : BState) (y : β) (h : ((m >>= f) s).2.1 = .ok y) :
    ∃ x s', (m s).2 = (.ok x, s') ∧ (m >>= f) s = ((m s).1 ++ (f x s').1, (f x s').2) := by
  change (RB.bind m f s).2.1 = _ at h
  show ∃ x s', _ ∧ RB.bind m f s = _
  unfold RB.bind at h ⊢
  rcases hr : (m s).2 with ⟨e | x, s'⟩
  · rw [hr] at h; cases h
  · exact ⟨x, s', rfl, rfl⟩

theorem execR_quiet (w : World) (t : Telling) (argv : List Str) (cwd : Option Path) (input : Option Str) (s : BState)
    {o : Outcome × Bool} (h : (execR w t argv cwd input s).2.1 = .ok o) : (execR w t argv cwd input s).1 = [] := by
  have key : ∀ p : Point, ∀ (s' : BState) (y : Outcome × Bool), ((tickR w p >>= fun _ => RB.pure y) s').2.1 = .ok o →
      ((tickR w p >>= fun _ => RB.pure y) s').1 = [] := by
    intro p s' y hy
    obtain ⟨u, s2, g1, g2⟩ := rb_bind_ok _ _ _ _ hy
    rw [g2]
    unfold tickR at g1 ⊢
    split at g1
    · cases congrArg Prod.fst g1
    · next hi => rw [if_neg hi]; rfl
  exact key (.run s.hist.length) _ (outcomeOf w t s.hist ⟨argv, cwd, input, false, s.makefile⟩) h

/-- a success writes exactly these -/
theorem ensure_quiet (w : World) (t : Telling) (cmd : CmdArg) (cwd : Option Path) (input : Option Str) (console : Bool) (s : BState)
    (x : Str) (h : (ensureCommandR w t cmd cwd input console s).2.1 = .ok x) : (ensureCommandR w t cmd cwd input console s).1 = [] := by
  unfold ensureCommandR at h ⊢
  obtain ⟨o, s1, h1, h2⟩ := rb_bind_ok _ _ _ _ h
  rw [h2] at h ⊢
  have he : (execR w t cmd.words cwd input s).1 = [] := execR_quiet w t _ _ _ _ (congrArg Prod.fst h1 :)
  rw [he]
  obtain ⟨o, ex⟩ := o
  have h : (ensureTold t.printable cmd cwd ex console o).2 = .ok x := h
  show [] ++ (criticals (ensureTold t.printable cmd cwd ex console o).1 ++ []) = []
  have : (ensureTold t.printable cmd cwd ex console o).1 = [] := by
    revert h
    unfold ensureTold doPopen
    rcases o with _ | _ | _ | ⟨st, out, err⟩
    · rcases cwd with _ | p
      · simp
      · simp only
        cases ex
        · simp
        · cases cmd.first with
          | error e => simp
          | ok c => simp
    · simp
    · simp
    · simp only
      split
      · intro h; cases h
      · intro _; rfl
  rw [this]
  rfl

theorem ofB_quiet (w : World) (t : Telling) (cmd : CmdArg) (cwd : Option Path) (input : Option Str) (console : Bool) (s s' : MState)
    (x : Str) (h : (RM.ofB (ensureCommandR w t cmd cwd input console) s).2 = (.ok x, s')) :
    (RM.ofB (ensureCommandR w t cmd cwd input console) s).1 = [] :=
  ensure_quiet w t cmd cwd input console s.b x (congrArg Prod.fst h :)

section
variable (w : MWorld) (t : Telling) (v : Verbosity)

theorem ident_magic (data : Bytes) (h : ElfHeader) (hp : parseElfHeader data = .ok h) : identEvents data = magicSaid data := by
  unfold parseElfHeader at hp
  split at hp
  · next hl =>
    have hc : headerCalls data = [] := by
      unfold headerCalls
      split at hp
      · next c d hc hd =>
        simp only [hc, hd]
        by_cases h1 : c = 1 ∨ c = 2
        · rw [if_pos h1]
          by_cases h2 : d = 1 ∨ d = 2
          · rw [if_pos h2]
          · exfalso
            push Not at h2
            rw [if_neg h2.1, if_neg h2.2] at hp
            revert hp
            rcases h1 with rfl | rfl <;> exact fun hp => by cases hp
        · exfalso
          push Not at h1
          rw [if_neg h1.1, if_neg h1.2] at hp
          cases hp
      · cases hp
    unfold identEvents magicSaid
    rw [if_pos hl, hc]
    by_cases hm : data.take 4 = [0x7f, 0x45, 0x4c, 0x46]
    · rw [if_neg (not_not.2 hm), if_pos hm]; rfl
    · rw [if_pos hm, if_neg hm]; rfl
  · cases hp

theorem load_events (vmlinux : Path) (s s' : MState) (e : Elf) (h : (loadElfR w t vmlinux s).2 = (.ok e, s')) :
    ∃ data, w.content s.b.hist vmlinux = some data ∧ (loadElfR w t vmlinux s).1 = magicSaid data := by
  unfold loadElfR at h ⊢
  obtain ⟨a, s1, h1, h2⟩ := rm_bind_ok _ _ _ _ (congrArg Prod.fst h)
  cases h1
  rw [h2] at h ⊢
  rcases hc : w.content s.b.hist vmlinux with _ | data
  · simp only [hc] at h; cases congrArg Prod.fst h
  · refine ⟨data, rfl, ?_⟩
    simp only [hc] at h ⊢
    obtain ⟨a, s1, h1, h2⟩ := rm_bind_ok _ _ _ _ (congrArg Prod.fst h)
    cases h1
    rw [h2] at h ⊢
    obtain ⟨hd, s1, h1, h2⟩ := rm_bind_ok _ _ _ _ (congrArg Prod.fst h)
    have hp : parseElfHeader data = .ok hd := congrArg Prod.fst h1
    have hs : s = s1 := congrArg Prod.snd h1
    subst hs
    rw [h2] at h ⊢
    obtain ⟨so, s1, h1, h2⟩ := rm_bind_ok _ _ _ _ (congrArg Prod.fst h)
    rw [h2] at h ⊢
    have q1 := ofB_quiet _ _ _ _ _ _ _ _ _ h1
    rw [q1]
    split at h
    · cases congrArg Prod.fst h
    · next hne =>
      rw [if_neg hne]
      obtain ⟨so, s1, h1, h2⟩ := rm_bind_ok _ _ _ _ (congrArg Prod.fst h)
      rw [h2]
      have q1 := ofB_quiet _ _ _ _ _ _ _ _ _ h1
      rw [q1, ident_magic data hd hp]
      show magicSaid data ++ ([] ++ ([] ++ ([] ++ []))) = _
      simp

theorem analysis_events (n : Option Str) (vmlinux : Path) (kdir : Option Path) (s s' : MState) (k : Analysis)
    (h : (newAnalysisR w t n vmlinux kdir s).2 = (.ok k, s')) :
    ∃ data, w.content s.b.hist vmlinux = some data ∧ (newAnalysisR w t n vmlinux kdir s).1 = magicSaid data := by
  unfold newAnalysisR at h ⊢
  obtain ⟨e, s1, h1, h2⟩ := rm_bind_ok _ _ _ _ (congrArg Prod.fst h)
  rw [h2] at h ⊢
  obtain ⟨data, hd, he⟩ := load_events w t vmlinux _ _ _ h1
  refine ⟨data, hd, ?_⟩
  obtain ⟨a, s2, h3, h4⟩ := rm_bind_ok _ _ _ _ (congrArg Prod.fst h)
  rw [h4] at h ⊢
  obtain ⟨ver, s3, h5, h6⟩ := rm_bind_ok _ _ _ _ (congrArg Prod.fst h)
  rw [h6, he]
  show magicSaid data ++ ([] ++ ([] ++ [])) = _
  simp

theorem catchR_ok {α : Type} (n : Option Str) (d : Option (Kind × Bool × List Str)) (m : RM α) (s s' : MState) (x : α)
    (h : (catchInitR w v n d m s).2 = (.ok x, s')) : (m s).2 = (.ok x, s') ∧ (catchInitR w v n d m s).1 = (m s).1 := by
  unfold catchInitR at h ⊢
  rcases hr : (m s).2 with ⟨e | y, s1⟩
  · exfalso
    rw [hr] at h
    simp only at h
    rcases hi : initMessages w.prog n d e with _ | ls
    · rw [hi] at h; cases congrArg Prod.fst h
    · rw [hi] at h
      obtain ⟨u, s2, -, h2⟩ := rm_bind_ok _ _ _ _ (congrArg Prod.fst h)
      simp only at h
      rw [h2] at h
      cases congrArg Prod.fst h
  · rw [hr] at h
    exact ⟨h, rfl⟩

theorem git_quiet (kdir : Option Path) (ref : Str) (s s' : MState) (h : (gitCheckoutR w t kdir ref s).2 = (.ok (), s')) :
    (gitCheckoutR w t kdir ref s).1 = [] := by
  unfold gitCheckoutR at h ⊢
  obtain ⟨x, s1, h1, h2⟩ := rm_bind_ok _ _ _ _ (congrArg Prod.fst h)
  rw [h2, ofB_quiet _ _ _ _ _ _ _ _ _ h1]
  rfl

theorem eprint_events (msg : Str) (s : MState) : (eprintR v msg s).1 = [.say msg] := rfl

theorem auto_events (args : Args) (k : Analysis) (s s' : MState) (h : (autoCheckoutR w t v args k s).2 = (.ok (), s')) :
    (args.checkout ≠ some cs!"auto" ∧ (autoCheckoutR w t v args k s).1 = []) ∨
    (args.checkout = some cs!"auto" ∧ ∃ tag, versionTag k.version = .ok tag ∧
      (autoCheckoutR w t v args k s).1 = [.say (cs!"Checking out to " ++ tag)]) := by
  unfold autoCheckoutR at h ⊢
  by_cases hc : args.checkout = some cs!"auto"
  · rw [if_pos hc] at h ⊢
    right
    refine ⟨hc, ?_⟩
    obtain ⟨tag, s1, h1, h2⟩ := rm_bind_ok _ _ _ _ (congrArg Prod.fst h)
    refine ⟨tag, congrArg Prod.fst h1, ?_⟩
    rw [h2] at h ⊢
    obtain ⟨u, s2, h3, h4⟩ := rm_bind_ok _ _ _ _ (congrArg Prod.fst h)
    rw [h4] at h ⊢
    rw [git_quiet w t _ _ _ _ h]
    rfl
  · rw [if_neg hc]
    exact .inl ⟨hc, rfl⟩

theorem report_events (args : Args) (k : Analysis) (vmlinux : Path) (s s' : MState)
    (h : (mainReportR w t v args k vmlinux s).2 = (.ok 0, s')) :
    ∃ found scs, extractSyscalls k.arch k.elf k.version (kenvOf w s.b.hist k.arch k.elf vmlinux (pathOf args.kdir) (pathOf args.remap)) = .ok found ∧
      found ≠ [] ∧ mapRes (relativize (pathOf args.kdir) args.absolutePaths) found = .ok scs ∧ s.b.hist = s'.b.hist ∧
      (mainReportR w t v args k vmlinux s).1 =
        (wholeL t.insn t.symbol (surroundingsOf w s.b.hist vmlinux (pathOf args.kdir) (pathOf args.remap)) k.arch k.elf k.version).1.map LogCall.event ++
        (Summary (pathOf args.kdir).isSome scs).map .say := by
  have hrun := extractR_run w t k vmlinux (pathOf args.kdir) (pathOf args.remap) s
  unfold mainReportR at h ⊢
  obtain ⟨found, s1, h1, h2⟩ := rm_bind_ok _ _ _ _ (congrArg Prod.fst h)
  rw [h2] at h ⊢
  have hx := hrun.symm.trans h1
  have hs : s = s1 := congrArg Prod.snd hx
  subst hs
  have hx : extractSyscalls _ _ _ _ = .ok found := congrArg Prod.fst hx
  cases found with
  | nil => cases congrArg Prod.fst h
  | cons f fs =>
    simp only [List.isEmpty_cons, Bool.false_eq_true, if_false] at h ⊢
    obtain ⟨scs, s2, h3, h4⟩ := rm_bind_ok _ _ _ _ (congrArg Prod.fst h)
    rw [h4] at h ⊢
    refine ⟨f :: fs, scs, hx, by simp, congrArg Prod.fst h3, ?_⟩
    have hs2 : s = s2 := congrArg Prod.snd h3
    obtain ⟨u, s3, h5, h6⟩ := rm_bind_ok _ _ _ _ (congrArg Prod.fst h)
    rw [h6] at h ⊢
    obtain ⟨text, s4, h7, h8⟩ := rm_bind_ok _ _ _ _ (congrArg Prod.fst h)
    rw [h8] at h ⊢
    have ho : (outputR w ⟨k.version, cs!"vmlinux", k.arch.adjustAbi k.elf, scs⟩ args.format s3).1 = [] := by
      unfold outputR at h7 ⊢
      by_cases hj : args.format = .html ∧ w.jinja = false
      · exfalso
        have h7 : outputSyscalls w.jinja w.css w.js ⟨k.version, cs!"vmlinux", k.arch.adjustAbi k.elf, scs⟩ args.format = .ok text :=
          congrArg Prod.fst h7
        rw [hj.1, hj.2] at h7
        cases h7
      · rw [if_neg hj]; rfl
    have hs3 : s3.b = s2.b := by
      have q : (RM.run (eprintsR v (resultMessages (pathOf args.kdir) scs)) s2).2 = s3 := congrArg Prod.snd h5
      rw [eprintsR_run, eprints_eq] at q
      rw [← q]
      unfold MState.sayAll
      split <;> rfl
    have hs4 : s3 = s4 := congrArg Prod.snd h7
    have hs5 : s4.b = s'.b := congrArg (fun q : Res Nat × MState => q.2.b) h
    refine ⟨by rw [hs2, ← hs3, hs4, hs5], ?_⟩
    rw [eprintsR_events, ho, result_summary]
    have he : (extractR w t k vmlinux (pathOf args.kdir) (pathOf args.remap) s).1 =
        (wholeL t.insn t.symbol (surroundingsOf w s.b.hist vmlinux (pathOf args.kdir) (pathOf args.remap)) k.arch k.elf k.version).1.map
          LogCall.event := by
      have hw : (wholeL t.insn t.symbol (surroundingsOf w s.b.hist vmlinux (pathOf args.kdir) (pathOf args.remap)) k.arch k.elf k.version).2 =
          .ok (f :: fs) := congrArg Prod.fst h1
      unfold extractR
      simp only
      rw [hw]
      exact List.append_nil _
    rw [he]
    show _ ++ ([] ++ (_ ++ ([] ++ ([] ++ [])))) = _
    simp

theorem analyze_events (args : Args) (n : Option Str) (s s' : MState) (h : (mainAnalyzeR w t v args n s).2 = (.ok 0, s')) :
    ∃ vmlinux data k s1 found scs auto,
      vmlinuxPath args = some vmlinux ∧ w.content s.b.hist vmlinux = some data ∧
      (newAnalysis w n vmlinux (pathOf args.kdir) s).1 = .ok k ∧
      s1 = s'.b.hist ∧
      ((args.checkout ≠ some cs!"auto" ∧ auto = []) ∨
        (args.checkout = some cs!"auto" ∧ ∃ tag, versionTag k.version = .ok tag ∧ auto = [.say (cs!"Checking out to " ++ tag)])) ∧
      extractSyscalls k.arch k.elf k.version (kenvOf w s1 k.arch k.elf vmlinux (pathOf args.kdir) (pathOf args.remap)) = .ok found ∧
      found ≠ [] ∧ mapRes (relativize (pathOf args.kdir) args.absolutePaths) found = .ok scs ∧
      (mainAnalyzeR w t v args n s).1 = magicSaid data ++ [.say (cs!"Detected kernel version: " ++ versionStr k.version cs!"vmlinux")] ++ auto ++
        (wholeL t.insn t.symbol (surroundingsOf w s1 vmlinux (pathOf args.kdir) (pathOf args.remap)) k.arch k.elf k.version).1.map LogCall.event ++
        (Summary (pathOf args.kdir).isSome scs).map .say := by
  unfold mainAnalyzeR at h ⊢
  dsimp only at h ⊢
  split at h
  · obtain ⟨u, s1, h1, h2⟩ := rm_bind_ok _ _ _ _ (congrArg Prod.fst h)
    rw [h2] at h
    cases congrArg Prod.fst h
  next hauto =>
  rw [if_neg hauto]
  rcases hv : vmlinuxPath args with _ | vm
  · rw [hv] at h; cases congrArg Prod.fst h
  rw [hv] at h
  simp only at h ⊢
  obtain ⟨s0, s1, h1, h2⟩ := rm_bind_ok _ _ _ _ (congrArg Prod.fst h)
  rw [h2] at h ⊢
  cases h1
  split at h
  · obtain ⟨u, s1, h1, h2⟩ := rm_bind_ok _ _ _ _ (congrArg Prod.fst h)
    rw [h2] at h
    obtain ⟨u, s1, h1, h2⟩ := rm_bind_ok _ _ _ _ (congrArg Prod.fst h)
    rw [h2] at h
    cases congrArg Prod.fst h
  next hfile =>
  rw [if_neg hfile]
  split at h
  · obtain ⟨u, s1, h1, h2⟩ := rm_bind_ok _ _ _ _ (congrArg Prod.fst h)
    rw [h2] at h
    cases congrArg Prod.fst h
  next hre =>
  rw [if_neg hre]
  obtain ⟨k, s1, h1, h2⟩ := rm_bind_ok _ _ _ _ (congrArg Prod.fst h)
  rw [h2] at h ⊢
  obtain ⟨hk, hke⟩ := catchR_ok w v _ _ _ _ _ _ h1
  obtain ⟨data, hd, hev⟩ := analysis_events w t _ _ _ _ _ _ hk
  obtain ⟨u, s2, h3, h4⟩ := rm_bind_ok _ _ _ _ (congrArg Prod.fst h)
  rw [h4] at h ⊢
  obtain ⟨u, s3, h5, h6⟩ := rm_bind_ok _ _ _ _ (congrArg Prod.fst h)
  rw [h6] at h ⊢
  obtain ⟨found, scs, g1, g2, g3, hs, g4⟩ := report_events w t v args k vm s3 s' h
  refine ⟨vm, data, k, s3.b.hist, found, scs, (autoCheckoutR w t v args k s2).1, rfl, hd, ?_, hs, ?_, g1, g2, g3, ?_⟩
  · have := congrFun (newAnalysisR_run w t n vm (pathOf args.kdir)) s
    rw [← this]
    exact congrArg Prod.fst hk
  · rcases auto_events w t v args k s2 s3 h5 with g | g
    · exact .inl g
    · exact .inr g
  · rw [hke, hev, g4]
    show [] ++ (_ ++ ([_] ++ (_ ++ (_ ++ _)))) = _
    simp only [List.nil_append, List.append_assoc]

end

end Verif
