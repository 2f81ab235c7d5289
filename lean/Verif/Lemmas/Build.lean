import Verif.Spec.Build
import Verif.Lemmas.Py
import Verif.Lemmas.Kconfig
/-! # Lemmas: the Makefile and the build -/
set_option autoImplicit false

namespace Verif
open Spec

/-! ## Finding the line -/

theorem flagsAt_sound {s pre post : Str} (h : flagsAt s = some (pre, post)) : FlagAt s [] pre post := by
  unfold flagsAt at h
  split at h
  · rename_i h1
    simp only at h
    split at h
    · rename_i h2
      split at h
      · rename_i h3
        rw [startsWith_iff] at h1 h2 h3
        obtain ⟨t1, ht1⟩ := h1
        obtain ⟨t2, ht2⟩ := h2
        obtain ⟨t3, ht3⟩ := h3
        subst ht1
        have e1 : (cs!"KBUILD_CFLAGS" ++ t1).drop 13 = t1 := by
          rw [List.drop_append_of_le_length (by decide)]; rfl
        rw [e1] at ht2 ht3 h
        have e2 : (cs!"+=" ++ t2).drop 2 = t2 := rfl
        rw [← ht2, e2] at ht3 h
        rw [← ht3] at h
        simp only [Option.some.injEq, Prod.mk.injEq] at h
        obtain ⟨rfl, rfl⟩ := h
        refine ⟨?_, Or.inl rfl, ⟨t1.takeWhile isSpace, t2.takeWhile isSpace, rfl, ?_, ?_⟩, t3, rfl⟩
        · have a1 : t1 = t1.takeWhile isSpace ++ (cs!"+=" ++ (t2.takeWhile isSpace ++ (cs!"-O2\n" ++ t3))) := by
            conv => lhs; rw [← List.takeWhile_append_dropWhile (p := isSpace) (l := t1), ← ht2]
            conv => lhs; rw [← List.takeWhile_append_dropWhile (p := isSpace) (l := t2), ← ht3]
          conv => lhs; rw [a1]
          simp [List.append_assoc]
        · intro c hc
          have := List.all_takeWhile (p := isSpace) (l := t1)
          exact List.all_eq_true.1 this c hc
        · intro c hc
          have := List.all_takeWhile (p := isSpace) (l := t2)
          exact List.all_eq_true.1 this c hc
      · cases h
    · cases h
  · cases h

theorem flagsAt_complete {s mid post : Str} (h : FlagAt s [] mid post) : flagsAt s = some (mid, post) := by
  obtain ⟨rfl, -, ⟨ws, ws', rfl, hw, hw'⟩, rest, rfl⟩ := h
  have e0 : ([] : Str) ++ (cs!"KBUILD_CFLAGS" ++ ws ++ cs!"+=" ++ ws' ++ cs!"-O") ++ '2' :: '\n' :: rest =
      cs!"KBUILD_CFLAGS" ++ (ws ++ '+' :: ('=' :: (ws' ++ '-' :: (cs!"O2\n" ++ rest)))) := by simp
  rw [e0]
  have e1 : (cs!"KBUILD_CFLAGS" ++ (ws ++ '+' :: ('=' :: (ws' ++ '-' :: (cs!"O2\n" ++ rest))))).drop 13 =
      ws ++ '+' :: ('=' :: (ws' ++ '-' :: (cs!"O2\n" ++ rest))) := by
    rw [List.drop_append_of_le_length (by decide)]; rfl
  have hs : startsWith (cs!"KBUILD_CFLAGS" ++ (ws ++ '+' :: ('=' :: (ws' ++ '-' :: (cs!"O2\n" ++ rest))))) cs!"KBUILD_CFLAGS" = true := by
    rw [startsWith_iff]; exact ⟨_, rfl⟩
  unfold flagsAt
  rw [if_pos hs]
  simp only [e1]
  rw [dropWhile_append_stop _ _ _ hw (by intro x xs e; cases e; decide), takeWhile_append_stop _ _ _ hw (by intro x xs e; cases e; decide)]
  have h2 : startsWith ('+' :: ('=' :: (ws' ++ '-' :: (cs!"O2\n" ++ rest)))) cs!"+=" = true := by
    rw [startsWith_iff]; exact ⟨_, rfl⟩
  rw [if_pos h2]
  have e2 : ('+' :: ('=' :: (ws' ++ '-' :: (cs!"O2\n" ++ rest)))).drop 2 = ws' ++ '-' :: (cs!"O2\n" ++ rest) := rfl
  rw [e2, dropWhile_append_stop _ _ _ hw' (by intro x xs e; cases e; decide), takeWhile_append_stop _ _ _ hw' (by intro x xs e; cases e; decide)]
  have h3 : startsWith ('-' :: (cs!"O2\n" ++ rest)) cs!"-O2\n" = true := by
    rw [startsWith_iff]; exact ⟨_, rfl⟩
  rw [if_pos h3]
  simp

/-- a match in the tail -/
theorem FlagAt_cons {c : Char} {cs a mid post : Str} (h : FlagAt (c :: cs) (c :: a) mid post) :
    cs = a ++ mid ++ '2' :: post := by
  have := h.1
  simpa using this

theorem findFlags_sound : ∀ (s : Str) (bol : Bool) (pre post : Str), findFlags bol s = some (pre, post) →
    ∃ a mid, pre = a ++ mid ∧ s = a ++ mid ++ '2' :: post ∧ (bol = true ∧ a = [] ∨ a.getLast? = some '\n') ∧
      FlagAt (mid ++ '2' :: post) [] mid post ∧
      ∀ a' mid' post', s = a' ++ mid' ++ '2' :: post' → (bol = true ∧ a' = [] ∨ a'.getLast? = some '\n') →
        FlagAt (mid' ++ '2' :: post') [] mid' post' → a.length ≤ a'.length := by
  intro s
  induction s with
  | nil =>
    intro bol pre post h
    simp only [findFlags] at h
    split at h
    · have e : flagsAt [] = none := by decide
      rw [e] at h; cases h
    · cases h
  | cons c cs ih =>
    intro bol pre post h
    simp only [findFlags] at h
    split at h
    · rename_i x hx
      simp only [Option.some.injEq] at h
      subst h
      cases bol with
      | false => cases hx
      | true =>
        simp only [if_pos] at hx
        have hs := flagsAt_sound hx
        refine ⟨[], pre, rfl, by simpa using hs.1, Or.inl ⟨rfl, rfl⟩, ?_, by simp⟩
        have := hs.1
        simp only [List.nil_append] at this
        rw [← this]; exact hs
    · rename_i hx
      cases hf : findFlags (c == '\n') cs with
      | none => rw [hf] at h; cases h
      | some p =>
        rw [hf] at h
        simp only [Option.map_some, Option.some.injEq, Prod.mk.injEq] at h
        obtain ⟨rfl, rfl⟩ := h
        obtain ⟨a, mid, h1, h2, h3, h4, h5⟩ := ih (c == '\n') p.1 p.2 (by rw [hf])
        refine ⟨c :: a, mid, by rw [h1]; rfl, by rw [h2]; rfl, Or.inr ?_, h4, ?_⟩
        · rcases h3 with ⟨hc, rfl⟩ | h3
          · simpa using hc
          · rw [List.getLast?_cons, h3]; rfl
        · intro a' mid' post' e hbol hf'
          cases a' with
          | nil =>
            exfalso
            rcases hbol with ⟨rfl, -⟩ | hb
            · simp only [List.nil_append] at e
              rw [← e] at hf'
              rw [if_pos rfl, flagsAt_complete hf'] at hx
              cases hx
            · cases hb
          | cons d a' =>
            simp only [List.cons_append, List.cons.injEq] at e
            obtain ⟨rfl, e⟩ := e
            have := h5 a' mid' post' e ?_ hf'
            · simp only [List.length_cons]; omega
            · cases a' with
              | nil =>
                rcases hbol with ⟨-, hb⟩ | hb
                · cases hb
                · left; simpa using hb
              | cons d' a' =>
                rcases hbol with ⟨-, hb⟩ | hb
                · cases hb
                · right; simpa [List.getLast?_cons_cons] using hb

theorem findFlags_complete : ∀ (s : Str) (bol : Bool), findFlags bol s = none → ∀ a mid post,
    s = a ++ mid ++ '2' :: post → (bol = true ∧ a = [] ∨ a.getLast? = some '\n') →
    ¬ FlagAt (mid ++ '2' :: post) [] mid post := by
  intro s
  induction s with
  | nil => intro bol _ a mid post e; simp at e
  | cons c cs ih =>
    intro bol h a mid post e hbol hf
    simp only [findFlags] at h
    split at h
    · cases h
    · rename_i hx
      simp only [Option.map_eq_none_iff] at h
      cases a with
      | nil =>
        rcases hbol with ⟨rfl, -⟩ | hb
        · simp only [List.nil_append] at e
          rw [← e] at hf
          rw [if_pos rfl, flagsAt_complete hf] at hx
          cases hx
        · cases hb
      | cons d a =>
        simp only [List.cons_append, List.cons.injEq] at e
        obtain ⟨rfl, e⟩ := e
        refine ih _ h a mid post e ?_ hf
        cases a with
        | nil =>
          rcases hbol with ⟨-, hb⟩ | hb
          · cases hb
          · left; simpa using hb
        | cons d' a' =>
          rcases hbol with ⟨-, hb⟩ | hb
          · cases hb
          · right; simpa [List.getLast?_cons_cons] using hb

theorem FlagAt_shift {text a mid post : Str} : FlagAt text a mid post ↔
    text = a ++ mid ++ '2' :: post ∧ (a = [] ∨ a.getLast? = some '\n') ∧ FlagAt (mid ++ '2' :: post) [] mid post := by
  unfold FlagAt
  constructor
  · rintro ⟨h1, h2, h3, h4⟩; exact ⟨h1, h2, by simp, Or.inl rfl, h3, h4⟩
  · rintro ⟨h1, h2, -, -, h3, h4⟩; exact ⟨h1, h2, h3, h4⟩

theorem findFlags_some {s pre post : Str} (h : findFlags true s = some (pre, post)) :
    ∃ a mid, pre = a ++ mid ∧ FirstFlag s a mid post := by
  obtain ⟨a, mid, h1, h2, h3, h4, h5⟩ := findFlags_sound s true pre post h
  refine ⟨a, mid, h1, FlagAt_shift.2 ⟨h2, by simpa using h3, h4⟩, ?_⟩
  intro a' mid' post' hf
  obtain ⟨g1, g2, g3⟩ := FlagAt_shift.1 hf
  exact h5 a' mid' post' g1 (by simpa using g2) g3

theorem findFlags_none {s : Str} (h : findFlags true s = none) : NoFlag s := by
  intro a mid post hf
  obtain ⟨g1, g2, g3⟩ := FlagAt_shift.1 hf
  exact findFlags_complete s true h a mid post g1 (by simpa using g2) g3

/-- the first flag is unique -/
theorem FirstFlag_unique {s a mid post a' mid' post' : Str} (h : FirstFlag s a mid post) (h' : FirstFlag s a' mid' post') :
    a = a' ∧ mid = mid' ∧ post = post' := by
  have hl : a.length = a'.length := Nat.le_antisymm (h.2 _ _ _ h'.1) (h'.2 _ _ _ h.1)
  obtain ⟨g1, -, g3⟩ := FlagAt_shift.1 h.1
  obtain ⟨g1', -, g3'⟩ := FlagAt_shift.1 h'.1
  rw [List.append_assoc] at g1 g1'
  rw [g1] at g1'
  obtain ⟨e1, e2⟩ := List.append_inj g1' hl
  rw [← e2] at g3'
  have := (flagsAt_complete g3).symm.trans (flagsAt_complete g3')
  simp only [Option.some.injEq, Prod.mk.injEq] at this
  exact ⟨e1, this.1, this.2⟩

theorem readText_id {s : Str} (h : '\r' ∉ s) : readText s = s := by
  induction s with
  | nil => rfl
  | cons c cs ih =>
    have hc : c ≠ '\r' := fun e => h (by simp [e])
    have := ih (fun e => h (List.mem_cons_of_mem _ e))
    unfold readText
    split
    · rename_i e; cases e
    · rename_i e; cases e; exact absurd rfl hc
    · rename_i e
      cases e
      rw [if_neg hc, this]

/-! ## Actions -/

theorem bm_bind {α β : Type} (m : BM α) (f : α → BM β) (s : BState) :
    (m >>= f) s = match m s with
      | (.ok x, s') => f x s'
      | (.error e, s') => (.error e, s') := rfl

theorem bm_pure {α : Type} (x : α) (s : BState) : BM.pure x s = (.ok x, s) := rfl

theorem bm_pure' {α : Type} (x : α) (s : BState) : (pure x : BM α) s = (.ok x, s) := rfl

theorem bm_raise {α : Type} (e : Exc) (s : BState) : (BM.raise e : BM α) s = (.error e, s) := rfl

theorem bm_modify (f : BState → BState) (s : BState) : BM.modify f s = (.ok (), f s) := rfl

theorem bm_get (s : BState) : BM.get s = (.ok s, s) := rfl

theorem bm_lift {α : Type} (r : Res α) (s : BState) : BM.lift r s = (r, s) := rfl

/-- the state after one more run -/
def BState.push (s : BState) (r : Run) : BState := { s with hist := s.hist ++ [r] }

/-- the run of a command in a state -/
def BState.runOf (s : BState) (argv : List Str) (cwd : Option Path) (input : Option Str) : Run :=
  ⟨argv, cwd, input, false, s.makefile⟩

theorem exec_eq (w : World) (argv : List Str) (cwd : Option Path) (input : Option Str) (s : BState) :
    exec w argv cwd input s =
      (if w.interrupt = some (.run s.hist.length) then .error (.exit 1)
        else .ok (w.status s.hist (s.runOf argv cwd input), w.output s.hist (s.runOf argv cwd input)),
       s.push (s.runOf argv cwd input)) := by
  unfold exec tick
  simp only [bm_bind, bm_get, bm_modify]
  by_cases hi : w.interrupt = some (.run s.hist.length)
  · rw [if_pos hi, if_pos hi]; rfl
  · rw [if_neg hi, if_neg hi]; rfl

theorem tryMake_eq (w : World) (b : Builder) (t : Str) (s : BState) :
    tryMake w b t s =
      (if w.interrupt = some (.run s.hist.length) then .error (.exit 1)
        else .ok ((w.status s.hist (s.runOf (makeArgv w b t) (some b.kdir) none)).getD 127),
       s.push (s.runOf (makeArgv w b t) (some b.kdir) none)) := by
  unfold tryMake runCommand
  simp only [bm_bind, exec_eq]
  split <;> rename_i e s' h
  · split at h
    · cases h
    · simp only [Prod.mk.injEq, Except.ok.injEq] at h
      obtain ⟨rfl, rfl⟩ := h
      rename_i hi
      rw [if_neg hi]
      simp only
      cases w.status s.hist (s.runOf (makeArgv w b t) (some b.kdir) none) <;> rfl
  · split at h
    · rename_i hi
      simp only [Prod.mk.injEq, Except.error.injEq] at h
      obtain ⟨rfl, rfl⟩ := h
      rw [if_pos hi]
    · cases h

/-- the outcome of a required command -/
def ensured (st : Option Nat) : Res Unit :=
  match st with
  | none => .error (.exit 127)
  | some 0 => .ok ()
  | some _ => .error (.exit 1)

theorem ensureCommand_eq (w : World) (argv : List Str) (cwd : Path) (input : Option Str) (s : BState) :
    ensureCommand w argv (some cwd) input s =
      (if w.interrupt = some (.run s.hist.length) then .error (.exit 1)
        else match ensured (w.status s.hist (s.runOf argv (some cwd) input)) with
          | .ok () => .ok (w.output s.hist (s.runOf argv (some cwd) input))
          | .error e => .error e,
       s.push (s.runOf argv (some cwd) input)) := by
  unfold ensureCommand
  simp only [bm_bind, exec_eq]
  by_cases hi : w.interrupt = some (.run s.hist.length)
  · rw [if_pos hi, if_pos hi]
  · rw [if_neg hi, if_neg hi]
    simp only
    cases w.status s.hist (s.runOf argv (some cwd) input) with
    | none => rfl
    | some st => cases st <;> rfl

theorem make_eq (w : World) (b : Builder) (t : Str) (input : Option Str) (s : BState) :
    make w b t input s =
      (if w.interrupt = some (.run s.hist.length) then .error (.exit 1)
        else ensured (w.status s.hist (s.runOf (makeArgv w b t) (some b.kdir) input)),
       s.push (s.runOf (makeArgv w b t) (some b.kdir) input)) := by
  unfold make
  simp only [bm_bind, ensureCommand_eq]
  by_cases hi : w.interrupt = some (.run s.hist.length)
  · rw [if_pos hi, if_pos hi]
  · rw [if_neg hi, if_neg hi]
    cases ensured (w.status s.hist (s.runOf (makeArgv w b t) (some b.kdir) input)) <;> rfl

theorem trySet_none (w : World) (lvl : Nat) (s : BState) (hr : '\r' ∉ s.makefile) (h : findFlags true s.makefile = none) :
    trySetOptLevel w lvl s = (.ok false, { s with backup := some s.makefile }) := by
  unfold trySetOptLevel
  simp only [bm_bind, bm_get, bm_modify, readText_id hr, h, bm_pure]

theorem trySet_some (w : World) (lvl : Nat) (s : BState) (hr : '\r' ∉ s.makefile) (pre post : Str)
    (h : findFlags true s.makefile = some (pre, post)) :
    trySetOptLevel w lvl s =
      (if w.interrupt = some (.patched lvl) then .error (.exit 1) else .ok true,
        { s with backup := some s.makefile, makefile := pre ++ natRepr lvl ++ post }) := by
  unfold trySetOptLevel tick
  simp only [bm_bind, bm_get, bm_modify, readText_id hr, h]
  by_cases hi : w.interrupt = some (.patched lvl)
  · rw [if_pos hi, if_pos hi]; rfl
  · rw [if_neg hi, if_neg hi]; rfl

theorem restore_eq (w : World) (lvl : Nat) (s : BState) (m : Str) (hm : m ≠ []) (h : s.backup = some m) :
    restoreMakefile w lvl s =
      if w.interrupt = some (.restoring lvl) then (.error (.exit 1), { s with makefile := [] })
      else (.ok (), { s with makefile := m, handler := false }) := by
  obtain ⟨c, cs, rfl⟩ := List.exists_cons_of_ne_nil hm
  unfold restoreMakefile tick
  simp only [bm_bind, bm_get, bm_modify, h]
  by_cases hi : w.interrupt = some (.restoring lvl)
  · rw [if_pos hi, if_pos hi]; rfl
  · rw [if_neg hi, if_neg hi]; rfl

/-! ## Building -/

/-- the call of `make vmlinux` with a given Makefile -/
def vmRun (w : World) (b : Builder) (mf : Str) : Run := ⟨makeArgv w b cs!"vmlinux", some b.kdir, none, false, mf⟩

theorem build_stock (w : World) (b : Builder) (s : BState) (opt : Bool) (hr : '\r' ∉ s.makefile)
    (h : opt = true → findFlags true s.makefile = none) :
    (build w b opt s).1 = (if w.interrupt = some (.run s.hist.length) then .error (.exit 1)
        else ensured (w.status s.hist (vmRun w b s.makefile))) ∧
    (build w b opt s).2.hist = s.hist ++ [vmRun w b s.makefile] ∧
    (build w b opt s).2.makefile = s.makefile ∧ (build w b opt s).2.handler = s.handler := by
  cases opt with
  | false =>
    unfold build
    simp only [bm_bind, bm_modify, Bool.false_eq_true, if_false, make_eq]
    exact ⟨rfl, rfl, rfl, rfl⟩
  | true =>
    have hf := h rfl
    have e := trySet_none w 0 { s with version := none } hr hf
    unfold build
    simp only [bm_bind, bm_modify, if_true, e, Bool.false_eq_true, if_false, make_eq]
    exact ⟨rfl, rfl, rfl, rfl⟩

/-- what a build with patching comes to: the commands run, the result, the content of the Makefile and whether the exit handler is still registered -/
def patchedBuild (w : World) (b : Builder) (s : BState) (pre post : Str) : Res Unit × List Run × Str × Bool :=
  let m := s.makefile
  let h := s.hist
  let m0 := pre ++ '0' :: post
  let m1 := pre ++ '1' :: post
  let r0 := vmRun w b m0
  let r1 := vmRun w b m1
  let r2 := vmRun w b m
  if w.interrupt = some (.patched 0) then (.error (.exit 1), [], m0, s.handler)
  else if w.interrupt = some (.run h.length) then (.error (.exit 1), [r0], m0, true)
  else if w.interrupt = some (.restoring 0) then (.error (.exit 1), [r0], [], true)
  else if w.status h r0 = some 0 then (.ok (), [r0], m, false)
  else if w.interrupt = some (.patched 1) then (.error (.exit 1), [r0], m1, false)
  else if w.interrupt = some (.run (h.length + 1)) then (.error (.exit 1), [r0, r1], m1, false)
  else if w.interrupt = some (.restoring 1) then (.error (.exit 1), [r0, r1], [], false)
  else if w.status (h ++ [r0]) r1 = some 0 then (.ok (), [r0, r1], m, false)
  else (if w.interrupt = some (.run (h.length + 2)) then .error (.exit 1) else ensured (w.status (h ++ [r0] ++ [r1]) r2),
    [r0, r1, r2], m, false)

theorem getD_eq_zero {o : Option Nat} : o.getD 127 = 0 ↔ o = some 0 := by
  cases o <;> simp

theorem build_patched (w : World) (b : Builder) (s : BState) (hr : '\r' ∉ s.makefile) (pre post : Str)
    (h : findFlags true s.makefile = some (pre, post)) :
    (build w b true s).1 = (patchedBuild w b s pre post).1 ∧
    (build w b true s).2.hist = s.hist ++ (patchedBuild w b s pre post).2.1 ∧
    (build w b true s).2.makefile = (patchedBuild w b s pre post).2.2.1 ∧
    (build w b true s).2.handler = (patchedBuild w b s pre post).2.2.2 ∧
    (build w b true s).2.backup = some s.makefile := by
  have hne : s.makefile ≠ [] := by
    intro e; rw [e] at h; exact absurd h (by rw [show findFlags true [] = none by decide]; simp)
  obtain ⟨hist, version, m, backup, handler⟩ := s
  simp only at hr h hne
  have n0 : natRepr 0 = ['0'] := by decide
  have n1 : natRepr 1 = ['1'] := by decide
  have t0 := fun (h' : List Run) (bk : Option Str) (hd : Bool) => trySet_some w 0 ⟨h', none, m, bk, hd⟩ hr pre post h
  have t1 := fun (h' : List Run) (bk : Option Str) (hd : Bool) => trySet_some w 1 ⟨h', none, m, bk, hd⟩ hr pre post h
  have rs := fun (lvl : Nat) (h' : List Run) (mf : Str) (hd : Bool) => restore_eq w lvl ⟨h', none, mf, some m, hd⟩ m hne rfl
  simp only [n0, n1, List.append_assoc, List.singleton_append] at t0 t1 rs
  unfold build patchedBuild
  simp only [bm_bind, bm_modify, if_true, t0]
  by_cases i1 : w.interrupt = some (.patched 0)
  · simp [i1]
  simp only [if_neg i1, bm_bind, bm_modify, if_true, tryMake_eq]
  by_cases i2 : w.interrupt = some (.run hist.length)
  · simp [i2, BState.push, BState.runOf, vmRun]
  simp only [if_neg i2, BState.push, BState.runOf, rs, bm_bind]
  by_cases i3 : w.interrupt = some (.restoring 0)
  · simp [i3, vmRun]
  simp only [if_neg i3, getD_eq_zero]
  rw [show (⟨makeArgv w b cs!"vmlinux", some b.kdir, none, false, pre ++ '0' :: post⟩ : Run) = vmRun w b (pre ++ '0' :: post) from rfl]
  by_cases s1 : w.status hist (vmRun w b (pre ++ '0' :: post)) = some 0
  · simp [s1, bm_pure]
  simp only [if_neg s1, bm_bind, t1]
  by_cases i4 : w.interrupt = some (.patched 1)
  · simp [i4]
  simp only [if_neg i4, bm_bind, bm_modify, if_true, tryMake_eq]
  have hl : (hist ++ [vmRun w b (pre ++ '0' :: post)]).length = hist.length + 1 := by simp
  simp only [hl]
  by_cases i5 : w.interrupt = some (.run (hist.length + 1))
  · simp [i5, BState.push, BState.runOf, vmRun]
  simp only [if_neg i5, BState.push, BState.runOf, rs, bm_bind]
  by_cases i6 : w.interrupt = some (.restoring 1)
  · simp [i6, vmRun]
  simp only [if_neg i6, getD_eq_zero]
  rw [show (⟨makeArgv w b cs!"vmlinux", some b.kdir, none, false, pre ++ '1' :: post⟩ : Run) = vmRun w b (pre ++ '1' :: post) from rfl]
  by_cases s2 : w.status (hist ++ [vmRun w b (pre ++ '0' :: post)]) (vmRun w b (pre ++ '1' :: post)) = some 0
  · simp [s2, bm_pure]
  simp only [if_neg s2, make_eq]
  have hl2 : (hist ++ [vmRun w b (pre ++ '0' :: post)] ++ [vmRun w b (pre ++ '1' :: post)]).length = hist.length + 2 := by simp
  simp only [hl2]
  simp [BState.push, BState.runOf, vmRun]

end Verif
