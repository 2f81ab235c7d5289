import Verif.Spec.Object
import Verif.Lemmas.Configure
import Verif.Lemmas.Main2
import Verif.Lemmas.Described
set_option autoImplicit false

namespace Verif
open Spec

theorem om_bind {α β : Type} (m : OM α) (f : α → OM β) (s : OState) :
    (m >>= f) s = match m s with
      | (.ok x, s') => f x s'
      | (.error e, s') => (.error e, s') := rfl

theorem om_pure {α : Type} (x : α) (s : OState) : OM.pure x s = (.ok x, s) := rfl
theorem om_raise {α : Type} (e : Exc) (s : OState) : (OM.raise e : OM α) s = (.error e, s) := rfl
theorem om_modify (f : OState → OState) (s : OState) : OM.modify f s = (.ok (), f s) := rfl
theorem om_get (s : OState) : OM.get s = (.ok s, s) := rfl
theorem om_lift {α : Type} (r : Res α) (s : OState) : OM.lift r s = (r, s) := rfl
theorem om_ofB {α : Type} (m : BM α) (s : OState) : OM.ofB m s = ((m s.b).1, { s with b := (m s.b).2 }) := rfl

theorem as_snd {α : Type} (f : α → Reply) (m : OM α) (s : OState) : (m.as f s).2 = (m s).2 := by
  show ((m >>= fun x => OM.pure (f x)) s).2 = _
  rw [om_bind]
  rcases m s with ⟨_ | _, _⟩ <;> rfl

theorem as_fst {α : Type} (f : α → Reply) (m : OM α) (s : OState) : (m.as f s).1 = (m s).1.map f := by
  show ((m >>= fun x => OM.pure (f x)) s).1 = _
  rw [om_bind]
  rcases m s with ⟨_ | _, _⟩ <;> rfl

/-! ## Actions that leave the version alone -/

/-- the version is kept, and not asked for -/
def Steady {α : Type} (m : BM α) : Prop :=
  ∀ s, (m s).2.version = s.version ∧ ∃ R, (m s).2.hist = s.hist ++ R ∧ ∀ r ∈ R, ¬ AsksVersion r

theorem Steady.same {α : Type} {m : BM α} (h : ∀ s, (m s).2.version = s.version ∧ (m s).2.hist = s.hist) : Steady m :=
  fun s => ⟨(h s).1, [], by simp [(h s).2], by simp⟩

theorem Steady.bind {α β : Type} {m : BM α} {f : α → BM β} (hm : Steady m) (hf : ∀ x, Steady (f x)) : Steady (m >>= f) := by
  intro s
  rw [bm_bind]
  have h1 := hm s
  rcases he : m s with ⟨_ | x, s1⟩
  · rw [he] at h1; exact h1
  · rw [he] at h1
    have h2 := hf x s1
    obtain ⟨v1, R1, e1, n1⟩ := h1
    obtain ⟨v2, R2, e2, n2⟩ := h2
    refine ⟨v2.trans v1, R1 ++ R2, by rw [e2, e1, List.append_assoc], ?_⟩
    intro r hr
    rcases List.mem_append.1 hr with h | h
    · exact n1 r h
    · exact n2 r h

theorem steady_exec (w : World) (argv : List Str) (cwd : Option Path) (input : Option Str)
    (h : argv ≠ [cs!"make", cs!"kernelversion"]) : Steady (exec w argv cwd input) := by
  intro s
  rw [exec_eq]
  refine ⟨rfl, [s.runOf argv cwd input], rfl, ?_⟩
  intro r hr
  simp only [List.mem_singleton] at hr
  subst hr
  exact h

theorem steady_notStarted {α : Type} (cwd : Option Path) {m : BM α} (h : Steady m) : Steady (notStarted cwd m) := by
  unfold notStarted
  split
  · exact .same fun _ => ⟨rfl, rfl⟩
  · exact h

theorem steady_ensure (w : World) (argv : List Str) (cwd : Option Path) (input : Option Str)
    (h : argv ≠ [cs!"make", cs!"kernelversion"]) : Steady (ensureCommand w argv cwd input) := by
  unfold ensureCommand
  refine (steady_exec w argv cwd input h).bind fun r => ?_
  split
  · exact steady_notStarted _ (.same fun _ => ⟨rfl, rfl⟩)
  · split
    · exact .same fun _ => ⟨rfl, rfl⟩
    · exact .same fun _ => ⟨rfl, rfl⟩

theorem steady_run (w : World) (argv : List Str) (cwd : Option Path) (input : Option Str)
    (h : argv ≠ [cs!"make", cs!"kernelversion"]) : Steady (runCommand w argv cwd input) := by
  unfold runCommand
  refine (steady_exec w argv cwd input h).bind fun r => ?_
  split
  · exact steady_notStarted _ (.same fun _ => ⟨rfl, rfl⟩)
  · exact .same fun _ => ⟨rfl, rfl⟩

theorem makeArgv_asks (w : World) (b : Builder) (t : Str) : makeArgv w b t ≠ [cs!"make", cs!"kernelversion"] := by
  intro h
  have := congrArg List.length h
  unfold makeArgv at this
  simp at this

theorem steady_make (w : World) (b : Builder) (t : Str) (i : Option Str) : Steady (make w b t i) := by
  unfold make
  exact (steady_ensure w _ _ _ (makeArgv_asks w b t)).bind fun _ => .same fun _ => ⟨rfl, rfl⟩

theorem steady_tryMake (w : World) (b : Builder) (t : Str) : Steady (tryMake w b t) := steady_run w _ _ _ (makeArgv_asks w b t)

theorem steady_performK (w : World) (b : Builder) (es : List KEvent) : Steady (performK w b es) := by
  induction es with
  | nil => exact .same fun _ => ⟨rfl, rfl⟩
  | cons x es ih =>
    cases x <;> unfold performK
    all_goals first
      | exact ih
      | refine (steady_ensure w _ _ _ ?_).bind fun _ => ih
        intro h
        exact absurd (List.cons.inj h).1 (by decide)

theorem steady_performAll (w : World) (b : Builder) (p : List KEvent × Res Unit) : Steady (performAll w b p) := by
  unfold performAll
  exact (steady_performK w b p.1).bind fun _ => .same fun _ => ⟨rfl, rfl⟩

theorem steady_check (w : World) (b : Builder) (o : Dict Str (List Str)) : Steady (applyOptionsCheck w b o) := by
  unfold applyOptionsCheck
  split
  · exact .same fun _ => ⟨rfl, rfl⟩
  · refine Steady.bind (.same fun _ => ⟨rfl, rfl⟩) fun s => ?_
    split
    · exact .same fun _ => ⟨rfl, rfl⟩
    · exact steady_performAll w b _

theorem steady_tick (w : World) (p : Point) : Steady (tick w p) := by
  unfold tick
  split
  · exact .same fun _ => ⟨rfl, rfl⟩
  · exact .same fun _ => ⟨rfl, rfl⟩

theorem steady_trySet (w : World) (l : Nat) : Steady (trySetOptLevel w l) := by
  unfold trySetOptLevel
  refine Steady.bind (.same fun _ => ⟨rfl, rfl⟩) fun s => ?_
  refine Steady.bind (.same fun _ => ⟨rfl, rfl⟩) fun _ => ?_
  split
  · exact .same fun _ => ⟨rfl, rfl⟩
  · refine Steady.bind (.same fun _ => ⟨rfl, rfl⟩) fun _ => ?_
    exact (steady_tick w _).bind fun _ => .same fun _ => ⟨rfl, rfl⟩

theorem steady_restore (w : World) (l : Nat) : Steady (restoreMakefile w l) := by
  unfold restoreMakefile
  refine Steady.bind (.same fun _ => ⟨rfl, rfl⟩) fun s => ?_
  have h : Steady (BM.modify fun s => { s with handler := false }) := .same fun _ => ⟨rfl, rfl⟩
  split
  · refine Steady.bind (.same fun _ => ⟨rfl, rfl⟩) fun _ => ?_
    exact (steady_tick w _).bind fun _ => Steady.bind (.same fun _ => ⟨rfl, rfl⟩) fun _ => h
  · exact h

/-- building, once the version is forgotten -/
theorem build_steady (w : World) (b : Builder) (d : Bool) (s : BState) (hs : s.version = none) :
    (build w b d s).2.version = none ∧ ∃ R, (build w b d s).2.hist = s.hist ++ R ∧ ∀ r ∈ R, ¬ AsksVersion r := by
  have h : Steady (if d then do
      let patched ← trySetOptLevel w 0
      if patched then do
        BM.modify fun s => { s with handler := true }
        let res ← tryMake w b cs!"vmlinux"
        restoreMakefile w 0
        if res = 0 then BM.pure ()
        else do
          let _ ← trySetOptLevel w 1
          let res ← tryMake w b cs!"vmlinux"
          restoreMakefile w 1
          if res = 0 then BM.pure ()
          else make w b cs!"vmlinux" none
      else make w b cs!"vmlinux" none
    else make w b cs!"vmlinux" none) := by
    split
    · refine (steady_trySet w 0).bind fun p => ?_
      split
      · refine Steady.bind (.same fun _ => ⟨rfl, rfl⟩) fun _ => ?_
        refine (steady_tryMake w b _).bind fun r => ?_
        refine (steady_restore w 0).bind fun _ => ?_
        split
        · exact .same fun _ => ⟨rfl, rfl⟩
        · refine (steady_trySet w 1).bind fun _ => ?_
          refine (steady_tryMake w b _).bind fun r => ?_
          refine (steady_restore w 1).bind fun _ => ?_
          split
          · exact .same fun _ => ⟨rfl, rfl⟩
          · exact steady_make w b _ _
      · exact steady_make w b _ _
    · exact steady_make w b _ _
  have := h { s with version := none }
  have e : ({ s with version := none } : BState) = s := by cases s; simp at hs; simp [hs]
  have e2 : build w b d s = (if d then do
      let patched ← trySetOptLevel w 0
      if patched then do
        BM.modify fun s => { s with handler := true }
        let res ← tryMake w b cs!"vmlinux"
        restoreMakefile w 0
        if res = 0 then BM.pure ()
        else do
          let _ ← trySetOptLevel w 1
          let res ← tryMake w b cs!"vmlinux"
          restoreMakefile w 1
          if res = 0 then BM.pure ()
          else make w b cs!"vmlinux" none
      else make w b cs!"vmlinux" none
    else make w b cs!"vmlinux" none) { s with version := none } := rfl
  rw [e2]
  exact this

/-! ## The same at the level of the object -/

/-- everything else of the object is kept too -/
def SteadyO {α : Type} (m : OM α) : Prop :=
  ∀ s, (m s).2.source = s.source ∧ (m s).2.arch = s.arch ∧ (m s).2.syscalls = s.syscalls ∧ (m s).2.b.version = s.b.version ∧
    ∃ R, (m s).2.b.hist = s.b.hist ++ R ∧ ∀ r ∈ R, ¬ AsksVersion r

theorem SteadyO.same {α : Type} {m : OM α} (h : ∀ s, (m s).2 = s) : SteadyO m :=
  fun s => by rw [h s]; exact ⟨rfl, rfl, rfl, rfl, [], by simp, by simp⟩

theorem steadyO_ofB {α : Type} {m : BM α} (h : Steady m) : SteadyO (OM.ofB m) :=
  fun s => ⟨rfl, rfl, rfl, (h s.b).1, (h s.b).2⟩

theorem steadyO_withKdir {α : Type} (o : KObject) {f : Builder → BM α} (h : ∀ b, Steady (f b)) : SteadyO (withKdir o f) := by
  intro s
  unfold withKdir
  rw [om_bind, om_get]
  cases hk : o.kdir with
  | none => exact SteadyO.same (m := (OM.raise .attr : OM α)) (fun _ => rfl) s
  | some k => exact steadyO_ofB (h _) s

theorem steadyO_makeO (w : MWorld) (o : KObject) (t : Str) (i : Option Str) : SteadyO (makeO w o t i) :=
  steadyO_withKdir o fun b => steady_make _ b t i

theorem steadyO_tryMakeO (w : MWorld) (o : KObject) (t : Str) : SteadyO (tryMakeO w o t) :=
  steadyO_withKdir o fun b => steady_tryMake _ b t

/-! ## A property of states kept by the methods -/

/-- an action keeps a property of the object -/
def Keeps {α : Type} (P : OState → Prop) (m : OM α) : Prop := ∀ s, P s → P (m s).2

theorem Keeps.bind {α β : Type} {P : OState → Prop} {m : OM α} {f : α → OM β} (hm : Keeps P m) (hf : ∀ x, Keeps P (f x)) :
    Keeps P (m >>= f) := by
  intro s hs
  rw [om_bind]
  have h1 := hm s hs
  rcases he : m s with ⟨_ | x, s1⟩
  · rw [he] at h1; exact h1
  · rw [he] at h1; exact hf x s1 h1

theorem Keeps.same {α : Type} {P : OState → Prop} {m : OM α} (h : ∀ s, (m s).2 = s) : Keeps P m :=
  fun s hs => by rw [h s]; exact hs

theorem Keeps.get {β : Type} {P : OState → Prop} {f : OState → OM β} (hf : ∀ s, P s → P (f s s).2) : Keeps P (OM.get >>= f) :=
  fun s hs => hf s hs

/-- forgetting the version -/
def OState.forgotten (s : OState) : OState := { s with b := { s.b with version := none } }

/-- A property that survives steady actions and reading the version (and forgetting it) survives every method but `syscalls`. -/
structure Kept (w : MWorld) (o : KObject) (P : OState → Prop) : Prop where
  steady : ∀ s s', P s → s'.source = s.source → s'.arch = s.arch → s'.syscalls = s.syscalls → s'.b.version = s.b.version →
    (∃ R, s'.b.hist = s.b.hist ++ R ∧ ∀ r ∈ R, ¬ AsksVersion r) → P s'
  version : Keeps P (versionO w o)

variable {w : MWorld} {o : KObject} {P : OState → Prop}

theorem Kept.of {α : Type} (h : Kept w o P) {m : OM α} (hm : SteadyO m) : Keeps P m :=
  fun s hs => have ⟨h1, h2, h3, h4, h5⟩ := hm s; h.steady s _ hs h1 h2 h3 h4 h5

theorem Kept.sync (h : Kept w o P) : Keeps P (syncO w o) := by
  unfold syncO
  refine h.version.bind fun v => ?_
  split
  · exact h.of (steadyO_makeO w o _ _)
  · exact h.of (steadyO_makeO w o _ _)

theorem Kept.group (h : Kept w o P) {f : Builder → Ver → BM Unit} (hf : ∀ b v, Steady (f b v)) : Keeps P (groupO w o f) := by
  unfold groupO
  refine h.version.bind fun v => ?_
  exact (h.of (steadyO_withKdir o fun b => hf b v)).bind fun _ => h.sync

theorem Kept.forM (h : Kept w o P) (ts : List Str) : Keeps P (ts.forM fun t => makeO w o t none) := by
  induction ts with
  | nil => exact .same fun _ => rfl
  | cons t ts ih => exact (h.of (steadyO_makeO w o t none)).bind fun _ => ih

theorem Kept.configure (h : Kept w o P) (hf : ∀ s, P s → P s.forgotten) : Keeps P (configureO w o) := by
  unfold configureO
  split
  · exact .same fun _ => rfl
  · refine Keeps.bind (m := forget) (fun s hs => hf s hs) fun _ => Keeps.get fun s hs => ?_
    refine ((h.forM _).bind fun _ => ?_) s hs
    refine (h.group fun b v => steady_performAll _ b _).bind fun _ => ?_
    refine (h.group fun b v => steady_performAll _ b _).bind fun _ => ?_
    refine (h.group fun b v => steady_check _ b _).bind fun _ => ?_
    exact h.group fun b v => steady_check _ b _

theorem Kept.build (h : Kept w o P) (hf : ∀ s, P s → P s.forgotten) (d : Bool) : Keeps P (buildO w o d) := by
  intro s hs
  have h0 := hf s hs
  show P ((match o.kdir with
    | none => OM.raise (if d then .type else .attr)
    | some _ => withKdir o fun b => Verif.build w.toWorld b d) { s with b := { s.b with version := none } }).2
  cases hk : o.kdir with
  | none => exact h0
  | some k =>
    simp only [withKdir, om_bind, om_get, hk, om_ofB]
    have hb := build_steady w.toWorld (o.builder { s with b := { s.b with version := none } } k) d { s.b with version := none } rfl
    exact h.steady _ _ h0 rfl rfl rfl hb.1 hb.2

theorem Kept.perform (h : Kept w o P) (op : Op) (hf : Forgets op → ∀ s, P s → P s.forgotten) (hs : op = .syscalls → Keeps P (syscallsO w o)) : Keeps P (perform w o op) := by
  have lift : ∀ {α : Type} {m : OM α} (f : α → Reply), Keeps P m → Keeps P (m.as f) := fun f hm s hP => by rw [as_snd]; exact hm s hP
  cases op with
  | version => exact lift _ h.version
  | versionStr =>
    refine lift _ (h.version.bind fun v => ?_)
    exact .same fun _ => rfl
  | versionTag =>
    refine lift _ (h.version.bind fun v => ?_)
    exact .same fun _ => rfl
  | versionSource =>
    refine lift _ (Keeps.get fun s hP => ?_)
    split
    · exact hP
    · exact (h.version.bind fun _ => .same fun _ => rfl) s hP
  | canLocate => refine lift _ (.same fun s => ?_); unfold ofImage; cases o.image <;> rfl
  | canSign => refine lift _ (.same fun s => ?_); unfold ofImage; cases o.image <;> rfl
  | syscalls => exact lift _ (hs rfl)
  | make t e =>
    cases e with
    | true => exact lift _ (h.of (steadyO_makeO w o t none))
    | false => exact lift _ (h.of (steadyO_tryMakeO w o t))
  | syncConfig => exact lift _ h.sync
  | clean => exact lift _ (Keeps.bind (m := forget) (fun s hP => hf trivial s hP) fun _ => h.of (steadyO_makeO w o _ _))
  | configure => exact lift _ (h.configure (hf trivial))
  | build d => exact lift _ (h.build (hf trivial) d)

theorem useAll_append (o : KObject) (us vs : List (MWorld × Op)) (s : OState) :
    useAll o (us ++ vs) s = ((useAll o us s).1 ++ (useAll o vs (useAll o us s).2).1, (useAll o vs (useAll o us s).2).2) := by
  induction us generalizing s with
  | nil => rfl
  | cons u us ih =>
    obtain ⟨w, op⟩ := u
    simp only [List.cons_append, useAll, ih]

theorem useAll_keeps (o : KObject) {P : OState → Prop} (h : ∀ w op, Keeps P (perform w o op)) (us : List (MWorld × Op)) (s : OState)
    (hs : P s) : P (useAll o us s).2 := by
  induction us generalizing s with
  | nil => exact hs
  | cons u us ih => exact ih _ (h u.1 u.2 s hs)

/-! ## Adjusting the architecture twice -/

theorem adjustAbi_twice (a : Arch) (e : Elf) : (a.adjustAbi e).adjustAbi e = a.adjustAbi e := by
  obtain ⟨k, v, abi, b32, ab32, ufd, compat, ct, tn, nb, nr, ar⟩ := a
  cases k <;> try rfl
  · by_cases h : abi = cs!"oabi" ∧ e.hasSymbol cs!"sys_oabi_call_table" = true
    · simp only [Arch.adjustAbi, if_pos h]
    · simp only [Arch.adjustAbi, if_neg h]
  · by_cases h : verLt v [6, 9] = true
    · simp only [Arch.adjustAbi, if_pos h]
    · by_cases h2 : e.hasSymbol cs!"sys_call_table" = true ∧ (!compat) = true
      · simp only [Arch.adjustAbi, if_neg h, if_pos h2]
      · simp only [Arch.adjustAbi, if_neg h, if_neg h2]

theorem extract_adjusted (w : MWorld) (hist : List Run) (a : Arch) (e : Elf) (v : Ver) (p : Path) (kdir rdir : Option Path) :
    extractSyscalls (a.adjustAbi e) e v (kenvOf w hist (a.adjustAbi e) e p kdir rdir) =
      extractSyscalls a e v (kenvOf w hist a e p kdir rdir) := by
  unfold extractSyscalls kenvOf
  simp only [(adjustAbi_fields a e).2, adjustAbi_twice]

end Verif
