import Verif.Lemmas.Object
import Verif.Props.EndToEnd
/-! # C125, C126: one `Kernel` object used many times -/
set_option autoImplicit false

namespace Verif
open Spec

/-! ## Objects of an image -/

/-- what stays true of an object of an image -/
structure ImageInv (e : Elf) (a : Arch) (v : Ver) (s : OState) : Prop where
  source : s.source = some cs!"vmlinux"
  arch : s.arch = a ∨ s.arch = a.adjustAbi e
  version : s.b.version = none ∨ s.b.version = some v

theorem versionO_image {w : MWorld} {o : KObject} {p : Path} {e : Elf} {v : Ver} (ho : o.image = some (p, e))
    (hv : versionFromVmlinux e = .ok (some v)) (s : OState) (hs : s.source = some cs!"vmlinux")
    (h : s.b.version = none ∨ s.b.version = some v) :
    versionO w o s = (.ok v, { s with b := { s.b with version := some v } }) := by
  unfold versionO
  rw [om_bind, om_get]
  obtain ⟨b, src, ar, sc⟩ := s
  obtain ⟨hist, ver, mf, bk, hd⟩ := b
  simp only at hs h
  subst hs
  rcases h with h | h
  · subst h
    simp only [ho, om_bind, om_lift, hv, om_modify, om_pure]
  · subst h
    rfl

theorem syscallsO_image {w : MWorld} {o : KObject} {p : Path} {e : Elf} {a : Arch} {v : Ver} (ho : o.image = some (p, e))
    (hv : versionFromVmlinux e = .ok (some v)) (s : OState) (h : ImageInv e a v s) (hn : s.syscalls = none) :
    (syscallsO w o s).1 = extractSyscalls a e v (kenvOf w s.b.hist a e p o.kdir o.rdir) ∧
    ImageInv e a v (syscallsO w o s).2 ∧ (syscallsO w o s).2.b.hist = s.b.hist ∧ (syscallsO w o s).2.b.makefile = s.b.makefile := by
  unfold syscallsO
  have hx : extractSyscalls s.arch e v (kenvOf w s.b.hist s.arch e p o.kdir o.rdir) =
      extractSyscalls a e v (kenvOf w s.b.hist a e p o.kdir o.rdir) := by
    rcases h.arch with h | h
    · rw [h]
    · rw [h, extract_adjusted]
  have ha : (if s.arch.bits32 = e.bits32 then s.arch.adjustAbi e else s.arch) = a ∨
      (if s.arch.bits32 = e.bits32 then s.arch.adjustAbi e else s.arch) = a.adjustAbi e := by
    split
    · rcases h.arch with h | h
      · exact .inr (by rw [h])
      · exact .inr (by rw [h, adjustAbi_twice])
    · exact h.arch
  simp only [om_bind, om_get, hn, ho, versionO_image ho hv s h.source h.version, om_modify, om_lift, hx]
  cases hr : extractSyscalls a e v (kenvOf w s.b.hist a e p o.kdir o.rdir) with
  | error x => exact ⟨rfl, ⟨h.source, ha, .inr rfl⟩, rfl, rfl⟩
  | ok l => exact ⟨rfl, ⟨h.source, ha, .inr rfl⟩, rfl, rfl⟩

theorem syscallsO_cached {w : MWorld} {o : KObject} (s : OState) (l : List Syscall) (h : s.syscalls = some l) :
    syscallsO w o s = (.ok l, s) := by
  unfold syscallsO
  simp only [om_bind, om_get, h, om_pure]

theorem imageInv_kept {w : MWorld} {o : KObject} {p : Path} {e : Elf} {a : Arch} {v : Ver} (ho : o.image = some (p, e))
    (hv : versionFromVmlinux e = .ok (some v)) : Kept w o (ImageInv e a v) where
  steady s s' h h1 h2 h3 h4 h5 := ⟨by rw [h1]; exact h.source, by rw [h2]; exact h.arch, by rw [h4]; exact h.version⟩
  version s h := by
    rw [versionO_image ho hv s h.source h.version]
    exact ⟨h.source, h.arch, .inr rfl⟩

theorem imageInv_perform {o : KObject} {p : Path} {e : Elf} {a : Arch} {v : Ver} (ho : o.image = some (p, e))
    (hv : versionFromVmlinux e = .ok (some v)) (w : MWorld) (op : Op) : Keeps (ImageInv e a v) (perform w o op) := by
  refine (imageInv_kept ho hv).perform op (fun _ s h => ⟨h.source, h.arch, .inl rfl⟩) fun _ s hs => ?_
  cases h : s.syscalls with
  | some l => rw [syscallsO_cached s l h]; exact hs
  | none => exact (syscallsO_image ho hv s hs h).2.1

/-! ### The list kept -/

theorem sameList_version (w : MWorld) (o : KObject) (x : Option (List Syscall)) : Keeps (fun s => s.syscalls = x) (versionO w o) := by
  unfold versionO
  refine Keeps.get fun s hs => ?_
  cases s.b.version with
  | some v => exact hs
  | none =>
    simp only
    cases o.image with
    | some pe =>
      simp only [om_bind, om_lift]
      cases versionFromVmlinux pe.2 with
      | error x => exact hs
      | ok v => cases v <;> exact hs
    | none =>
      cases o.kdir with
      | none => exact hs
      | some k =>
        simp only [askMake, om_bind, om_ofB]
        cases (ensureCommand w.toWorld [cs!"make", cs!"kernelversion"] (some k) none s.b).1 with
        | error x => exact hs
        | ok out =>
          simp only [om_modify]
          cases versionFromStr out <;> exact hs

theorem sameList_kept (w : MWorld) (o : KObject) (x : Option (List Syscall)) : Kept w o (fun s => s.syscalls = x) where
  steady s s' h h1 h2 h3 h4 h5 := h3.trans h
  version := sameList_version w o x

theorem map_not_list {α : Type} (f : α → Reply) (hf : ∀ x l, f x ≠ .syscalls l) (op : Op) (r : Res α) :
    firstList [(op, r.map f)] = none := by
  cases r with
  | error e => rfl
  | ok x =>
    show firstList [(op, .ok (f x))] = none
    have := hf x
    cases hx : f x with
    | syscalls l => exact absurd hx (this l)
    | _ => rfl

theorem firstList_append (a b : List (Op × Res Reply)) : firstList (a ++ b) = (firstList a).or (firstList b) := by
  induction a with
  | nil => rfl
  | cons x a ih =>
    obtain ⟨op, r⟩ := x
    cases r with
    | error e => exact ih
    | ok r => cases r <;> first | exact ih | rfl

/-- the list kept is the first one given -/
theorem perform_list (w : MWorld) (o : KObject) (op : Op) (s : OState) :
    (perform w o op s).2.syscalls = s.syscalls.or (firstList [(op, (perform w o op s).1)]) := by
  by_cases hop : op = .syscalls
  · subst hop
    show ((syscallsO w o).as .syscalls s).2.syscalls = s.syscalls.or (firstList [(_, ((syscallsO w o).as .syscalls s).1)])
    rw [as_snd, as_fst]
    cases h : s.syscalls with
    | some l => rw [syscallsO_cached s l h]; exact h
    | none =>
      rw [Option.none_or]
      have hver := sameList_version w o none s h
      unfold syscallsO
      simp only [om_bind, om_get, h]
      cases ho : o.image with
      | none => exact h
      | some pe =>
        simp only [om_bind]
        rcases hvo : versionO w o s with ⟨_ | v, s1⟩
        · rw [hvo] at hver; exact hver
        · rw [hvo] at hver
          simp only [om_modify, om_lift]
          cases extractSyscalls s.arch pe.2 v (kenvOf w s.b.hist s.arch pe.2 pe.1 o.kdir o.rdir) with
          | error x => exact hver
          | ok l => rfl
  · have h1 := (sameList_kept w o s.syscalls).perform op (fun _ _ h => h) (fun h => absurd h hop) s rfl
    have h2 : firstList [(op, (perform w o op s).1)] = none := by
      cases op with
      | syscalls => exact absurd rfl hop
      | make t e => cases e <;> (simp only [perform, as_fst]; exact map_not_list _ (by intro x l h; cases h) _ _)
      | _ => simp only [perform, as_fst]; exact map_not_list _ (by intro x l h; cases h) _ _
    rw [h2, Option.or_none]
    exact h1

theorem useAll_list (o : KObject) (us : List (MWorld × Op)) (s : OState) :
    (useAll o us s).2.syscalls = s.syscalls.or (firstList (useAll o us s).1) := by
  induction us generalizing s with
  | nil => simp [useAll, firstList]
  | cons u us ih =>
    obtain ⟨w, op⟩ := u
    simp only [useAll]
    rw [ih, perform_list, Option.or_assoc, ← firstList_append]
    rfl

/-! ### The constructor -/

theorem newArch_given {k : Kind} {v : Ver} {abi : Str} {b : Bool} {a : Arch} (h : newArch k v abi b = .ok a) :
    a.abi = abi ∧ a.bits32 = b := by
  cases k <;> simp only [newArch, newArm, newArm64, newMips, newPowerPC, newRiscV, newX86, bind, Except.bind, pyAssert] at h
  case riscv =>
    split at h
    · cases h
    split at h
    · cases h
    split at h
    · cases h
    rename_i a1 hq
    have h1 : a1.abi = abi ∧ a1.bits32 = b := by
      repeat' (first | (cases hq; done) | (cases hq; exact ⟨rfl, rfl⟩) | split at hq)
    split at h <;> cases h <;> exact h1
  all_goals repeat' (first | (cases h; done) | (cases h; exact ⟨rfl, rfl⟩) | (cases h; cases b <;> simp_all; done) | split at h)

theorem createArch_again {n : Option Str} {e : Elf} {a : Arch} {v : Ver} (h : GoodKernel n e a v) (st : KStore) :
    ∃ st', createArch st a.kind v a.abi a.bits32 = .ok (a, st') := by
  have : newArch a.kind v a.abi a.bits32 = .ok a := by
    cases n with
    | some m =>
      have := h.named m rfl
      unfold archFromName at this
      split at this
      · cases this
      · rw [newArch_kind this, (newArch_given this).1, (newArch_given this).2]; exact this
    | none =>
      obtain ⟨k, b, abi, -, this⟩ := h.detected rfl
      rw [newArch_kind this, (newArch_given this).1, (newArch_given this).2]; exact this
  unfold createArch
  rw [this]
  exact ⟨_, rfl⟩

/-- an object can be made of an image whenever the constructor accepts the image -/
theorem C125_made (w : MWorld) (n : Option Str) (p : Path) (kdir outdir rdir : Option Path) (cross : Str) (s : MState)
    (k : Analysis) (s1 : MState) (h : newAnalysis w n p kdir s = (.ok k, s1)) :
    ∃ o st, MadeOf w n p kdir outdir rdir cross s.b.hist o st ∧ st.arch = k.arch := by
  obtain ⟨st', hc⟩ := createArch_again (newAnalysis_ok w n p kdir s s1 k h).2 s1.store
  have e : newObject w n (some p) kdir outdir rdir cross s =
      (.ok (⟨some (p, k.elf), kdir, outdir, rdir, some cross, st'⟩,
        ⟨{ s1.b with version := some k.version }, some cs!"vmlinux", k.arch, none⟩), { s1 with store := st' }) := by
    unfold newObject
    simp only [mm_bind, h, mm_get, mm_lift, hc, mm_modify, mm_pure]
  exact ⟨_, _, ⟨s, _, rfl, e⟩, rfl⟩

theorem madeOf_inv {w : MWorld} {n : Option Str} {p : Path} {kdir outdir rdir : Option Path} {cross : Str} {hist : List Run}
    {o : KObject} {st : OState} (h : MadeOf w n p kdir outdir rdir cross hist o st) :
    ∃ e v, LoadedFrom w hist p e ∧ GoodKernel n e st.arch v ∧ o.image = some (p, e) ∧ o.kdir = kdir ∧ o.rdir = rdir ∧
      ImageInv e st.arch v st ∧ st.syscalls = none := by
  obtain ⟨s, s', hh, h⟩ := h
  unfold newObject at h
  simp only [mm_bind] at h
  rcases hk : newAnalysis w n p kdir s with ⟨_ | k, s1⟩
  · rw [hk] at h; cases h
  · rw [hk] at h
    simp only [mm_get, mm_lift] at h
    cases hc : createArch s1.store k.arch.kind k.version k.arch.abi k.arch.bits32 with
    | error x => rw [hc] at h; cases h
    | ok c =>
      rw [hc] at h
      simp only [mm_modify, mm_pure, Prod.mk.injEq, Except.ok.injEq] at h
      obtain ⟨⟨h1, h2⟩, -⟩ := h
      obtain ⟨hl, hg⟩ := newAnalysis_ok w n p kdir s s1 k hk
      subst h1 h2 hh
      exact ⟨k.elf, k.version, hl, hg, rfl, rfl, rfl, ⟨rfl, .inl rfl, .inr rfl⟩, rfl⟩

/-- C125: however often and in whatever order an object of an image is used, and whatever happens outside in between, reading
it gives the version of the image, where it comes from, and the list of syscalls: the first time the one extracted
with the architecture chosen at the beginning (attempts that failed leave no trace), and from then on that same list. -/
theorem C125_replies (w : MWorld) (n : Option Str) (p : Path) (kdir outdir rdir : Option Path) (cross : Str) (hist : List Run)
    (o : KObject) (st : OState) (h : MadeOf w n p kdir outdir rdir cross hist o st) :
    ∃ e v, LoadedFrom w hist p e ∧ GoodKernel n e st.arch v ∧
      ∀ (us : List (MWorld × Op)) (w' : MWorld) (op : Op),
        Expected e v (useAll o us st).1
          (extractSyscalls st.arch e v (kenvOf w' (useAll o us st).2.b.hist st.arch e p kdir rdir))
          (perform w' o op (useAll o us st).2).1 op := by
  obtain ⟨e, v, hl, hg, ho, hk, hr, hi, hn⟩ := madeOf_inv h
  refine ⟨e, v, hl, hg, fun us w' op => ?_⟩
  have hinv := useAll_keeps o (fun w op => imageInv_perform ho hg.version w op) us st hi
  have hlist := useAll_list o us st
  rw [hn, Option.none_or] at hlist
  generalize (useAll o us st).1 = before at hlist ⊢
  generalize (useAll o us st).2 = s at hinv hlist ⊢
  have hver := versionO_image (w := w') ho hg.version s hinv.source hinv.version
  cases op with
  | version =>
    show (perform w' o .version s).1 = _
    simp only [perform, as_fst, hver]; rfl
  | versionStr =>
    show (perform w' o .versionStr s).1 = _
    simp only [perform, as_fst, versionStrO, om_bind, hver, om_get, om_pure, hinv.source]
    simp [strOrNone, versionStr, Except.map]
  | versionTag =>
    show (perform w' o .versionTag s).1 = _
    simp only [perform, as_fst, versionTagO, om_bind, hver, om_lift]
  | versionSource =>
    show (perform w' o .versionSource s).1 = _
    simp only [perform, as_fst, versionSourceO, om_bind, om_get, hinv.source]
    rfl
  | canLocate =>
    show (perform w' o .canLocate s).1 = _
    simp only [perform, as_fst, ofImage, ho, om_pure]; rfl
  | canSign =>
    show (perform w' o .canSign s).1 = _
    simp only [perform, as_fst, ofImage, ho, om_pure]; rfl
  | syscalls =>
    show match firstList before with
      | some l => (perform w' o .syscalls s).1 = .ok (.syscalls l)
      | none => (perform w' o .syscalls s).1 = _
    simp only [perform, as_fst]
    cases hf : firstList before with
    | some l => simp only [syscallsO_cached s l (hlist.trans hf)]; rfl
    | none =>
      simp only [(syscallsO_image (w := w') ho hg.version s hinv (hlist.trans hf)).1, hk, hr]
  | _ => trivial

/-- C125: reading an object of an image runs neither `make` nor `scripts/config`, and leaves the Makefile alone. -/
theorem C125_quiet (w : MWorld) (n : Option Str) (p : Path) (kdir outdir rdir : Option Path) (cross : Str) (hist : List Run)
    (o : KObject) (st : OState) (h : MadeOf w n p kdir outdir rdir cross hist o st) (us : List (MWorld × Op)) (w' : MWorld) (op : Op)
    (hop : OnlyReads op) :
    (perform w' o op (useAll o us st).2).2.b.hist = (useAll o us st).2.b.hist ∧
    (perform w' o op (useAll o us st).2).2.b.makefile = (useAll o us st).2.b.makefile := by
  obtain ⟨e, v, hl, hg, ho, hk, hr, hi, hn⟩ := madeOf_inv h
  have hinv := useAll_keeps o (fun w op => imageInv_perform ho hg.version w op) us st hi
  generalize (useAll o us st).2 = s at hinv ⊢
  have hver := versionO_image (w := w') ho hg.version s hinv.source hinv.version
  cases op with
  | version => simp only [perform, as_snd, hver]; exact ⟨trivial, trivial⟩
  | versionStr => simp only [perform, as_snd, versionStrO, om_bind, hver, om_get, om_pure]; exact ⟨trivial, trivial⟩
  | versionTag => simp only [perform, as_snd, versionTagO, om_bind, hver, om_lift]; exact ⟨trivial, trivial⟩
  | versionSource =>
    simp only [perform, as_snd, versionSourceO, om_bind, om_get, hinv.source]
    exact ⟨rfl, rfl⟩
  | canLocate => simp only [perform, as_snd, ofImage, ho, om_pure]; exact ⟨trivial, trivial⟩
  | canSign => simp only [perform, as_snd, ofImage, ho, om_pure]; exact ⟨trivial, trivial⟩
  | syscalls =>
    simp only [perform, as_snd]
    cases hs : s.syscalls with
    | some l => rw [syscallsO_cached s l hs]; exact ⟨rfl, rfl⟩
    | none => exact (syscallsO_image ho hg.version s hinv hs).2.2
  | _ => exact absurd hop id

/-! ## Objects of a source tree -/

/-- asking `make` for the version, in a state where it is not known -/
theorem askMake_spec (w : MWorld) (k : Path) (s : OState) :
    ∃ r, AsksVersion r ∧ r.cwd = some k ∧ (askMake w k s).2.b.hist = s.b.hist ++ [r] ∧ (askMake w k s).2.syscalls = s.syscalls ∧
      (askMake w k s).2.arch = s.arch ∧ (s.source = some cs!"make" → (askMake w k s).2.source = some cs!"make") ∧
      ((∃ v, (askMake w k s).1 = .ok v ∧ (askMake w k s).2.b.version = some v ∧ w.status s.b.hist r = some 0 ∧
          versionFromStr (w.output s.b.hist r) = some v) ∨
        (∃ x, (askMake w k s).1 = .error x) ∧ (s.b.version = none → (askMake w k s).2.b.version = none)) := by
  refine ⟨s.b.runOf [cs!"make", cs!"kernelversion"] (some k) none, rfl, rfl, ?_⟩
  unfold askMake
  simp only [om_bind, om_ofB, ensureCommand_eq]
  by_cases hi : w.interrupt = some (.run s.b.hist.length)
  · rw [if_pos hi]
    exact ⟨rfl, rfl, rfl, id, .inr ⟨⟨_, rfl⟩, id⟩⟩
  · rw [if_neg hi]
    cases hs : ensured (w.status s.b.hist (s.b.runOf [cs!"make", cs!"kernelversion"] (some k) none)) with
    | error x => exact ⟨rfl, rfl, rfl, id, .inr ⟨⟨_, rfl⟩, id⟩⟩
    | ok u =>
      simp only [om_modify]
      have h0 : w.status s.b.hist (s.b.runOf [cs!"make", cs!"kernelversion"] (some k) none) = some 0 := by
        unfold ensured at hs
        split at hs
        · cases hs
        · assumption
        · cases hs
      cases hv : versionFromStr (w.output s.b.hist (s.b.runOf [cs!"make", cs!"kernelversion"] (some k) none)) with
      | none => exact ⟨rfl, rfl, rfl, fun _ => rfl, .inr ⟨⟨_, rfl⟩, fun _ => rfl⟩⟩
      | some v => exact ⟨rfl, rfl, rfl, fun _ => rfl, .inl ⟨v, rfl, rfl, h0, rfl⟩⟩

theorem versionO_tree {w : MWorld} {o : KObject} {k : Path} (ho : o.image = none) (hk : o.kdir = some k) (s : OState) :
    versionO w o s = match s.b.version with
      | some v => (.ok v, s)
      | none => askMake w k s := by
  unfold versionO
  simp only [om_bind, om_get]
  cases h : s.b.version with
  | some v => rfl
  | none => simp only [ho, hk]

/-- what the object knows is what the tree last answered -/
def TreeInv (w : World) (k : Path) (s : OState) : Prop := ∀ v, s.b.version = some v → LastAnswer w k s.b.hist v

theorem treeInv_version {w : MWorld} {o : KObject} {k : Path} (ho : o.image = none) (hk : o.kdir = some k) :
    Keeps (TreeInv w.toWorld k) (versionO w o) := by
  intro s hs
  rw [versionO_tree ho hk]
  cases h : s.b.version with
  | some v => exact hs
  | none =>
    obtain ⟨r, h1, h2, h3, -, -, -, h4⟩ := askMake_spec w k s
    rcases h4 with ⟨v, -, h5, h6, h7⟩ | ⟨-, h5⟩
    · intro v' hv'
      simp only at hv' ⊢
      rw [h5] at hv'
      cases hv'
      exact ⟨s.b.hist, r, [], h3, h1, h2, by simp, h6, h7⟩
    · intro v' hv'
      simp only at hv'
      rw [h5 h] at hv'
      cases hv'

theorem treeInv_kept {w : MWorld} {o : KObject} {k : Path} (ho : o.image = none) (hk : o.kdir = some k) :
    Kept w o (TreeInv w.toWorld k) where
  steady s s' hs _ _ _ h4 h5 v hv := by
    rw [h4] at hv
    obtain ⟨R, e, hR⟩ := h5
    obtain ⟨h, r, h', e1, h1, h2, h3, h6⟩ := hs v hv
    refine ⟨h, r, h' ++ R, by rw [e, e1]; simp, h1, h2, ?_, h6⟩
    intro x hx
    rcases List.mem_append.1 hx with hx | hx
    · exact h3 x hx
    · exact hR x hx
  version := treeInv_version ho hk

theorem syscallsO_tree {w : MWorld} {o : KObject} (ho : o.image = none) (s : OState) (hn : s.syscalls = none) :
    syscallsO w o s = (.error .attr, s) := by
  unfold syscallsO
  simp only [om_bind, om_get, hn, ho, om_raise]

theorem madeFor_inv {w : MWorld} {n : Str} {k : Path} {outdir rdir : Option Path} {cross : Str}
    {o : KObject} {st : OState} (h : MadeFor w n k outdir rdir cross o st) :
    o.image = none ∧ o.kdir = some k ∧ st.source = some cs!"make" ∧
    st.syscalls = none ∧ ∃ v, st.b.version = some v ∧ LastAnswer w.toWorld k st.b.hist v ∧ archFromName n v = .ok st.arch := by
  obtain ⟨s, s', h⟩ := h
  unfold newObject newBuilder at h
  simp only [mm_bind, MM.ofB] at h
  have hf : ∀ v b, firstVersion w.toWorld k s.b = (.ok v, b) → b.version = some v ∧ LastAnswer w.toWorld k b.hist v := by
    intro v b hb
    unfold firstVersion at hb
    simp only [bm_bind, ensureCommand_eq] at hb
    by_cases hi : w.interrupt = some (.run s.b.hist.length)
    · rw [if_pos hi] at hb; cases hb
    · rw [if_neg hi] at hb
      cases hs : ensured (w.status s.b.hist (s.b.runOf [cs!"make", cs!"kernelversion"] (some k) none)) with
      | error x => rw [hs] at hb; cases hb
      | ok u =>
        rw [hs] at hb
        have h0 : w.status s.b.hist (s.b.runOf [cs!"make", cs!"kernelversion"] (some k) none) = some 0 := by
          unfold ensured at hs
          split at hs
          · cases hs
          · assumption
          · cases hs
        simp only at hb
        cases hv : versionFromStr (w.output s.b.hist (s.b.runOf [cs!"make", cs!"kernelversion"] (some k) none)) with
        | none => rw [hv] at hb; cases hb
        | some v' =>
          rw [hv] at hb
          simp only [bm_bind, bm_modify, bm_pure, Prod.mk.injEq, Except.ok.injEq] at hb
          obtain ⟨rfl, rfl⟩ := hb
          exact ⟨rfl, s.b.hist, _, [], rfl, rfl, rfl, by simp, h0, hv⟩
  rcases hq : firstVersion w.toWorld k s.b with ⟨_ | v, b⟩
  · rw [hq] at h; cases h
  · rw [hq] at h
    simp only [mm_get, mm_lift] at h
    obtain ⟨f1, f2⟩ := hf v b hq
    cases ha : archFromNameSt s.store n v with
    | error x => rw [ha] at h; cases h
    | ok p =>
      rw [ha] at h
      simp only [mm_modify, mm_pure, Prod.mk.injEq, Except.ok.injEq] at h
      obtain ⟨⟨rfl, rfl⟩, -⟩ := h
      refine ⟨rfl, rfl, rfl, rfl, v, f1, f2, ?_⟩
      unfold archFromNameSt at ha
      unfold archFromName
      cases hd : dget n supportedArchs with
      | none => rw [hd] at ha; cases ha
      | some q =>
        rw [hd] at ha
        simp only at ha ⊢
        unfold createArch at ha
        cases hn : newArch q.1 v q.2.1 q.2.2 with
        | error x => rw [hn] at ha; cases ha
        | ok a => rw [hn] at ha; cases ha; rfl

/-- what stays true of an object of a tree, whatever the outside -/
structure TreeKept (s : OState) : Prop where
  source : s.source = some cs!"make"
  syscalls : s.syscalls = none

theorem treeKept_perform {o : KObject} {k : Path} (ho : o.image = none) (hk : o.kdir = some k) (w : MWorld) (op : Op) :
    Keeps TreeKept (perform w o op) := by
  refine Kept.perform ⟨?_, ?_⟩ op (fun _ s h => ⟨h.source, h.syscalls⟩) fun _ s hs => by rw [syscallsO_tree ho s hs.syscalls]; exact hs
  · intro s s' h h1 h2 h3 h4 h5
    exact ⟨h1.trans h.source, h3.trans h.syscalls⟩
  · intro s hs
    rw [versionO_tree ho hk]
    cases h : s.b.version with
    | some v => exact hs
    | none =>
      obtain ⟨r, -, -, -, h1, -, h2, -⟩ := askMake_spec w k s
      exact ⟨h2 hs.source, h1.trans hs.syscalls⟩

theorem treeInv_perform {w : MWorld} {o : KObject} {k : Path} (ho : o.image = none) (hk : o.kdir = some k) (op : Op)
    (s : OState) (h : TreeKept s) (hi : TreeInv w.toWorld k s) : TreeInv w.toWorld k (perform w o op s).2 := by
  by_cases hop : op = .syscalls
  · subst hop
    show TreeInv w.toWorld k ((syscallsO w o).as .syscalls s).2
    rw [as_snd, syscallsO_tree ho s h.syscalls]
    exact hi
  · exact (treeInv_kept ho hk).perform op (fun _ s _ v h => by cases h) (fun h => absurd h hop) s hi

theorem treeInv_useAll {w : MWorld} {o : KObject} {k : Path} (ho : o.image = none) (hk : o.kdir = some k) (ops : List Op)
    (s : OState) (h : TreeKept s) (hi : TreeInv w.toWorld k s) :
    TreeKept (useAll o (ops.map fun op => (w, op)) s).2 ∧ TreeInv w.toWorld k (useAll o (ops.map fun op => (w, op)) s).2 := by
  induction ops generalizing s with
  | nil => exact ⟨h, hi⟩
  | cons op ops ih => exact ih _ (treeKept_perform ho hk w op s h) (treeInv_perform ho hk op s h hi)

/-- C126: the version an object of a tree gives is what the tree answered when it was last asked, after any uses. -/
theorem C126_version_partial (w : MWorld) (n : Str) (k : Path) (outdir rdir : Option Path) (cross : Str) (o : KObject) (st : OState)
    (h : MadeFor w n k outdir rdir cross o st) (ops : List Op) :
    let s := (useAll o (ops.map fun op => (w, op)) st).2
    (∀ v, (perform w o .version s).1 = .ok (.version v) → LastAnswer w.toWorld k (perform w o .version s).2.b.hist v) ∧
    (∀ t, (perform w o .versionStr s).1 = .ok (.text t) → ∃ v, LastAnswer w.toWorld k (perform w o .versionStr s).2.b.hist v ∧
      t = joinWith cs!"." (v.map natRepr) ++ cs!" (from make)") ∧
    (perform w o .versionSource s).1 = .ok (.source (some cs!"make")) := by
  obtain ⟨ho, hk, hsrc, hn, v0, hv0, hl, -⟩ := madeFor_inv h
  obtain ⟨h1, h2⟩ := treeInv_useAll (w := w) ho hk ops st ⟨hsrc, hn⟩ (by intro v hv; rw [hv0] at hv; cases hv; exact hl)
  intro s
  change TreeKept s at h1
  change TreeInv w.toWorld k s at h2
  generalize s = s at h1 h2
  have key : ∀ v, (versionO w o s).1 = .ok v → (versionO w o s).2.b.version = some v := by
    intro v hv
    rw [versionO_tree ho hk] at hv ⊢
    cases hs : s.b.version with
    | some v' => rw [hs] at hv; cases hv; exact hs
    | none =>
      rw [hs] at hv
      obtain ⟨r, -, -, -, -, -, -, h4⟩ := askMake_spec w k s
      rcases h4 with ⟨v', h5, h6, -⟩ | ⟨⟨x, h5⟩, -⟩
      · simp only at hv ⊢
        rw [h5] at hv; cases hv; exact h6
      · simp only at hv
        rw [h5] at hv; cases hv
  have hI := treeInv_version (w := w) ho hk s h2
  refine ⟨?_, ?_, ?_⟩
  · intro v hv
    simp only [perform, as_fst, as_snd] at hv ⊢
    cases hr : (versionO w o s).1 with
    | error x => rw [hr] at hv; cases hv
    | ok v' =>
      rw [hr] at hv
      cases hv
      exact hI v (key v hr)
  · intro t ht
    simp only [perform, as_fst, as_snd, versionStrO] at ht ⊢
    rw [om_bind] at ht ⊢
    have hsrc' : (versionO w o s).2.source = some cs!"make" := by
      have := (treeKept_perform ho hk w .version s h1).source
      simpa only [perform, as_snd] using this
    rcases hr : versionO w o s with ⟨_ | v, s1⟩
    · rw [hr] at ht; cases ht
    · rw [hr] at ht key hI hsrc'
      simp only [om_bind, om_get, om_pure] at ht ⊢
      simp only at hsrc'
      rw [hsrc'] at ht
      cases ht
      refine ⟨v, hI v (key v rfl), ?_⟩
      simp [strOrNone, versionStr]
  · simp only [perform, as_fst, versionSourceO, om_bind, om_get, h1.source]
    rfl

/-- C126: a version that was given is given again, without asking, until the object is used to clean, configure or build; this
holds of any object, whatever happens outside. -/
theorem C126_kept (o : KObject) (s : OState) (w1 w2 : MWorld) (v : Ver) (us : List (MWorld × Op))
    (h : (perform w1 o .version s).1 = .ok (.version v)) (hus : ∀ u ∈ us, ¬ Forgets u.2) :
    let s' := (useAll o us (perform w1 o .version s).2).2
    perform w2 o .version s' = (.ok (.version v), s') := by
  have hread : ∀ (w : MWorld) (s : OState), s.b.version = some v → versionO w o s = (.ok v, s) := by
    intro w s hs
    unfold versionO
    simp only [om_bind, om_get, hs, om_pure]
  have key : ∀ (w : MWorld) (op : Op), ¬ Forgets op → Keeps (fun s => s.b.version = some v) (perform w o op) := by
    intro w op hop
    have hK : Kept w o (fun s => s.b.version = some v) :=
      ⟨fun s s' h _ _ _ h4 _ => h4.trans h, fun s hs => by rw [hread w s hs]; exact hs⟩
    refine hK.perform op (fun hf => absurd hf hop) fun _ s hs => ?_
    unfold syscallsO
    simp only [om_bind, om_get]
    cases s.syscalls with
    | some l => exact hs
    | none =>
      cases o.image with
      | none => exact hs
      | some pe =>
        simp only [om_bind, hread w s hs, om_modify, om_lift]
        cases extractSyscalls s.arch pe.2 v (kenvOf w s.b.hist s.arch pe.2 pe.1 o.kdir o.rdir) <;> exact hs
  have h0 : (perform w1 o .version s).2.b.version = some v := by
    simp only [perform, as_fst, as_snd] at h ⊢
    have hx : (versionO w1 o s).1 = .ok v := by
      cases hr : (versionO w1 o s).1 with
      | error x => rw [hr] at h; cases h
      | ok v' => rw [hr] at h; cases h; rfl
    clear h
    revert hx
    unfold versionO
    simp only [om_bind, om_get]
    cases hv : s.b.version with
    | some v' => intro hx; cases hx; exact hv
    | none =>
      cases hi : o.image with
      | some pe =>
        simp only [om_bind, om_lift]
        cases versionFromVmlinux pe.2 with
        | error x => intro hx; cases hx
        | ok v' =>
          cases v' with
          | none => intro hx; cases hx
          | some v' => intro hx; cases hx; rfl
      | none =>
        cases o.kdir with
        | none => intro hx; cases hx
        | some k =>
          simp only
          intro hx
          obtain ⟨r, -, -, -, -, -, -, h4⟩ := askMake_spec w1 k s
          rcases h4 with ⟨v', h5, h6, -⟩ | ⟨⟨x, h5⟩, -⟩
          · rw [h5] at hx; cases hx; exact h6
          · rw [h5] at hx; cases hx
  intro s'
  have hs' : s'.b.version = some v := by
    show (useAll o us (perform w1 o .version s).2).2.b.version = some v
    generalize (perform w1 o .version s).2 = t at h0
    clear s'
    induction us generalizing t with
    | nil => exact h0
    | cons u us ih => exact ih (fun x hx => hus x (List.mem_cons_of_mem _ hx)) _ (key u.1 u.2 (hus u (List.mem_cons_self ..)) t h0)
  show (versionO w2 o).as .version s' = _
  show (versionO w2 o >>= fun x => OM.pure (Reply.version x)) s' = _
  rw [om_bind, hread w2 s' hs']
  rfl

/-- C126: after cleaning or building, the next reading of the version asks the tree again. -/
theorem C126_again (w w1 w2 : MWorld) (n : Str) (k : Path) (outdir rdir : Option Path) (cross : Str) (o : KObject) (st : OState)
    (h : MadeFor w n k outdir rdir cross o st) (us : List (MWorld × Op)) (op : Op) (hop : op = .clean ∨ ∃ d, op = .build d) :
    let s := (perform w1 o op (useAll o us st).2).2
    ∃ r, AsksVersion r ∧ (perform w2 o .version s).2.b.hist = s.b.hist ++ [r] := by
  obtain ⟨ho, hk, -⟩ := madeFor_inv h
  intro s
  have hs : s.b.version = none := by
    show (perform w1 o op (useAll o us st).2).2.b.version = none
    generalize (useAll o us st).2 = t
    rcases hop with rfl | ⟨d, rfl⟩
    · simp only [perform, as_snd, cleanO]
      exact (steadyO_makeO w1 o cs!"distclean" none t.forgotten).2.2.2.1
    · simp only [perform, as_snd]
      show ((match o.kdir with
        | none => OM.raise (if d then .type else .attr)
        | some _ => withKdir o fun b => Verif.build w1.toWorld b d) t.forgotten).2.b.version = none
      simp only [hk, withKdir, om_bind, om_get, om_ofB]
      exact (build_steady w1.toWorld (o.builder t.forgotten k) d t.forgotten.b rfl).1
  obtain ⟨r, h1, -, h3, -⟩ := askMake_spec w2 k s
  refine ⟨r, h1, ?_⟩
  simp only [perform, as_snd]
  rw [versionO_tree ho hk, hs]
  exact h3

/-- C126: an object of a tree never gives a list of syscalls, nor says if it could find locations or signatures: whatever was
done with it, each of the three raises AttributeError, since there is no image to look at. -/
theorem C126_no_image (w : MWorld) (n : Str) (k : Path) (outdir rdir : Option Path) (cross : Str) (o : KObject) (st : OState)
    (h : MadeFor w n k outdir rdir cross o st) (us : List (MWorld × Op)) (w' : MWorld) (op : Op)
    (hop : op = .syscalls ∨ op = .canLocate ∨ op = .canSign) :
    (perform w' o op (useAll o us st).2).1 = .error .attr := by
  obtain ⟨ho, hk, hsrc, hn, -⟩ := madeFor_inv h
  have hs := useAll_keeps o (fun w op => treeKept_perform ho hk w op) us st ⟨hsrc, hn⟩
  generalize (useAll o us st).2 = s at hs
  rcases hop with rfl | rfl | rfl
  · simp only [perform, as_fst, syscallsO_tree ho s hs.syscalls]; rfl
  · simp only [perform, as_fst, ofImage, ho, om_raise]; rfl
  · simp only [perform, as_fst, ofImage, ho, om_raise]; rfl

/-! ## The same as the models of the program -/

/-- an action of the object does what an action of Model/Build does -/
def SameAs {α : Type} (a : Arch) (m : OM α) (b : BM α) : Prop :=
  ∀ s, s.arch = a → s.source = some cs!"make" → m s = OM.ofB b s

theorem SameAs.bind {α β : Type} {a : Arch} {m : OM α} {b : BM α} {f : α → OM β} {g : α → BM β} (h : SameAs a m b)
    (hf : ∀ x, SameAs a (f x) (g x)) : SameAs a (m >>= f) (b >>= g) := by
  intro s ha hs
  rw [om_bind, h s ha hs, om_ofB, om_ofB, bm_bind]
  rcases b s.b with ⟨_ | x, b'⟩
  · rfl
  · exact hf x _ ha hs

theorem sameAs_version {w : MWorld} {o : KObject} {k : Path} (ho : o.image = none) (hk : o.kdir = some k) (b : Builder)
    (hb : b.kdir = k) (a : Arch) : SameAs a (versionO w o) (getVersion w.toWorld b) := by
  intro s ha hs
  rw [versionO_tree ho hk, om_ofB]
  unfold getVersion
  simp only [bm_bind, bm_get]
  cases hv : s.b.version with
  | some v => rfl
  | none =>
    unfold askMake
    simp only [om_bind, bm_bind, om_ofB, hb]
    have hver : (ensureCommand w.toWorld [cs!"make", cs!"kernelversion"] (some k) none s.b).2.version = none := by
      rw [ensureCommand_eq]; exact hv
    rcases he : ensureCommand w.toWorld [cs!"make", cs!"kernelversion"] (some k) none s.b with ⟨_ | out, b1⟩
    · rfl
    · rw [he] at hver
      simp only [om_modify]
      cases versionFromStr out with
      | none =>
        obtain ⟨b0, src, ar, sc⟩ := s
        obtain ⟨hist, ver, mf, bk, hd⟩ := b1
        simp only at hs hver
        subst hs hver
        rfl
      | some v =>
        obtain ⟨b0, src, ar, sc⟩ := s
        simp only at hs
        subst hs
        rfl

theorem sameAs_withKdir {α : Type} {o : KObject} {k : Path} (hk : o.kdir = some k) (a : Arch) (f : Builder → BM α) :
    SameAs a (withKdir o f) (f ⟨k, o.outdir, o.toolchainPrefix, a, o.store⟩) := by
  intro s ha _
  subst ha
  unfold withKdir
  simp only [om_bind, om_get, hk]
  rfl

theorem sameAs_sync {w : MWorld} {o : KObject} {k : Path} (ho : o.image = none) (hk : o.kdir = some k) (a : Arch) :
    SameAs a (syncO w o) (syncConfig w.toWorld ⟨k, o.outdir, o.toolchainPrefix, a, o.store⟩) := by
  unfold syncO syncConfig
  refine (sameAs_version ho hk _ rfl a).bind fun v => ?_
  split
  · exact sameAs_withKdir hk a fun b => make w.toWorld b _ _
  · exact sameAs_withKdir hk a fun b => make w.toWorld b _ _

theorem sameAs_group {w : MWorld} {o : KObject} {k : Path} (ho : o.image = none) (hk : o.kdir = some k) (a : Arch)
    (f : Builder → Ver → BM Unit) :
    SameAs a (groupO w o f) (do
      let v ← getVersion w.toWorld ⟨k, o.outdir, o.toolchainPrefix, a, o.store⟩
      f ⟨k, o.outdir, o.toolchainPrefix, a, o.store⟩ v
      syncConfig w.toWorld ⟨k, o.outdir, o.toolchainPrefix, a, o.store⟩) := by
  unfold groupO
  refine (sameAs_version ho hk _ rfl a).bind fun v => ?_
  exact (sameAs_withKdir hk a fun b => f b v).bind fun _ => sameAs_sync ho hk a

theorem sameAs_forM {w : MWorld} {o : KObject} {k : Path} (hk : o.kdir = some k) (a : Arch) (ts : List Str) :
    SameAs a (ts.forM fun t => makeO w o t none)
      (ts.forM fun t => make w.toWorld ⟨k, o.outdir, o.toolchainPrefix, a, o.store⟩ t none) := by
  induction ts with
  | nil => exact fun s _ _ => rfl
  | cons t ts ih => exact (sameAs_withKdir hk a fun b => make w.toWorld b t none).bind fun _ => ih

theorem sameAs_forget (a : Arch) : SameAs a forget (BM.modify fun s => { s with version := none }) := fun _ _ _ => rfl

theorem bm_assoc {α β γ : Type} (m : BM α) (f : α → BM β) (g : β → BM γ) :
    ((m >>= f) >>= g) = (m >>= fun x => f x >>= g) := by
  funext s
  simp only [bm_bind]
  rcases m s with ⟨_ | x, s1⟩ <;> rfl

theorem sameAs_configure {w : MWorld} {o : KObject} {k : Path} (ho : o.image = none) (hk : o.kdir = some k) (a : Arch) :
    SameAs a (configureO w o) (configure w.toWorld ⟨k, o.outdir, o.toolchainPrefix, a, o.store⟩) := by
  have h := (sameAs_forget a).bind fun _ => (sameAs_forM (w := w) hk a a.configTargets).bind fun _ =>
    (sameAs_group (w := w) ho hk a fun b v => applyOptions w.toWorld b ((VList.init kconfigDebuggingTable).getItem v).1).bind fun _ =>
    (sameAs_group (w := w) ho hk a fun b v => applyOptions w.toWorld b ((VList.init kconfigCompatibilityTable).getItem v).1).bind fun _ =>
    (sameAs_group (w := w) ho hk a fun b v => applyOptionsCheck w.toWorld b ((VDict.init kconfigMoreSyscallsTable).getItem v).1).bind fun _ =>
    sameAs_group (w := w) ho hk a fun b v => applyOptionsCheck w.toWorld b (archKconfig b.store b.arch v)
  simp only [bm_assoc] at h
  intro s ha hs
  have := h s ha hs
  subst ha
  have e : configureO w o s = (do
      forget
      s.arch.configTargets.forM fun t => makeO w o t none
      groupO w o fun b v => applyOptions w.toWorld b ((VList.init kconfigDebuggingTable).getItem v).1
      groupO w o fun b v => applyOptions w.toWorld b ((VList.init kconfigCompatibilityTable).getItem v).1
      groupO w o fun b v => applyOptionsCheck w.toWorld b ((VDict.init kconfigMoreSyscallsTable).getItem v).1
      groupO w o fun b v => applyOptionsCheck w.toWorld b (archKconfig b.store b.arch v) : OM Unit) s := by
    unfold configureO
    rw [hk]
    simp only [Option.isNone_some, Bool.and_false, Bool.false_eq_true, if_false]
    rfl
  rw [e]
  exact this

/-- C126: on an object of a tree, after any uses, the methods do what the models of the program say: `clean`, `configure` and `build`
of Model/Build, with the directories given to the constructor. -/
theorem C126_same (w : MWorld) (n : Str) (k : Path) (outdir rdir : Option Path) (cross : Str) (o : KObject) (st : OState)
    (h : MadeFor w n k outdir rdir cross o st) (us : List (MWorld × Op)) (w' : MWorld) (d : Bool) :
    let s := (useAll o us st).2
    let b : Builder := ⟨k, outdir, some cross, st.arch, o.store⟩
    ((cleanO w' o s).1, (cleanO w' o s).2.b) = clean w'.toWorld b s.b ∧
    ((configureO w' o s).1, (configureO w' o s).2.b) = configure w'.toWorld b s.b ∧
    ((buildO w' o d s).1, (buildO w' o d s).2.b) = build w'.toWorld b d s.b := by
  obtain ⟨ho, hk, hsrc, hn, -⟩ := madeFor_inv h
  have hdirs : o.outdir = outdir ∧ o.toolchainPrefix = some cross := by
    obtain ⟨s, s', h⟩ := h
    unfold newObject at h
    simp only [mm_bind] at h
    rcases hb : newBuilder w (some n) (some k) outdir cross s with ⟨_ | b, s1⟩
    · rw [hb] at h; cases h
    · rw [hb] at h
      simp only [mm_get, mm_pure, Prod.mk.injEq, Except.ok.injEq] at h
      obtain ⟨⟨rfl, -⟩, -⟩ := h
      exact ⟨rfl, rfl⟩
  have hT := useAll_keeps o (fun w op => treeKept_perform ho hk w op) us st ⟨hsrc, hn⟩
  have hA : (useAll o us st).2.arch = st.arch := by
    have key : ∀ (w : MWorld) (op : Op), Keeps (fun s => TreeKept s ∧ s.arch = st.arch) (perform w o op) := by
      intro w op s hs
      refine ⟨treeKept_perform ho hk w op s hs.1, ?_⟩
      by_cases hop : op = .syscalls
      · subst hop
        show ((syscallsO w o).as .syscalls s).2.arch = st.arch
        rw [as_snd, syscallsO_tree ho s hs.1.syscalls]
        exact hs.2
      · refine Kept.perform (P := fun s => s.arch = st.arch) ⟨fun s s' h _ h2 _ _ _ => h2.trans h, ?_⟩ op (fun _ _ h => h)
          (fun h => absurd h hop) s hs.2
        intro s hs
        rw [versionO_tree ho hk]
        cases s.b.version with
        | some v => exact hs
        | none => obtain ⟨r, -, -, -, -, h1, -⟩ := askMake_spec w k s; exact h1.trans hs
    exact (useAll_keeps o key us st ⟨⟨hsrc, hn⟩, rfl⟩).2
  intro s b
  change s.arch = st.arch at hA
  change TreeKept s at hT
  have done : ∀ {m : OM Unit} {x : BM Unit}, SameAs st.arch m x → ((m s).1, (m s).2.b) = x s.b := by
    intro m x hm
    rw [hm s hA hT.source]
    rfl
  have hb : b = ⟨k, o.outdir, o.toolchainPrefix, st.arch, o.store⟩ := by rw [hdirs.1, hdirs.2]
  rw [hb]
  refine ⟨done ?_, done (sameAs_configure ho hk st.arch), done ?_⟩
  · exact (sameAs_forget st.arch).bind fun _ => sameAs_withKdir hk st.arch fun b => make w'.toWorld b _ _
  · intro t ha _
    unfold buildO
    rw [om_bind]
    simp only [hk]
    show (withKdir o fun b => build w'.toWorld b d) t.forgotten = _
    simp only [withKdir, om_bind, om_get, hk, om_ofB]
    rw [← ha]
    rfl

/-! ## Concrete cases -/

/-- a tree of version 5.10.0 where everything can be built -/
def treeWorld : MWorld := mainWorld cs!"5.10.0\n" none

/-- the reply to the last of some uses of a new object -/
def lastReply (w : MWorld) (n : Option Str) (vmlinux kdir : Option Path) (ops : List Op) : Option (Res Reply) :=
  match (newObject w n vmlinux kdir none none [] {}).1 with
  | .error _ => none
  | .ok (o, st) => ((useAll o (ops.map fun op => (w, op)) st).1.getLast?).map Prod.snd

/-- C126 is false: an object that built a kernel cannot be used to look at it. -/
theorem C126_built_refuted :
    ¬ ∀ (w : MWorld) (n : Str) (k : Path) (outdir rdir : Option Path) (cross : Str) (o : KObject) (st : OState),
      MadeFor w n k outdir rdir cross o st → ∀ (d : Bool), (perform w o (.build d) st).1 = .ok .none →
      ∃ l, (perform w o .syscalls (perform w o (.build d) st).2).1 = .ok (.syscalls l) := by
  intro h
  have hk : ((lastReply treeWorld (some cs!"x86-64") none (some ⟨false, [cs!"linux"]⟩) [.build false]) == some (.ok .none)) = true := by
    decide +kernel
  unfold lastReply at hk
  rcases hn : newObject treeWorld (some cs!"x86-64") none (some ⟨false, [cs!"linux"]⟩) none none [] {} with ⟨_ | ⟨o, st⟩, s1⟩
  · rw [hn] at hk; exact absurd hk Bool.false_ne_true
  · rw [hn] at hk
    have hb : (perform treeWorld o (.build false) st).1 = .ok .none := by
      have := eq_of_beq hk
      simpa [useAll] using this
    have hm : MadeFor treeWorld cs!"x86-64" ⟨false, [cs!"linux"]⟩ none none [] o st := ⟨_, _, hn⟩
    obtain ⟨l, hl⟩ := h treeWorld _ _ _ _ _ o st hm false hb
    have := C126_no_image treeWorld _ _ _ _ _ o st hm [(treeWorld, .build false)] treeWorld .syscalls (.inl rfl)
    simp only [useAll] at this
    rw [this] at hl
    cases hl

/-- after cleaning and configuring, the version is there, with its source -/
example : lastReply treeWorld (some cs!"x86-64") none (some ⟨false, [cs!"linux"]⟩) [.clean, .versionStr] =
    some (.ok (.text cs!"5.10.0 (from make)")) := by decide +kernel

/-- an object of an image: the syscalls are given, before and after an attempt to clean (which raises, without a source tree) -/
example : ∃ l, l ≠ [] ∧
    lastReply (tinyWorld cs!"6.0.3" tinySymbols) none (some ⟨false, [cs!"vmlinux"]⟩) none [.syscalls] = some (.ok (.syscalls l)) ∧
    lastReply (tinyWorld cs!"6.0.3" tinySymbols) none (some ⟨false, [cs!"vmlinux"]⟩) none [.clean] = some (.error .attr) ∧
    lastReply (tinyWorld cs!"6.0.3" tinySymbols) none (some ⟨false, [cs!"vmlinux"]⟩) none [.syscalls, .clean, .syscalls] =
      some (.ok (.syscalls l)) := by
  have h : ∃ l ∈ (match lastReply (tinyWorld cs!"6.0.3" tinySymbols) none (some ⟨false, [cs!"vmlinux"]⟩) none [.syscalls] with
      | some (.ok (.syscalls l)) => [l] | _ => []), l ≠ [] ∧
      lastReply (tinyWorld cs!"6.0.3" tinySymbols) none (some ⟨false, [cs!"vmlinux"]⟩) none [.syscalls] = some (.ok (.syscalls l)) ∧
      lastReply (tinyWorld cs!"6.0.3" tinySymbols) none (some ⟨false, [cs!"vmlinux"]⟩) none [.clean] = some (.error .attr) ∧
      lastReply (tinyWorld cs!"6.0.3" tinySymbols) none (some ⟨false, [cs!"vmlinux"]⟩) none [.syscalls, .clean, .syscalls] =
        some (.ok (.syscalls l)) := by decide +kernel
  obtain ⟨l, -, h⟩ := h
  exact ⟨l, h⟩

/-- so that there is such an object -/
example : ∃ o st, MadeOf (tinyWorld cs!"6.0.3" tinySymbols) none ⟨false, [cs!"vmlinux"]⟩ none none none [] [] o st := by
  have hk : ((lastReply (tinyWorld cs!"6.0.3" tinySymbols) none (some ⟨false, [cs!"vmlinux"]⟩) none [.clean]).isSome) = true := by
    decide +kernel
  unfold lastReply at hk
  rcases hn : newObject (tinyWorld cs!"6.0.3" tinySymbols) none (some ⟨false, [cs!"vmlinux"]⟩) none none none [] {} with ⟨_ | ⟨o, st⟩, s1⟩
  · rw [hn] at hk; exact absurd hk Bool.false_ne_true
  · exact ⟨o, st, _, _, rfl, hn⟩

/-- uses meeting the hypotheses of `C126_kept` -/
example : ∀ u ∈ [(treeWorld, Op.syncConfig), (treeWorld, Op.make cs!"help" false), (treeWorld, Op.versionTag)], ¬ Forgets u.2 := by
  intro u hu
  simp only [List.mem_cons, List.not_mem_nil, or_false] at hu
  rcases hu with rfl | rfl | rfl <;> exact id

end Verif
