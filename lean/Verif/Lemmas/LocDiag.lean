import Verif.Spec.LocDiag
import Verif.Lemmas.Diag
import Verif.Lemmas.Record
import Verif.Lemmas.Found2
/-! # Lemmas: the messages of the location extraction -/
set_option autoImplicit false

namespace Verif
open Spec

/-! ## The outcome is that of the functions without messages -/

theorem adjustLineL_snd (fs : Files) (f : Path) (l : Nat) : (adjustLineL fs f l).2 = adjustLine fs f l := by
  unfold adjustLineL adjustLine
  cases fs f with
  | none => rfl
  | some lines =>
    simp only
    cases adjustGo lines l l <;> rfl

theorem firstStepL_snd (w : LEnv) (a : Arch) (kdir : Path) (rdir : Option Path) (sc : Syscall) (loc : Loc) :
    (firstStepL w a kdir rdir sc loc).2 = firstStep w a kdir rdir sc loc := by
  unfold firstStepL firstStep
  rw [lm_bind_snd, lm_lift_snd]
  congr 1
  funext file
  simp only
  cases validLoc w.files file loc.2 with
  | none => rfl
  | some fl =>
    obtain ⟨f, l⟩ := fl
    simp only [lm_bind_snd, adjustLineL_snd]
    congr 1
    funext line
    split
    · rfl
    · rw [lm_bind_snd, lm_lift_snd]
      congr 1
      funext good
      split <;> rfl

theorem firstLoopL_snd (w : LEnv) (a : Arch) (kdir : Path) (rdir : Option Path) (scs : List Syscall) :
    ∀ (i : Nat) (locs : List Loc) (k : Work), (firstLoopL w a kdir rdir i scs locs k).2 = firstLoop w a kdir rdir i scs locs k := by
  induction scs with
  | nil => intro i locs k; cases locs <;> rfl
  | cons sc scs ih =>
    intro i locs k
    cases locs with
    | nil => rfl
    | cons loc locs =>
      simp only [firstLoopL, firstLoop, lm_bind_snd, firstStepL_snd]
      congr 1
      funext x
      obtain ⟨sc', bad, n⟩ := x
      exact ih _ _ _

theorem secondLoopL_snd (w : LEnv) (a : Arch) (kdir : Path) (rdir : Option Path) (rs : List Ref) :
    ∀ (locs : List (Res Loc)) (k : Work), (secondLoopL w a kdir rdir rs locs k).2 = secondLoop w a kdir rdir rs locs k := by
  induction rs with
  | nil => intro locs k; cases locs <;> rfl
  | cons r rs ih =>
    intro locs k
    cases locs with
    | nil => rfl
    | cons loc locs =>
      simp only [secondLoopL, secondLoop, lm_bind_snd, lm_lift_snd]
      congr 1
      funext loc
      congr 1
      funext file
      cases validLoc w.files file loc.2 with
      | none => exact ih _ _
      | some fl =>
        obtain ⟨f, l⟩ := fl
        simp only [lm_bind_snd, lm_lift_snd, adjustLineL_snd]
        congr 1
        funext line
        congr 1
        funext good
        split
        · exact ih _ _
        · exact ih _ _

theorem retryLoopL_snd (w : LEnv) (a : Arch) (kdir : Path) (rdir : Option Path) (sc : Syscall) (locs : List (Res Loc)) :
    ∀ (x y : Bool), (retryLoopL w a kdir rdir sc locs x y).2 = retryLoop w a kdir rdir sc locs x y := by
  induction locs with
  | nil => intro x y; rfl
  | cons loc locs ih =>
    intro x y
    simp only [retryLoopL, retryLoop, lm_bind_snd, lm_lift_snd]
    congr 1
    funext loc
    congr 1
    funext file
    cases validLoc w.files file loc.2 with
    | none => exact ih _ _
    | some fl =>
      obtain ⟨f, l⟩ := fl
      simp only [lm_bind_snd, lm_lift_snd, adjustLineL_snd]
      congr 1
      funext line
      congr 1
      funext good
      split
      · rfl
      · exact ih _ _

theorem thirdLoopL_snd (w : LEnv) (a : Arch) (kdir : Path) (rdir : Option Path) (rs : List Ref) :
    ∀ (k : Work), (thirdLoopL w a kdir rdir rs k).2 = thirdLoop w a kdir rdir rs k := by
  induction rs with
  | nil => intro k; rfl
  | cons r rs ih =>
    intro k
    simp only [thirdLoopL, thirdLoop, lm_bind_snd, lm_lift_snd, retryLoopL_snd]
    congr 1
    funext locs
    congr 1
    funext res
    cases res with
    | found f line => exact ih _
    | failed x y =>
      simp only
      split
      · rfl
      · exact ih _

theorem fourthLoopL_snd (w : LEnv) (a : Arch) (kdir : Path) (gs : List (Ref × Option (Path × Nat))) :
    ∀ (scs : List Syscall), (fourthLoopL w a kdir gs scs).2 = fourthLoop w a gs scs := by
  induction gs with
  | nil => intro scs; rfl
  | cons g gs ih =>
    intro scs
    obtain ⟨r, loc⟩ := g
    cases loc with
    | none => exact ih _
    | some fl =>
      obtain ⟨f, l⟩ := fl
      simp only [fourthLoopL, fourthLoop, lm_bind_snd, lm_lift_snd]
      congr 1
      funext good
      split
      · rw [lm_bind_snd, lm_log_snd]; exact ih _
      · exact ih _

theorem extractLocationsL_snd (w : LEnv) (a : Arch) (kdir rdir : Option Path) (scs : List Syscall) :
    (extractLocationsL w a kdir rdir scs).2 = extractLocations w a kdir rdir scs := by
  unfold extractLocationsL extractLocations
  split
  · rfl
  rw [lm_bind_snd, lm_lift_snd]
  congr 1
  funext items
  rw [lm_bind_snd, lm_lift_snd]
  congr 1
  funext locs
  cases kdir with
  | none => rfl
  | some kdir =>
    simp only [lm_bind_snd, firstLoopL_snd]
    congr 1
    funext k1
    split
    · rfl
    rw [lm_bind_snd]
    have e2 : (if (sortRefs k1.adjust).isEmpty = true then LM.pure { k1 with adjust := [] } else do
          let items ← LM.lift (smartAddr2line w ((sortRefs k1.adjust).map fun r => r.2.symbol.realVaddr + r.2.symbol.size - 1) (some kdir))
          secondLoopL w a kdir rdir (sortRefs k1.adjust) items { k1 with adjust := [] } : LM Work).2 =
        (if (sortRefs k1.adjust).isEmpty = true then .ok { k1 with adjust := [] } else do
          let items ← smartAddr2line w ((sortRefs k1.adjust).map fun r => r.2.symbol.realVaddr + r.2.symbol.size - 1) (some kdir)
          secondLoop w a kdir rdir (sortRefs k1.adjust) items { k1 with adjust := [] } : Res Work) := by
      split
      · rfl
      · rw [lm_bind_snd, lm_lift_snd]
        congr 1
        funext items
        exact secondLoopL_snd _ _ _ _ _ _ _
    rw [e2]
    congr 1
    funext k2
    rw [lm_bind_snd, thirdLoopL_snd]
    congr 1
    funext k3
    split
    · rfl
    · rw [lm_bind_snd, lm_lift_snd]
      congr 1
      funext gs
      exact fourthLoopL_snd _ _ _ _ _

/-! ## Messages before the last loop -/

/-- nothing is told (and the program is not ended), or a file is too short -/
def Tells (w : LEnv) (P : Path → Nat → Prop) {α : Type} (m : LM α) : Prop :=
  (m.1 = [] ∧ m.2 ≠ .error (.exit 1)) ∨
  ∃ f lines l, P f l ∧ w.files f = some lines ∧ lines.length < l ∧ m.1 = shortFileCalls f ∧ m.2 = .error (.exit 1)

theorem tells_bind {w : LEnv} {P : Path → Nat → Prop} {α β : Type} {m : LM α} {f : α → LM β} (hm : Tells w P m) (hf : ∀ x, m.2 = .ok x → Tells w P (f x)) :
    Tells w P (m >>= f) := by
  obtain ⟨ms, r⟩ := m
  cases r with
  | error e =>
    have e1 : ((ms, Except.error e) >>= f : LM β) = (ms, .error e) := rfl
    rw [e1]
    rcases hm with ⟨h1, h2⟩ | ⟨g, lines, l, h0, h1, h2, h3, h4⟩
    · refine .inl ⟨h1, fun h => h2 ?_⟩
      cases h; rfl
    · refine .inr ⟨g, lines, l, h0, h1, h2, h3, ?_⟩
      cases h4; rfl
  | ok x =>
    have e1 : ((ms, Except.ok x) >>= f : LM β) = (ms ++ (f x).1, (f x).2) := rfl
    rw [e1]
    rcases hm with ⟨h1, -⟩ | ⟨g, lines, l, -, -, -, -, h4⟩
    · simp only at h1
      subst h1
      exact hf x rfl
    · cases h4

theorem tells_pure {w : LEnv} {P : Path → Nat → Prop} {α : Type} (x : α) : Tells w P (LM.pure x) := .inl ⟨rfl, fun h => by cases h⟩

theorem tells_lift {w : LEnv} {P : Path → Nat → Prop} {α : Type} {r : Res α} (h : r ≠ .error (.exit 1)) : Tells w P (LM.lift r) := .inl ⟨rfl, h⟩

theorem adjustGo_error (lines : List Str) (line n : Nat) (hn : n ≤ line) (e : Exc) (h : adjustGo lines line n = .error e) :
    e = .exit 1 ∧ lines.length < line := by
  induction n with
  | zero => cases h
  | succ i ih =>
    simp only [adjustGo] at h
    split at h
    · next hi =>
      cases h
      exact ⟨rfl, by have := List.getElem?_eq_none_iff.1 hi; omega⟩
    · split at h
      · cases h
      · split at h
        · split at h <;> cases h
        · exact ih (by omega) h

theorem tells_adjust (w : LEnv) (P : Path → Nat → Prop) (f : Path) (l : Nat) (hf : (w.files f).isSome) (hP : P f l) : Tells w P (adjustLineL w.files f l) := by
  unfold adjustLineL
  cases hl : w.files f with
  | none => simp [hl] at hf
  | some lines =>
    simp only
    cases h : adjustGo lines l l with
    | error e =>
      obtain ⟨rfl, hlt⟩ := adjustGo_error _ _ _ (Nat.le_refl _) _ h
      exact .inr ⟨f, lines, l, hP, hl, hlt, rfl, rfl⟩
    | ok n => exact tells_pure n

theorem remap_noexit (kdir : Path) (rdir : Option Path) (p : Option Path) : remapPath kdir rdir p ≠ .error (.exit 1) := by
  unfold remapPath
  split
  · simp
  · split
    · rename_i f _ r _
      rw [maybeRel_shownPath]
      intro h; cases h
    · simp

theorem good_noexit (fs : Files) (f : Path) (l : Nat) (a : Arch) (sc : Syscall) : goodLocationAt fs f l a sc ≠ .error (.exit 1) := by
  unfold goodLocationAt
  intro h
  split at h
  · cases h
  · split at h <;> cases h

theorem parse_noexit (row : Str) : parseLocRow row ≠ .error (.exit 1) := by
  unfold parseLocRow
  intro h
  split at h
  · split at h <;> cases h
  · cases h

theorem smartLoc_noexit (p : Path) (d : Option Path) (loc : Loc) : smartLoc p d loc ≠ .error (.exit 1) := by
  unfold smartLoc
  intro h
  split at h
  · cases h
  · split at h
    · cases h
    · split at h
      · next hr =>
        simp only [bind, Except.bind, Path.relativeTo, hr, if_true] at h
        cases h
      · cases h

theorem bind_noexit {α β : Type} {r : Res α} {f : α → Res β} (h1 : r ≠ .error (.exit 1)) (h2 : ∀ x, f x ≠ .error (.exit 1)) :
    (r >>= f) ≠ .error (.exit 1) := by
  cases r with
  | error e => intro h; apply h1; cases h; rfl
  | ok x => exact h2 x

theorem smart_noexit (w : LEnv) (hw : ∀ addrs, w.addr2line addrs ≠ .error (.exit 1)) (addrs : List Nat) (d : Option Path) :
    smartAddr2line w addrs d ≠ .error (.exit 1) := by
  unfold smartAddr2line
  exact bind_noexit (hw addrs) fun x h => by cases h

theorem smart_items_noexit (w : LEnv) (addrs : List Nat) (d : Option Path) (items : List (Res Loc)) (h : smartAddr2line w addrs d = .ok items) :
    ∀ x ∈ items, x ≠ .error (.exit 1) := by
  unfold smartAddr2line at h
  cases hr : w.addr2line addrs with
  | error e => rw [hr] at h; cases h
  | ok rows =>
    rw [hr] at h
    cases h
    intro x hx
    obtain ⟨row, -, rfl⟩ := List.mem_map.1 hx
    exact bind_noexit (parse_noexit row) fun loc => smartLoc_noexit _ _ _

theorem forceAll_noexit {α : Type} (items : List (Res α)) (h : ∀ x ∈ items, x ≠ .error (.exit 1)) : forceAll items ≠ .error (.exit 1) := by
  induction items with
  | nil => intro h; cases h
  | cons x xs ih =>
    unfold forceAll
    exact bind_noexit (h x (by simp)) fun y => bind_noexit (ih fun z hz => h z (by simp [hz])) fun ys h => by cases h

theorem validLoc_isSome (fs : Files) (file : Option Path) (line : Option Nat) (f : Path) (l : Nat) (h : validLoc fs file line = some (f, l)) :
    (fs f).isSome := by
  unfold validLoc at h
  split at h
  · split at h
    · next hs => cases h; exact hs
    · cases h
  · cases h

/-- an answer that names only lines of which `P` -/
def LocP (w : LEnv) (kdir : Path) (rdir : Option Path) (P : Path → Nat → Prop) (x : Res Loc) : Prop :=
  x ≠ .error (.exit 1) ∧ ∀ loc file f l, x = .ok loc → remapPath kdir rdir loc.1 = .ok file → validLoc w.files file loc.2 = some (f, l) → P f l

theorem tells_firstStep (w : LEnv) (P : Path → Nat → Prop) (a : Arch) (kdir : Path) (rdir : Option Path) (sc : Syscall) (loc : Loc)
    (hl : LocP w kdir rdir P (.ok loc)) : Tells w P (firstStepL w a kdir rdir sc loc) := by
  unfold firstStepL
  refine tells_bind (tells_lift (remap_noexit _ _ _)) fun file hfile => ?_
  simp only
  split
  · exact tells_pure _
  · next f l hv =>
    have HP := hl.2 _ _ _ _ rfl hfile hv
    refine tells_bind (tells_adjust w P f l (validLoc_isSome _ _ _ _ _ hv) HP) fun line _ => ?_
    split
    · exact tells_pure _
    · refine tells_bind (tells_lift (good_noexit _ _ _ _ _)) fun good _ => ?_
      split <;> exact tells_pure _

theorem tells_firstLoop (w : LEnv) (P : Path → Nat → Prop) (a : Arch) (kdir : Path) (rdir : Option Path) (scs : List Syscall) :
    ∀ (i : Nat) (locs : List Loc) (k : Work), (∀ x ∈ locs, LocP w kdir rdir P (.ok x)) → Tells w P (firstLoopL w a kdir rdir i scs locs k) := by
  induction scs with
  | nil => intro i locs k _; cases locs <;> exact tells_pure _
  | cons sc scs ih =>
    intro i locs k hl
    cases locs with
    | nil => exact tells_pure _
    | cons loc locs =>
      unfold firstLoopL
      exact tells_bind (tells_firstStep _ _ _ _ _ _ _ (hl loc (by simp))) fun x _ => ih _ _ _ fun y hy => hl y (by simp [hy])

theorem tells_secondLoop (w : LEnv) (P : Path → Nat → Prop) (a : Arch) (kdir : Path) (rdir : Option Path) (rs : List Ref) :
    ∀ (locs : List (Res Loc)) (k : Work), (∀ x ∈ locs, LocP w kdir rdir P x) → Tells w P (secondLoopL w a kdir rdir rs locs k) := by
  induction rs with
  | nil => intro locs k _; cases locs <;> exact tells_pure _
  | cons r rs ih =>
    intro locs k hl
    cases locs with
    | nil => exact tells_pure _
    | cons loc locs =>
      have hl' : ∀ x ∈ locs, LocP w kdir rdir P x := fun x hx => hl x (by simp [hx])
      unfold secondLoopL
      refine tells_bind (tells_lift (hl loc (by simp)).1) fun loc hloc => ?_
      refine tells_bind (tells_lift (remap_noexit _ _ _)) fun file hfile => ?_
      split
      · exact ih _ _ hl'
      · next f l hv =>
        have HP := (hl _ (List.mem_cons_self)).2 _ _ _ _ hloc hfile hv
        refine tells_bind (tells_adjust w P f l (validLoc_isSome _ _ _ _ _ hv) HP) fun line _ => ?_
        refine tells_bind (tells_lift (good_noexit _ _ _ _ _)) fun good _ => ?_
        split <;> exact ih _ _ hl'

theorem tells_retryLoop (w : LEnv) (P : Path → Nat → Prop) (a : Arch) (kdir : Path) (rdir : Option Path) (sc : Syscall) (locs : List (Res Loc)) :
    ∀ (x y : Bool), (∀ x ∈ locs, LocP w kdir rdir P x) → Tells w P (retryLoopL w a kdir rdir sc locs x y) := by
  induction locs with
  | nil => intro x y _; exact tells_pure _
  | cons loc locs ih =>
    intro x y hl
    have hl' : ∀ x ∈ locs, LocP w kdir rdir P x := fun x hx => hl x (by simp [hx])
    unfold retryLoopL
    refine tells_bind (tells_lift (hl loc (by simp)).1) fun loc hloc => ?_
    refine tells_bind (tells_lift (remap_noexit _ _ _)) fun file hfile => ?_
    split
    · exact ih _ _ hl'
    · next f l hv =>
      have HP := (hl _ (List.mem_cons_self)).2 _ _ _ _ hloc hfile hv
      refine tells_bind (tells_adjust w P f l (validLoc_isSome _ _ _ _ _ hv) HP) fun line _ => ?_
      refine tells_bind (tells_lift (good_noexit _ _ _ _ _)) fun good _ => ?_
      split
      · exact tells_pure _
      · exact ih _ _ hl'

theorem tells_thirdLoop (w : LEnv) (P : Path → Nat → Prop) (hw : ∀ addrs, w.addr2line addrs ≠ .error (.exit 1)) (a : Arch) (kdir : Path) (rdir : Option Path)
    (rs : List Ref) : ∀ (k : Work), (∀ r ∈ rs, ∀ items, smartAddr2line w (retryAddrs r.2) (some kdir) = .ok items → ∀ x ∈ items, LocP w kdir rdir P x) → Tells w P (thirdLoopL w a kdir rdir rs k) := by
  induction rs with
  | nil => intro k _; exact tells_pure _
  | cons r rs ih =>
    intro k hl
    have hl' := fun r' (hr : r' ∈ rs) => hl r' (List.mem_cons_of_mem r hr)
    unfold thirdLoopL
    refine tells_bind (tells_lift (smart_noexit w hw _ _)) fun locs hlocs => ?_
    refine tells_bind (tells_retryLoop _ _ _ _ _ _ _ _ _ (hl r (by simp) locs hlocs)) fun res _ => ?_
    split
    · exact ih _ hl'
    · split
      · exact tells_lift (by simp)
      · exact ih _ hl'

/-! ## The last loop -/

theorem grepped_text (kdir : Path) (o : Str) (f : Path) (l : Nat) :
    (greppedCall kdir o f l).text = some (cs!"Location found through grepping: " ++ (o ++ (cs!" -> " ++
      ((shownPath (some kdir) f).str ++ (cs!":" ++ natRepr l))))) := by
  unfold greppedCall
  rw [maybeRel_shownPath]
  show (pyFormat _ _) = _
  simp [pyFormat, LogArg.str]

theorem filter_modify {α : Type} (p : α → Bool) (g : α → α) (l : List α) (i : Nat) (x : α) (h : l[i]? = some x) (hx : p x = false)
    (hg : p (g x) = true) : ((l.modify i g).filter p).Perm (g x :: l.filter p) := by
  induction l generalizing i with
  | nil => simp at h
  | cons y l ih =>
    cases i with
    | zero =>
      simp only [List.getElem?_cons_zero, Option.some.injEq] at h
      subst h
      rw [List.modify_zero_cons, List.filter_cons_of_pos hg, List.filter_cons_of_neg (by simp [hx])]
    | succ i =>
      simp only [List.getElem?_cons_succ] at h
      rw [List.modify_succ_cons]
      have := ih i h
      by_cases hy : p y = true
      · rw [List.filter_cons_of_pos hy, List.filter_cons_of_pos hy]
        exact (this.cons y).trans (List.Perm.swap _ _ _)
      · rw [List.filter_cons_of_neg hy, List.filter_cons_of_neg hy]
        exact this

/-- the syscall found, as reported -/
def foundAt (sc : Syscall) (f : Path) (l : Nat) : Syscall :=
  { sc with file := some f, line := some l, goodLocation := true, greppedLocation := true }

theorem fourth_said (w : LEnv) (a : Arch) (kdir : Path) (gs : List (Ref × Option (Path × Nat))) :
    ∀ (scs out : List Syscall), (gs.map fun g => g.1.1).Nodup →
      (∀ g ∈ gs, ∃ sc, scs[g.1.1]? = some sc ∧ sc.greppedLocation = false ∧ sc.origname = g.1.2.origname ∧ sc.name = g.1.2.name) →
      fourthLoop w a gs scs = .ok out →
      ∃ hits : List Syscall, said (fourthLoopL w a kdir gs scs).1 = hits.map (saidGrepped kdir) ∧
        (out.filter fun sc => sc.greppedLocation).Perm (hits ++ scs.filter fun sc => sc.greppedLocation) ∧
        (hits.map Syscall.name).Sublist ((gs.filter fun g => g.2.isSome).map fun g => g.1.2.name) := by
  induction gs with
  | nil =>
    intro scs out _ _ h
    cases h
    exact ⟨[], rfl, by simp, by simp⟩
  | cons g gs ih =>
    intro scs out hnd hg h
    obtain ⟨r, loc⟩ := g
    simp only [List.map_cons, List.nodup_cons] at hnd
    have hg' := fun g hgm => hg g (List.mem_cons_of_mem _ hgm)
    cases loc with
    | none =>
      simp only [fourthLoop] at h
      obtain ⟨hits, h1, h2, h3⟩ := ih scs out hnd.2 hg' h
      refine ⟨hits, h1, h2, ?_⟩
      simpa using h3
    | some fl =>
      obtain ⟨f, l⟩ := fl
      simp only [fourthLoop, fourthLoopL] at h ⊢
      cases hgood : goodLocationAt w.files f l a r.2 with
      | error e => rw [hgood] at h; cases h
      | ok good =>
        rw [hgood, res_ok_bind] at h
        rw [lm_lift_fst rfl]
        cases good with
        | false =>
          simp only [Bool.false_eq_true, if_false] at h ⊢
          obtain ⟨hits, h1, h2, h3⟩ := ih scs out hnd.2 hg' h
          refine ⟨hits, h1, h2, ?_⟩
          refine List.Sublist.trans h3 ?_
          exact List.sublist_cons_self r.2.name _
        | true =>
          simp only [if_true] at h ⊢
          rw [lm_bind_fst _ _ () rfl]
          obtain ⟨sc, e1, e2, e3, e4⟩ := hg (r, some (f, l)) (by simp)
          simp only at e1 e3 e4
          have hmod : ((setLoc r.1 f l scs).modify r.1 fun sc => { sc with greppedLocation := true }) =
              scs.modify r.1 fun sc => foundAt sc f l := by
            unfold setLoc
            rw [List.modify_modify_eq]
            rfl
          rw [hmod] at h ⊢
          have hoth : ∀ g ∈ gs, g.1.1 ≠ r.1 := fun g hgm e => hnd.1 (List.mem_map.2 ⟨g, hgm, e⟩)
          obtain ⟨hits, h1, h2, h3⟩ := ih (scs.modify r.1 fun sc => foundAt sc f l) out hnd.2 (by
            intro g hgm
            rw [List.getElem?_modify_ne _ _ (Ne.symm (hoth g hgm))]
            exact hg' g hgm) h
          refine ⟨foundAt sc f l :: hits, ?_, ?_, ?_⟩
          · simp only [LM.log, said, List.map_cons, List.cons_append, List.nil_append] at h1 ⊢
            rw [h1]
            congr 1
            rw [grepped_text]
            unfold saidGrepped foundAt
            simp only [Option.map_some, Option.getD_some, lineText, List.append_assoc, e3]
            rfl
          · refine h2.trans ?_
            have := filter_modify (fun sc : Syscall => sc.greppedLocation) (fun sc => foundAt sc f l) scs r.1 sc e1 e2 rfl
            refine (List.Perm.append_left hits this).trans ?_
            exact List.perm_middle
          · simp only [List.filter_cons_of_pos (show (fun g : Ref × Option (Path × Nat) => g.2.isSome) (r, some (f, l)) = true from rfl),
              List.map_cons]
            have : (foundAt sc f l).name = r.2.name := e4
            rw [this]
            exact h3.cons_cons r.2.name

theorem grepOrder_total (x y : Ref × Option (Path × Nat)) : grepOrder x y = true ∨ grepOrder y x = true := by
  unfold grepOrder
  simp only [Bool.or_eq_true, Bool.and_eq_true, decide_eq_true_eq]
  rcases Nat.lt_trichotomy (boolNat x.2.isSome) (boolNat y.2.isSome) with h | h | h
  · exact .inl (.inl h)
  · rcases strLe_total x.1.2.name y.1.2.name with h' | h'
    · exact .inl (.inr ⟨h, h'⟩)
    · exact .inr (.inr ⟨h.symm, h'⟩)
  · exact .inr (.inl h)

theorem grepOrder_trans (x y z : Ref × Option (Path × Nat)) (h1 : grepOrder x y = true) (h2 : grepOrder y z = true) :
    grepOrder x z = true := by
  unfold grepOrder at *
  simp only [Bool.or_eq_true, Bool.and_eq_true, decide_eq_true_eq] at *
  rcases h1 with h1 | ⟨h1, h1'⟩ <;> rcases h2 with h2 | ⟨h2, h2'⟩
  · exact .inl (by omega)
  · exact .inl (by omega)
  · exact .inl (by omega)
  · exact .inr ⟨by omega, strLe_trans _ _ _ h1' h2'⟩

theorem grepOrder_names (gs : List (Ref × Option (Path × Nat))) :
    (((sortBy grepOrder gs).filter fun g => g.2.isSome).map fun g => g.1.2.name).Pairwise fun x y => strLe x y = true := by
  rw [List.pairwise_map]
  have h := sortBy_pairwise grepOrder grepOrder_total grepOrder_trans gs
  have h2 := h.filter fun g => g.2.isSome
  refine List.Pairwise.imp_of_mem ?_ h2
  intro x y hx hy hxy
  have hx' := (List.mem_filter.1 hx).2
  have hy' := (List.mem_filter.1 hy).2
  unfold grepOrder at hxy
  simp only [hx', hy', Bool.or_eq_true, Bool.and_eq_true, decide_eq_true_eq, Nat.lt_irrefl, false_or, true_and] at hxy
  exact hxy

/-! ## Which way the extraction goes -/

theorem locate_ways (x : Sources) (hrow : RowPerAddress x.w x.row) (scs : List Syscall)
    (hfresh : ∀ sc ∈ scs, (Ident sc.origname ∧ Ident sc.name) ∧ sc.greppedLocation = false)
    (items : List (Res Loc)) (locs : List Loc) (k1 : Work)
    (hitems : smartAddr2line x.w (scs.map fun s => s.symbol.realVaddr) (some x.kdir) = .ok items)
    (hlocs : forceAll items = .ok locs) (hk1 : firstLoop x.w x.a x.kdir x.rdir 0 scs locs ⟨[], false, [], []⟩ = .ok k1) :
    ((!(sortRefs k1.adjust).isEmpty && (sortRefs k1.adjust).length == locs.length) = true ↔ x.Hopeless scs) ∧
    ∀ k2 k3, (if (sortRefs k1.adjust).isEmpty = true then .ok { k1 with adjust := [] } else do
          let items ← smartAddr2line x.w ((sortRefs k1.adjust).map fun r => r.2.symbol.realVaddr + r.2.symbol.size - 1) (some x.kdir)
          secondLoop x.w x.a x.kdir x.rdir (sortRefs k1.adjust) items { k1 with adjust := [] } : Res Work) = .ok k2 →
      thirdLoop x.w x.a x.kdir x.rdir (sortRefs k2.adjust) k2 = .ok k3 →
      (k3.bad = true ↔ x.Outside scs) ∧ (k3.grep.map Prod.fst).Nodup ∧ (∀ sc ∈ k3.scs, sc.greppedLocation = false) ∧
      ∀ r ∈ k3.grep, ∃ sc, k3.scs[r.1]? = some sc ∧ sc.origname = r.2.origname ∧ sc.name = r.2.name := by
  have hl := forceAll_forall2 _ _ hlocs
  rw [smart_items x.w x.row hrow _ _ _ hitems, List.map_map] at hl
  have hl' := forall2_of_map _ _ _ hl
  simp only [Function.comp_apply] at hl'
  have hlen := forall2_length _ _ _ hl'
  have hinit : x.FWork (fun _ => False) x.Adj [] [] ⟨[], false, [], []⟩ := ⟨rfl, by simp, by simp, by simp⟩
  obtain ⟨h1, hbad, hle, hall⟩ := firstLoop_found x scs [] locs _ k1 hfresh hl' hinit hk1
  rw [List.nil_append] at h1
  simp only [Bool.false_eq_true, false_or] at hbad
  simp only [List.length_nil, Nat.zero_add] at hle hall
  have hslen : (sortRefs k1.adjust).length = k1.adjust.length := (sortBy_perm _ _).length_eq
  constructor
  · rw [Bool.and_eq_true, Bool.not_eq_true', beq_iff_eq, hslen, ← hlen, hall, List.isEmpty_eq_false_iff]
    constructor
    · rintro ⟨hne, ha⟩
      refine ⟨?_, fun sc hsc => ⟨(ha sc hsc).1.1, (ha sc hsc).1.2, (ha sc hsc).2⟩⟩
      rintro rfl
      have := hall.2 ha
      rw [← hslen, List.length_nil, List.length_eq_zero_iff] at this
      exact hne this
    · rintro ⟨hne, ha⟩
      have ha' : ∀ sc ∈ scs, x.Adj sc := fun sc hsc => ⟨⟨(ha sc hsc).1, (ha sc hsc).2.1⟩, (ha sc hsc).2.2⟩
      refine ⟨?_, ha'⟩
      intro e
      have := hall.2 ha'
      rw [← hslen, e, List.length_nil] at this
      exact hne (List.length_eq_zero_iff.1 this.symm)
  · intro k2 k3 hk2 hk3
    have hnames : ∀ sc ∈ scs, Ident sc.origname ∧ Ident sc.name := fun sc hsc => (hfresh sc hsc).1
    have h2 : x.FWork x.Adj x.Ret scs [] k2 ∧ k2.bad = k1.bad := by
      have hnext := fwork_next (R := x.Ret) h1
      simp only [bind, Except.bind] at hk2
      split at hk2
      · next he =>
        cases hk2
        rw [List.isEmpty_iff.1 he] at hnext
        exact ⟨hnext, rfl⟩
      · split at hk2
        · cases hk2
        · next items2 hitems2 =>
          rw [smart_items x.w x.row hrow _ _ _ hitems2, List.map_map] at hk2
          exact secondLoop_found x scs hnames _ { k1 with adjust := [] } _ hnext hk2
    obtain ⟨h3, hb3⟩ := thirdLoop_found x hrow scs hnames _ _ _ (fwork_next h2.1) hk3
    have hnd3 : (k3.grep.map Prod.fst).Nodup := by simpa using h3.nodup
    refine ⟨by rw [hb3, h2.2, hbad], hnd3, ?_, ?_⟩
    · intro sc hsc
      obtain ⟨i, hi⟩ := List.getElem?_of_mem hsc
      have hlt : i < scs.length := by rw [← h3.len]; exact (List.getElem?_eq_some_iff.1 hi).1
      obtain ⟨sc1, e1, e2, e3, e4⟩ := h3.pos i scs[i] (List.getElem?_eq_getElem hlt)
      rw [hi] at e1
      cases e1
      exact e3
    · intro r hr
      have hlt : r.1 < scs.length := h3.bound r (by simp [hr])
      obtain ⟨sc1, e1, e2, e3, e4⟩ := h3.pos r.1 scs[r.1] (List.getElem?_eq_getElem hlt)
      refine ⟨sc1, e1, ?_⟩
      rcases e4 with ⟨-, hno⟩ | ⟨hg, ⟨hp, -⟩ | ⟨hp, -⟩ | ⟨hp, hW⟩⟩
      · exact absurd (List.mem_map.2 ⟨r, by simp [hr], rfl⟩) hno
      · cases hp
      · cases hp
      · have e := nodup_fst_unique hnd3 hr hp rfl
        have e' : r.2 = sc1 := congrArg Prod.snd e
        rw [e']
        exact ⟨rfl, rfl⟩

theorem tells_ok {w : LEnv} {P : Path → Nat → Prop} {α : Type} {m : LM α} (h : Tells w P m) {x : α} (hx : m.2 = .ok x) : m.1 = [] := by
  rcases h with ⟨h, -⟩ | ⟨_, _, _, -, -, -, -, h⟩
  · exact h
  · rw [hx] at h; cases h

/-- the messages of a bind whose first part succeeds quietly -/
theorem lm_quiet {α β : Type} (m : LM α) (f : α → LM β) (x : α) (h1 : m.1 = []) (h2 : m.2 = .ok x) : m >>= f = f x := by
  obtain ⟨ms, r⟩ := m
  simp only at h1 h2
  subst h1 h2
  rfl

/-- a third loop that succeeds tells nothing -/
theorem quiet_thirdLoop (w : LEnv) (a : Arch) (kdir : Path) (rdir : Option Path) (rs : List Ref) :
    ∀ (k k' : Work), thirdLoop w a kdir rdir rs k = .ok k' → (thirdLoopL w a kdir rdir rs k).1 = [] := by
  induction rs with
  | nil => intro k k' _; rfl
  | cons r rs ih =>
    intro k k' h
    simp only [thirdLoop, thirdLoopL] at h ⊢
    cases hs : smartAddr2line w (retryAddrs r.2) (some kdir) with
    | error e => rw [hs] at h; cases h
    | ok items =>
      rw [hs, res_ok_bind] at h
      rw [lm_lift_fst rfl]
      cases hr : retryLoop w a kdir rdir r.2 items true false with
      | error e => rw [hr] at h; cases h
      | ok res =>
        rw [hr, res_ok_bind] at h
        have hr' : (retryLoopL w a kdir rdir r.2 items true false).2 = .ok res := by rw [retryLoopL_snd, hr]
        rw [lm_quiet _ _ res (tells_ok (tells_retryLoop w (fun _ _ => True) a kdir rdir r.2 items true false
          fun x hx => ⟨smart_items_noexit w _ _ _ hs x hx, fun _ _ _ _ _ _ _ => trivial⟩) hr') hr']
        cases res with
        | found f line => exact ih _ _ h
        | failed invalid lastNone =>
          simp only at h ⊢
          split at h
          · cases h
          · next hc =>
            rw [if_neg hc]
            exact ih _ _ h

/-! ## The whole extraction -/

/-- nothing critical is told and the program is not ended, or a file is too short -/
def TellsEnd (w : LEnv) (P : Path → Nat → Prop) {α : Type} (m : LM α) : Prop :=
  ((∀ c ∈ m.1, c.level ≠ .critical) ∧ m.2 ≠ .error (.exit 1)) ∨
  ∃ f lines l, P f l ∧ w.files f = some lines ∧ lines.length < l ∧ m.1 = shortFileCalls f ∧ m.2 = .error (.exit 1)

theorem end_bind {w : LEnv} {P : Path → Nat → Prop} {α β : Type} {m : LM α} {f : α → LM β} (hm : Tells w P m)
    (hf : ∀ x, m.2 = .ok x → TellsEnd w P (f x)) : TellsEnd w P (m >>= f) := by
  obtain ⟨ms, r⟩ := m
  cases r with
  | error e =>
    have e1 : ((ms, Except.error e) >>= f : LM β) = (ms, .error e) := rfl
    rw [e1]
    rcases hm with ⟨h1, h2⟩ | ⟨g, lines, l, h0, h1, h2, h3, h4⟩
    · simp only at h1
      subst h1
      refine .inl ⟨by simp, fun h => h2 ?_⟩
      cases h; rfl
    · refine .inr ⟨g, lines, l, h0, h1, h2, h3, ?_⟩
      cases h4; rfl
  | ok x =>
    have e1 : ((ms, Except.ok x) >>= f : LM β) = (ms ++ (f x).1, (f x).2) := rfl
    rw [e1]
    rcases hm with ⟨h1, -⟩ | ⟨g, lines, l, -, -, -, -, h4⟩
    · simp only at h1
      subst h1
      exact hf x rfl
    · cases h4

theorem end_log {w : LEnv} {P : Path → Nat → Prop} {α : Type} (cs : List LogCall) (x : α) (h : ∀ c ∈ cs, c.level ≠ .critical) :
    TellsEnd w P (LM.log cs >>= fun _ => LM.pure x) := by
  refine .inl ⟨?_, fun e => by cases e⟩
  show ∀ c ∈ cs ++ [], c.level ≠ .critical
  simpa using h

theorem end_fourth (w : LEnv) (P : Path → Nat → Prop) (a : Arch) (kdir : Path) (gs : List (Ref × Option (Path × Nat))) :
    ∀ (scs : List Syscall), (∀ c ∈ (fourthLoopL w a kdir gs scs).1, c.level ≠ .critical) ∧ (fourthLoopL w a kdir gs scs).2 ≠ .error (.exit 1) := by
  induction gs with
  | nil => intro scs; exact ⟨by simp [fourthLoopL, LM.pure], fun e => by cases e⟩
  | cons g gs ih =>
    intro scs
    obtain ⟨r, loc⟩ := g
    cases loc with
    | none => exact ih scs
    | some fl =>
      obtain ⟨f, l⟩ := fl
      simp only [fourthLoopL]
      cases hgood : goodLocationAt w.files f l a r.2 with
      | error e =>
        have := good_noexit w.files f l a r.2
        rw [hgood] at this
        refine ⟨(fun c hc => nomatch hc), fun h => this ?_⟩
        cases h; rfl
      | ok good =>
        rw [lm_quiet _ _ good rfl rfl]
        cases good with
        | false => simpa using ih scs
        | true =>
          obtain ⟨h1, h2⟩ := ih ((setLoc r.1 f l scs).modify r.1 fun sc => { sc with greppedLocation := true })
          simp only [if_true]
          refine ⟨?_, ?_⟩
          · intro c hc
            have hc' : c ∈ [greppedCall kdir r.2.origname f l] ++ (fourthLoopL w a kdir gs
              ((setLoc r.1 f l scs).modify r.1 fun sc => { sc with greppedLocation := true })).1 := hc
            rcases List.mem_append.1 hc' with hc | hc
            · rw [List.mem_singleton] at hc
              subst hc
              simp [greppedCall]
            · exact h1 c hc
          · exact h2

theorem grepMatch_noexit (a : Arch) (kdir : Path) (rows : List Str) : ∀ (refs : List Ref), grepMatch a kdir rows refs ≠ .error (.exit 1) := by
  induction rows with
  | nil => intro refs h; cases h
  | cons row rows ih =>
    intro refs
    unfold grepMatch
    split
    · exact ih _
    · refine bind_noexit ?_ fun loc => bind_noexit (ih _) fun out h => by cases h
      unfold rowLocation
      split
      · split
        · intro h; cases h
        · simp
      · simp

theorem grepLoc_noexit (w : LEnv) (hw : w.grep ≠ .error (.exit 1)) (a : Arch) (kdir : Path) (refs : List Ref) :
    grepSources w a kdir refs ≠ .error (.exit 1) := by
  unfold grepSources
  exact bind_noexit hw fun rows => grepMatch_noexit _ _ _ _

theorem item_names (x : Sources) (addr : Nat) (loc : Loc) (file : Option Path) (f : Path) (l : Nat)
    (h : itemOf x.w.elfPath (some x.kdir) (x.row addr) = .ok loc) (hm : remapPath x.kdir x.rdir loc.1 = .ok file)
    (hv : validLoc x.w.files file loc.2 = some (f, l)) : x.Names addr f l := by
  obtain ⟨rfl, hl, lines, hlines⟩ := validLoc_some _ _ _ _ _ hv
  rcases item_says _ _ _ _ _ _ h hm with ⟨h1, -⟩ | ⟨p, f', h1, h2, h3⟩
  · cases h1
  · cases h1
    rw [hl] at h2
    exact ⟨p, h2, h3⟩

/-- a line named by the debug information about some address of a syscall -/
def Spec.Sources.SomeName (x : Sources) (scs : List Syscall) (f : Path) (l : Nat) : Prop :=
  ∃ sc ∈ scs, ∃ addr ∈ askedAddrs sc.symbol, x.Names addr f l

theorem locP_items (x : Sources) (hrow : RowPerAddress x.w x.row) (scs : List Syscall) (addrs : List Nat)
    (ha : ∀ addr ∈ addrs, ∃ sc ∈ scs, addr ∈ askedAddrs sc.symbol) (items : List (Res Loc))
    (h : smartAddr2line x.w addrs (some x.kdir) = .ok items) : ∀ y ∈ items, LocP x.w x.kdir x.rdir (x.SomeName scs) y := by
  intro y hy
  refine ⟨smart_items_noexit _ _ _ _ h y hy, ?_⟩
  rw [smart_items x.w x.row hrow _ _ _ h] at hy
  obtain ⟨addr, hm, rfl⟩ := List.mem_map.1 hy
  intro loc file f l h1 h2 h3
  obtain ⟨sc, hsc, hin⟩ := ha addr hm
  exact ⟨sc, hsc, addr, hin, item_names x addr loc file f l h1 h2 h3⟩

theorem pend_ref {x : Sources} {P Q : Syscall → Prop} {orig : List Syscall} {pend : List Ref} {k : Work} (hk : x.FWork P Q orig pend k)
    (r : Ref) (hr : r ∈ pend) : ∃ sc0 ∈ orig, r.2.symbol = sc0.symbol ∧ P sc0 := by
  obtain ⟨b, c, rfl⟩ := List.append_of_mem hr
  have hp : (b ++ r :: c).Perm (r :: (b ++ c)) := List.perm_middle
  have hk' : x.FWork P Q orig (r :: (b ++ c)) k := by
    have hpp : (b ++ r :: c ++ k.adjust ++ k.grep).Perm (r :: (b ++ c) ++ k.adjust ++ k.grep) :=
      (hp.append_right _).append_right _
    refine ⟨hk.len, (List.Perm.nodup_iff (hpp.map _)).1 hk.nodup, fun s hs => hk.bound s (hpp.mem_iff.2 hs), ?_⟩
    intro i sc0 h0
    obtain ⟨sc1, e1, e2, e3, e4⟩ := hk.pos i sc0 h0
    refine ⟨sc1, e1, e2, e3, ?_⟩
    rcases e4 with ⟨hs, hno⟩ | ⟨hg, ⟨h, hP⟩ | h | h⟩
    · exact .inl ⟨hs, fun hm => hno ((hpp.map _).mem_iff.2 hm)⟩
    · exact .inr ⟨hg, .inl ⟨hp.mem_iff.1 h, hP⟩⟩
    · exact .inr ⟨hg, .inr (.inl h)⟩
    · exact .inr ⟨hg, .inr (.inr h)⟩
  obtain ⟨sc0, h0, -, h2, -, -, h5⟩ := head_ref hk'
  exact ⟨sc0, List.mem_of_getElem? h0, by rw [h2], h5⟩

theorem short_said (f : Path) : said (shortFileCalls f) = saidWrongSource f := by
  unfold said shortFileCalls saidWrongSource
  simp only [List.map_cons, List.map_nil]
  congr 1

/-- the whole run: nothing critical, or a file too short -/
theorem extract_end (x : Sources) (hrow : RowPerAddress x.w x.row) (scs : List Syscall) (hw : x.w.haveAddr2line = true) (hs : Succeeds x.w)
    (hfresh : ∀ sc ∈ scs, (Ident sc.origname ∧ Ident sc.name) ∧ sc.greppedLocation = false) :
    TellsEnd x.w (x.SomeName scs) (extractLocationsL x.w x.a (some x.kdir) x.rdir scs) := by
  unfold extractLocationsL
  simp only [hw, Bool.not_true, Bool.false_eq_true, if_false]
  refine end_bind (tells_lift (smart_noexit _ hs.1 _ _)) fun items hitems => ?_
  have hitems' : smartAddr2line x.w (scs.map fun s => s.symbol.realVaddr) (some x.kdir) = .ok items := hitems
  have hP := locP_items x hrow scs _ (by
    intro addr ha
    obtain ⟨sc, hsc, rfl⟩ := List.mem_map.1 ha
    exact ⟨sc, hsc, by simp [askedAddrs]⟩) items hitems'
  refine end_bind (tells_lift (forceAll_noexit _ fun y hy => (hP y hy).1)) fun locs hlocs => ?_
  have hlocs' : forceAll items = .ok locs := hlocs
  have hf2 := forceAll_forall2 _ _ hlocs'
  have hPl : ∀ y ∈ locs, LocP x.w x.kdir x.rdir (x.SomeName scs) (.ok y) := by
    clear hitems hitems' hlocs hlocs'
    induction hf2 with
    | nil => simp
    | cons h _ ih =>
      intro y hy
      rcases List.mem_cons.1 hy with rfl | hy
      · rw [← h]; exact hP _ (by simp)
      · exact ih (fun z hz => hP z (by simp [hz])) y hy
  refine end_bind (tells_firstLoop _ _ _ _ _ _ _ _ _ hPl) fun k1 hk1 => ?_
  rw [firstLoopL_snd] at hk1
  have hl := hf2
  rw [smart_items x.w x.row hrow _ _ _ hitems', List.map_map] at hl
  have hl' := forall2_of_map _ _ _ hl
  simp only [Function.comp_apply] at hl'
  have hinit : x.FWork (fun _ => False) x.Adj [] [] ⟨[], false, [], []⟩ := ⟨rfl, by simp, by simp, by simp⟩
  obtain ⟨h1, -, -, -⟩ := firstLoop_found x scs [] locs _ k1 hfresh hl' hinit hk1
  rw [List.nil_append] at h1
  have hnext := fwork_next (R := x.Ret) h1
  split
  · exact end_log _ _ (by simp [hopelessCalls])
  have hPs : ∀ items, smartAddr2line x.w ((sortRefs k1.adjust).map fun r => r.2.symbol.realVaddr + r.2.symbol.size - 1) (some x.kdir) = .ok items →
      ∀ y ∈ items, LocP x.w x.kdir x.rdir (x.SomeName scs) y := fun items hi => by
    refine locP_items x hrow scs _ ?_ items hi
    intro addr ha
    obtain ⟨r, hr, rfl⟩ := List.mem_map.1 ha
    obtain ⟨sc0, h0, e, hadj⟩ := pend_ref hnext r hr
    refine ⟨sc0, h0, ?_⟩
    rw [asked_inner sc0 hadj.2, e]
    simp
  refine end_bind (?_ : Tells x.w (x.SomeName scs) (if (sortRefs k1.adjust).isEmpty = true then LM.pure { k1 with adjust := [] } else do
          let items ← LM.lift (smartAddr2line x.w ((sortRefs k1.adjust).map fun r => r.2.symbol.realVaddr + r.2.symbol.size - 1) (some x.kdir))
          secondLoopL x.w x.a x.kdir x.rdir (sortRefs k1.adjust) items { k1 with adjust := [] } : LM Work)) fun k2 hk2 => ?_
  · split
    · exact tells_pure _
    · exact tells_bind (tells_lift (smart_noexit _ hs.1 _ _)) fun items hi => tells_secondLoop _ _ _ _ _ _ _ _ (hPs items hi)
  have hnames : ∀ sc ∈ scs, Ident sc.origname ∧ Ident sc.name := fun sc hsc => (hfresh sc hsc).1
  have h2 : x.FWork x.Adj x.Ret scs [] k2 := by
    split at hk2
    · next he =>
      have hk2' : (Except.ok { k1 with adjust := [] } : Res Work) = .ok k2 := hk2
      cases hk2'
      rw [List.isEmpty_iff.1 he] at hnext
      exact hnext
    · rw [lm_bind_snd, lm_lift_snd] at hk2
      cases hs2 : smartAddr2line x.w ((sortRefs k1.adjust).map fun r => r.2.symbol.realVaddr + r.2.symbol.size - 1) (some x.kdir) with
      | error e => rw [hs2] at hk2; cases hk2
      | ok items2 =>
        rw [hs2, res_ok_bind, secondLoopL_snd] at hk2
        rw [smart_items x.w x.row hrow _ _ _ hs2, List.map_map] at hk2
        exact (secondLoop_found x scs hnames _ { k1 with adjust := [] } _ hnext hk2).1
  refine end_bind (tells_thirdLoop _ _ hs.1 _ _ _ _ _ ?_) fun k3 hk3 => ?_
  · intro r hr items hi
    refine locP_items x hrow scs _ ?_ items hi
    intro addr ha
    obtain ⟨sc0, h0, e, -⟩ := pend_ref (fwork_next (R := fun _ => True) h2) r hr
    refine ⟨sc0, h0, ?_⟩
    unfold retryAddrs at ha
    rw [e] at ha
    unfold askedAddrs
    simp only [List.mem_cons, List.mem_append]
    exact .inr (.inr ha)
  split
  · exact end_log _ _ (by simp [outsideSourceCall])
  · exact end_bind (tells_lift (grepLoc_noexit _ hs.2 _ _ _)) fun gs _ => .inl (end_fourth _ (fun _ _ => True) _ _ _ _)

/-- the messages of a run that succeeds -/
theorem extract_told (x : Sources) (hrow : RowPerAddress x.w x.row) (scs out : List Syscall) (hw : x.w.haveAddr2line = true)
    (hfresh : ∀ sc ∈ scs, (Ident sc.origname ∧ Ident sc.name) ∧ sc.greppedLocation = false)
    (h : extractLocations x.w x.a (some x.kdir) x.rdir scs = .ok out) :
    (x.Hopeless scs → (extractLocationsL x.w x.a (some x.kdir) x.rdir scs).1 = hopelessCalls) ∧
    (¬ x.Hopeless scs → x.Outside scs → (extractLocationsL x.w x.a (some x.kdir) x.rdir scs).1 = [outsideSourceCall]) ∧
    (¬ x.Hopeless scs → ¬ x.Outside scs → ∃ hits : List Syscall,
      said (extractLocationsL x.w x.a (some x.kdir) x.rdir scs).1 = hits.map (saidGrepped x.kdir) ∧
      hits.Perm (out.filter fun sc => sc.greppedLocation) ∧ (hits.map Syscall.name).Pairwise fun a b => strLe a b = true) := by
  have hsnd := extractLocationsL_snd x.w x.a (some x.kdir) x.rdir scs
  unfold extractLocationsL at hsnd ⊢
  rw [h] at hsnd
  simp only [hw, Bool.not_true, Bool.false_eq_true, if_false] at hsnd ⊢
  cases hitems : smartAddr2line x.w (scs.map fun s => s.symbol.realVaddr) (some x.kdir) with
  | error e => rw [hitems] at hsnd; cases hsnd
  | ok items =>
  rw [hitems, lm_quiet (LM.lift (.ok items)) _ items rfl rfl] at hsnd
  rw [lm_quiet (LM.lift (.ok items)) _ items rfl rfl]
  cases hlocs : forceAll items with
  | error e => rw [hlocs] at hsnd; cases hsnd
  | ok locs =>
  rw [hlocs, lm_quiet (LM.lift (.ok locs)) _ locs rfl rfl] at hsnd
  rw [lm_quiet (LM.lift (.ok locs)) _ locs rfl rfl]
  cases hk1 : firstLoop x.w x.a x.kdir x.rdir 0 scs locs ⟨[], false, [], []⟩ with
  | error e => rw [lm_bind_snd, firstLoopL_snd, hk1] at hsnd; cases hsnd
  | ok k1 =>
  obtain ⟨hhope, hrest⟩ := locate_ways x hrow scs hfresh items locs k1 hitems hlocs hk1
  have hk1' : (firstLoopL x.w x.a x.kdir x.rdir 0 scs locs ⟨[], false, [], []⟩).2 = .ok k1 := by rw [firstLoopL_snd, hk1]
  have hq1 := tells_ok (tells_firstLoop x.w (fun _ _ => True) x.a x.kdir x.rdir scs 0 locs ⟨[], false, [], []⟩
    fun y _ => ⟨by simp, fun _ _ _ _ _ _ _ => trivial⟩) hk1'
  rw [lm_quiet _ _ k1 hq1 hk1'] at hsnd ⊢
  by_cases hc : (!(sortRefs k1.adjust).isEmpty && (sortRefs k1.adjust).length == locs.length) = true
  · rw [if_pos hc] at hsnd ⊢
    refine ⟨fun _ => by rw [lm_bind_fst _ _ () rfl]; simp [LM.log, LM.pure], fun hno => absurd (hhope.1 hc) hno, fun hno => absurd (hhope.1 hc) hno⟩
  · rw [if_neg hc] at hsnd ⊢
    have hh : ¬ x.Hopeless scs := fun e => hc (hhope.2 e)
    refine ⟨fun e => absurd e hh, ?_⟩
    generalize hm2 : (if (sortRefs k1.adjust).isEmpty = true then LM.pure { k1 with adjust := [] } else do
          let items ← LM.lift (smartAddr2line x.w ((sortRefs k1.adjust).map fun r => r.2.symbol.realVaddr + r.2.symbol.size - 1) (some x.kdir))
          secondLoopL x.w x.a x.kdir x.rdir (sortRefs k1.adjust) items { k1 with adjust := [] } : LM Work) = m2 at hsnd ⊢
    have hm : m2.2 = (if (sortRefs k1.adjust).isEmpty = true then .ok { k1 with adjust := [] } else do
          let items ← smartAddr2line x.w ((sortRefs k1.adjust).map fun r => r.2.symbol.realVaddr + r.2.symbol.size - 1) (some x.kdir)
          secondLoop x.w x.a x.kdir x.rdir (sortRefs k1.adjust) items { k1 with adjust := [] } : Res Work) := by
      rw [← hm2]
      split
      · rfl
      · rw [lm_bind_snd, lm_lift_snd]
        congr 1
        funext items
        exact secondLoopL_snd _ _ _ _ _ _ _
    cases hk2 : m2.2 with
    | error e => rw [lm_bind_snd, hk2] at hsnd; cases hsnd
    | ok k2 =>
    have hq2 : m2.1 = [] := by
      rw [← hm2] at hk2 ⊢
      split at hk2
      · next hi => rw [if_pos hi]; rfl
      · next hi =>
        rw [if_neg hi]
        rw [lm_bind_snd, lm_lift_snd] at hk2
        cases hs2 : smartAddr2line x.w ((sortRefs k1.adjust).map fun r => r.2.symbol.realVaddr + r.2.symbol.size - 1) (some x.kdir) with
        | error e => rw [hs2] at hk2; cases hk2
        | ok items2 =>
          rw [hs2, res_ok_bind] at hk2
          rw [lm_quiet (LM.lift (.ok items2)) _ items2 rfl rfl]
          exact tells_ok (tells_secondLoop x.w (fun _ _ => True) _ _ _ _ items2 _
            fun y hy => ⟨smart_items_noexit _ _ _ _ hs2 y hy, fun _ _ _ _ _ _ _ => trivial⟩) hk2
    rw [lm_quiet m2 _ k2 hq2 hk2] at hsnd ⊢
    cases hk3 : thirdLoop x.w x.a x.kdir x.rdir (sortRefs k2.adjust) k2 with
    | error e => rw [lm_bind_snd, thirdLoopL_snd, hk3] at hsnd; cases hsnd
    | ok k3 =>
    obtain ⟨hbad, hnd, hgr, hrefs⟩ := hrest k2 k3 (hm.symm.trans hk2) hk3
    have hk3' : (thirdLoopL x.w x.a x.kdir x.rdir (sortRefs k2.adjust) k2).2 = .ok k3 := by rw [thirdLoopL_snd, hk3]
    rw [lm_quiet _ _ k3 (quiet_thirdLoop _ _ _ _ _ _ _ hk3) hk3'] at hsnd ⊢
    by_cases hb : k3.bad = true
    · rw [if_pos hb] at hsnd ⊢
      exact ⟨fun _ _ => by rw [lm_bind_fst _ _ () rfl]; simp [LM.log, LM.pure], fun _ hno => absurd (hbad.1 hb) hno⟩
    · rw [if_neg hb] at hsnd ⊢
      refine ⟨fun _ ho => absurd (hbad.2 ho) hb, fun _ _ => ?_⟩
      cases hgs : grepSources x.w x.a x.kdir k3.grep with
      | error e => rw [hgs] at hsnd; cases hsnd
      | ok gs =>
      rw [hgs, lm_quiet (LM.lift (.ok gs)) _ gs rfl rfl] at hsnd
      rw [lm_quiet (LM.lift (.ok gs)) _ gs rfl rfl]
      rw [fourthLoopL_snd] at hsnd
      have hperm := C56_each_once _ _ _ _ _ hgs
      have hsorted : (sortBy grepOrder gs).Perm gs := sortBy_perm _ _
      have hndg : ((sortBy grepOrder gs).map fun g => g.1.1).Nodup := by
        refine (List.Perm.nodup_iff (hsorted.map _)).2 ?_
        have := (List.Perm.nodup_iff (hperm.map Prod.fst)).2 hnd
        rwa [List.map_map] at this
      obtain ⟨hits, e1, e2, e3⟩ := fourth_said x.w x.a x.kdir _ k3.scs out hndg (by
        intro g hg
        have hg' := hperm.mem_iff.1 (List.mem_map.2 ⟨g, hsorted.mem_iff.1 hg, rfl⟩)
        obtain ⟨sc, f1, f2, f3⟩ := hrefs g.1 hg'
        exact ⟨sc, f1, hgr sc (List.mem_of_getElem? f1), f2, f3⟩) hsnd
      refine ⟨hits, e1, ?_, (grepOrder_names gs).sublist e3⟩
      have : k3.scs.filter (fun sc => sc.greppedLocation) = [] := List.filter_eq_nil_iff.2 fun sc hsc => by simp [hgr sc hsc]
      rw [this, List.append_nil] at e2
      exact e2.symm

end Verif
