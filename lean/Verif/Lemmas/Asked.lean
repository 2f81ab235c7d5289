import Verif.Model.Location
import Verif.Lemmas.Locate
/-! # The location extraction with another addr2line -/
set_option autoImplicit false

namespace Verif
open Spec

variable (w : LEnv) (f : List Nat → Res (List Str)) (a : Arch) (kdir : Path) (rdir : Option Path)

theorem firstLoop_other (scs : List Syscall) : ∀ (i : Nat) (locs : List Loc) (k : Work),
    firstLoop { w with addr2line := f } a kdir rdir i scs locs k = firstLoop w a kdir rdir i scs locs k := by
  induction scs with
  | nil => intro i locs k; cases locs <;> rfl
  | cons sc scs ih =>
    intro i locs k
    cases locs with
    | nil => rfl
    | cons loc locs => simp only [firstLoop, ih]; rfl

theorem secondLoop_other (rs : List Ref) : ∀ (items : List (Res Loc)) (k : Work),
    secondLoop { w with addr2line := f } a kdir rdir rs items k = secondLoop w a kdir rdir rs items k := by
  induction rs with
  | nil => intro items k; rfl
  | cons r rs ih =>
    intro items k
    cases items with
    | nil => rfl
    | cons x items => simp only [secondLoop, ih]

theorem retryLoop_other (sc : Syscall) (items : List (Res Loc)) : ∀ (b c : Bool),
    retryLoop { w with addr2line := f } a kdir rdir sc items b c = retryLoop w a kdir rdir sc items b c := by
  induction items with
  | nil => intro b c; rfl
  | cons x items ih => intro b c; simp only [retryLoop, ih]

theorem smartAddr2line_other (addrs : List Nat) (d : Option Path) (h : f addrs = w.addr2line addrs) :
    smartAddr2line { w with addr2line := f } addrs d = smartAddr2line w addrs d := by
  simp only [smartAddr2line, h]

theorem thirdLoop_other (rs : List Ref) : ∀ (k : Work),
    (∀ r ∈ rs, f (retryAddrs r.2) = w.addr2line (retryAddrs r.2)) →
    thirdLoop { w with addr2line := f } a kdir rdir rs k = thirdLoop w a kdir rdir rs k := by
  induction rs with
  | nil => intro k _; rfl
  | cons r rs ih =>
    intro k h
    have e : ∀ k, thirdLoop { w with addr2line := f } a kdir rdir rs k = thirdLoop w a kdir rdir rs k :=
      fun k => ih k (fun r hr => h r (List.mem_cons_of_mem _ hr))
    simp only [thirdLoop, e, smartAddr2line_other w f _ _ (h r List.mem_cons_self), retryLoop_other]

theorem fourthLoop_other (gs : List (Ref × Option (Path × Nat))) : ∀ (scs : List Syscall),
    fourthLoop { w with addr2line := f } a gs scs = fourthLoop w a gs scs := by
  induction gs with
  | nil => intro scs; rfl
  | cons g gs ih =>
    intro scs
    obtain ⟨r, o⟩ := g
    cases o with
    | none => simp only [fourthLoop, ih]
    | some p => simp only [fourthLoop, ih]

theorem push_size {n : Nat} {k : Work} {m : Next} {r : Ref} (hk : ∀ x ∈ k.adjust, n < x.2.symbol.size)
    (h : m = .adjust → n < r.2.symbol.size) : ∀ x ∈ (k.push m r).adjust, n < x.2.symbol.size := by
  intro x hx
  cases m with
  | done => exact hk x hx
  | grep => exact hk x hx
  | adjust =>
    rcases List.mem_append.1 hx with hx | hx
    · exact hk x hx
    · rw [List.mem_singleton.1 hx]; exact h rfl

theorem nextBySize_size (n : Nat) (sc : Syscall) (h : nextBySize n sc = .adjust) : n < sc.symbol.size := by
  unfold nextBySize at h
  split at h
  · assumption
  · cases h

theorem firstStep_size (sc sc' : Syscall) (loc : Loc) (b : Bool) (n : Next)
    (h : firstStep w a kdir rdir sc loc = .ok (sc', b, n)) : n = .adjust → 1 < sc'.symbol.size := by
  unfold firstStep at h
  simp only [bind, Except.bind] at h
  intro hn
  subst hn
  repeat' split at h
  all_goals first | cases h | skip
  all_goals
    injection h with h
    injection h with h1 h2
    injection h2 with h2 h3
    subst h1
    first | exact nextBySize_size _ _ h3 | cases h3

theorem firstLoop_size (scs : List Syscall) : ∀ (i : Nat) (locs : List Loc) (k k' : Work),
    (∀ x ∈ k.adjust, 1 < x.2.symbol.size) → firstLoop w a kdir rdir i scs locs k = .ok k' →
    ∀ x ∈ k'.adjust, 1 < x.2.symbol.size := by
  induction scs with
  | nil => intro i locs k k' hk h; cases locs <;> cases h <;> exact hk
  | cons sc scs ih =>
    intro i locs k k' hk h
    cases locs with
    | nil => cases h; exact hk
    | cons loc locs =>
      simp only [firstLoop, bind, Except.bind] at h
      split at h
      · cases h
      · next v hv =>
        obtain ⟨sc', b, n⟩ := v
        exact ih _ _ _ _ (push_size (k := { k with scs := k.scs ++ [sc'], bad := k.bad || b }) hk
          (firstStep_size w a kdir rdir sc sc' loc b n hv)) h

theorem secondLoop_size (rs : List Ref) : ∀ (items : List (Res Loc)) (k k' : Work),
    (∀ x ∈ k.adjust, 2 < x.2.symbol.size) → secondLoop w a kdir rdir rs items k = .ok k' →
    ∀ x ∈ k'.adjust, 2 < x.2.symbol.size := by
  induction rs with
  | nil => intro items k k' hk h; cases h; exact hk
  | cons r rs ih =>
    intro items k k' hk h
    cases items with
    | nil => cases h; exact hk
    | cons x items =>
      simp only [secondLoop, bind, Except.bind] at h
      repeat' split at h
      all_goals first | cases h; done | skip
      · exact ih _ _ _ (push_size hk (nextBySize_size _ _)) h
      · exact ih _ _ _ (by exact hk) h
      · exact ih _ _ _ (push_size hk (nextBySize_size _ _)) h

theorem refOk_symbol {orig : List Syscall} {r : Ref} (h : RefOk orig r) : ∃ sc ∈ orig, r.2.symbol = sc.symbol := by
  obtain ⟨sc, h1, h2⟩ := h
  exact ⟨sc, List.mem_of_getElem? h1, by rw [h2]⟩

/-- Only three kinds of questions matter. -/
theorem extractLocations_other (kd : Option Path) (scs : List Syscall)
    (h1 : f (scs.map fun s => s.symbol.realVaddr) = w.addr2line (scs.map fun s => s.symbol.realVaddr))
    (h2 : kd ≠ none → ∀ syms : List Symbol, syms ≠ [] → (∀ s ∈ syms, 1 < s.size ∧ ∃ sc ∈ scs, s = sc.symbol) →
      f (syms.map fun s => s.realVaddr + s.size - 1) = w.addr2line (syms.map fun s => s.realVaddr + s.size - 1))
    (h3 : kd ≠ none → ∀ sc ∈ scs, 2 < sc.symbol.size → f (retryAddrs sc) = w.addr2line (retryAddrs sc)) :
    extractLocations { w with addr2line := f } a kd rdir scs = extractLocations w a kd rdir scs := by
  unfold extractLocations
  simp only [smartAddr2line_other w f _ _ h1]
  split
  · rfl
  cases hi : smartAddr2line w (scs.map fun s => s.symbol.realVaddr) kd with
  | error e => rfl
  | ok items =>
  simp only [bind, Except.bind]
  cases hl : forceAll items with
  | error e => rfl
  | ok locs =>
  cases kd with
  | none => rfl
  | some kdir =>
  simp only [firstLoop_other]
  cases hk1 : firstLoop w a kdir rdir 0 scs locs ⟨[], false, [], []⟩ with
  | error e => rfl
  | ok k1 =>
  have ok1 : WorkOk w.files a ([] ++ scs) k1 := firstLoop_ok w a kdir rdir scs [] locs _ k1 .nil (by simp) hk1
  rw [List.nil_append] at ok1
  have sz1 := firstLoop_size w a kdir rdir scs 0 locs _ k1 (by simp) hk1
  have hrefs1 : ∀ r ∈ sortRefs k1.adjust, RefOk scs r := fun r hr =>
    ok1.refs r (List.mem_append.2 (.inl ((sortBy_perm _ _).mem_iff.1 hr)))
  have hs : ∀ r ∈ sortRefs k1.adjust, 1 < r.2.symbol.size := fun r hr => sz1 r ((sortBy_perm _ _).mem_iff.1 hr)
  simp only
  split
  · rfl
  have e2 : (sortRefs k1.adjust).isEmpty = false →
      smartAddr2line { w with addr2line := f } ((sortRefs k1.adjust).map fun r => r.2.symbol.realVaddr + r.2.symbol.size - 1) (some kdir) =
      smartAddr2line w ((sortRefs k1.adjust).map fun r => r.2.symbol.realVaddr + r.2.symbol.size - 1) (some kdir) := by
    intro hne
    refine smartAddr2line_other w f _ _ ?_
    have := h2 (by simp) ((sortRefs k1.adjust).map fun r => r.2.symbol) (by
      intro hn; rw [List.map_eq_nil_iff.1 hn] at hne; cases hne) (by
      intro s hsm
      obtain ⟨r, hr, rfl⟩ := List.mem_map.1 hsm
      exact ⟨hs r hr, refOk_symbol (hrefs1 r hr)⟩)
    rw [List.map_map] at this
    exact this
  have e3 : (if (sortRefs k1.adjust).isEmpty = true then .ok { k1 with adjust := [] } else do
        let items ← smartAddr2line { w with addr2line := f } ((sortRefs k1.adjust).map fun r => r.2.symbol.realVaddr + r.2.symbol.size - 1) (some kdir)
        secondLoop { w with addr2line := f } a kdir rdir (sortRefs k1.adjust) items { k1 with adjust := [] } : Res Work) =
      (if (sortRefs k1.adjust).isEmpty = true then .ok { k1 with adjust := [] } else do
        let items ← smartAddr2line w ((sortRefs k1.adjust).map fun r => r.2.symbol.realVaddr + r.2.symbol.size - 1) (some kdir)
        secondLoop w a kdir rdir (sortRefs k1.adjust) items { k1 with adjust := [] } : Res Work) := by
    by_cases he : (sortRefs k1.adjust).isEmpty = true
    · rw [if_pos he, if_pos he]
    · rw [if_neg he, if_neg he, e2 (by simpa using he)]
      simp only [secondLoop_other]
  simp only [bind, Except.bind] at e3
  rw [e3]
  split
  · rfl
  next k2 hk2 =>
  have h1' : WorkOk w.files a scs { k1 with adjust := [] } :=
    ⟨ok1.scs, fun r hr => ok1.refs r (List.mem_append.2 (.inr (by simpa using hr)))⟩
  have ok2 : WorkOk w.files a scs k2 ∧ ∀ x ∈ k2.adjust, 2 < x.2.symbol.size := by
    split at hk2
    · cases hk2; exact ⟨h1', by simp⟩
    · split at hk2
      · cases hk2
      · exact ⟨secondLoop_ok w a kdir rdir scs _ _ _ _ hrefs1 h1' hk2, secondLoop_size w a kdir rdir _ _ _ _ (by simp) hk2⟩
  rw [thirdLoop_other w f a kdir rdir _ _ (by
    intro r hr
    have hr' := (sortBy_perm _ _).mem_iff.1 hr
    obtain ⟨sc, hsc, he⟩ := refOk_symbol (ok2.1.refs r (List.mem_append.2 (.inl hr')))
    have e : retryAddrs r.2 = retryAddrs sc := by unfold retryAddrs; rw [he]
    rw [e]
    exact h3 (by simp) sc hsc (by rw [← he]; exact ok2.2 r hr'))]
  split
  · rfl
  · split
    · rfl
    · simp only [fourthLoop_other]; rfl

end Verif
