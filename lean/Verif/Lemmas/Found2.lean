import Verif.Lemmas.Found
import Mathlib.Data.List.Perm.Subperm
/-! # Lemmas: which locations are found, the other loops -/
set_option autoImplicit false

namespace Verif
open Spec

/-! ## Steps of the work -/

theorem nodup_fst_unique {l : List Ref} (h : (l.map Prod.fst).Nodup) {r s : Ref} (hr : r ∈ l) (hs : s ∈ l) (e : r.1 = s.1) : r = s := by
  induction l with
  | nil => cases hr
  | cons y ys ih =>
    simp only [List.map_cons, List.nodup_cons] at h
    rcases List.mem_cons.1 hr with e1 | hr1 <;> rcases List.mem_cons.1 hs with e2 | hs1
    · rw [e1, e2]
    · subst e1; exact absurd (List.mem_map.2 ⟨s, hs1, e.symm⟩) h.1
    · subst e2; exact absurd (List.mem_map.2 ⟨r, hr1, e⟩) h.1
    · exact ih h.2 hr1 hs1

theorem head_ref {x : Sources} {P Q : Syscall → Prop} {orig : List Syscall} {r : Ref} {rs : List Ref} {k : Work}
    (hk : x.FWork P Q orig (r :: rs) k) :
    ∃ sc0, orig[r.1]? = some sc0 ∧ k.scs[r.1]? = some r.2 ∧ Relocated sc0 r.2 ∧ r.2.greppedLocation = false ∧
      r.2.goodLocation = false ∧ P sc0 := by
  have hin : r ∈ r :: rs ++ k.adjust ++ k.grep := by simp
  have hlt := hk.bound r hin
  obtain ⟨sc1, h1, h2, h3, h4⟩ := hk.pos r.1 orig[r.1] (List.getElem?_eq_getElem hlt)
  have key : ∀ s, s ∈ r :: rs ++ k.adjust ++ k.grep → s = (r.1, sc1) → s = r := fun s hs e =>
    nodup_fst_unique hk.nodup hs hin (by rw [e])
  have hnd := hk.nodup
  rcases h4 with ⟨-, hno⟩ | ⟨hg, ⟨hp, hP⟩ | ⟨hp, -⟩ | ⟨hp, -⟩⟩
  · exact absurd (List.mem_map.2 ⟨r, hin, rfl⟩) hno
  · have e : (r.1, sc1) = r := key _ (by simp only [List.mem_append]; exact .inl (.inl hp)) rfl
    have e2 : sc1 = r.2 := congrArg Prod.snd e
    subst e2
    exact ⟨_, List.getElem?_eq_getElem hlt, h1, h2, h3, hg, hP⟩
  · exfalso
    rw [List.map_append, List.map_append, List.append_assoc, List.map_cons, List.cons_append, List.nodup_cons] at hnd
    apply hnd.1
    simp only [List.mem_append]
    exact .inr (.inl (List.mem_map.2 ⟨_, hp, rfl⟩))
  · exfalso
    rw [List.map_append, List.map_append, List.append_assoc, List.map_cons, List.cons_append, List.nodup_cons] at hnd
    apply hnd.1
    simp only [List.mem_append]
    exact .inr (.inr (List.mem_map.2 ⟨_, hp, rfl⟩))

/-- the head of the list is dealt with; all other positions are as before -/
theorem fwork_step {x : Sources} {P Q : Syscall → Prop} {orig : List Syscall} {r : Ref} {rs : List Ref} {k k2 : Work}
    (hk : x.FWork P Q orig (r :: rs) k) (hlen : k2.scs.length = k.scs.length) (hscs : ∀ i, i ≠ r.1 → k2.scs[i]? = k.scs[i]?)
    (hadj : ∀ s ∈ k.adjust, s ∈ k2.adjust) (hgrep : ∀ s ∈ k.grep, s ∈ k2.grep)
    (hsub : ∀ s ∈ k2.adjust ++ k2.grep, s = r ∨ s ∈ k.adjust ++ k.grep)
    (hnd : ((rs ++ k2.adjust ++ k2.grep).map Prod.fst).Nodup)
    (hpos : ∀ sc0, orig[r.1]? = some sc0 → ∃ sc1, k2.scs[r.1]? = some sc1 ∧ x.Pos P Q rs k2 r.1 sc0 sc1) :
    x.FWork P Q orig rs k2 := by
  refine ⟨by rw [hlen, hk.len], hnd, ?_, ?_⟩
  · intro s hs
    rw [List.append_assoc, List.mem_append] at hs
    rcases hs with hs | hs
    · exact hk.bound s (by simp [hs])
    · rcases hsub s hs with rfl | hs
      · exact hk.bound s (by simp)
      · exact hk.bound s (by rw [List.append_assoc, List.mem_append]; exact .inr hs)
  · intro i sc0 h0
    by_cases hi : i = r.1
    · subst hi; exact hpos sc0 h0
    · obtain ⟨sc1, h1, h2, h3, h4⟩ := hk.pos i sc0 h0
      refine ⟨sc1, by rw [hscs i hi]; exact h1, h2, h3, ?_⟩
      rcases h4 with ⟨hs, hno⟩ | ⟨hg, ⟨hp, hP⟩ | ⟨hp, hQ⟩ | ⟨hp, hW⟩⟩
      · refine .inl ⟨hs, ?_⟩
        intro hm
        obtain ⟨s, hs, rfl⟩ := List.mem_map.1 hm
        apply hno
        refine List.mem_map.2 ⟨s, ?_, rfl⟩
        rw [List.append_assoc, List.mem_append] at hs ⊢
        rcases hs with hs | hs
        · exact .inl (by simp [hs])
        · rcases hsub s hs with rfl | hs
          · exact .inl (by simp)
          · exact .inr hs
      · rcases List.mem_cons.1 hp with e | hp
        · exact absurd (congrArg Prod.fst e) hi
        · exact .inr ⟨hg, .inl ⟨hp, hP⟩⟩
      · exact .inr ⟨hg, .inr (.inl ⟨hadj _ hp, hQ⟩)⟩
      · exact .inr ⟨hg, .inr (.inr ⟨hgrep _ hp, hW⟩)⟩

theorem fwork_settle {x : Sources} {P Q : Syscall → Prop} {orig : List Syscall} {r : Ref} {rs : List Ref} {k : Work}
    (hk : x.FWork P Q orig (r :: rs) k) (f : Path) (l : Nat)
    (hf : ∀ sc0, orig[r.1]? = some sc0 → P sc0 → ¬ x.Enough sc0 ∧ x.First sc0 f l) :
    x.FWork P Q orig rs { k with scs := setLoc r.1 f l k.scs } := by
  obtain ⟨sc0, h0, h1, h2, h3, h4, h5⟩ := head_ref hk
  have hnd := hk.nodup
  rw [List.cons_append, List.cons_append, List.map_cons, List.nodup_cons] at hnd
  refine fwork_step hk (by simp [setLoc]) ?_ (fun _ h => h) (fun _ h => h) (fun _ h => .inr h) hnd.2 ?_
  · intro i hi
    simp only [setLoc]
    exact List.getElem?_modify_ne _ _ (Ne.symm hi)
  · intro sc0' h0'
    rw [h0] at h0'
    cases h0'
    obtain ⟨hne, hfirst⟩ := hf sc0 h0 h5
    refine ⟨{ r.2 with file := some f, line := some l, goodLocation := true }, ?_, ?_, h3, .inl ⟨.inr ⟨hne, f, l, hfirst, rfl, rfl, rfl⟩, hnd.1⟩⟩
    · simp only [setLoc]
      rw [List.getElem?_modify_eq, h1]
      rfl
    · unfold Relocated at h2 ⊢; rw [h2]

theorem fwork_push {x : Sources} {P Q : Syscall → Prop} {orig : List Syscall} {r : Ref} {rs : List Ref} {k : Work} (n : Next)
    (hk : x.FWork P Q orig (r :: rs) k)
    (hq : ∀ sc0, orig[r.1]? = some sc0 → Relocated sc0 r.2 → P sc0 → (n = .adjust ∧ Q sc0) ∨ (n = .grep ∧ x.Wanted sc0)) :
    x.FWork P Q orig rs (k.push n r) := by
  obtain ⟨sc0, h0, h1, h2, h3, h4, h5⟩ := head_ref hk
  have hnd := hk.nodup
  have hp := fun sc0' (h0' : orig[r.1]? = some sc0') => (by rw [h0] at h0'; exact Option.some.inj h0' : sc0 = sc0')
  rcases hq sc0 h0 h2 h5 with ⟨rfl, hQ⟩ | ⟨rfl, hW⟩
  · refine fwork_step hk rfl (fun _ _ => rfl) (fun _ h => by simp [Work.push, h]) (fun _ h => h) ?_ ?_ ?_
    · intro s hs
      simp only [Work.push, List.mem_append, List.mem_singleton] at hs ⊢
      rcases hs with (hs | hs) | hs
      · exact .inr (.inl hs)
      · exact .inl hs
      · exact .inr (.inr hs)
    · refine (List.Perm.nodup_iff (List.Perm.map _ ?_)).1 hnd
      simp only [Work.push, List.append_assoc, List.cons_append, List.nil_append]
      rw [← List.append_assoc, ← List.append_assoc]
      exact List.perm_middle.symm
    · intro sc0' h0'
      rw [← hp _ h0']
      exact ⟨r.2, h1, h2, h3, .inr ⟨h4, .inr (.inl ⟨by simp [Work.push], hQ⟩)⟩⟩
  · refine fwork_step hk rfl (fun _ _ => rfl) (fun _ h => h) (fun _ h => by simp [Work.push, h]) ?_ ?_ ?_
    · intro s hs
      simp only [Work.push, List.mem_append, List.mem_singleton] at hs ⊢
      rcases hs with hs | hs | hs
      · exact .inr (.inl hs)
      · exact .inr (.inr hs)
      · exact .inl hs
    · refine (List.Perm.nodup_iff (List.Perm.map _ ?_)).1 hnd
      simp only [Work.push, List.append_assoc, List.cons_append, List.nil_append]
      have e : rs ++ (k.adjust ++ (k.grep ++ [r])) = (rs ++ (k.adjust ++ k.grep)) ++ [r] := by simp
      rw [e]
      exact (List.perm_append_singleton _ _).symm
    · intro sc0' h0'
      rw [← hp _ h0']
      exact ⟨r.2, h1, h2, h3, .inr ⟨h4, .inr (.inr ⟨by simp [Work.push], hW⟩)⟩⟩

/-- the work left by a step becomes the work to do in the next one -/
theorem fwork_next {x : Sources} {P Q R : Syscall → Prop} {orig : List Syscall} {k : Work} (hk : x.FWork P Q orig [] k) :
    x.FWork Q R orig (sortRefs k.adjust) { k with adjust := [] } := by
  have hp : (sortRefs k.adjust).Perm k.adjust := sortBy_perm _ _
  have hm : ∀ s, s ∈ sortRefs k.adjust ++ ([] : List Ref) ++ k.grep ↔ s ∈ ([] : List Ref) ++ k.adjust ++ k.grep := by
    intro s
    simp only [List.append_nil, List.nil_append, List.mem_append, hp.mem_iff]
  refine ⟨hk.len, ?_, fun r hr => hk.bound r ((hm r).1 hr), ?_⟩
  · refine (List.Perm.nodup_iff (List.Perm.map _ ?_)).2 hk.nodup
    simpa using hp.append_right k.grep
  · intro i sc0 h0
    obtain ⟨sc1, h1, h2, h3, h4⟩ := hk.pos i sc0 h0
    refine ⟨sc1, h1, h2, h3, ?_⟩
    rcases h4 with ⟨hs, hno⟩ | ⟨hg, ⟨hp', -⟩ | ⟨hp', hQ⟩ | ⟨hp', hW⟩⟩
    · refine .inl ⟨hs, fun hmm => hno ?_⟩
      obtain ⟨s, hs, rfl⟩ := List.mem_map.1 hmm
      exact List.mem_map.2 ⟨s, (hm s).1 hs, rfl⟩
    · cases hp'
    · exact .inr ⟨hg, .inl ⟨hp.mem_iff.2 hp', hQ⟩⟩
    · exact .inr ⟨hg, .inr (.inr ⟨hp', hW⟩)⟩

/-! ## What an address tells -/

/-- one address: the model goes on iff the address does not lead to a definition -/
theorem confirms_iff (x : Sources) (sc0 sc : Syscall) (hn : Ident sc0.origname ∧ Ident sc0.name) (hr : Relocated sc0 sc) (addr : Nat)
    (loc : Loc) (file : Option Path) (hi : itemOf x.w.elfPath (some x.kdir) (x.row addr) = .ok loc)
    (hm : remapPath x.kdir x.rdir loc.1 = .ok file) (f : Path) (l0 line : Nat) (good : Bool)
    (hv : validLoc x.w.files file loc.2 = some (f, l0)) (ha : adjustLine x.w.files f l0 = .ok line)
    (hg : goodLocationAt x.w.files f line x.a sc = .ok good) (f' : Path) (l' : Nat) :
    x.Confirms sc0 addr f' l' ↔ good = true ∧ f' = f ∧ l' = line := by
  have hd := goodLocationAt_iff x.w.files f line x.a sc sc0 hn hr good hg
  constructor
  · rintro ⟨h1, h2⟩
    obtain ⟨l1, e1, e2⟩ := (leads_iff x addr loc file hi hm f' l').1 h1
    rw [hv] at e1; cases e1
    rw [ha] at e2; cases e2
    exact ⟨hd.2 h2, rfl, rfl⟩
  · rintro ⟨h1, rfl, rfl⟩
    exact ⟨(leads_iff x addr loc file hi hm _ _).2 ⟨l0, hv, ha⟩, hd.1 h1⟩

theorem confirms_invalid (x : Sources) (sc0 : Syscall) (addr : Nat) (loc : Loc) (file : Option Path)
    (hi : itemOf x.w.elfPath (some x.kdir) (x.row addr) = .ok loc) (hm : remapPath x.kdir x.rdir loc.1 = .ok file)
    (hv : validLoc x.w.files file loc.2 = none) (f' : Path) (l' : Nat) : ¬ x.Confirms sc0 addr f' l' := by
  rintro ⟨h1, -⟩
  obtain ⟨l1, e1, -⟩ := (leads_iff x addr loc file hi hm f' l').1 h1
  rw [hv] at e1; cases e1

/-! ## The second loop -/

theorem asked_inner (sc : Syscall) (h : 1 < sc.symbol.size) :
    askedAddrs sc.symbol = [sc.symbol.realVaddr, sc.symbol.realVaddr + sc.symbol.size - 1] ++ retryAddrs sc := by
  simp only [askedAddrs, h, if_true, retryAddrs, List.cons_append, List.nil_append]

/-- what the second step leaves to the third -/
def Spec.Sources.Ret (x : Sources) (sc : Syscall) : Prop := x.Open2 sc ∧ 2 < sc.symbol.size

theorem next2 (x : Sources) (sc0 sc : Syscall) (hr : Relocated sc0 sc) (h : x.Open2 sc0) :
    (nextBySize 2 sc = .adjust ∧ x.Ret sc0) ∨ (nextBySize 2 sc = .grep ∧ x.Wanted sc0) := by
  have e : sc.symbol = sc0.symbol := by rw [hr]
  unfold nextBySize
  rw [e]
  split
  · next hs => exact .inl ⟨rfl, h, hs⟩
  · next hs => exact .inr ⟨rfl, wanted_medium x sc0 h hs⟩

theorem secondLoop_found (x : Sources) (orig : List Syscall) (hn : ∀ sc ∈ orig, Ident sc.origname ∧ Ident sc.name) (refs : List Ref) :
    ∀ (k k' : Work), x.FWork x.Adj x.Ret orig refs k →
      secondLoop x.w x.a x.kdir x.rdir refs
        (refs.map fun r => itemOf x.w.elfPath (some x.kdir) (x.row (r.2.symbol.realVaddr + r.2.symbol.size - 1))) k = .ok k' →
      x.FWork x.Adj x.Ret orig [] k' ∧ k'.bad = k.bad := by
  induction refs with
  | nil => intro k k' hk h; cases h; exact ⟨hk, rfl⟩
  | cons r rs ih =>
    intro k k' hk h
    obtain ⟨sc0, h0, h1, h2, h3, h4, h5⟩ := head_ref hk
    have hn0 := hn sc0 (List.mem_of_getElem? h0)
    have hsym : r.2.symbol = sc0.symbol := by rw [h2]
    have hpush : (∀ f l, ¬ x.Confirms sc0 (sc0.symbol.realVaddr + sc0.symbol.size - 1) f l) →
        x.FWork x.Adj x.Ret orig rs (k.push (nextBySize 2 r.2) r) := by
      intro hno
      apply fwork_push _ hk
      intro sc0' h0' hr' hP
      rw [h0] at h0'; cases h0'
      exact next2 x sc0 r.2 h2 ⟨h5.1, h5.2, hno⟩
    simp only [List.map_cons, secondLoop, bind, Except.bind] at h
    split at h
    · cases h
    next loc hloc =>
    rw [hsym] at hloc
    split at h
    · cases h
    next file hfile =>
    split at h
    · next hv =>
      have := ih _ _ (hpush (confirms_invalid x sc0 _ loc file hloc hfile hv)) h
      rw [push_bad] at this
      exact this
    next f l hv =>
    split at h
    · cases h
    next line hadj =>
    split at h
    · cases h
    · next good hgood =>
      have hc := confirms_iff x sc0 r.2 hn0 h2 _ loc file hloc hfile f l line good hv hadj hgood
      split at h
      · next hg =>
        refine ih { k with scs := setLoc r.1 f line k.scs } _ ?_ h
        refine fwork_settle hk f line ?_
        intro sc0' h0' hP
        rw [h0] at h0'; cases h0'
        refine ⟨h5.1.1, [sc0.symbol.realVaddr], sc0.symbol.realVaddr + sc0.symbol.size - 1, retryAddrs sc0, ?_, (hc f line).2 ⟨hg, rfl, rfl⟩, ?_⟩
        · rw [asked_inner sc0 h5.2]; rfl
        · intro b hb
          rw [List.mem_singleton] at hb
          subst hb
          exact h5.1.2
      · next hg =>
        have := ih _ _ (hpush fun f' l' h' => hg ((hc f' l').1 h').1) h
        rw [push_bad] at this
        exact this

/-! ## The third loop -/

/-- what the answers for the inner addresses lead to -/
def Spec.Sources.RetryOk (x : Sources) (sc0 : Syscall) (addrs : List Nat) : Retry → Prop
  | .found f line => ∃ before addr after, addrs = before ++ addr :: after ∧ x.Confirms sc0 addr f line ∧
      ∀ b ∈ before, ∀ f' l', ¬ x.Confirms sc0 b f' l'
  | .failed _ _ => ∀ b ∈ addrs, ∀ f' l', ¬ x.Confirms sc0 b f' l'

theorem retryLoop_found2 (x : Sources) (sc0 sc : Syscall) (hn : Ident sc0.origname ∧ Ident sc0.name) (hr : Relocated sc0 sc)
    (addrs : List Nat) :
    ∀ (i n : Bool) (res : Retry),
      retryLoop x.w x.a x.kdir x.rdir sc (addrs.map fun y => itemOf x.w.elfPath (some x.kdir) (x.row y)) i n = .ok res →
      x.RetryOk sc0 addrs res := by
  induction addrs with
  | nil => intro i n res h; cases h; simp [Sources.RetryOk]
  | cons y ys ih =>
    intro i n res h
    have up : ∀ i n, (∀ f' l', ¬ x.Confirms sc0 y f' l') →
        retryLoop x.w x.a x.kdir x.rdir sc (ys.map fun y => itemOf x.w.elfPath (some x.kdir) (x.row y)) i n = .ok res →
        x.RetryOk sc0 (y :: ys) res := by
      intro i n hno h
      have := ih i n res h
      cases res with
      | found f line =>
        obtain ⟨before, addr, after, e, h1, h2⟩ := this
        refine ⟨y :: before, addr, after, by rw [e]; rfl, h1, ?_⟩
        intro b hb
        rcases List.mem_cons.1 hb with rfl | hb
        · exact hno
        · exact h2 b hb
      | failed u v =>
        intro b hb
        rcases List.mem_cons.1 hb with rfl | hb
        · exact hno
        · exact this b hb
    simp only [List.map_cons, retryLoop, bind, Except.bind] at h
    split at h
    · cases h
    next loc hloc =>
    split at h
    · cases h
    next file hfile =>
    split at h
    · next hv => exact up _ _ (confirms_invalid x sc0 _ loc file hloc hfile hv) h
    next f l hv =>
    split at h
    · cases h
    next line hadj =>
    split at h
    · cases h
    · next good hgood =>
      have hc := confirms_iff x sc0 sc hn hr _ loc file hloc hfile f l line good hv hadj hgood
      split at h
      · next hg =>
        cases h
        exact ⟨[], y, ys, rfl, (hc f line).2 ⟨hg, rfl, rfl⟩, by simp⟩
      · next hg => exact up _ _ (fun f' l' h' => hg ((hc f' l').1 h').1) h

theorem thirdLoop_found (x : Sources) (hrow : RowPerAddress x.w x.row) (orig : List Syscall)
    (hn : ∀ sc ∈ orig, Ident sc.origname ∧ Ident sc.name) (refs : List Ref) :
    ∀ (k k' : Work), x.FWork x.Ret (fun _ => False) orig refs { k with adjust := [] } →
      thirdLoop x.w x.a x.kdir x.rdir refs k = .ok k' →
      x.FWork x.Ret (fun _ => False) orig [] { k' with adjust := [] } ∧ k'.bad = k.bad := by
  induction refs with
  | nil => intro k k' hk h; cases h; exact ⟨hk, rfl⟩
  | cons r rs ih =>
    intro k k' hk h
    obtain ⟨sc0, h0, h1, h2, h3, h4, h5⟩ := head_ref hk
    have hn0 := hn sc0 (List.mem_of_getElem? h0)
    have hsym : r.2.symbol = sc0.symbol := by rw [h2]
    have haddr : retryAddrs r.2 = retryAddrs sc0 := by unfold retryAddrs; rw [hsym]
    simp only [thirdLoop, bind, Except.bind] at h
    split at h
    · cases h
    next items hitems =>
    rw [smart_items x.w x.row hrow _ _ _ hitems, haddr] at h
    split at h
    · cases h
    · next res hres =>
      have hfound := retryLoop_found2 x sc0 r.2 hn0 h2 _ _ _ _ hres
      split at h
      · next f line =>
        obtain ⟨before, addr, after, e, hc, hb⟩ := hfound
        refine ih { k with scs := setLoc r.1 f line k.scs } _ ?_ h
        refine fwork_settle hk f line ?_
        intro sc0' h0' hP
        rw [h0] at h0'; cases h0'
        refine ⟨h5.1.1.1, [sc0.symbol.realVaddr, sc0.symbol.realVaddr + sc0.symbol.size - 1] ++ before, addr, after, ?_, hc, ?_⟩
        · rw [asked_inner sc0 h5.1.2.1, e]; simp
        · intro b hb'
          simp only [List.cons_append, List.nil_append, List.mem_cons] at hb'
          rcases hb' with rfl | rfl | hb'
          · exact h5.1.1.2
          · exact h5.1.2.2
          · exact hb b hb'
      · split at h
        · cases h
        · refine ih (k.push .grep r) _ ?_ h |>.imp id ?_
          · refine fwork_push .grep hk ?_
            intro sc0' h0' _ _
            rw [h0] at h0'; cases h0'
            refine .inr ⟨rfl, h5.1.1.1, ?_⟩
            intro addr ha
            rw [asked_inner sc0 h5.1.2.1] at ha
            simp only [List.cons_append, List.nil_append, List.mem_cons] at ha
            rcases ha with rfl | rfl | ha
            · exact h5.1.1.2
            · exact h5.1.2.2
            · exact hfound addr ha
          · intro e; rw [e, push_bad]

/-! ## The fourth loop -/

/-- the syscall after grepping -/
def AfterGrep (w : LEnv) (a : Arch) (gs : List (Ref × Option (Path × Nat))) (i : Nat) (sc1 sc2 : Syscall) : Prop :=
  (∃ r f l, (r, some (f, l)) ∈ gs ∧ r.1 = i ∧ goodLocationAt w.files f l a r.2 = .ok true ∧ LocatedAt sc1 sc2 f l true) ∨
  (sc2 = sc1 ∧ ∀ r f l, (r, some (f, l)) ∈ gs → r.1 = i → goodLocationAt w.files f l a r.2 = .ok false)

theorem fourthLoop_found (w : LEnv) (a : Arch) (gs : List (Ref × Option (Path × Nat))) :
    ∀ (scs out : List Syscall), (gs.map fun g => g.1.1).Nodup → fourthLoop w a gs scs = .ok out →
      out.length = scs.length ∧ ∀ (i : Nat) sc1, scs[i]? = some sc1 → ∃ sc2, out[i]? = some sc2 ∧ AfterGrep w a gs i sc1 sc2 := by
  induction gs with
  | nil =>
    intro scs out _ h
    cases h
    exact ⟨rfl, fun i sc1 h1 => ⟨sc1, h1, .inr ⟨rfl, by simp⟩⟩⟩
  | cons g gs ih =>
    intro scs out hnd h
    simp only [List.map_cons, List.nodup_cons] at hnd
    obtain ⟨r, loc⟩ := g
    cases loc with
    | none =>
      simp only [fourthLoop] at h
      obtain ⟨e, h1⟩ := ih scs out hnd.2 h
      refine ⟨e, fun i sc1 hi => ?_⟩
      obtain ⟨sc2, h2, h3⟩ := h1 i sc1 hi
      refine ⟨sc2, h2, ?_⟩
      rcases h3 with ⟨r', f, l, h3, h4⟩ | ⟨h3, h4⟩
      · exact .inl ⟨r', f, l, by simp [h3], h4⟩
      · refine .inr ⟨h3, fun r' f l hm => h4 r' f l ?_⟩
        simpa using hm
    | some fl =>
      obtain ⟨f, line⟩ := fl
      simp only [fourthLoop, bind, Except.bind] at h
      have hother : ∀ f l r', (r', some (f, l)) ∈ gs → r'.1 ≠ r.1 := by
        intro f l r' hm e
        exact hnd.1 (List.mem_map.2 ⟨_, hm, e⟩)
      split at h
      · cases h
      · next good hgood =>
        split at h
        · next hg =>
          subst hg
          obtain ⟨e, h1⟩ := ih _ out hnd.2 h
          refine ⟨by rw [e]; simp [setLoc], fun i sc1 hi => ?_⟩
          by_cases hir : i = r.1
          · subst hir
            have hmod : ((setLoc r.1 f line scs).modify r.1 fun sc => { sc with greppedLocation := true })[r.1]? =
                some { sc1 with file := some f, line := some line, goodLocation := true, greppedLocation := true } := by
              rw [List.getElem?_modify_eq]
              simp only [setLoc]
              rw [List.getElem?_modify_eq, hi]
              rfl
            obtain ⟨sc2, h2, h3⟩ := h1 r.1 _ hmod
            refine ⟨sc2, h2, .inl ⟨r, f, line, by simp, rfl, hgood, ?_⟩⟩
            rcases h3 with ⟨r', f', l', h3, h4, -⟩ | ⟨h3, -⟩
            · exact absurd h4 (hother _ _ _ h3)
            · exact h3
          · have hmod : ((setLoc r.1 f line scs).modify r.1 fun sc => { sc with greppedLocation := true })[i]? = some sc1 := by
              rw [List.getElem?_modify_ne _ _ (Ne.symm hir)]
              simp only [setLoc]
              rw [List.getElem?_modify_ne _ _ (Ne.symm hir), hi]
            obtain ⟨sc2, h2, h3⟩ := h1 i _ hmod
            refine ⟨sc2, h2, ?_⟩
            rcases h3 with ⟨r', f', l', h3, h4⟩ | ⟨h3, h4⟩
            · exact .inl ⟨r', f', l', by simp [h3], h4⟩
            · refine .inr ⟨h3, fun r' f' l' hm e => ?_⟩
              rcases List.mem_cons.1 hm with hm | hm
              · cases hm; exact absurd e.symm hir
              · exact h4 r' f' l' hm e
        · next hg =>
          obtain ⟨e, h1⟩ := ih _ out hnd.2 h
          refine ⟨e, fun i sc1 hi => ?_⟩
          obtain ⟨sc2, h2, h3⟩ := h1 i _ hi
          refine ⟨sc2, h2, ?_⟩
          rcases h3 with ⟨r', f', l', h3, h4⟩ | ⟨h3, h4⟩
          · exact .inl ⟨r', f', l', by simp [h3], h4⟩
          · refine .inr ⟨h3, fun r' f' l' hm e => ?_⟩
            rcases List.mem_cons.1 hm with hm | hm
            · cases hm
              rw [hgood]
              simpa using hg
            · exact h4 r' f' l' hm e

/-! ## The whole -/

/-- a syscall before grepping -/
def Spec.Sources.Before (x : Sources) (sc0 sc1 : Syscall) : Prop :=
  Relocated sc0 sc1 ∧ sc1.greppedLocation = false ∧ (x.Settled sc0 sc1 ∨ (sc1.goodLocation = false ∧ x.Wanted sc0))

/-- everything that can happen -/
theorem extractLocations_found (x : Sources) (hrow : RowPerAddress x.w x.row) (scs out : List Syscall)
    (hw : x.w.haveAddr2line = true) (hfresh : ∀ sc ∈ scs, (Ident sc.origname ∧ Ident sc.name) ∧ sc.greppedLocation = false)
    (h : extractLocations x.w x.a (some x.kdir) x.rdir scs = .ok out) :
    (x.Hopeless scs → ∀ sc ∈ out, sc.goodLocation = false ∧ sc.greppedLocation = false) ∧
    (¬ x.Hopeless scs → x.Outside scs → ∀ (i : Nat) sc0, scs[i]? = some sc0 → ∃ sc1, out[i]? = some sc1 ∧ x.Before sc0 sc1) ∧
    (¬ x.Hopeless scs → ¬ x.Outside scs → ∃ todo gs, grepSources x.w x.a x.kdir todo = .ok gs ∧ (todo.map Prod.fst).Nodup ∧
      (∀ r ∈ todo, ∃ sc0, scs[r.1]? = some sc0 ∧ Relocated sc0 r.2 ∧ x.Wanted sc0) ∧
      (∀ (i : Nat) sc0, scs[i]? = some sc0 → x.Wanted sc0 → ∃ r ∈ todo, r.1 = i) ∧
      ∀ (i : Nat) sc0, scs[i]? = some sc0 → ∃ sc1 sc2, out[i]? = some sc2 ∧ x.Before sc0 sc1 ∧ AfterGrep x.w x.a gs i sc1 sc2) := by
  unfold extractLocations at h
  simp only [hw, Bool.not_true, if_false, bind, Except.bind, Bool.false_eq_true] at h
  split at h
  · cases h
  next items hitems =>
  split at h
  · cases h
  next locs hlocs =>
  have hl := forceAll_forall2 _ _ hlocs
  rw [smart_items x.w x.row hrow _ _ _ hitems, List.map_map] at hl
  have hl' := forall2_of_map _ _ _ hl
  simp only [Function.comp_apply] at hl'
  have hlen := forall2_length _ _ _ hl'
  split at h
  · cases h
  next k1 hk1 =>
  have hinit : x.FWork (fun _ => False) x.Adj [] [] ⟨[], false, [], []⟩ := ⟨rfl, by simp, by simp, by simp⟩
  obtain ⟨h1, hbad, hle, hall⟩ := firstLoop_found x scs [] locs _ k1 hfresh hl' hinit hk1
  rw [List.nil_append] at h1
  simp only [Bool.false_eq_true, false_or] at hbad
  simp only [List.length_nil, Nat.zero_add] at hle hall
  have hslen : (sortRefs k1.adjust).length = k1.adjust.length := (sortBy_perm _ _).length_eq
  have hhope : (!(sortRefs k1.adjust).isEmpty && (sortRefs k1.adjust).length == locs.length) = true ↔ x.Hopeless scs := by
    rw [Bool.and_eq_true, Bool.not_eq_true', beq_iff_eq, hslen, ← hlen, hall, List.isEmpty_eq_false_iff]
    constructor
    · rintro ⟨hne, ha⟩
      refine ⟨?_, fun sc hsc => ⟨(ha sc hsc).1.1, (ha sc hsc).1.2, (ha sc hsc).2⟩⟩
      rintro rfl
      have := hall.2 ha
      rw [← hslen, List.length_nil, List.length_eq_zero_iff] at this
      exact hne this
    · rintro ⟨hne, ha⟩
      have ha' : ∀ sc ∈ scs, x.Adj sc := fun sc hsc => ⟨⟨(ha sc hsc).1, (ha sc hsc).2.1⟩, (ha sc hsc).2.2⟩
      refine ⟨?_, ha'⟩
      intro e
      have := hall.2 ha'
      rw [← hslen, e, List.length_nil] at this
      exact hne (List.length_eq_zero_iff.1 this.symm)
  split at h
  · next hc =>
    have hh := hhope.1 hc
    cases h
    refine ⟨fun _ => ?_, fun hno => absurd hh hno, fun hno => absurd hh hno⟩
    intro sc hsc
    obtain ⟨i, hi⟩ := List.getElem?_of_mem hsc
    have hlt : i < scs.length := by rw [← h1.len]; exact (List.getElem?_eq_some_iff.1 hi).1
    obtain ⟨sc1, e1, e2, e3, e4⟩ := h1.pos i scs[i] (List.getElem?_eq_getElem hlt)
    rw [hi] at e1
    cases e1
    refine ⟨?_, e3⟩
    rcases e4 with ⟨hs, hno⟩ | ⟨hg, -⟩
    · rcases hs with ⟨-, hg⟩ | ⟨hne, f, l, hfirst, -⟩
      · exact hg
      · -- the settled position must be in the list
        exfalso
        have hadj : ∀ sc ∈ scs, x.Adj sc := fun sc hsc => ⟨⟨(hh.2 sc hsc).1, (hh.2 sc hsc).2.1⟩, (hh.2 sc hsc).2.2⟩
        have hlenadj := hall.2 hadj
        -- all indices are in the list
        have hsub : (k1.adjust.map Prod.fst) ⊆ List.range scs.length := by
          intro j hj
          obtain ⟨r, hr, rfl⟩ := List.mem_map.1 hj
          exact List.mem_range.2 (h1.bound r (by simp [hr]))
        have hndj : (k1.adjust.map Prod.fst).Nodup := by
          have := h1.nodup
          rw [List.nil_append, List.map_append, List.nodup_append] at this
          exact this.1
        have hperm : (k1.adjust.map Prod.fst).Perm (List.range scs.length) := by
          apply List.Subperm.perm_of_length_le (List.Nodup.subperm hndj hsub)
          simp [hlenadj]
        apply hno
        rw [List.nil_append, List.map_append, List.mem_append]
        exact .inl (hperm.mem_iff.2 (List.mem_range.2 hlt))
    · exact hg
  next hc =>
  have hh : ¬ x.Hopeless scs := fun e => hc (hhope.2 e)
  split at h
  · cases h
  next k2 hk2 =>
  have hnames : ∀ sc ∈ scs, Ident sc.origname ∧ Ident sc.name := fun sc hsc => (hfresh sc hsc).1
  have h2 : x.FWork x.Adj x.Ret scs [] k2 ∧ k2.bad = k1.bad := by
    have hnext := fwork_next (R := x.Ret) h1
    split at hk2
    · next he =>
      cases hk2
      rw [List.isEmpty_iff.1 he] at hnext
      exact ⟨hnext, rfl⟩
    · split at hk2
      · cases hk2
      · next items2 hitems2 =>
        rw [smart_items x.w x.row hrow _ _ _ hitems2, List.map_map] at hk2
        exact secondLoop_found x scs hnames _ { k1 with adjust := [] } _ hnext hk2
  split at h
  · cases h
  next k3 hk3 =>
  obtain ⟨h3, hb3⟩ := thirdLoop_found x hrow scs hnames _ _ _ (fwork_next h2.1) hk3
  have hbad3 : k3.bad = true ↔ x.Outside scs := by rw [hb3, h2.2, hbad]
  have hbefore : ∀ (i : Nat) sc0, scs[i]? = some sc0 → ∃ sc1, k3.scs[i]? = some sc1 ∧ x.Before sc0 sc1 := by
    intro i sc0 h0
    obtain ⟨sc1, e1, e2, e3, e4⟩ := h3.pos i sc0 h0
    refine ⟨sc1, e1, e2, e3, ?_⟩
    rcases e4 with ⟨hs, -⟩ | ⟨hg, ⟨hp, -⟩ | ⟨hp, -⟩ | ⟨-, hp⟩⟩
    · exact .inl hs
    · cases hp
    · cases hp
    · exact .inr ⟨hg, hp⟩
  refine ⟨fun e => absurd e hh, fun _ => ?_, fun _ => ?_⟩
  · intro ho
    rw [if_pos (hbad3.2 ho)] at h
    cases h
    exact hbefore
  · intro ho
    rw [if_neg fun e => ho (hbad3.1 e)] at h
    split at h
    · cases h
    next gs hgs =>
    have hperm := C56_each_once _ _ _ _ _ hgs
    have hnd3 : (k3.grep.map Prod.fst).Nodup := by simpa using h3.nodup
    have hsorted : (sortBy grepOrder gs).Perm gs := sortBy_perm _ _
    have hndg : ((sortBy grepOrder gs).map fun g => g.1.1).Nodup := by
      refine (List.Perm.nodup_iff (hsorted.map _)).2 ?_
      have := (List.Perm.nodup_iff (hperm.map Prod.fst)).2 hnd3
      rwa [List.map_map] at this
    obtain ⟨-, hfin⟩ := fourthLoop_found _ _ _ _ _ hndg h
    refine ⟨k3.grep, gs, hgs, hnd3, ?_, ?_, ?_⟩
    · intro r hr
      have hlt : r.1 < scs.length := h3.bound r (by simp [hr])
      obtain ⟨sc1, e1, e2, e3, e4⟩ := h3.pos r.1 scs[r.1] (List.getElem?_eq_getElem hlt)
      refine ⟨_, List.getElem?_eq_getElem hlt, ?_⟩
      rcases e4 with ⟨-, hno⟩ | ⟨hg, ⟨hp, -⟩ | ⟨hp, -⟩ | ⟨hp, hW⟩⟩
      · exact absurd (List.mem_map.2 ⟨r, by simp [hr], rfl⟩) hno
      · cases hp
      · cases hp
      · have e := nodup_fst_unique hnd3 hr hp rfl
        have e' : r.2 = sc1 := congrArg Prod.snd e
        rw [e']
        exact ⟨e2, hW⟩
    · intro i sc0 h0 hW
      obtain ⟨sc1, e1, e2, e3, e4⟩ := h3.pos i sc0 h0
      rcases e4 with ⟨hs, -⟩ | ⟨hg, ⟨hp, -⟩ | ⟨hp, -⟩ | ⟨hp, -⟩⟩
      · exfalso
        rcases hs with ⟨he, -⟩ | ⟨-, f, l, ⟨before, addr, after, e, hc, -⟩, -⟩
        · exact hW.1 he
        · exact hW.2 addr (by rw [e]; simp) f l hc
      · cases hp
      · cases hp
      · exact ⟨_, hp, rfl⟩
    · intro i sc0 h0
      obtain ⟨sc1, e1, e2⟩ := hbefore i sc0 h0
      obtain ⟨sc2, e3, e4⟩ := hfin i sc1 e1
      refine ⟨sc1, sc2, e3, e2, ?_⟩
      rcases e4 with ⟨r, f, l, q1, q2⟩ | ⟨q1, q2⟩
      · exact .inl ⟨r, f, l, hsorted.mem_iff.1 q1, q2⟩
      · exact .inr ⟨q1, fun r f l hm => q2 r f l (hsorted.mem_iff.2 hm)⟩

end Verif
