import Verif.Lemmas.Found2
import Verif.Props.Origin
/-! # Which locations are found (C104) -/
set_option autoImplicit false

namespace Verif
open Spec

/-- what can be relied on: addr2line is there and prints a row for each address; the syscalls have proper names and were not
located before -/
structure Spec.Sources.Ready (x : Sources) (scs : List Syscall) : Prop where
  rows : RowPerAddress x.w x.row
  tool : x.w.haveAddr2line = true
  names : ∀ sc ∈ scs, Ident sc.origname ∧ Ident sc.name
  fresh : ∀ sc ∈ scs, sc.greppedLocation = false

theorem Spec.Sources.Ready.both {x : Sources} {scs : List Syscall} (hr : x.Ready scs) :
    ∀ sc ∈ scs, (Ident sc.origname ∧ Ident sc.name) ∧ sc.greppedLocation = false :=
  fun sc hsc => ⟨hr.names sc hsc, hr.fresh sc hsc⟩

theorem asked_first (s : Symbol) : s.realVaddr ∈ askedAddrs s := by simp [askedAddrs]

/-- the first definition is only one -/
theorem first_unique (x : Sources) (sc : Syscall) (f f' : Path) (l l' : Nat) (h : x.First sc f l) (h' : x.First sc f' l') :
    f = f' ∧ l = l' := by
  obtain ⟨b, y, t, e, hc, hb⟩ := h
  obtain ⟨b', y', t', e', hc', hb'⟩ := h'
  have hy : y = y' := by
    rw [e] at e'
    rcases List.append_eq_append_iff.1 e' with ⟨m, h1, h2⟩ | ⟨m, h1, h2⟩
    · cases m with
      | nil => simp only [List.nil_append, List.cons.injEq] at h2; exact h2.1
      | cons z zs =>
        simp only [List.cons_append, List.cons.injEq] at h2
        rw [h2.1] at hc
        exact absurd hc (hb' z (by rw [h1]; simp) f l)
    · cases m with
      | nil => simp only [List.nil_append, List.cons.injEq] at h2; exact h2.1.symm
      | cons z zs =>
        simp only [List.cons_append, List.cons.injEq] at h2
        rw [h2.1] at hc'
        exact absurd hc' (hb z (by rw [h1]; simp) f' l')
  subst hy
  obtain ⟨loc, l0, e1, e2, e3, e4⟩ := leads_item x y f l hc.1
  obtain ⟨loc', l0', e1', e2', e3', e4'⟩ := leads_item x y f' l' hc'.1
  rw [e1] at e1'; cases e1'
  rw [e2] at e2'; cases e2'
  rw [e3] at e3'; cases e3'
  rw [e4] at e4'; cases e4'
  exact ⟨rfl, rfl⟩

theorem before_first (x : Sources) (sc0 sc1 : Syscall) (h : x.Before sc0 sc1) (he : ¬ x.Enough sc0) (f : Path) (l : Nat) :
    x.First sc0 f l ↔ sc1.file = some f ∧ sc1.line = some l ∧ sc1.goodLocation = true := by
  obtain ⟨-, -, (⟨he', -⟩ | ⟨-, f', l', hf, h1, h2, h3⟩) | ⟨hg, hw⟩⟩ := h
  · exact absurd he' he
  · constructor
    · intro hf'
      obtain ⟨rfl, rfl⟩ := first_unique x sc0 _ _ _ _ hf hf'
      exact ⟨h1, h2, h3⟩
    · rintro ⟨h4, h5, -⟩
      rw [h1] at h4; cases h4
      rw [h2] at h5; cases h5
      exact hf
  · constructor
    · rintro ⟨b, y, t, e, hc, -⟩
      exact absurd hc (hw.2 y (by rw [e]; simp) f l)
    · rintro ⟨-, -, h3⟩
      rw [hg] at h3; cases h3

/-- C104, from the debug information: a location is confirmed without searching the sources iff one of the addresses asked about
leads to a definition of that syscall, and it is what the first of these addresses leads to. -/
theorem C104_debug (x : Sources) (scs out : List Syscall) (hr : x.Ready scs)
    (h : extractLocations x.w x.a (some x.kdir) x.rdir scs = .ok out) (hh : ¬ x.Hopeless scs)
    (i : Nat) (sc0 sc : Syscall) (h0 : scs[i]? = some sc0) (h1 : out[i]? = some sc) (he : ¬ x.Enough sc0) (f : Path) (l : Nat) :
    x.First sc0 f l ↔ sc.file = some f ∧ sc.line = some l ∧ sc.goodLocation = true ∧ sc.greppedLocation = false := by
  obtain ⟨-, hout, hin⟩ := extractLocations_found x hr.rows scs out hr.tool hr.both h
  by_cases ho : x.Outside scs
  · obtain ⟨sc1, e1, e2⟩ := hout hh ho i sc0 h0
    rw [h1] at e1
    cases e1
    rw [before_first x sc0 sc e2 he f l]
    exact ⟨fun ⟨a, b, c⟩ => ⟨a, b, c, e2.2.1⟩, fun ⟨a, b, c, _⟩ => ⟨a, b, c⟩⟩
  · obtain ⟨todo, gs, hgs, hnd, htodo, -, hfin⟩ := hin hh ho
    obtain ⟨sc1, sc2, e1, e2, e3⟩ := hfin i sc0 h0
    rw [h1] at e1
    cases e1
    rw [before_first x sc0 sc1 e2 he f l]
    rcases e3 with ⟨r, f', l', hm, hri, -, hl⟩ | ⟨rfl, -⟩
    · have hmem := (C56_each_once _ _ _ _ _ hgs).mem_iff.1 (List.mem_map.2 ⟨_, hm, rfl⟩)
      obtain ⟨sc0', h0', -, hW⟩ := htodo _ hmem
      simp only at h0'
      rw [hri, h0] at h0'
      cases h0'
      rw [hl]
      constructor
      · intro hs
        have := (before_first x sc0 sc1 e2 he f l).2 hs
        obtain ⟨b, y, t, e, hc, -⟩ := this
        exact absurd hc (hW.2 y (by rw [e]; simp) f l)
      · rintro ⟨-, -, -, hg⟩
        cases hg
    · exact ⟨fun ⟨a, b, c⟩ => ⟨a, b, c, e2.2.1⟩, fun ⟨a, b, c, _⟩ => ⟨a, b, c⟩⟩

/-- C104: when the first address is of no use for any syscall (and all have more addresses), everything is left doubtful. -/
theorem C104_hopeless (x : Sources) (scs out : List Syscall) (hr : x.Ready scs)
    (h : extractLocations x.w x.a (some x.kdir) x.rdir scs = .ok out) (hh : x.Hopeless scs) :
    ∀ sc ∈ out, sc.goodLocation = false ∧ sc.greppedLocation = false := (extractLocations_found x hr.rows scs out hr.tool hr.both h).1 hh

/-- C104: when the debug information leads outside KDIR, nothing is found in the sources: all confirmed locations are from the
debug information. -/
theorem C104_outside (x : Sources) (scs out : List Syscall) (hr : x.Ready scs)
    (h : extractLocations x.w x.a (some x.kdir) x.rdir scs = .ok out) (ho : x.Outside scs) :
    ∀ sc ∈ out, sc.greppedLocation = false := by
  obtain ⟨h1, h2, -⟩ := extractLocations_found x hr.rows scs out hr.tool hr.both h
  by_cases hh : x.Hopeless scs
  · exact fun sc hsc => (h1 hh sc hsc).2
  · intro sc hsc
    obtain ⟨i, hi⟩ := List.getElem?_of_mem hsc
    have hlen := forall2_length _ _ _ (extractLocations_ok _ _ _ _ _ _ h).1
    have hlt : i < scs.length := by rw [hlen]; exact (List.getElem?_eq_some_iff.1 hi).1
    obtain ⟨sc1, e1, e2⟩ := h2 hh ho i _ (List.getElem?_eq_getElem hlt)
    rw [hi] at e1
    cases e1
    exact e2.2.1

/-- C104, in the sources: otherwise, exactly the syscalls that the debug information does not give a location for are searched
for; such a syscall gets the location found for it, if that is a definition of it, and stays doubtful otherwise. -/
theorem C104_searched (x : Sources) (scs out : List Syscall) (hr : x.Ready scs)
    (h : extractLocations x.w x.a (some x.kdir) x.rdir scs = .ok out) (hh : ¬ x.Hopeless scs) (ho : ¬ x.Outside scs) :
    ∃ todo gs, grepSources x.w x.a x.kdir todo = .ok gs ∧ (todo.map Prod.fst).Nodup ∧
      (∀ r ∈ todo, ∃ sc0, scs[r.1]? = some sc0 ∧ Relocated sc0 r.2 ∧ x.Wanted sc0) ∧
      (∀ (i : Nat) sc0, scs[i]? = some sc0 → x.Wanted sc0 → ∃ sc', (i, sc') ∈ todo) ∧
      ∀ (i : Nat) sc0 sc, scs[i]? = some sc0 → out[i]? = some sc → x.Wanted sc0 → sc.goodLocation = sc.greppedLocation ∧
        ∀ f l, (sc.file = some f ∧ sc.line = some l ∧ sc.greppedLocation = true) ↔
          ∃ sc', ((i, sc'), some (f, l)) ∈ gs ∧ DefinedAt x.w.files x.a sc0 f l := by
  obtain ⟨-, -, hin⟩ := extractLocations_found x hr.rows scs out hr.tool hr.both h
  obtain ⟨todo, gs, hgs, hnd, htodo, hall, hfin⟩ := hin hh ho
  have hperm := C56_each_once _ _ _ _ _ hgs
  refine ⟨todo, gs, hgs, hnd, htodo, ?_, ?_⟩
  · intro i sc0 h0 hW
    obtain ⟨r, hr, rfl⟩ := hall i sc0 h0 hW
    exact ⟨r.2, hr⟩
  · intro i sc0 sc h0 h1 hW
    obtain ⟨sc1, sc2, e1, e2, e3⟩ := hfin i sc0 h0
    rw [h1] at e1
    cases e1
    have hbad : sc1.goodLocation = false := by
      rcases e2.2.2 with (⟨he, -⟩ | ⟨-, f, l, ⟨b, y, t, e, hc, -⟩, -⟩) | ⟨hg, -⟩
      · exact absurd he hW.1
      · exact absurd hc (hW.2 y (by rw [e]; simp) f l)
      · exact hg
    -- what is found for a syscall is about that syscall
    have hdef : ∀ r f l, (r, some (f, l)) ∈ gs → r.1 = i → ∀ g, goodLocationAt x.w.files f l x.a r.2 = .ok g →
        (g = true ↔ DefinedAt x.w.files x.a sc0 f l) := by
      intro r f l hm hri g hg
      obtain ⟨sc0', h0', h2, -⟩ := htodo _ (hperm.mem_iff.1 (List.mem_map.2 ⟨_, hm, rfl⟩))
      simp only at h0' h2
      rw [hri, h0] at h0'
      cases h0'
      exact goodLocationAt_iff _ _ _ _ _ sc0 (hr.names sc0 (List.mem_of_getElem? h0)) h2 g hg
    have hone : ∀ r r' : Ref, ∀ v v', (r, v) ∈ gs → (r', v') ∈ gs → r.1 = r'.1 → v = v' := by
      intro r r' v v' hm hm' e
      have hndg : (gs.map fun g => g.1.1).Nodup := by
        have := (List.Perm.nodup_iff (hperm.map Prod.fst)).2 hnd
        rwa [List.map_map] at this
      clear * - hm hm' e hndg
      induction gs with
      | nil => cases hm
      | cons g gs ih =>
        simp only [List.map_cons, List.nodup_cons] at hndg
        rcases List.mem_cons.1 hm with e1 | hm1 <;> rcases List.mem_cons.1 hm' with e2 | hm2
        · rw [← e1] at e2; exact (congrArg Prod.snd e2).symm
        · exact absurd (List.mem_map.2 ⟨_, hm2, by rw [← e1]; exact e.symm⟩) hndg.1
        · exact absurd (List.mem_map.2 ⟨_, hm1, by rw [← e2]; exact e⟩) hndg.1
        · exact ih hm1 hm2 hndg.2
    rcases e3 with ⟨r, f', l', hm, hri, hg, hl⟩ | ⟨rfl, hno⟩
    · rw [hl]
      refine ⟨rfl, fun f l => ?_⟩
      simp only [Option.some.injEq]
      constructor
      · rintro ⟨rfl, rfl, -⟩
        refine ⟨r.2, ?_, (hdef r _ _ hm hri true hg).1 rfl⟩
        rw [← hri]; exact hm
      · rintro ⟨sc', hm', -⟩
        have := hone _ _ _ _ hm hm' hri
        cases this
        exact ⟨rfl, rfl, trivial⟩
    · refine ⟨by rw [hbad, e2.2.1], fun f l => ?_⟩
      rw [e2.2.1]
      constructor
      · rintro ⟨-, -, hc⟩; cases hc
      · rintro ⟨sc', hm', hd⟩
        have := (hdef _ f l hm' rfl false (hno _ f l hm' rfl)).2 hd
        cases this

/-- C104 (partial: not when the debug information leads outside KDIR): a definition that is the only match in the sources for the
name of a syscall, and a match for no other syscall, is found for a syscall without a location from the debug information. -/
theorem C104_sole_partial (x : Sources) (scs out : List Syscall) (hr : x.Ready scs)
    (h : extractLocations x.w x.a (some x.kdir) x.rdir scs = .ok out) (hh : ¬ x.Hopeless scs) (ho : ¬ x.Outside scs)
    (i : Nat) (sc0 sc : Syscall) (h0 : scs[i]? = some sc0) (h1 : out[i]? = some sc) (hW : x.Wanted sc0)
    (rows : List Str) (hrows : x.w.grep = .ok rows) (row : Str) (hrow : row ∈ rows) (hof : RowOf x.a row sc0.origname)
    (hsole : ∀ row' ∈ rows, RowOf x.a row' sc0.origname → row' = row)
    (hmine : ∀ (j : Nat) sc', j ≠ i → scs[j]? = some sc' → ¬ RowOf x.a row sc'.origname)
    (f : Path) (l : Nat) (hloc : rowLocation x.kdir row = .ok (f, l)) (hd : DefinedAt x.w.files x.a sc0 f l) :
    sc.file = some f ∧ sc.line = some l ∧ sc.goodLocation = true ∧ sc.greppedLocation = true := by
  obtain ⟨todo, gs, hgs, hnd, htodo, hall, hres⟩ := C104_searched x scs out hr h hh ho
  obtain ⟨sc', hm⟩ := hall i sc0 h0 hW
  have hid : ∀ r ∈ todo, Ident r.2.origname := by
    intro r hr'
    obtain ⟨s, hs, hrs, -⟩ := htodo r hr'
    rw [(relocated_names hrs).1]
    exact (hr.names s (List.mem_of_getElem? hs)).1
  have hname : sc'.origname = sc0.origname := by
    obtain ⟨s, hs, hrs, -⟩ := htodo _ hm
    simp only at hs hrs
    rw [h0] at hs
    cases hs
    exact (relocated_names hrs).1
  have hndt : todo.Nodup := List.Pairwise.of_map Prod.fst (fun a b hne e => hne (by rw [e])) hnd
  obtain ⟨tried, hperm, -, asg, ha1, -, ha3, -, ha5⟩ := C56_assignment x.w x.a x.kdir todo gs rows hrows hndt hid hgs
  obtain ⟨k, hk⟩ := List.getElem?_of_mem (hperm.mem_iff.2 hrow)
  have hof' : RowOf x.a row (i, sc').2.origname := by simp only [hname]; exact hof
  -- some row is used for it, and it is this one
  have hasg : ∃ k', asg k' = some (i, sc') := by
    rcases ha5 k row (i, sc') hk hm hof' with h | ⟨r', hne, h⟩ | ⟨j, -, h⟩
    · exact ⟨k, h⟩
    · exfalso
      obtain ⟨hr', row', hk', hro⟩ := ha1 k r' h
      rw [hk] at hk'
      cases hk'
      obtain ⟨s, hs, hrs, -⟩ := htodo r' hr'
      rw [(relocated_names hrs).1] at hro
      refine hmine r'.1 s ?_ hs hro
      intro e
      exact hne (nodup_fst_unique hnd hr' hm e)
    · exact ⟨j, h⟩
  obtain ⟨k', hk'⟩ := hasg
  obtain ⟨-, row', hr1, hr2⟩ := ha1 k' _ hk'
  simp only [hname] at hr2
  have e := hsole row' (hperm.mem_iff.1 (List.mem_of_getElem? hr1)) hr2
  subst e
  have hgsm : ((i, sc'), some (f, l)) ∈ gs := (ha3 _ _).2 ⟨k', row', hk', hr1, hloc⟩
  obtain ⟨e1, e2⟩ := hres i sc0 sc h0 h1 hW
  obtain ⟨q1, q2, q3⟩ := (e2 f l).2 ⟨sc', hgsm, hd⟩
  exact ⟨q1, q2, by rw [e1, q3], q3⟩

/-- C104: with a relative KDIR, resolved to an absolute path, nothing is searched for as soon as the first address of one syscall
leads to an existing file by a relative path: this counts as leading outside KDIR. -/
theorem C104_relative (x : Sources) (scs out : List Syscall) (hr : x.Ready scs)
    (h : extractLocations x.w x.a (some x.kdir) x.rdir scs = .ok out) (habs : (x.w.resolve x.kdir).abs = true)
    (hrel : ∃ sc ∈ scs, ∃ f l, x.Leads sc.symbol.realVaddr f l ∧ f.abs = false) : ∀ sc ∈ out, sc.greppedLocation = false := by
  obtain ⟨sc, hsc, f, l, h1, h2⟩ := hrel
  refine C104_outside x scs out hr h ⟨sc, hsc, f, l, h1, ?_⟩
  rintro ⟨rest, hb⟩
  rw [hb] at h2
  simp only at h2
  rw [habs] at h2
  cases h2

/-! ### Two worlds -/

/-- the row about an address: one syscall is known, by a path relative to the source directory -/
def soleRow (n : Nat) : Str := if n = 0x1000 then cs!"./fs/open.c:4" else cs!"??:?"

/-- the rows found in the sources -/
def soleRows : List Str := [cs!"fs/open.c:2:SYSCALL_DEFINE1(open, int, fd)", cs!"fs/open.c:7:SYSCALL_DEFINE0(getpid)"]

/-- the sources are in /u/k, and /u is the current directory: paths below it can be given as relative ones too -/
def soleWorld : LEnv where
  haveAddr2line := true
  addr2line := fun l => .ok (l.map soleRow)
  elfPath := ⟨true, [cs!"out", cs!"vmlinux"]⟩
  files := fun p => if p = ⟨true, [cs!"u", cs!"k", cs!"fs", cs!"open.c"]⟩ ∨ p = ⟨false, [cs!"k", cs!"fs", cs!"open.c"]⟩ then
    some smallLines else none
  resolve := fun p => if p.abs then p else ⟨true, cs!"u" :: p.parts⟩
  grep := .ok soleRows

/-- KDIR given as an absolute path, and as a relative one -/
def soleAbs : Sources := ⟨soleWorld, soleRow, x64Arch, ⟨true, [cs!"u", cs!"k"]⟩, none⟩
def soleRel : Sources := ⟨soleWorld, soleRow, x64Arch, ⟨false, [cs!"k"]⟩, none⟩

theorem sole_item_unknown (n : Nat) (h : n ≠ 0x1000) (dir : Path) :
    itemOf soleWorld.elfPath (some dir) (soleRow n) = .ok (none, none) := by
  unfold soleRow
  rw [if_neg h]
  rfl

theorem sole_unknown (x : Sources) (hx : x.w = soleWorld) (hx' : x.row = soleRow) (n : Nat) (h : n ≠ 0x1000) (f : Path) (l : Nat) :
    ¬ x.Leads n f l := by
  intro hl
  obtain ⟨loc, l0, e1, e2, -⟩ := leads_item x n f l hl
  rw [hx, hx', sole_item_unknown n h] at e1
  cases e1
  cases e2

theorem sole_abs_leads : soleAbs.Leads 0x1000 ⟨true, [cs!"u", cs!"k", cs!"fs", cs!"open.c"]⟩ 2 :=
  (leads_iff soleAbs 0x1000 (some ⟨false, [cs!"fs", cs!"open.c"]⟩, some 4) (some ⟨true, [cs!"u", cs!"k", cs!"fs", cs!"open.c"]⟩)
    (by decide +kernel) (by decide +kernel) _ _).2 ⟨4, by decide +kernel, by decide +kernel⟩

theorem sole_rel_leads : soleRel.Leads 0x1000 ⟨false, [cs!"k", cs!"fs", cs!"open.c"]⟩ 2 :=
  (leads_iff soleRel 0x1000 (some ⟨false, [cs!"fs", cs!"open.c"]⟩, some 4) (some ⟨false, [cs!"k", cs!"fs", cs!"open.c"]⟩)
    (by decide +kernel) (by decide +kernel) _ _).2 ⟨4, by decide +kernel, by decide +kernel⟩

theorem leads_unique (x : Sources) (addr : Nat) (f f' : Path) (l l' : Nat) (h : x.Leads addr f l) (h' : x.Leads addr f' l') :
    f = f' ∧ l = l' := by
  obtain ⟨loc, l0, e1, e2, e3, e4⟩ := leads_item x addr f l h
  obtain ⟨loc', l0', e1', e2', e3', e4'⟩ := leads_item x addr f' l' h'
  rw [e1] at e1'; cases e1'
  rw [e2] at e2'; cases e2'
  rw [e3] at e3'; cases e3'
  rw [e4] at e4'; cases e4'
  exact ⟨rfl, rfl⟩

theorem small_names : ∀ sc ∈ smallScs, Ident sc.origname ∧ Ident sc.name := by
  unfold Ident
  decide

theorem sole_ready (x : Sources) (hx : x.w = soleWorld) (hx' : x.row = soleRow) : x.Ready smallScs := by
  refine ⟨?_, by rw [hx]; rfl, small_names, by decide⟩
  intro addrs rows h
  rw [hx] at h
  rw [hx']
  cases h
  rfl

/-- the second syscall is not known to the debug information -/
theorem sole_wanted (x : Sources) (hx : x.w = soleWorld) (hx' : x.row = soleRow) (sc : Syscall) (h : smallScs[1]? = some sc) :
    x.Wanted sc := by
  cases h
  have hno : ∀ addr ∈ askedAddrs (smallSym cs!"__x64_sys_getpid" 0x2000 16), addr ≠ 0x1000 := by decide +kernel
  refine ⟨?_, ?_⟩
  · rintro ⟨he, -⟩
    cases he
  · intro addr ha f l hc
    exact sole_unknown x hx hx' addr (hno addr ha) f l hc.1

theorem sole_not_hopeless (x : Sources) (f : Path) (hl : x.Leads 0x1000 f 2) (hf : x.w.files f = some smallLines) (ha : x.a = x64Arch) :
    ¬ x.Hopeless smallScs := by
  rintro ⟨-, h⟩
  refine (h _ (List.mem_of_getElem? (i := 0) rfl)).2.1 f 2 ⟨hl, smallLines, cs!"SYSCALL_DEFINE1(open, int, fd)\n", hf, rfl, .inl ?_⟩
  rw [ha, ← goodDefinition_iff x64Arch _ _ (small_names _ (List.mem_of_getElem? (i := 0) rfl)).1]
  decide +kernel

theorem sole_defined (a : Arch) (ha : a = x64Arch) (f : Path) (hf : soleWorld.files f = some smallLines) (sc : Syscall)
    (h : smallScs[1]? = some sc) : DefinedAt soleWorld.files a sc f 7 := by
  have hn := small_names sc (List.mem_of_getElem? h)
  cases h
  refine ⟨smallLines, cs!"SYSCALL_DEFINE0(getpid)\n", hf, rfl, .inl ?_⟩
  rw [ha, ← goodDefinition_iff x64Arch _ _ hn.1]
  decide +kernel

/-- the row for the second syscall is the only one -/
theorem sole_rows : RowOf x64Arch cs!"fs/open.c:7:SYSCALL_DEFINE0(getpid)" cs!"getpid" ∧
    (∀ row ∈ soleRows, RowOf x64Arch row cs!"getpid" → row = cs!"fs/open.c:7:SYSCALL_DEFINE0(getpid)") ∧
    ¬ RowOf x64Arch cs!"fs/open.c:7:SYSCALL_DEFINE0(getpid)" cs!"open" := by
  have h1 : Ident cs!"getpid" := ⟨by decide, by decide⟩
  have h2 : Ident cs!"open" := ⟨by decide, by decide⟩
  simp only [← syscallGrepRe_search x64Arch _ _ h1.2, ← syscallGrepRe_search x64Arch _ _ h2.2]
  decide +kernel

/-- with KDIR absolute, all hypotheses of `C104_sole_partial` hold for the second syscall -/
example : ∃ out sc, extractLocations soleAbs.w soleAbs.a (some soleAbs.kdir) soleAbs.rdir smallScs = .ok out ∧ out[1]? = some sc ∧
    soleAbs.Ready smallScs ∧ ¬ soleAbs.Hopeless smallScs ∧ ¬ soleAbs.Outside smallScs ∧
    (∀ sc0, smallScs[1]? = some sc0 → soleAbs.Wanted sc0) ∧
    rowLocation soleAbs.kdir cs!"fs/open.c:7:SYSCALL_DEFINE0(getpid)" = .ok (⟨true, [cs!"u", cs!"k", cs!"fs", cs!"open.c"]⟩, 7) ∧
    sc.greppedLocation = true := by
  refine ⟨_, _, rfl, rfl, sole_ready _ rfl rfl, sole_not_hopeless _ _ sole_abs_leads (by decide +kernel) rfl, ?_,
    fun sc0 h => sole_wanted _ rfl rfl sc0 h, by decide +kernel, by decide +kernel⟩
  rintro ⟨sc, hsc, f, l, hl, hno⟩
  have h2 : sc.symbol.realVaddr = 0x1000 ∨ sc.symbol.realVaddr ≠ 0x1000 := by omega
  rcases h2 with h2 | h2
  · rw [h2] at hl
    obtain ⟨rfl, -⟩ := leads_unique _ _ _ _ _ _ hl sole_abs_leads
    exact hno ⟨[cs!"fs", cs!"open.c"], rfl⟩
  · exact sole_unknown soleAbs rfl rfl _ h2 f l hl

/-- the files that the first addresses lead to are in KDIR -/
def Spec.Sources.Inside (x : Sources) (scs : List Syscall) : Prop :=
  ∀ sc ∈ scs, ∀ f l, x.Leads sc.symbol.realVaddr f l → ∃ rest, Below (x.w.resolve x.kdir) (x.w.resolve f) rest

/-- C104 is false of the code as it is: all files that the debug information leads to are in KDIR, the second syscall has one
match in the sources, which defines it, but as KDIR is given by a relative path it is not searched for (location.py:287 compares
the relative path of the file with the absolute path of KDIR). -/
theorem C104_sole_refuted : ∃ (x : Sources) (scs out : List Syscall) (sc0 sc : Syscall) (rows : List Str) (row : Str) (f : Path),
    x.Ready scs ∧ extractLocations x.w x.a (some x.kdir) x.rdir scs = .ok out ∧ ¬ x.Hopeless scs ∧ x.Inside scs ∧
    scs[1]? = some sc0 ∧ out[1]? = some sc ∧ x.Wanted sc0 ∧ x.w.grep = .ok rows ∧ row ∈ rows ∧ RowOf x.a row sc0.origname ∧
    (∀ row' ∈ rows, RowOf x.a row' sc0.origname → row' = row) ∧
    (∀ (j : Nat) sc', j ≠ 1 → scs[j]? = some sc' → ¬ RowOf x.a row sc'.origname) ∧
    rowLocation x.kdir row = .ok (f, 7) ∧ DefinedAt x.w.files x.a sc0 f 7 ∧ sc.goodLocation = false := by
  refine ⟨soleRel, smallScs, _, _, _, soleRows, cs!"fs/open.c:7:SYSCALL_DEFINE0(getpid)", ⟨false, [cs!"k", cs!"fs", cs!"open.c"]⟩,
    sole_ready _ rfl rfl, rfl, sole_not_hopeless _ _ sole_rel_leads (by decide +kernel) rfl, ?_, rfl, rfl, sole_wanted _ rfl rfl _ rfl,
    rfl, by decide, sole_rows.1, sole_rows.2.1, ?_, by decide +kernel, sole_defined _ rfl _ (by decide +kernel) _ rfl, by decide +kernel⟩
  · intro sc hsc f l hl
    have h2 : sc.symbol.realVaddr = 0x1000 ∨ sc.symbol.realVaddr ≠ 0x1000 := by omega
    rcases h2 with h2 | h2
    · rw [h2] at hl
      obtain ⟨rfl, -⟩ := leads_unique _ _ _ _ _ _ hl sole_rel_leads
      exact ⟨[cs!"fs", cs!"open.c"], rfl⟩
    · exact absurd hl (sole_unknown soleRel rfl rfl _ h2 f l)
  · intro j sc' hj hs
    match j with
    | 0 => cases hs; exact sole_rows.2.2
    | 1 => exact absurd rfl hj
    | (n + 2) => cases hs

/-- `C104_debug` in the small world of C53, where the last address is used: not hopeless, and the second syscall is not a special one -/
example : (smallScs[1]?).map (·.esoteric) = some false ∧
    ∃ out, extractLocations smallWorld x64Arch (some ⟨true, [cs!"k"]⟩) none smallScs = .ok out ∧
      out.map (fun s => (s.line, s.goodLocation, s.greppedLocation)) = [(some 2, true, false), (some 7, true, false)] :=
  ⟨rfl, _, rfl, by decide +kernel⟩

/-- the hypotheses of `C104_relative`, and so of `C104_outside`, hold with the relative KDIR -/
example : soleRel.Ready smallScs ∧ (soleRel.w.resolve soleRel.kdir).abs = true ∧
    ∃ sc ∈ smallScs, ∃ f l, soleRel.Leads sc.symbol.realVaddr f l ∧ f.abs = false :=
  ⟨sole_ready _ rfl rfl, rfl, _, List.mem_of_getElem? (i := 0) rfl, _, _, sole_rel_leads, rfl⟩

/-- with a wrong KDIR, `C104_hopeless` applies -/
example : ({ soleAbs with kdir := ⟨true, [cs!"other"]⟩ } : Sources).Ready smallScs ∧
    ({ soleAbs with kdir := ⟨true, [cs!"other"]⟩ } : Sources).Hopeless smallScs := by
  have hno : ∀ n f l, ¬ ({ soleAbs with kdir := ⟨true, [cs!"other"]⟩ } : Sources).Leads n f l := by
    intro n f l hl
    by_cases h : n = 0x1000
    · subst h
      obtain ⟨loc, l0, e1, e2, e3, -⟩ := leads_item _ _ f l hl
      have e : itemOf soleWorld.elfPath (some ⟨true, [cs!"other"]⟩) (soleRow 0x1000) = .ok (some ⟨false, [cs!"fs", cs!"open.c"]⟩, some 4) := by
        decide +kernel
      have e1' := e.symm.trans e1
      cases e1'
      cases e2
      have e3' : validLoc soleWorld.files (some ⟨true, [cs!"other", cs!"fs", cs!"open.c"]⟩) (some 4) = none := by decide +kernel
      have e3'' := e3'.symm.trans e3
      cases e3''
    · exact sole_unknown _ rfl rfl n h f l hl
  refine ⟨sole_ready _ rfl rfl, by decide, fun sc hsc => ⟨fun he => ?_, fun f l hc => hno _ f l hc.1, ?_⟩⟩
  · obtain ⟨-, f, l, hl⟩ := he
    exact hno _ f l hl
  · revert sc
    decide

end Verif
