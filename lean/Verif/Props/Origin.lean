import Verif.Lemmas.Origin
import Verif.Props.Location
/-! # Where a location comes from (C89, C90) -/
set_option autoImplicit false

namespace Verif
open Spec

/-! ## C89 -/

/-- C89, with kernel sources: each location is justified by a row about an address of the symbol of that same syscall, or by a
row of the sources with its name. -/
theorem C89_origin (w : LEnv) (row : Nat → Str) (hrow : RowPerAddress w row) (a : Arch) (kdir : Path) (rdir : Option Path)
    (scs out : List Syscall) (hw : w.haveAddr2line = true) (hfresh : ∀ sc ∈ scs, sc.line = none ∧ sc.greppedLocation = false)
    (h : extractLocations w a (some kdir) rdir scs = .ok out) : ∀ sc ∈ out, Origin w row a kdir rdir sc := by
  intro sc hsc
  obtain ⟨sc0, -, ht⟩ := forall2_mem_right (extractLocations_origin w row hrow a kdir rdir scs out hw hfresh h) hsc
  exact ht.2

/-- C89, without kernel sources: exactly what the debug information says about the first address of the symbol, doubtful. -/
theorem C89_no_sources (w : LEnv) (row : Nat → Str) (hrow : RowPerAddress w row) (a : Arch) (rdir : Option Path)
    (scs out : List Syscall) (hw : w.haveAddr2line = true) (h : extractLocations w a none rdir scs = .ok out) :
    ∀ sc ∈ out, RowSays (row sc.symbol.realVaddr) sc.file sc.line ∧ sc.goodLocation = false := by
  unfold extractLocations at h
  simp only [hw, Bool.not_true, if_false, bind, Except.bind, Bool.false_eq_true] at h
  split at h
  · cases h
  next items hitems =>
  split at h
  · cases h
  · next locs hlocs =>
    cases h
    have hl := forceAll_forall2 _ _ hlocs
    rw [smart_items w row hrow _ _ _ hitems, List.map_map] at hl
    exact trustLocs_origin w row scs locs (forall2_of_map _ _ _ hl)

/-- C89, without addr2line: nothing is looked for. -/
theorem C89_no_addr2line (w : LEnv) (a : Arch) (kdir rdir : Option Path) (scs : List Syscall) (hw : w.haveAddr2line = false) :
    extractLocations w a kdir rdir scs = .ok scs := by
  unfold extractLocations
  simp [hw]

/-- the rows of the small world -/
def smallRow (x : Nat) : Str :=
  if x = 0x1000 then cs!"/k/fs/open.c:4" else if x = 0x200f then cs!"/k/fs/open.c:9" else cs!"??:?"

theorem smallRow_ok : RowPerAddress smallWorld smallRow := by
  intro addrs rows h
  cases h
  rfl

/-- the hypotheses hold in the small world, where the second location comes from the last address of the code -/
example : RowPerAddress smallWorld smallRow ∧ smallWorld.haveAddr2line = true ∧
    (∀ sc ∈ smallScs, sc.line = none ∧ sc.greppedLocation = false) ∧
    ∃ out, extractLocations smallWorld x64Arch (some ⟨true, [cs!"k"]⟩) none smallScs = .ok out ∧
      out.map (fun s => (s.line, s.goodLocation)) = [(some 2, true), (some 7, true)] :=
  ⟨smallRow_ok, rfl, by decide, smallWorld_run⟩

/-! ## C90 -/

theorem sourceOf_meant (elf kdir : Path) (rdir : Option Path) (p q : Path) (hk : Rooted kdir)
    (hr : ∀ r, rdir = some r → r = kdir ∨ Apart kdir r) (h : SourceOf elf kdir rdir p q) : MeantBy elf kdir rdir p q := by
  obtain ⟨p1, h1 | ⟨hno, rfl⟩, h2⟩ := h
  · obtain ⟨rest, hb, hb1⟩ := h1
    refine .inl ⟨rest, hb, ?_⟩
    rcases h2 with ⟨r, rest', hrd, hb2, hq⟩ | ⟨-, ⟨-, rfl⟩ | ⟨habs, hq⟩⟩
    · rcases hr r hrd with rfl | hap
      · unfold Below at *
        rw [hb1] at hb2
        simp only [Path.mk.injEq, List.append_cancel_left_eq, true_and] at hb2
        rw [hq, hb2]
      · exact absurd hb2 (hap _ _ _ hb1)
    · exact hb1
    · unfold Below at *
      rw [hb1] at habs hq
      simp only at habs hq
      rcases hk with hk | hk
      · rw [hk] at habs; cases habs
      · rw [hq, hk]; simp
  · exact .inr ⟨hno, h2⟩

/-- C90 (partial: KDIR absolute or the current directory; RDIR, if given, equal to KDIR or unrelated to it): the file reported
is the one meant by a path in the debug information about the code of the syscall. -/
theorem C90_remap_partial (w : LEnv) (row : Nat → Str) (hrow : RowPerAddress w row) (a : Arch) (kdir : Path) (rdir : Option Path)
    (scs out : List Syscall) (hw : w.haveAddr2line = true)
    (hfresh : ∀ sc ∈ scs, sc.line = none ∧ sc.greppedLocation = false) (hk : Rooted kdir)
    (hr : ∀ r, rdir = some r → r = kdir ∨ Apart kdir r)
    (h : extractLocations w a (some kdir) rdir scs = .ok out) :
    ∀ sc ∈ out, sc.greppedLocation = false → ∀ f, sc.file = some f →
      ∃ addr p n, InCode sc.symbol addr ∧ RowSays (row addr) (some p) n ∧ MeantBy w.elfPath kdir rdir p f := by
  intro sc hsc hg f hf
  have ho := C89_origin w row hrow a kdir rdir scs out hw hfresh h sc hsc
  cases hgood : sc.goodLocation with
  | false =>
    obtain ⟨p, n, h1, h2, -⟩ := ho.doubtful f hf hgood
    exact ⟨_, p, n, .inl rfl, h1, sourceOf_meant _ _ _ _ _ hk hr h2⟩
  | true =>
    obtain ⟨addr, hc, p, n, h1, h2, -⟩ := ho.confirmed f hf hgood hg
    exact ⟨addr, p, n, hc, h1, sourceOf_meant _ _ _ _ _ hk hr h2⟩

/-- met by the small world, with RDIR elsewhere -/
example : Rooted ⟨true, [cs!"k"]⟩ ∧ Apart ⟨true, [cs!"k"]⟩ ⟨true, [cs!"build"]⟩ := by
  refine ⟨.inl rfl, ?_⟩
  rintro q rest rest' rfl h
  simp [Below] at h

/-- the image and its sources in one directory, the paths in the debug information below it -/
def besideWorld : LEnv := { smallWorld with
  addr2line := fun l => .ok (l.map fun _ => cs!"/u/k/fs/open.c:4")
  elfPath := ⟨true, [cs!"u", cs!"k", cs!"vmlinux"]⟩ }

theorem besideWorld_rows : RowPerAddress besideWorld fun _ => cs!"/u/k/fs/open.c:4" := by
  intro addrs rows h
  cases h
  rfl

theorem besideWorld_row (p : Path) (n : Option Nat) (h : RowSays cs!"/u/k/fs/open.c:4" (some p) n) :
    p = ⟨true, [cs!"u", cs!"k", cs!"fs", cs!"open.c"]⟩ := by
  obtain ⟨f, l, hf, hl, e, h | h⟩ := h
  · cases h.2.1
  · have h0 : splitChar ':' (f ++ cs!":" ++ l) = [f, l] := by
      rw [List.append_assoc, List.singleton_append, splitChar_append _ _ _ hf, splitChar_none _ _ hl]
    rw [← e] at h0
    have h1 : splitChar ':' cs!"/u/k/fs/open.c:4" = [cs!"/u/k/fs/open.c", cs!"4"] := by decide +kernel
    rw [h1] at h0
    simp only [List.cons.injEq, and_true] at h0
    have h2 := h.2.1
    rw [← h0.1] at h2
    cases h2
    decide +kernel

/-- C90 is false in general. With KDIR relative (location.py:43-45 gives `kdir/rest`, which is relative, and location.py:266
prepends KDIR once more), and with RDIR above KDIR (location.py:264 removes RDIR from `kdir/rest`), the path reported for a
file below the directory of the image has KDIR in it twice. -/
theorem C90_remap_refuted :
    (∃ out, extractLocations besideWorld x64Arch (some ⟨false, [cs!"k"]⟩) none smallScs = .ok out ∧
      ∃ sc ∈ out, sc.file = some ⟨false, [cs!"k", cs!"k", cs!"fs", cs!"open.c"]⟩ ∧ ∀ addr p n,
        InCode sc.symbol addr → RowSays cs!"/u/k/fs/open.c:4" (some p) n →
          ¬ MeantBy besideWorld.elfPath ⟨false, [cs!"k"]⟩ none p ⟨false, [cs!"k", cs!"k", cs!"fs", cs!"open.c"]⟩) ∧
    (∃ out, extractLocations besideWorld x64Arch (some ⟨true, [cs!"u", cs!"k"]⟩) (some ⟨true, [cs!"u"]⟩) smallScs = .ok out ∧
      ∃ sc ∈ out, sc.file = some ⟨true, [cs!"u", cs!"k", cs!"k", cs!"fs", cs!"open.c"]⟩ ∧ ∀ addr p n,
        InCode sc.symbol addr → RowSays cs!"/u/k/fs/open.c:4" (some p) n →
          ¬ MeantBy besideWorld.elfPath ⟨true, [cs!"u", cs!"k"]⟩ (some ⟨true, [cs!"u"]⟩) p
            ⟨true, [cs!"u", cs!"k", cs!"k", cs!"fs", cs!"open.c"]⟩) := by
  have hin : Below besideWorld.elfPath.parent ⟨true, [cs!"u", cs!"k", cs!"fs", cs!"open.c"]⟩ [cs!"fs", cs!"open.c"] := rfl
  constructor
  · refine ⟨_, rfl, _, List.mem_of_getElem? (i := 0) rfl, rfl, ?_⟩
    rintro addr p n - hs hm
    rw [besideWorld_row p n hs] at hm
    rcases hm with ⟨rest, h1, h2⟩ | ⟨hno, -⟩
    · rw [Below, Path.mk.injEq] at h1 h2
      simp [besideWorld, Path.parent] at h1 h2
      rw [← h1] at h2
      revert h2
      decide
    · exact hno ⟨_, hin⟩
  · refine ⟨_, rfl, _, List.mem_of_getElem? (i := 0) rfl, rfl, ?_⟩
    rintro addr p n - hs hm
    rw [besideWorld_row p n hs] at hm
    rcases hm with ⟨rest, h1, h2⟩ | ⟨hno, -⟩
    · rw [Below, Path.mk.injEq] at h1 h2
      simp [besideWorld, Path.parent] at h1 h2
      rw [← h1] at h2
      revert h2
      decide
    · exact hno ⟨_, hin⟩

end Verif
