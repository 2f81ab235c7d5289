import Verif.Lemmas.Rg3
import Verif.Props.Location
/-! # With and without ripgrep (C100), order of the rows found (C101) -/
set_option autoImplicit false

namespace Verif
open Spec

/-! ## C101 -/

theorem grepKey_eq (a : Arch) (x y : Str) (h : grepKey a x = grepKey a y) : SameRank a x y := by
  classical
  have ha : ∀ z, boolNat (startsWith z cs!"arch") = if InArch z then 1 else 0 := by
    intro z
    unfold boolNat InArch
    by_cases hz : cs!"arch" <+: z
    · rw [if_pos ((startsWith_iff _ _).2 hz), if_pos hz]
    · rw [if_neg fun hc => hz ((startsWith_iff _ _).1 hc), if_neg hz]
  have hi : ∀ p z : Str, boolNat (isInfix p z) = if p <:+: z then 1 else 0 := by
    intro p z
    unfold boolNat
    by_cases hz : p <:+: z
    · rw [if_pos ((isInfix_iff _ _).2 hz), if_pos hz]
    · rw [if_neg fun hc => hz ((isInfix_iff _ _).1 hc), if_neg hz]
  simp only [grepKey, Prod.mk.injEq, ha, hi] at h
  refine ⟨?_, ?_⟩
  · have h1 := h.1
    by_cases hx : InArch x <;> by_cases hy : InArch y <;> simp [hx, hy] at h1 ⊢
  · have h2 := h.2
    unfold marks
    by_cases hc : a.compat = true
    · simpa [hc] using h2
    · by_cases hb : a.bits32 = true
      · simpa [hc, hb] using h2
      · simp [hc, hb]

/-- two sorted lists with the same rows -/
theorem grepMatch_clear (a : Arch) (kdir : Path) (l1 l2 : List Str) (todo : List Ref) (hp : l1.Perm l2)
    (h1 : l1.Pairwise fun x y => keyLe (grepKey a y) (grepKey a x) = true)
    (h2 : l2.Pairwise fun x y => keyLe (grepKey a y) (grepKey a x) = true)
    (hid : ∀ r ∈ todo, Ident r.2.origname) (hc : ClearRows a l1 todo) :
    SameFound (grepMatch a kdir l1 todo) (grepMatch a kdir l2 todo) := by
  refine grepMatch_sorted a kdir _ l1 l2 todo hp h1 h2 ?_
  intro x hx y hy hne hxy hyx r hr hh
  have hk : grepKey a x = grepKey a y := by
    simp only [keyLe, Bool.or_eq_true, Bool.and_eq_true, decide_eq_true_eq] at hxy hyx
    refine Prod.ext ?_ ?_ <;> omega
  refine hc x hx y hy hne (grepKey_eq a x y hk) r hr ?_
  exact ⟨(syscallGrepRe_search a _ _ (hid r hr).2).1 hh.1, (syscallGrepRe_search a _ _ (hid r hr).2).1 hh.2⟩

theorem sortRows_pairwise (a : Arch) (rows : List Str) :
    (sortRows a rows).Pairwise fun x y => keyLe (grepKey a y) (grepKey a x) = true :=
  sortBy_pairwise (fun x y => keyLe (grepKey a y) (grepKey a x))
    (by intro x y; simp only [keyLe, Bool.or_eq_true, Bool.and_eq_true, decide_eq_true_eq]; omega)
    (by intro x y z; simp only [keyLe, Bool.or_eq_true, Bool.and_eq_true, decide_eq_true_eq]; omega) rows

theorem SameFound.cases {x y : Res (List (Ref × Option (Path × Nat)))} (h : SameFound x y) :
    (∀ out, x = .ok out → ∃ out', y = .ok out' ∧ out'.Perm out) ∧ ∀ e, x = .error e → y = .error e := by
  cases x <;> cases y
  · refine ⟨fun out e => (by cases e), fun e he => ?_⟩
    cases he; rw [show _ = _ from h]
  · cases h
  · cases h
  · refine ⟨fun out e => ?_, fun e he => (by cases he)⟩
    cases e; exact ⟨_, rfl, List.Perm.symm h⟩

/-- C101 is false: two definitions of a syscall outside of arch/ (here the ones of mm/mmap.c and mm/nommu.c, only one of
which is compiled) rank the same, and the location is the one that happens to be found first. -/
theorem C101_order_refuted : ∃ (rows rows' : List Str) (r : Ref) (kdir : Path) (loc loc' : Path × Nat),
    rows.Perm rows' ∧ Ident r.2.origname ∧ loc ≠ loc' ∧
    (∀ w : LEnv, w.grep = .ok rows → grepSources w x64Arch kdir [r] = .ok [(r, some loc)]) ∧
    ∀ w : LEnv, w.grep = .ok rows' → grepSources w x64Arch kdir [r] = .ok [(r, some loc')] := by
  refine ⟨[cs!"mm/mmap.c:1436:SYSCALL_DEFINE6(mmap_pgoff, unsigned long, addr, unsigned long, len,",
      cs!"mm/nommu.c:1240:SYSCALL_DEFINE6(mmap_pgoff, unsigned long, addr, unsigned long, len,"],
    [cs!"mm/nommu.c:1240:SYSCALL_DEFINE6(mmap_pgoff, unsigned long, addr, unsigned long, len,",
      cs!"mm/mmap.c:1436:SYSCALL_DEFINE6(mmap_pgoff, unsigned long, addr, unsigned long, len,"],
    (0, Syscall.new (some 0) 0 cs!"mmap_pgoff" cs!"mmap_pgoff" (smallSym cs!"sys_mmap_pgoff" 0x1000 16) none),
    ⟨true, [cs!"k"]⟩, (⟨true, [cs!"k", cs!"mm", cs!"mmap.c"]⟩, 1436), (⟨true, [cs!"k", cs!"mm", cs!"nommu.c"]⟩, 1240),
    List.Perm.swap _ _ _, ⟨by decide, by decide⟩, by decide, ?_, ?_⟩
  · intro w hw
    unfold grepSources
    rw [hw]
    simp only [bind, Except.bind]
    rfl
  · intro w hw
    unfold grepSources
    rw [hw]
    simp only [bind, Except.bind]
    rfl

/-- C101, what holds: when of any two rows for a syscall one is under arch/ and the other is not, or one has more of the
wanted marks, then the same locations are found in whichever order the rows come. -/
theorem C101_order_partial (w w' : LEnv) (a : Arch) (kdir : Path) (todo : List Ref) (rows rows' : List Str)
    (hrows : w.grep = .ok rows) (hrows' : w'.grep = .ok rows') (hperm : rows.Perm rows')
    (hid : ∀ r ∈ todo, Ident r.2.origname) (hclear : ClearRows a rows todo) :
    (∀ out, grepSources w a kdir todo = .ok out → ∃ out', grepSources w' a kdir todo = .ok out' ∧ out'.Perm out) ∧
    ∀ e, grepSources w a kdir todo = .error e → grepSources w' a kdir todo = .error e := by
  unfold grepSources
  rw [hrows, hrows']
  simp only [bind, Except.bind]
  refine SameFound.cases (grepMatch_clear a kdir _ _ todo ?_ (sortRows_pairwise a rows) (sortRows_pairwise a rows') hid ?_)
  · exact (sortBy_perm _ _).trans (hperm.trans (sortBy_perm _ _).symm)
  · intro x hx y hy
    exact hclear x ((sortBy_perm _ _).mem_iff.1 hx) y ((sortBy_perm _ _).mem_iff.1 hy)

/-- C101, an example of the hypotheses: one definition under arch/ and one elsewhere -/
example : ClearRows x64Arch smallRows
    [(0, Syscall.new (some 0) 0 cs!"open" cs!"open" (smallSym cs!"__x64_sys_open" 0x1000 16) none)] := by
  have h : ∀ x ∈ smallRows, ∀ y ∈ smallRows, x ≠ y → ¬ (InArch x ↔ InArch y) := by
    simp only [smallRows, InArch, ← startsWith_iff]
    decide
  intro x hx y hy hne hs
  exact absurd hs.1 (h x hx y hy hne)

/-! ## C100 -/

/-- C100: what ripgrep finds. It searches the files named `*.c` (a file in place of the directory of the architecture
would be searched as well) in the directories that it enters: those named `*.c`, the one of the architecture, and those
that are not in one of the excluded directories, not hidden and not ignored. -/
theorem C100_ripgrep (a : Arch) (ignored : List Str → Bool) (tree : List (Str × Node)) (row : Str) :
    row ∈ rgRows a ignored tree ↔ ∃ path lines i l, At tree path (.file lines) ∧
      (NamedC path ∨ path = [cs!"arch", a.kind.name]) ∧
      (∀ k, 0 < k → k < path.length → RgEnters a ignored (path.take k)) ∧
      lines[i]? = some l ∧ ((grepRe a).search l).isSome = true ∧
      row = Path.str ⟨false, path⟩ ++ cs!":" ++ natRepr (i + 1) ++ cs!":" ++ rgLine l := by
  unfold rgRows
  rw [rgDir_mem]
  simp only [List.nil_append, rgReads_iff, rgEnters_iff, rgFile_mem]
  constructor
  · rintro ⟨path, lines, h1, h2, h3, i, l, h4⟩; exact ⟨path, lines, i, l, h1, h2, h3, h4⟩
  · rintro ⟨path, lines, i, l, h1, h2, h3, h4⟩; exact ⟨path, lines, h1, h2, h3, i, l, h4⟩

/-- a tree with a definition directly in an excluded directory -/
def libTree : List (Str × Node) :=
  [(cs!"arch", .dir [(cs!"x86", .dir [])]), (cs!"lib", .dir [(cs!"d.c", .file [cs!"SYSCALL_DEFINE0(clone)\n"])])]

def cloneRef : Ref := (0, Syscall.new (some 0) 0 cs!"clone" cs!"clone" (smallSym cs!"__x64_sys_clone" 0x1000 16) none)

/-- C100 is false: files directly in one of the excluded directories are searched by ripgrep (the last glob, `*.c`, has
precedence over the ones before it) but not without it. -/
theorem C100_files_refuted : ∃ loc, ∀ (w : LEnv) (kdir : Path), kdir = ⟨true, [cs!"k"]⟩ →
    (∀ ignored : List Str → Bool, ignored [cs!"lib"] = false → ignored [cs!"arch"] = false →
      ∃ out, grepSources { w with grep := grepRows x64Arch (some (rgAnswer (rgRows x64Arch ignored libTree))) libTree }
        x64Arch kdir [cloneRef] = .ok out ∧ out = [(cloneRef, some loc)]) ∧
    grepSources { w with grep := grepRows x64Arch none libTree } x64Arch kdir [cloneRef] = .ok [(cloneRef, none)] := by
  refine ⟨(⟨true, [cs!"k", cs!"lib", cs!"d.c"]⟩, 1), ?_⟩
  rintro w kdir rfl
  refine ⟨?_, rfl⟩
  intro ignored hl ha
  have hrows : rgRows x64Arch ignored libTree = [cs!"lib/d.c:1:SYSCALL_DEFINE0(clone)"] := by
    have e1 : rgEnters (rgGlobs x64Arch) ignored [cs!"lib"] = true := by
      rw [rgEnters_iff]; refine .inr (.inr ⟨?_, ?_, hl⟩)
      · rintro ⟨_, _, _, h⟩; cases h
      · rintro ⟨last, h, h'⟩; cases h; rw [← startsWith_iff] at h'; cases h'
    have e2 : rgEnters (rgGlobs x64Arch) ignored [cs!"arch"] = true := by
      rw [rgEnters_iff]; refine .inr (.inr ⟨?_, ?_, ha⟩)
      · rintro ⟨_, _, _, h⟩; cases h
      · rintro ⟨last, h, h'⟩; cases h; rw [← startsWith_iff] at h'; cases h'
    have e3 : rgEnters (rgGlobs x64Arch) ignored [cs!"arch", cs!"x86"] = true := by
      rw [rgEnters_iff]; exact .inr (.inl rfl)
    have e4 : rgReads (rgGlobs x64Arch) ignored [cs!"lib", cs!"d.c"] = true := by
      rw [rgReads_iff]; exact .inl ⟨cs!"d.c", rfl, ⟨cs!"d", rfl⟩⟩
    simp only [rgRows, libTree, rgDir, rgNode, List.nil_append, List.cons_append, e1, e2, e3, e4, if_true, List.append_nil]
    decide +kernel
  rw [hrows]
  exact ⟨_, rfl, by decide +kernel⟩

/-- a tree without definitions -/
def bareTree : List (Str × Node) := [(cs!"arch", .dir [])]

/-- C100 is false: when nothing is found, ripgrep and with it the program exit with status 1; without ripgrep the
syscalls are reported as not found. -/
theorem C100_nothing_refuted (w : LEnv) (ignored : List Str → Bool) :
    grepSources { w with grep := grepRows x64Arch (some (rgAnswer (rgRows x64Arch ignored bareTree))) bareTree }
      x64Arch ⟨true, [cs!"k"]⟩ [cloneRef] = .error (.exit 1) ∧
    grepSources { w with grep := grepRows x64Arch none bareTree } x64Arch ⟨true, [cs!"k"]⟩ [cloneRef] =
      .ok [(cloneRef, none)] := by
  refine ⟨?_, rfl⟩
  have : rgRows x64Arch ignored bareTree = [] := by
    simp [rgRows, bareTree, rgDir, rgNode]
  rw [this]
  rfl

/-- C100, what holds of all trees: unless a directory is ignored by an ignore file, ripgrep finds at least what is found
without it. -/
theorem C100_at_least_partial (a : Arch) (ignored : List Str → Bool) (tree archs : List (Str × Node))
    (hnd : (tree.map Prod.fst).Nodup) (harch : dget cs!"arch" tree = some (.dir archs))
    (hign : ∀ path sub, At tree path (.dir sub) → ignored path = false)
    (rows : List Str) (hrows : grepTree a tree = .ok rows) (row : Str) (hrow : row ∈ rows) :
    ∃ row' ∈ rgRows a ignored tree, brstrip row' = row := by
  obtain ⟨rows', hr', hall⟩ := C59_rows a tree archs harch
  rw [hrows] at hr'
  cases hr'
  obtain ⟨path, lines, i, l, hat, hh, hc, hs, hl, hse, rfl⟩ := (hall row).1 hrow
  refine ⟨Path.str ⟨false, path⟩ ++ cs!":" ++ natRepr (i + 1) ++ cs!":" ++ rgLine l, ?_, ?_⟩
  · rw [C100_ripgrep]
    refine ⟨path, lines, i, l, hat, .inl hc, ?_, hl, hse, rfl⟩
    intro k hk hk'
    by_cases hit : InTop (path.take k)
    · right; left
      obtain ⟨top, x, ht, he⟩ := hit
      have hk2 : k = 2 := by
        have := congrArg List.length he
        simp only [List.length_take, List.length_cons, List.length_nil] at this
        omega
      subst hk2
      obtain ⟨c1, c2, rest, rfl⟩ : ∃ c1 c2 rest, path = c1 :: c2 :: rest := by
        match path, hk' with
        | c1 :: c2 :: rest, _ => exact ⟨c1, c2, rest, rfl⟩
      simp only [List.take_succ_cons, List.take_zero, List.cons.injEq, and_true] at he
      obtain ⟨rfl, rfl⟩ := he
      rcases ht with ht | rfl
      · exact absurd (.inl ⟨c1, ht, rfl⟩) (hs 1 (by omega) (by simp))
      · by_cases hx : c2 = a.kind.name
        · rw [hx]; rfl
        · exfalso
          refine hs 2 (by omega) hk' (.inr ⟨c2, ?_, hx, rfl⟩)
          cases hat with
          | inside _ _ sub _ _ hm ha =>
            have : dget cs!"arch" tree = some (.dir sub) := dget_of_mem hnd hm
            rw [harch] at this
            cases this
            cases ha with
            | here _ _ _ h => simp at hk'
            | inside _ _ _ _ _ h _ => exact List.mem_map.2 ⟨_, h, rfl⟩
    · right; right
      refine ⟨hit, ?_, ?_⟩
      · rintro ⟨last, e1, e2⟩
        refine hh last (List.mem_of_mem_take (List.mem_of_getLast? e1)) e2
      · obtain ⟨sub, hsub⟩ := at_take hat k hk hk'
        exact hign _ _ hsub
  · have h : ∀ t : Str, Path.str ⟨false, path⟩ ++ cs!":" ++ natRepr (i + 1) ++ cs!":" ++ t =
        (Path.str ⟨false, path⟩ ++ cs!":" ++ natRepr (i + 1)) ++ ':' :: t := by intro t; simp [List.append_assoc]
    rw [h, h, brstrip_append _ _ _ (by decide), brstrip_rgLine]

/-- C100, what holds: in a plain tree (nothing hidden or no directory is named like a C file, no directory is ignored, no
C files directly in the excluded directories), and when the rows are clear, the same locations are found with ripgrep, in
whichever order it prints the lines, and without it. The lines found must exist and have no line ends of other systems. -/
theorem C100_same_partial (w : LEnv) (a : Arch) (kdir : Path) (todo : List Ref) (ignored : List Str → Bool)
    (tree archs : List (Str × Node)) (printed : List Str)
    (harch : dget cs!"arch" tree = some (.dir archs)) (hplain : PlainTree a ignored tree)
    (hprinted : printed.Perm (rgRows a ignored tree)) (hsome : printed ≠ [])
    (hclean : ∀ row ∈ printed, ∀ c ∈ row, isLineEnd c = false)
    (hid : ∀ r ∈ todo, Ident r.2.origname) (hclear : ∀ rows, grepTree a tree = .ok rows → ClearRows a rows todo) :
    (∀ out, grepSources { w with grep := grepRows a none tree } a kdir todo = .ok out →
      ∃ out', grepSources { w with grep := grepRows a (some (rgAnswer printed)) tree } a kdir todo = .ok out' ∧ out'.Perm out) ∧
    ∀ e, grepSources { w with grep := grepRows a none tree } a kdir todo = .error e →
      grepSources { w with grep := grepRows a (some (rgAnswer printed)) tree } a kdir todo = .error e := by
  have hpy : grepRows a none tree = .ok ((rgRows a ignored tree).map brstrip) := by
    show grepTree a tree = _
    unfold grepTree
    rw [harch]
    show Except.ok _ = Except.ok _
    congr 1
    exact (rgDir_agree (grepRe a) (excluded a (archs.map Prod.fst)) _ _ [] tree fun path node hat hk =>
      plain_agree a ignored tree archs hplain harch path node hat hk).symm
  have hrg : grepRows a (some (rgAnswer printed)) tree = .ok printed := by
    show rgAnswer printed = _
    unfold rgAnswer
    rw [if_neg (by simpa using hsome), splitLines_lines printed hclean]
  have hclear' := hclear _ hpy
  have hshape : ∀ row ∈ rgRows a ignored tree, RowShape row := by
    intro row hrow
    obtain ⟨path, lines, i, l, -, -, -, -, -, rfl⟩ := (C100_ripgrep a ignored tree row).1 hrow
    exact rowShape_mk _ _ _
  rw [hpy, hrg]
  unfold grepSources
  simp only [bind, Except.bind]
  refine SameFound.cases ?_
  have hb := grepMatch_brstrip a kdir (sortRows a printed) todo hid fun row hrow =>
    hshape row (hprinted.mem_iff.1 ((sortBy_perm _ _).mem_iff.1 hrow))
  rw [← hb]
  refine grepMatch_clear a kdir _ _ todo ?_ (sortRows_pairwise a _) ?_ hid ?_
  · exact (sortBy_perm _ _).trans ((hprinted.symm.map brstrip).trans ((sortBy_perm _ printed).symm.map brstrip))
  · rw [List.pairwise_map]
    refine (sortRows_pairwise a printed).imp ?_
    intro x y h
    rw [grepKey_brstrip, grepKey_brstrip]; exact h
  · intro x hx y hy
    exact hclear' x ((sortBy_perm _ _).mem_iff.1 hx) y ((sortBy_perm _ _).mem_iff.1 hy)

/-! An example of a plain tree. -/

/-- everything in a tree, with its path -/
def nodesOf : List Str → List (Str × Node) → List (List Str × Node)
  | _, [] => []
  | rel, (name, .dir sub) :: rest => (rel ++ [name], .dir sub) :: (nodesOf (rel ++ [name]) sub ++ nodesOf rel rest)
  | rel, (name, .file lines) :: rest => (rel ++ [name], .file lines) :: nodesOf rel rest
  | rel, (name, .other) :: rest => (rel ++ [name], .other) :: nodesOf rel rest

theorem nodesOf_mono (rel : List Str) (children : List (Str × Node)) (x : Str × Node) (hx : x ∈ children) :
    (rel ++ [x.1], x.2) ∈ nodesOf rel children ∧
      ∀ sub, x.2 = .dir sub → ∀ y ∈ nodesOf (rel ++ [x.1]) sub, y ∈ nodesOf rel children := by
  induction children with
  | nil => cases hx
  | cons c rest ih =>
    obtain ⟨name, node⟩ := c
    rcases List.mem_cons.1 hx with rfl | hx
    · cases node with
      | file lines => exact ⟨by simp [nodesOf], by intro sub h; cases h⟩
      | dir s => exact ⟨by simp [nodesOf], by intro sub h y hy; cases h; simp [nodesOf, hy]⟩
      | other => exact ⟨by simp [nodesOf], by intro sub h; cases h⟩
    · obtain ⟨h1, h2⟩ := ih hx
      cases node with
      | file lines => exact ⟨by simp [nodesOf, h1], by intro sub h y hy; simp [nodesOf, h2 sub h y hy]⟩
      | dir s => exact ⟨by simp [nodesOf, h1], by intro sub h y hy; simp [nodesOf, h2 sub h y hy]⟩
      | other => exact ⟨by simp [nodesOf, h1], by intro sub h y hy; simp [nodesOf, h2 sub h y hy]⟩

theorem at_nodesOf {children : List (Str × Node)} {path : List Str} {node : Node} (h : At children path node) (rel : List Str) :
    (rel ++ path, node) ∈ nodesOf rel children := by
  induction h generalizing rel with
  | here children name node hm => exact (nodesOf_mono rel children (name, node) hm).1
  | inside children name sub path node hm _ ih =>
    have := ih (rel ++ [name])
    rw [List.append_assoc, List.singleton_append] at this
    exact (nodesOf_mono rel children (name, .dir sub) hm).2 sub rfl _ this

/-- a tree with definitions that are found and others that are not -/
def okTree : List (Str × Node) :=
  [(cs!".git", .dir [(cs!"config", .file [])]),
   (cs!"arch", .dir [(cs!"x86", .dir [(cs!"b.c", .file [cs!"\n", cs!"SYSCALL_DEFINE0(vfork)  \n"])]),
                     (cs!"arm", .dir [(cs!"c.c", .file [cs!"SYSCALL_DEFINE0(vfork)\n"])])]),
   (cs!"lib", .dir [(cs!"d.h", .file []), (cs!"zlib", .dir [(cs!"d.c", .file [cs!"SYSCALL_DEFINE0(clone)\n"])])]),
   (cs!"kernel", .dir [(cs!"e.c", .file [cs!"SYSCALL_DEFINE0(getpid)\n"]), (cs!"f.h", .file [cs!"SYSCALL_DEFINE0(getpid)\n"])])]

/-- what makes a tree plain, of one path -/
def okNode (x : List Str × Node) : Bool :=
  (!lastHidden x.1 || !lastC x.1) &&
  (match x.2 with
    | .dir _ => !lastC x.1
    | .file _ => x.1 != [cs!"arch", cs!"x86"] && !(excludedTops.any fun t => x.1.head? == some t && x.1.length == 2 && lastC x.1)
    | .other => true)

theorem okTree_nodes : ∀ x ∈ nodesOf [] okTree, okNode x = true := by
  have h : (nodesOf [] okTree).all okNode = true := by
    simp only [okTree, nodesOf, List.nil_append, List.cons_append, List.append_nil]
    decide +kernel
  exact List.all_eq_true.1 h

theorem lastC_iff (p : List Str) : lastC p = true ↔ NamedC p := by
  unfold lastC NamedC
  cases p.getLast? with
  | none => simp
  | some last => simp only [Option.some.injEq, exists_eq_left']; exact endsWith_iff _ _

/-- C100: the tree is plain -/
theorem okTree_plain : PlainTree x64Arch (fun _ => false) okTree where
  nodup := by decide
  hidden path node hat hh hc := by
    have := okTree_nodes _ (at_nodesOf hat [])
    rw [List.nil_append] at this
    simp only [okNode, Bool.and_eq_true] at this
    rw [show lastHidden path = true from (namedHidden_iff path).2 hh, (lastC_iff path).2 hc] at this
    exact absurd this.1 (by decide)
  dirs path sub hat := by
    have := okTree_nodes _ (at_nodesOf hat [])
    rw [List.nil_append] at this
    simp only [okNode, Bool.and_eq_true, Bool.not_eq_true'] at this
    exact ⟨fun h => absurd ((lastC_iff path).2 h) (by rw [this.2]; decide), rfl⟩
  tops top x lines ht hat hc := by
    have := okTree_nodes _ (at_nodesOf hat [])
    rw [List.nil_append] at this
    simp only [okNode, Bool.and_eq_true, Bool.not_eq_true', List.any_eq_false] at this
    have := this.2.2 top ht
    rw [(lastC_iff _).2 hc] at this
    exact this (by simp)
  archDir lines hat := by
    have := okTree_nodes _ (at_nodesOf hat [])
    rw [List.nil_append] at this
    simp only [okNode, Bool.and_eq_true] at this
    have h := this.2.1
    revert h
    decide

/-- C100, an example: two lines are printed for this tree, one of them with blanks at its end -/
example : rgRows x64Arch (fun _ => false) okTree =
      [cs!"arch/x86/b.c:2:SYSCALL_DEFINE0(vfork)  ", cs!"kernel/e.c:1:SYSCALL_DEFINE0(getpid)"] ∧
    grepTree x64Arch okTree = .ok [cs!"arch/x86/b.c:2:SYSCALL_DEFINE0(vfork)", cs!"kernel/e.c:1:SYSCALL_DEFINE0(getpid)"] := by
  constructor
  · decide +kernel
  · rfl

end Verif
