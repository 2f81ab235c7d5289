import Verif.Lemmas.LocDiag
import Verif.Props.Found
/-! # C113: what is told while locations are searched for -/
set_option autoImplicit false

namespace Verif
open Spec

/-- The messages change nothing: the outcome is that of the extraction all other properties are about. -/
theorem C113_same (w : LEnv) (a : Arch) (kdir rdir : Option Path) (scs : List Syscall) :
    (extractLocationsL w a kdir rdir scs).2 = extractLocations w a kdir rdir scs := extractLocationsL_snd w a kdir rdir scs

/-- Without addr2line, one warning and no locations. -/
theorem C113_no_tool (w : LEnv) (a : Arch) (kdir rdir : Option Path) (scs : List Syscall) (h : w.haveAddr2line = false) :
    said (extractLocationsL w a kdir rdir scs).1 =
      [(.warning, some cs!"Command \"addr2line\" unavailable, skipping location info extraction")] ∧
    (extractLocationsL w a kdir rdir scs).2 = .ok scs := by
  unfold extractLocationsL
  rw [h]
  exact ⟨rfl, rfl⟩

/-- Without sources, one warning: that the debug information is trusted if it gives a file for any syscall, or else that there is
nothing to be had. -/
theorem C113_no_sources (w : LEnv) (a : Arch) (rdir : Option Path) (scs out : List Syscall) (hw : w.haveAddr2line = true)
    (h : extractLocations w a none rdir scs = .ok out) :
    said (extractLocationsL w a none rdir scs).1 =
      [(.warning, some (if (out.any fun sc => sc.file.isSome) then cs!"No kernel source available, trusting addr2line output for location info"
        else cs!"No kernel source available and no addr2line output, cannot extract location info"))] := by
  unfold extractLocations at h
  unfold extractLocationsL
  simp only [hw, Bool.not_true, Bool.false_eq_true, if_false] at h ⊢
  cases hi : smartAddr2line w (scs.map fun s => s.symbol.realVaddr) none with
  | error e => rw [hi] at h; cases h
  | ok items =>
  rw [hi, res_ok_bind] at h
  rw [lm_quiet (LM.lift (.ok items)) _ items rfl rfl]
  cases hl : forceAll items with
  | error e => rw [hl] at h; cases h
  | ok locs =>
  rw [hl, res_ok_bind] at h
  rw [lm_quiet (LM.lift (.ok locs)) _ locs rfl rfl]
  cases h
  rw [lm_bind_fst _ _ () rfl]
  show said ([noSourceCall _] ++ []) = _
  unfold noSourceCall
  cases (trustLocs scs locs).any fun sc => sc.file.isSome <;> rfl

/-- When the first address is of no use for any syscall, the directory of the sources is doubted. -/
theorem C113_wrong_dir (x : Sources) (scs out : List Syscall) (hr : x.Ready scs)
    (h : extractLocations x.w x.a (some x.kdir) x.rdir scs = .ok out) (hh : x.Hopeless scs) :
    said (extractLocationsL x.w x.a (some x.kdir) x.rdir scs).1 =
      [(.warning, some cs!"All the locations obtained from addr2line look bad, did you provide the correct KDIR?"),
       (.warning, some cs!"Skipping location information extraction")] := by
  rw [(extract_told x hr.rows scs out hr.tool hr.both h).1 hh]
  rfl

/-- When the debug information leads outside KDIR, that is told, and only that. -/
theorem C113_outside (x : Sources) (scs out : List Syscall) (hr : x.Ready scs)
    (h : extractLocations x.w x.a (some x.kdir) x.rdir scs = .ok out) (hh : ¬ x.Hopeless scs) (ho : x.Outside scs) :
    said (extractLocationsL x.w x.a (some x.kdir) x.rdir scs).1 =
      [(.error, some cs!"Cannot grep source code, debug info points outside provided kernel source directory")] := by
  rw [(extract_told x hr.rows scs out hr.tool hr.both h).2.1 hh ho]
  rfl

/-- Otherwise there is one warning for each syscall found by searching the sources, with its name and the location it got, in the
order of their names, and no other message. -/
theorem C113_searched (x : Sources) (scs out : List Syscall) (hr : x.Ready scs)
    (h : extractLocations x.w x.a (some x.kdir) x.rdir scs = .ok out) (hh : ¬ x.Hopeless scs) (ho : ¬ x.Outside scs) :
    ∃ hits : List Syscall, said (extractLocationsL x.w x.a (some x.kdir) x.rdir scs).1 = hits.map (saidGrepped x.kdir) ∧
      hits.Perm (out.filter fun sc => sc.greppedLocation) ∧ (hits.map Syscall.name).Pairwise fun a b => strLe a b = true :=
  (extract_told x hr.rows scs out hr.tool hr.both h).2.2 hh ho

/-- Something critical is told exactly when the program ends with status 1, and then it is that a file named by the debug
information of some syscall has fewer lines than the line named; nothing else is told. -/
theorem C113_wrong_source (x : Sources) (scs : List Syscall) (hr : x.Ready scs) (hs : Succeeds x.w) :
    (extractLocations x.w x.a (some x.kdir) x.rdir scs = .error (.exit 1) ↔
      ∃ s ∈ said (extractLocationsL x.w x.a (some x.kdir) x.rdir scs).1, s.1 = .critical) ∧
    (extractLocations x.w x.a (some x.kdir) x.rdir scs = .error (.exit 1) →
      ∃ f, x.TooShort scs f ∧ said (extractLocationsL x.w x.a (some x.kdir) x.rdir scs).1 = saidWrongSource f) := by
  rw [← extractLocationsL_snd]
  rcases extract_end x hr.rows scs hr.tool hs hr.both with ⟨h1, h2⟩ | ⟨f, lines, l, ⟨sc, hsc, addr, ha, hn⟩, h2, h3, h4, h5⟩
  · refine ⟨⟨fun e => absurd e h2, ?_⟩, fun e => absurd e h2⟩
    rintro ⟨s, hm, hc⟩
    obtain ⟨c, hcm, rfl⟩ := List.mem_map.1 hm
    exact absurd hc (h1 c hcm)
  · refine ⟨⟨fun _ => ?_, fun _ => h5⟩, fun _ => ⟨f, ⟨sc, hsc, addr, ha, lines, l, hn, h2, h3⟩, by rw [h4, short_said]⟩⟩
    rw [h4, short_said]
    exact ⟨_, List.mem_cons_self, rfl⟩

theorem firstLoop_steps (w : LEnv) (a : Arch) (kdir : Path) (rdir : Option Path) (scs : List Syscall) :
    ∀ (i : Nat) (locs : List Loc) (k k' : Work), firstLoop w a kdir rdir i scs locs k = .ok k' →
      ∀ p ∈ scs.zip locs, ∃ r, firstStep w a kdir rdir p.1 p.2 = .ok r := by
  induction scs with
  | nil => intro i locs k k' _ p hp; simp at hp
  | cons sc scs ih =>
    intro i locs k k' h p hp
    cases locs with
    | nil => simp at hp
    | cons loc locs =>
      simp only [firstLoop] at h
      cases hs : firstStep w a kdir rdir sc loc with
      | error e => rw [hs] at h; cases h
      | ok r =>
        rw [hs, res_ok_bind] at h
        rw [List.zip_cons_cons, List.mem_cons] at hp
        rcases hp with rfl | hp
        · exact ⟨r, hs⟩
        · exact ih _ _ _ _ h p hp

/-- A line beyond the end of its file, named for the first address of a syscall, is never passed over: the extraction does not
succeed. -/
theorem C113_never_trusted_partial (x : Sources) (scs out : List Syscall) (hr : x.Ready scs) (sc : Syscall) (hsc : sc ∈ scs) (f : Path)
    (lines : List Str) (l : Nat) (hn : x.Names sc.symbol.realVaddr f l) (hf : x.w.files f = some lines) (hl : lines.length < l) :
    extractLocations x.w x.a (some x.kdir) x.rdir scs ≠ .ok out := by
  intro h
  unfold extractLocations at h
  simp only [hr.tool, Bool.not_true, Bool.false_eq_true, if_false] at h
  cases hi : smartAddr2line x.w (scs.map fun s => s.symbol.realVaddr) (some x.kdir) with
  | error e => rw [hi] at h; cases h
  | ok items =>
  rw [hi, res_ok_bind] at h
  cases hlocs : forceAll items with
  | error e => rw [hlocs] at h; cases h
  | ok locs =>
  rw [hlocs, res_ok_bind] at h
  cases hk1 : firstLoop x.w x.a x.kdir x.rdir 0 scs locs ⟨[], false, [], []⟩ with
  | error e => rw [hk1] at h; cases h
  | ok k1 =>
  clear h
  have hl2 := forceAll_forall2 _ _ hlocs
  rw [smart_items x.w x.row hr.rows _ _ _ hi, List.map_map] at hl2
  have hl3 := forall2_of_map _ _ _ hl2
  simp only [Function.comp_apply] at hl3
  have hsteps := firstLoop_steps _ _ _ _ _ _ _ _ _ hk1
  clear hk1 hlocs hi hl2
  have : ∃ loc, itemOf x.w.elfPath (some x.kdir) (x.row sc.symbol.realVaddr) = .ok loc ∧ (sc, loc) ∈ scs.zip locs := by
    clear hsteps
    induction hl3 with
    | nil => cases hsc
    | @cons s loc scs' locs' he _ ih =>
      rcases List.mem_cons.1 hsc with rfl | hsc
      · exact ⟨loc, he, by simp⟩
      · obtain ⟨loc', h1, h2⟩ := ih ⟨hr.rows, hr.tool, fun s hs => hr.names s (List.mem_cons_of_mem _ hs), fun s hs => hr.fresh s (List.mem_cons_of_mem _ hs)⟩ hsc
        exact ⟨loc', h1, by rw [List.zip_cons_cons]; exact List.mem_cons_of_mem _ h2⟩
  obtain ⟨loc, hitem, hmem⟩ := this
  obtain ⟨r, hstep⟩ := hsteps _ hmem
  obtain ⟨p, hp1, hp2⟩ := hn
  obtain ⟨loc', e1, e2, e3⟩ := item_of_source _ _ _ _ _ _ _ hp1 hp2
  rw [hitem] at e1
  cases e1
  have hv : validLoc x.w.files (some f) loc.2 = some (f, l) := by rw [e3]; simp [validLoc, hf]
  have hadj : adjustLine x.w.files f l = .error (.exit 1) := by
    unfold adjustLine
    rw [hf]
    simp only
    obtain ⟨n, rfl⟩ : ∃ n, l = n + 1 := ⟨l - 1, by omega⟩
    unfold adjustGo
    rw [List.getElem?_eq_none (by omega)]
  unfold firstStep at hstep
  simp only [e2, res_ok_bind, hv, hadj] at hstep
  cases hstep

/-! ## Sources that are missing -/

/-- addr2line knows the first syscall, and a file that does not exist for the second one -/
def lackRow (a : Nat) : Str := if a = 0x1000 then cs!"/u/k/fs/open.c:4" else cs!"/u/k/kernel/sys.c:9"

def lackWorld : LEnv := { soleWorld with addr2line := fun l => .ok (l.map lackRow), grep := .ok [] }

def lackAbs : Sources := { soleAbs with w := lackWorld, row := lackRow }

theorem lack_ready : lackAbs.Ready smallScs := by
  refine ⟨?_, rfl, small_names, by decide⟩
  intro addrs rows h
  cases h
  rfl

/-- C113 is false of the code as it is: a file named by the debug information that does not exist is passed over and nothing is
told, because it is taken for no location before the message about it can be reached (location.py:276, 341, 389 and 186-189). -/
theorem C113_missing_refuted : ∃ (x : Sources) (scs out : List Syscall), x.Ready scs ∧ Succeeds x.w ∧
    (∃ sc ∈ scs, ∃ f l, x.Names sc.symbol.realVaddr f l ∧ x.w.files f = none) ∧
    extractLocations x.w x.a (some x.kdir) x.rdir scs = .ok out ∧ (extractLocationsL x.w x.a (some x.kdir) x.rdir scs).1 = [] := by
  refine ⟨lackAbs, smallScs, _, lack_ready, ⟨(fun addrs h => by cases h), (fun h => by cases h)⟩, ?_, rfl, by decide +kernel⟩
  refine ⟨_, List.mem_of_getElem? (i := 1) rfl, ⟨true, [cs!"u", cs!"k", cs!"kernel", cs!"sys.c"]⟩, 9, ⟨⟨true, [cs!"u", cs!"k", cs!"kernel", cs!"sys.c"]⟩, ?_, ?_⟩, by decide +kernel⟩
  · refine ⟨cs!"/u/k/kernel/sys.c", cs!"9", by decide, by decide, rfl, .inr ⟨by decide, by decide +kernel, .inl ⟨⟨by decide, by decide⟩, by decide +kernel⟩⟩⟩
  · refine ⟨_, .inr ⟨?_, rfl⟩, .inr ⟨?_, .inl ⟨rfl, rfl⟩⟩⟩
    · rintro ⟨rest, h⟩
      have h2 := congrArg Path.parts h
      have h3 : [cs!"u", cs!"k", cs!"kernel", cs!"sys.c"] = [cs!"out"] ++ rest := h2
      cases h3
    · rintro ⟨r, rest, h, -⟩
      cases h

/-! ## Examples -/

/-- the sources are of another version: the file has 10 lines, line 44 is asked for -/
def shortRow (_ : Nat) : Str := cs!"/u/k/fs/open.c:44"

def shortAbs : Sources := { soleAbs with w := { soleWorld with addr2line := fun l => .ok (l.map shortRow) }, row := shortRow }

theorem short_ready : shortAbs.Ready smallScs := by
  refine ⟨?_, rfl, small_names, by decide⟩
  intro addrs rows h
  cases h
  rfl

/-- `C113_wrong_source` applies: the run ends, with the messages -/
example : Succeeds shortAbs.w ∧ extractLocations shortAbs.w shortAbs.a (some shortAbs.kdir) shortAbs.rdir smallScs = .error (.exit 1) ∧
    said (extractLocationsL shortAbs.w shortAbs.a (some shortAbs.kdir) shortAbs.rdir smallScs).1 =
      [(.critical, some cs!"File \"/u/k/fs/open.c\" does not have enough lines of code!"),
       (.critical, some cs!"Do you have the correct source code version for this kernel?")] :=
  ⟨⟨(fun addrs h => by cases h), (fun h => by cases h)⟩, rfl, by decide +kernel⟩

/-- the hypotheses of `C113_never_trusted_partial` hold there -/
example : ∃ sc ∈ smallScs, ∃ f lines l, shortAbs.Names sc.symbol.realVaddr f l ∧ shortAbs.w.files f = some lines ∧ lines.length < l := by
  refine ⟨_, List.mem_of_getElem? (i := 0) rfl, ⟨true, [cs!"u", cs!"k", cs!"fs", cs!"open.c"]⟩, smallLines, 44, ?_, by decide +kernel, by decide⟩
  exact item_names shortAbs 0x1000 (some ⟨true, [cs!"u", cs!"k", cs!"fs", cs!"open.c"]⟩, some 44) (some ⟨true, [cs!"u", cs!"k", cs!"fs", cs!"open.c"]⟩) _ _
    (by decide +kernel) (by decide +kernel) (by decide +kernel)

/-- what is told when the second syscall is found in the sources (not hopeless and not outside: see the example of C104) -/
example : said (extractLocationsL soleAbs.w soleAbs.a (some soleAbs.kdir) soleAbs.rdir smallScs).1 =
    [(.warning, some cs!"Location found through grepping: getpid -> fs/open.c:7")] := by decide +kernel

/-- with a relative KDIR the files are outside -/
example : said (extractLocationsL soleRel.w soleRel.a (some soleRel.kdir) soleRel.rdir smallScs).1 =
    [(.error, some cs!"Cannot grep source code, debug info points outside provided kernel source directory")] := by decide +kernel

/-- with a wrong KDIR nothing is found -/
example : said (extractLocationsL soleAbs.w soleAbs.a (some ⟨true, [cs!"other"]⟩) none smallScs).1 =
    [(.warning, some cs!"All the locations obtained from addr2line look bad, did you provide the correct KDIR?"),
     (.warning, some cs!"Skipping location information extraction")] := by decide +kernel

/-- without sources, and without debug information -/
example : soleWorld.haveAddr2line = true ∧ (∃ out, extractLocations soleWorld x64Arch none none smallScs = .ok out) ∧
    said (extractLocationsL soleWorld x64Arch none none smallScs).1 =
      [(.warning, some cs!"No kernel source available, trusting addr2line output for location info")] ∧
    said (extractLocationsL { soleWorld with addr2line := fun l => .ok (l.map fun _ => cs!"??:?") } x64Arch none none smallScs).1 =
      [(.warning, some cs!"No kernel source available and no addr2line output, cannot extract location info")] :=
  ⟨rfl, ⟨_, rfl⟩, by decide +kernel, by decide +kernel⟩

end Verif
