import Verif.Spec.EndToEnd
import Verif.Props.Extract
import Verif.Props.Output
import Verif.Props.Main
import Verif.Props.Origin
import Verif.Props.X86Emu
/-! # A whole run (C88, C91) -/
set_option autoImplicit false

namespace Verif
open Spec

/-- C88 below, with the intermediate lists -/
theorem run_full (w : MWorld) (hw : Pythonic w) (help : Str) (args : Args) (s : MState)
    (h0 : (main w help args s).1 = .ok 0) (hb : ¬ BuildMode args) (hh : ¬ AsksForHelp args) :
    ∃ (p : Path) (e : Elf) (a0 : Arch) (ver : Ver) (hist : List Run) (entries : List (Nat × Nat)) (ref : Option Symbol)
      (code : Option Bytes) (cands located scs : List Syscall) (text : Str),
      Analysed w args p e a0 ver hist entries ref code cands located scs ∧
      outputSyscalls w.jinja w.css w.js ⟨ver, cs!"vmlinux", a0.adjustAbi e, scs⟩ args.format = .ok text ∧
      (main w help args s).2.out = some text ∧
      ∃ (found signed : List Syscall) (ps : List Str) (eso : List Esoteric) (esoScs : List Syscall),
        EnvOk (kenvOf w hist a0 e p (pathOf args.kdir) (pathOf args.remap)) e ∧
        Extraction (a0.adjustAbi e) e ver (kenvOf w hist a0 e p (pathOf args.kdir) (pathOf args.remap)) entries found cands located signed ∧
        Candidates (a0.adjustAbi e) e ver (w.niOrder e.niSyscalls) entries cands ps eso esoScs ref code ∧
        (∀ y ∈ scs, ∃ x ∈ found, SameLocation args x y ∧ ∃ f, y = { x with file := f }) ∧
        ∀ x ∈ found, ∃ f, { x with file := f } ∈ scs := by
  obtain ⟨p, e, a0, ver, hist, scs, text, h1, h2, h3, hp, hne, hout⟩ := (C84_output w help args s).2.1 h0 hb hh
  obtain ⟨found, f1, f2, f3, f4, f5⟩ := hp
  have henv : EnvOk (kenvOf w hist a0 e p (pathOf args.kdir) (pathOf args.remap)) e :=
    C60_env_ok _ (a0.adjustAbi e) (pathOf args.kdir) (pathOf args.remap) _ e rfl (hw.set _) fun l h => C46_keys w.x86 hw.orders _ e l h
  rcases extract_cases _ _ _ _ _ f1 with h | ⟨entries, hbits, hent, hene, hni⟩
  · exact absurd h f2
  have hni' : ∃ x, IsNi e x := by
    cases hx : e.niSyscalls with
    | nil => exact absurd hx hni
    | cons x l => exact ⟨x, (mem_niSyscalls e x).1 (by rw [hx]; simp)⟩
  obtain ⟨ref, code, cands, located, r1, r2, hloc, hc1, hc2, hiff, heso, hun, hres, signed, ps, eso, esoScs, hX, hC⟩ :=
    reported_full a0 e ver _ henv entries found hbits hent hene hni' f1
  have hinc := C34_numbers_increasing a0 e ver _ henv found f1
  -- the printed syscalls differ from those found in their path only
  have hsame : ∀ i : Nat, ∀ y, scs[i]? = some y → ∃ x, found[i]? = some x ∧ SameLocation args x y ∧ ∃ f, y = { x with file := f } := by
    intro i y hy
    have hi : i < found.length := by rw [← f3]; exact (List.getElem?_eq_some_iff.1 hy).1
    refine ⟨found[i], List.getElem?_eq_getElem hi, ?_⟩
    obtain ⟨q, hq, hr⟩ := f4 i _ (List.getElem?_eq_getElem hi)
    rw [hy] at hq
    cases hq
    generalize found[i] = x at hr
    unfold SameLocation
    cases hk : pathOf args.kdir with
    | none =>
      rw [hk] at hr
      simp only at hr
      subst hr
      refine ⟨⟨rfl, rfl, rfl, ?_⟩, y.file, rfl⟩
      cases y.file <;> simp
    | some kdir =>
      cases ha : args.absolutePaths with
      | true =>
        rw [hk, ha] at hr
        simp only at hr
        subst hr
        refine ⟨⟨rfl, rfl, rfl, ?_⟩, y.file, rfl⟩
        cases y.file <;> simp
      | false =>
        rw [hk, ha] at hr
        simp only at hr
        obtain ⟨f, rfl, hf⟩ := hr
        refine ⟨⟨rfl, rfl, rfl, ?_⟩, f, rfl⟩
        simp only
        cases hx : x.file <;> cases f <;> simp_all
  have hback : ∀ i : Nat, ∀ x, found[i]? = some x → ∃ f, scs[i]? = some { x with file := f } := by
    intro i x hx
    have hi : i < scs.length := by rw [f3]; exact (List.getElem?_eq_some_iff.1 hx).1
    obtain ⟨x', hx', -, f, hf⟩ := hsame i scs[i] (List.getElem?_eq_getElem hi)
    rw [hx] at hx'
    cases hx'
    exact ⟨f, by rw [← hf]; exact List.getElem?_eq_getElem hi⟩
  have hone : ∀ y ∈ scs, ∃ x ∈ found, SameLocation args x y ∧ ∃ f, y = { x with file := f } := by
    intro y hy
    obtain ⟨i, hi⟩ := List.mem_iff_getElem?.1 hy
    obtain ⟨x, hx, h⟩ := hsame i y hi
    exact ⟨x, List.mem_of_getElem? hx, h⟩
  refine ⟨p, e, a0, ver, hist, entries, ref, code, cands, located, scs, text,
    ⟨⟨h1, h2⟩, h3, hent, hene, r1, ?_, ?_, hun, hloc, ?_, ?_, ?_, ?_, hne⟩, f5, hout, found, signed, ps, eso, esoScs, henv, hX, hC, hone, ?_⟩
  · intro r hr
    obtain ⟨g1, g2, g3, g4⟩ := r2 r hr
    exact ⟨g1, ⟨g2, g3⟩, g4⟩
  · intro i sym num
    constructor
    · rintro ⟨sc, hsc, g1, rfl, rfl⟩
      exact hc1 sc hsc i g1
    · exact hc2 i sym num
  · intro i sym num
    rw [show pathOf args.kdir = (kenvOf w hist a0 e p (pathOf args.kdir) (pathOf args.remap)).kdir from rfl]
    refine Iff.trans ?_ (hiff i sym num)
    constructor
    · rintro ⟨y, hy, g1, g2, g3⟩
      obtain ⟨x, hx, -, f, rfl⟩ := hone y hy
      exact ⟨x, hx, g1, g2, g3⟩
    · rintro ⟨x, hx, g1, g2, g3⟩
      obtain ⟨i, hi⟩ := List.mem_iff_getElem?.1 hx
      obtain ⟨f, hf⟩ := hback i x hi
      exact ⟨_, List.mem_of_getElem? hf, g1, g2, g3⟩
  · intro y hy
    obtain ⟨x, hx, -, f, rfl⟩ := hone y hy
    exact heso x hx
  · rw [List.pairwise_filter, List.pairwise_iff_getElem] at hinc ⊢
    intro i j hi hj hij
    obtain ⟨x, hx, -, f, hf⟩ := hsame i scs[i] (List.getElem?_eq_getElem hi)
    obtain ⟨y, hy, -, g, hg⟩ := hsame j scs[j] (List.getElem?_eq_getElem hj)
    have := hinc i j (List.getElem?_eq_some_iff.1 hx).1 (List.getElem?_eq_some_iff.1 hy).1 hij
    rw [(List.getElem?_eq_some_iff.1 hx).2, (List.getElem?_eq_some_iff.1 hy).2] at this
    rw [hf, hg]
    exact this
  · intro y hy
    obtain ⟨x, hx, hsl, f, rfl⟩ := hone y hy
    obtain ⟨l, hl, hr⟩ := hres x hx
    obtain ⟨q1, q2, q3, q4, q5, q6, q7, q8, q9, q10, q11⟩ : x.index = l.index ∧ x.number = l.number ∧ x.symbol = l.symbol ∧
        x.name = l.name ∧ x.origname = l.origname ∧ x.esoteric = l.esoteric ∧ x.file = l.file ∧ x.line = l.line ∧
        x.goodLocation = l.goodLocation ∧ x.greppedLocation = l.greppedLocation ∧ True := by
      unfold Resigned at hr
      rw [hr]; simp
    refine ⟨l, hl, q1.symm, q2.symm, q3.symm, q4.symm, q5.symm, q6.symm, ?_⟩
    unfold SameLocation at hsl ⊢
    rw [← q7, ← q8, ← q9, ← q10]
    exact hsl
  · intro x hx
    obtain ⟨i, hi⟩ := List.mem_iff_getElem?.1 hx
    obtain ⟨f, hf⟩ := hback i x hi
    exact ⟨f, List.mem_of_getElem? hf⟩

/-- C88, any format: what a successful analysis prints is the listing of the implemented entries of the image. -/
theorem C88_run (w : MWorld) (hw : Pythonic w) (help : Str) (args : Args) (s : MState)
    (h0 : (main w help args s).1 = .ok 0) (hb : ¬ BuildMode args) (hh : ¬ AsksForHelp args) :
    ∃ (p : Path) (e : Elf) (a0 : Arch) (ver : Ver) (hist : List Run) (entries : List (Nat × Nat)) (ref : Option Symbol)
      (code : Option Bytes) (cands located scs : List Syscall) (text : Str),
      Analysed w args p e a0 ver hist entries ref code cands located scs ∧
      outputSyscalls w.jinja w.css w.js ⟨ver, cs!"vmlinux", a0.adjustAbi e, scs⟩ args.format = .ok text ∧
      (main w help args s).2.out = some text := by
  obtain ⟨p, e, a0, ver, hist, entries, ref, code, cands, located, scs, text, h1, h2, h3, -⟩ := run_full w hw help args s h0 hb hh
  exact ⟨p, e, a0, ver, hist, entries, ref, code, cands, located, scs, text, h1, h2, h3⟩

/-- C88: when an analysis with `-f json` ends with status 0, what it printed is a JSON document listing the implemented entries
of the syscall table of the image. -/
theorem C88_json_run (w : MWorld) (hw : Pythonic w) (help : Str) (args : Args) (s : MState) (hf : args.format = .json)
    (h0 : (main w help args s).1 = .ok 0) (hb : ¬ BuildMode args) (hh : ¬ AsksForHelp args) :
    ∃ (p : Path) (e : Elf) (a0 : Arch) (ver : Ver) (hist : List Run) (entries : List (Nat × Nat)) (ref : Option Symbol)
      (code : Option Bytes) (cands located scs : List Syscall) (text tag : Str) (doc kobj : Json) (objs : List Json),
      Analysed w args p e a0 ver hist entries ref code cands located scs ∧
      let a := a0.adjustAbi e
      let chosen := fun va => dget va (symbolsByVaddr a e (w.niOrder e.niSyscalls) (entries.map Prod.snd))
      -- the document
      (main w help args s).2.out = some text ∧ IsJson text doc ∧ objs ≠ [] ∧ versionTag ver = .ok tag ∧
      Object doc [(cs!"systrack_version", .str cs!"0.7"), (cs!"kernel", kobj), (cs!"syscalls", .arr objs)] ∧
      KernelObject tag cs!"vmlinux" a kobj ∧
      -- one object per syscall printed
      objs.length = scs.length ∧
      (∀ (i : Nat) (sc : Syscall), scs[i]? = some sc → ∃ j, objs[i]? = some j ∧ SyscallObject sc j) ∧
      -- exactly the implemented entries, but those only located in kernel/sys_ni.c
      (∀ i num name, (∃ j ∈ objs, ListedAs j i num name) ↔
        ∃ sym, sym.name = name ∧ Implemented a e chosen ref code entries i sym num ∧
          ∃ l ∈ located, l.index = some i ∧ ¬ BadNi (pathOf args.kdir) l) ∧
      (∀ j ∈ objs, ¬ Member j cs!"esoteric" (.bool true) → ∃ i num name, ListedAs j i num name) ∧
      -- in increasing order of numbers
      (∀ (m n : Nat) (j k : Json) (x y : Nat), m < n → objs[m]? = some j → objs[n]? = some k → ¬ Member j cs!"esoteric" (.bool true) →
        ¬ Member k cs!"esoteric" (.bool true) → Member j cs!"number" (.num x) → Member k cs!"number" (.num y) → x < y) := by
  obtain ⟨p, e, a0, ver, hist, entries, ref, code, cands, located, scs, text, hA, f5, hout⟩ := C88_run w hw help args s h0 hb hh
  -- the tag
  have htag : ∃ tag, versionTag ver = .ok tag := by
    rw [hf] at f5
    simp only [outputSyscalls, outputJson, jsonData, bind, Except.bind] at f5
    cases ht : versionTag ver with
    | ok t => exact ⟨t, rfl⟩
    | error x => rw [ht] at f5; simp at f5
  obtain ⟨tag, htag⟩ := htag
  obtain ⟨text', doc, kobj, objs, j1, j2, j3, j4, j5, j6⟩ := C71_json ⟨ver, cs!"vmlinux", a0.adjustAbi e, scs⟩ tag htag
  have htext : text' = text := by
    rw [hf] at f5
    simp only [outputSyscalls] at f5
    rw [j1] at f5
    simpa using f5
  subst htext
  have hobj : ∀ (i : Nat) (j : Json), objs[i]? = some j → ∃ sc, scs[i]? = some sc ∧ SyscallObject sc j := by
    intro i j hj
    have hi : i < scs.length := by
      have := (List.getElem?_eq_some_iff.1 hj).1
      rw [j5] at this; exact this
    obtain ⟨j', hj', hs⟩ := j6 i scs[i] (List.getElem?_eq_getElem hi)
    rw [hj] at hj'
    cases hj'
    exact ⟨_, List.getElem?_eq_getElem hi, hs⟩
  -- members of the object of a syscall
  have mem : ∀ sc j, SyscallObject sc j → Member j cs!"index" (orNull .num sc.index) ∧ Member j cs!"number" (.num sc.number) ∧
      Member j cs!"symbol" (.str sc.symbol.name) ∧ Member j cs!"esoteric" (.bool sc.esoteric) := by
    rintro sc j ⟨k, -, l, rfl, hperm, -⟩
    refine ⟨⟨l, rfl, ?_⟩, ⟨l, rfl, ?_⟩, ⟨l, rfl, ?_⟩, ⟨l, rfl, ?_⟩⟩ <;> rw [hperm.mem_iff] <;> simp
  have listed : ∀ sc j i num name, SyscallObject sc j → ListedAs j i num name →
      sc.index = some i ∧ sc.number = num ∧ sc.symbol.name = name := by
    rintro sc j i num name ⟨k, -, l, rfl, hperm, -⟩ ⟨⟨l1, e1, m1⟩, ⟨l2, e2, m2⟩, ⟨l3, e3, m3⟩, -⟩
    cases e1; cases e2; cases e3
    rw [hperm.mem_iff] at m1 m2 m3
    refine ⟨?_, ?_, ?_⟩
    · cases hx : sc.index with
      | none => simp [hx, orNull] at m1
      | some n => simp [hx, orNull] at m1; rw [m1]
    · simp at m2; exact m2.symm
    · simp at m3; exact m3.symm
  have num : ∀ sc j x, SyscallObject sc j → Member j cs!"number" (.num x) → x = sc.number := by
    rintro sc j x ⟨k, -, l, rfl, hperm, -⟩ ⟨l', hl, hm⟩
    cases hl
    rw [hperm.mem_iff] at hm
    simpa using hm
  have nes : ∀ sc j, SyscallObject sc j → ¬ Member j cs!"esoteric" (.bool true) → sc.esoteric = false := by
    intro sc j ho he
    cases h : sc.esoteric with
    | false => rfl
    | true =>
      have := (mem sc j ho).2.2.2
      rw [h] at this
      exact absurd this he
  have shows : ∀ sc j i, SyscallObject sc j → sc ∈ scs → sc.index = some i → ListedAs j i sc.number sc.symbol.name := by
    intro sc j i ho hsc hi
    obtain ⟨m1, m2, m3, m4⟩ := mem sc j ho
    rw [hi] at m1
    have he : sc.esoteric = false := by
      cases h : sc.esoteric with
      | false => rfl
      | true => rw [(hA.esoteric sc hsc).2 h] at hi; cases hi
    rw [he] at m4
    exact ⟨m1, m2, m3, m4⟩
  refine ⟨p, e, a0, ver, hist, entries, ref, code, cands, located, scs, text', tag, doc, kobj, objs, hA, hout, j2, ?_, htag, j3, j4, j5, j6,
    ?_, ?_, ?_⟩
  · intro h
    rw [h] at j5
    exact hA.nonempty (List.length_eq_zero_iff.1 j5.symm)
  · intro i num name
    constructor
    · rintro ⟨j, hj, hl⟩
      obtain ⟨n, hn⟩ := List.mem_iff_getElem?.1 hj
      obtain ⟨sc, hsc, ho⟩ := hobj n j hn
      obtain ⟨e1, e2, e3⟩ := listed sc j i num name ho hl
      exact ⟨sc.symbol, e3, (hA.printed i sc.symbol num).1 ⟨sc, List.mem_of_getElem? hsc, e1, rfl, e2⟩⟩
    · rintro ⟨sym, rfl, h⟩
      obtain ⟨sc, hsc, e1, rfl, rfl⟩ := (hA.printed i sym num).2 h
      obtain ⟨n, hn⟩ := List.mem_iff_getElem?.1 hsc
      obtain ⟨j, hj, ho⟩ := j6 n sc hn
      exact ⟨j, List.mem_of_getElem? hj, shows sc j i ho hsc e1⟩
  · intro j hj hes
    obtain ⟨n, hn⟩ := List.mem_iff_getElem?.1 hj
    obtain ⟨sc, hsc, ho⟩ := hobj n j hn
    have hesc := nes sc j ho hes
    have hm := List.mem_of_getElem? hsc
    cases hidx : sc.index with
    | none =>
      have := (hA.esoteric sc hm).1 hidx
      rw [hesc] at this
      cases this
    | some i => exact ⟨i, _, _, shows sc j i ho hm hidx⟩
  · intro m n j k x y hmn hj hk ej ek nx ny
    obtain ⟨sj, hsj, oj⟩ := hobj m j hj
    obtain ⟨sk, hsk, ok⟩ := hobj n k hk
    rw [num _ _ _ oj nx, num _ _ _ ok ny]
    have hinc := hA.increasing
    rw [List.pairwise_filter] at hinc
    have := List.pairwise_iff_getElem.1 hinc m n (List.getElem?_eq_some_iff.1 hsj).1 (List.getElem?_eq_some_iff.1 hsk).1 hmn
    rw [(List.getElem?_eq_some_iff.1 hsj).2, (List.getElem?_eq_some_iff.1 hsk).2] at this
    exact this (by rw [nes _ _ oj ej]; rfl) (by rw [nes _ _ ok ek]; rfl)

/-! ## C91 -/

theorem located_justified (w : LEnv) (row : Nat → Str) (hrow : RowPerAddress w row) (a : Arch) (kdir rdir : Option Path)
    (cands located : List Syscall) (hun : ∀ sc ∈ cands, Unlocated sc)
    (h : extractLocations w a kdir rdir cands = .ok located) : ∀ l ∈ located, Justified w row a kdir rdir l := by
  intro l hl
  unfold Justified
  cases hw : w.haveAddr2line with
  | false =>
    rw [C89_no_addr2line w a kdir rdir cands hw] at h
    cases h
    obtain ⟨h1, h2, h3, -⟩ := hun l hl
    exact ⟨h1, h2, h3⟩
  | true =>
    cases kdir with
    | none => exact C89_no_sources w row hrow a rdir cands located hw h l hl
    | some k =>
      exact C89_origin w row hrow a k rdir cands located hw (fun sc hsc => ⟨(hun sc hsc).2.1, (hun sc hsc).2.2.2⟩) h l hl

/-- C91: the location printed for a syscall is, as a path to print, that of a justified one for the same index and symbol. -/
theorem C91_locations (w : MWorld) (hrows : OneRowEach w) (args : Args) (p : Path) (e : Elf) (a0 : Arch) (ver : Ver) (hist : List Run)
    (entries : List (Nat × Nat)) (ref : Option Symbol) (code : Option Bytes) (cands located scs : List Syscall)
    (h : Analysed w args p e a0 ver hist entries ref code cands located scs) :
    ∃ row, RowPerAddress (locWorld w hist p) row ∧ ∀ sc ∈ scs, ∃ l, l.index = sc.index ∧ l.symbol = sc.symbol ∧
      l.name = sc.name ∧ l.origname = sc.origname ∧ SameLocation args l sc ∧
      Justified (locWorld w hist p) row (a0.adjustAbi e) (pathOf args.kdir) (pathOf args.remap) l := by
  obtain ⟨row, hrow⟩ := hrows hist
  have hrow' : RowPerAddress (locWorld w hist p) row := hrow
  refine ⟨row, hrow', fun sc hsc => ?_⟩
  obtain ⟨l, hl, h1, -, h3, h4, h5, -, h7⟩ := h.same sc hsc
  exact ⟨l, h1, h3, h4, h5, h7, located_justified _ row hrow' _ _ _ _ _ h.unlocated h.locations l hl⟩

/-- no component of the path is empty -/
theorem parsePath_parts (s : Str) : ∀ x ∈ (parsePath s).parts, x ≠ [] := by
  intro x hx
  simp only [parsePath, List.mem_filter, Bool.and_eq_true] at hx
  intro h
  rw [h] at hx
  simp at hx

theorem pathOf_parts (o : Option Str) (k : Path) (h : pathOf o = some k) : ∀ x ∈ k.parts, x ≠ [] := by
  unfold pathOf at h
  split at h
  · cases h; exact parsePath_parts _
  · cases h

theorem rowSays_parts (row : Str) (p : Path) (n : Option Nat) (h : RowSays row (some p) n) : ∀ x ∈ p.parts, x ≠ [] := by
  obtain ⟨f, l, -, -, -, h | h⟩ := h
  · cases h.2.1
  · have := h.2.1
    cases this
    exact parsePath_parts f

theorem sourceOf_parts (elf kdir : Path) (rdir : Option Path) (p q : Path) (hk : ∀ x ∈ kdir.parts, x ≠ []) (hp : ∀ x ∈ p.parts, x ≠ [])
    (h : SourceOf elf kdir rdir p q) : ∀ x ∈ q.parts, x ≠ [] := by
  have below : ∀ r rest p q, Below r p rest → Below kdir q rest → (∀ x ∈ p.parts, x ≠ []) → ∀ x ∈ q.parts, x ≠ [] := by
    rintro r rest p q rfl rfl hp x hx
    rcases List.mem_append.1 hx with hx | hx
    · exact hk x hx
    · exact hp x (List.mem_append.2 (.inr hx))
  obtain ⟨p1, h1, h2⟩ := h
  have hp1 : ∀ x ∈ p1.parts, x ≠ [] := by
    rcases h1 with ⟨rest, b1, b2⟩ | ⟨-, rfl⟩
    · exact below _ _ _ _ b1 b2 hp
    · exact hp
  rcases h2 with ⟨r, rest, -, b1, b2⟩ | ⟨-, ⟨-, rfl⟩ | ⟨-, rfl⟩⟩
  · exact below _ _ _ _ b1 b2 hp1
  · exact hp1
  · intro x hx
    rcases List.mem_append.1 hx with hx | hx
    · exact hk x hx
    · exact hp1 x hx

theorem justified_parts (w : LEnv) (row : Nat → Str) (a : Arch) (kdir rdir : Option Path)
    (hk : ∀ k, kdir = some k → ∀ x ∈ k.parts, x ≠ []) (l : Syscall)
    (h : Justified w row a kdir rdir l) (f : Path) (hf : l.file = some f) : ∀ x ∈ f.parts, x ≠ [] := by
  unfold Justified at h
  split at h
  · rw [h.1] at hf; cases hf
  · rw [hf] at h; exact rowSays_parts _ _ _ h.1
  · next k _ =>
    have fromDebug : ∀ addr, FromDebugInfo w row k rdir addr f l.line → ∀ x ∈ f.parts, x ≠ [] := by
      rintro addr ⟨p, n, h1, h2, -⟩
      exact sourceOf_parts _ _ _ _ _ (hk k rfl) (rowSays_parts _ _ _ h1) h2
    cases hg : l.goodLocation with
    | false => exact fromDebug _ (h.doubtful f hf hg)
    | true =>
      cases hgr : l.greppedLocation with
      | false =>
        obtain ⟨addr, -, hd⟩ := h.confirmed f hf hg hgr
        exact fromDebug _ hd
      | true =>
        obtain ⟨f', hf', rows, file, ln, rest, -, -, -, -, -, hj, -⟩ := h.grepped hgr
        rw [hf] at hf'
        cases hf'
        intro x hx
        rw [hj] at hx
        unfold Path.join at hx
        split at hx
        · exact parsePath_parts file x hx
        · rcases List.mem_append.1 hx with hx | hx
          · exact hk k rfl x hx
          · exact parsePath_parts file x hx

/-- C91, text: a successful analysis with `-f text` printed a header and the listing, in columns. -/
theorem C91_text_run (w : MWorld) (hw : Pythonic w) (hrows : OneRowEach w) (help : Str) (args : Args) (s : MState)
    (hf : args.format = .text) (h0 : (main w help args s).1 = .ok 0) (hb : ¬ BuildMode args) (hh : ¬ AsksForHelp args) :
    ∃ (p : Path) (e : Elf) (a0 : Arch) (ver : Ver) (hist : List Run) (entries : List (Nat × Nat)) (ref : Option Symbol)
      (code : Option Bytes) (cands located scs : List Syscall) (offs : List Nat) (header : Str) (rest : List Str),
      Analysed w args p e a0 ver hist entries ref code cands located scs ∧
      (main w help args s).2.out = some ((header :: rest).flatMap (· ++ cs!"\n")) ∧
      Aligned offs [cs!"INDEX", cs!"NUMBER", cs!"NAME", cs!"ORIG NAME", cs!"SYMBOL", cs!"LOCATION", cs!"KCONFIG", cs!"SIGNATURE"] header ∧
      Listing offs none scs rest := by
  obtain ⟨p, e, a0, ver, hist, entries, ref, code, cands, located, scs, text, hA, ht, hout⟩ := C88_run w hw help args s h0 hb hh
  obtain ⟨row, -, hj⟩ := C91_locations w hrows args p e a0 ver hist entries ref code cands located scs hA
  have hpath : ∀ sc ∈ scs, ∀ f, sc.file = some f → ∀ x ∈ f.parts, x ≠ [] := by
    intro sc hsc g hg
    obtain ⟨l, -, -, -, -, ⟨-, -, -, hs⟩, hjl⟩ := hj sc hsc
    have hl := justified_parts _ _ _ _ _ (fun k hk => pathOf_parts _ k hk) l hjl
    rw [hg] at hs
    split at hs
    · next h => cases h
    · next kdir f g' _ _ hlf hgg =>
      cases hgg
      rcases hs with ⟨rest, h1, rfl⟩ | ⟨-, rfl⟩
      · intro x hx
        exact hl f hlf x (by rw [h1]; exact List.mem_append.2 (.inr hx))
      · exact hl _ hlf
    · next f g' _ hlf hgg => cases hgg; subst hs; exact hl _ hlf
    · next hlf hgg _ => cases hgg; subst hs; exact hl _ hlf
    · exact absurd hs id
  obtain ⟨offs, header, rest, t1, t2, t3⟩ := C70_text scs hA.nonempty hpath
  refine ⟨p, e, a0, ver, hist, entries, ref, code, cands, located, scs, offs, header, rest, hA, ?_, t2, t3⟩
  rw [hf] at ht
  simp only [outputSyscalls] at ht
  rw [t1] at ht
  cases ht
  exact hout

/-- C91, HTML: a successful analysis with `-f html` found Jinja2 and a known signature; if a syscall takes an argument (see C72)
what it printed is a page with a row for each syscall. -/
theorem C91_html_run (w : MWorld) (hw : Pythonic w) (help : Str) (args : Args) (s : MState)
    (hf : args.format = .html) (h0 : (main w help args s).1 = .ok 0) (hb : ¬ BuildMode args) (hh : ¬ AsksForHelp args) :
    ∃ (p : Path) (e : Elf) (a0 : Arch) (ver : Ver) (hist : List Run) (entries : List (Nat × Nat)) (ref : Option Symbol)
      (code : Option Bytes) (cands located scs : List Syscall) (n : Nat),
      Analysed w args p e a0 ver hist entries ref code cands located scs ∧ w.jinja = true ∧ MaxArgs scs n ∧
      (0 < n → ∃ (before header : Str) (rows : List Str) (after : Str),
        (main w help args s).2.out = some (before ++ header ++ rows.flatten ++ after) ∧
        width header = 6 + n ∧ rows.length = scs.length ∧
        ∀ (i : Nat) (sc : Syscall), scs[i]? = some sc → ∃ row, rows[i]? = some row ∧ width row = 6 + n ∧ HtmlRow sc row) := by
  obtain ⟨p, e, a0, ver, hist, entries, ref, code, cands, located, scs, text, hA, ht, hout⟩ := C88_run w hw help args s h0 hb hh
  rw [hf] at ht
  simp only [outputSyscalls] at ht
  have hji : w.jinja = true := by
    cases h : w.jinja with
    | true => rfl
    | false => rw [h] at ht; simp [outputHtml] at ht
  rw [hji] at ht
  have hm : ∃ n, maxArgs scs = .ok n := by
    cases h : maxArgs scs with
    | ok n => exact ⟨n, rfl⟩
    | error x => simp [outputHtml, h, bind, Except.bind] at ht
  obtain ⟨n, hm⟩ := hm
  have htag : ∃ tag, versionTag ver = .ok tag := by
    cases h : versionTag ver with
    | ok t => exact ⟨t, rfl⟩
    | error x => simp [outputHtml, hm, h, bind, Except.bind] at ht
  obtain ⟨tag, htag⟩ := htag
  have hn := (maxArgs_spec _ _).1 hm
  refine ⟨p, e, a0, ver, hist, entries, ref, code, cands, located, scs, n, hA, hji, hn, fun hpos => ?_⟩
  obtain ⟨before, header, rows, after, t1, t2, t3, t4⟩ := C72_html_partial w.css w.js ⟨ver, cs!"vmlinux", a0.adjustAbi e, scs⟩ tag htag n hn hpos
  rw [t1] at ht
  cases ht
  exact ⟨before, header, rows, after, hout, t2, t3, t4⟩

/-- the small image with sources: `addr2line` knows one syscall -/
def tinySources : MWorld :=
  { tinyWorld cs!"6.0.3" tinySymbols with
    locEnv := fun _ => { smallWorld with
      addr2line := fun l => .ok (l.map fun x => if x = 0x108 then cs!"/k/fs/open.c:3" else cs!"??:0")
      files := fun p => if p = smallFile then some [cs!"SYSCALL_DEFINE1(__riscv_sys_open, int, fd)\n", cs!"{\n", cs!"\treturn 0;\n",
        cs!"}\n"] else none } }

/-- with HTML output: the hypotheses hold -/
example : Pythonic tinySources ∧
    (main tinySources [] { kdir := some cs!"/k", vmlinux := some cs!"vmlinux", format := .html } {}).1 = .ok 0 ∧
    ¬ BuildMode { kdir := some cs!"/k", vmlinux := some cs!"vmlinux", format := .html } ∧
    ¬ AsksForHelp { kdir := some cs!"/k", vmlinux := some cs!"vmlinux", format := .html } := by
  refine ⟨⟨?_, ?_⟩, by decide +kernel, by simp [BuildMode], by simp [AsksForHelp]⟩
  · intro l; exact .refl _
  · exact ⟨fun _ => .refl _, fun _ => .refl _⟩

/-- the small image, with text output: the hypotheses hold -/
example : Pythonic (tinyWorld cs!"6.0.3" tinySymbols) ∧ OneRowEach (tinyWorld cs!"6.0.3" tinySymbols) ∧
    (main (tinyWorld cs!"6.0.3" tinySymbols) [] { vmlinux := some cs!"vmlinux" } {}).1 = .ok 0 ∧
    ¬ BuildMode { vmlinux := some cs!"vmlinux" } ∧ ¬ AsksForHelp { vmlinux := some cs!"vmlinux" } := by
  refine ⟨⟨?_, ?_⟩, ?_, by decide +kernel, by simp [BuildMode], by simp [AsksForHelp]⟩
  · intro l; exact .refl _
  · exact ⟨fun _ => .refl _, fun _ => .refl _⟩
  · intro hist
    refine ⟨fun _ => cs!"??:0", fun addrs rows h => ?_⟩
    cases h
    rfl

/-- the small image, with JSON output: the hypotheses hold -/
example : Pythonic (tinyWorld cs!"6.0.3" tinySymbols) ∧
    (main (tinyWorld cs!"6.0.3" tinySymbols) [] { vmlinux := some cs!"vmlinux", format := .json } {}).1 = .ok 0 ∧
    ¬ BuildMode { vmlinux := some cs!"vmlinux", format := .json } ∧ ¬ AsksForHelp { vmlinux := some cs!"vmlinux", format := .json } := by
  refine ⟨⟨?_, ?_⟩, by decide +kernel, by simp [BuildMode], by simp [AsksForHelp]⟩
  · intro l; exact .refl _
  · exact ⟨fun _ => .refl _, fun _ => .refl _⟩

end Verif
