import Verif.Lemmas.Extract2
import Verif.Props.Kernel
/-! # C31-C37: from the table to the list of syscalls -/
set_option autoImplicit false

namespace Verif
open Spec

/-! ## C31 -/

/-- the word stored in memory at a virtual address -/
def PointerAt (e : Elf) (va v : Nat) : Prop :=
  ∃ off, e.vaddrToFileOffset va = .ok off ∧ WordAt e.bigEndian e.ptrSize e.data off v

theorem readPtr_iff (e : Elf) (va v : Nat) : e.readPtr va = .ok v ↔ PointerAt e va v := by
  unfold PointerAt Elf.readPtr Elf.vaddrRead
  cases h : e.vaddrToFileOffset va with
  | error x => simp [bind, Except.bind]
  | ok off =>
    simp only [bind, Except.bind, Except.ok.injEq, exists_eq_left']
    exact unpackUint_ok_iff _ _ _ _ _ (ptrSize_pos e)

/-- C31: on 64-bit PowerPC the table is used as it is when its first entry points into .text, is empty without .opd,
and is otherwise a table of descriptors, each of which is replaced by the pointer it holds. -/
theorem C31_descriptors (v : Ver) (abi : Str) (a : Arch) (ha : newArch .powerpc v abi false = .ok a)
    (e : Elf) (name : Str) (tbl : Symbol) (text : Section) (first : Nat)
    (htbl : dget name e.symbols = some tbl) (htext : dget cs!".text" e.sections = some text)
    (hfirst : PointerAt e tbl.vaddr first) :
    (PointsInto text first → vaddrsFromTable a e name = unpackTable e tbl text) ∧
    (¬ PointsInto text first → dget cs!".opd" e.sections = none → vaddrsFromTable a e name = .ok []) ∧
    (¬ PointsInto text first → ∀ opd, dget cs!".opd" e.sections = some opd → ∀ descs, unpackTable e tbl opd = .ok descs →
      ∀ vs, vaddrsFromTable a e name = .ok vs ↔ List.Forall₂ (PointerAt e) descs vs) := by
  have hdesc : a.usesFunctionDescriptors = true := by
    simp only [newArch, newPowerPC, bind, Except.bind, pyAssert] at ha
    repeat' (first | (cases ha; done) | (cases ha; rfl) | split at ha)
    all_goals simp_all
  have hr := (readPtr_iff e _ _).2 hfirst
  simp only [vaddrsFromTable, htbl, htext, hdesc, if_true, hr, bind, Except.bind]
  refine ⟨?_, ?_, ?_⟩
  · intro h
    rw [(contains_iff text first).2 h]
    rfl
  · intro h ho
    have : text.contains first = false := Bool.eq_false_iff.2 fun hc => h ((contains_iff _ _).1 hc)
    rw [this, ho]
    rfl
  · intro h opd ho descs hd vs
    have hc : text.contains first = false := Bool.eq_false_iff.2 fun hc => h ((contains_iff _ _).1 hc)
    rw [hc, ho]
    simp only [Bool.not_false, if_true, hd]
    have hmap : ∀ (ds ws : List Nat), derefDescriptors e ds = .ok ws ↔ List.Forall₂ (PointerAt e) ds ws := by
      intro ds
      unfold derefDescriptors
      induction ds with
      | nil =>
        intro ws
        simp only [mapRes, Except.ok.injEq]
        constructor
        · rintro rfl; exact .nil
        · rintro ⟨⟩; rfl
      | cons d ds ih =>
        intro ws
        simp only [mapRes, bind, Except.bind]
        cases hp : e.readPtr d with
        | error x =>
          simp only
          constructor
          · intro h; cases h
          · intro h
            cases h with
            | cons h1 _ => rw [(readPtr_iff e _ _).2 h1] at hp; cases hp
        | ok p =>
          simp only
          cases hrec : mapRes e.readPtr ds with
          | error x =>
            simp only
            constructor
            · intro h; cases h
            · intro h
              cases h with
              | cons _ h2 => rw [(ih _).2 h2] at hrec; cases hrec
          | ok ps =>
            simp only [Except.ok.injEq]
            constructor
            · rintro rfl
              exact .cons ((readPtr_iff e _ _).1 hp) ((ih _).1 hrec)
            · intro h
              cases h with
              | cons h1 h2 =>
                have h3 := (readPtr_iff e _ _).2 h1
                have h4 := (ih _).2 h2
                rw [hp] at h3; rw [hrec] at h4
                cases h3; cases h4; rfl
    cases hm : derefDescriptors e descs with
    | error x =>
      simp only
      constructor
      · intro h; cases h
      · intro h; rw [(hmap _ _).2 h] at hm; cases hm
    | ok ws =>
      simp only
      cases ws with
      | cons w ws =>
        simp only [List.isEmpty_cons, Bool.false_eq_true, if_false]
        rw [← hm]
        exact hmap _ _
      | nil =>
        simp only [List.isEmpty_nil, if_true]
        have hnil : descs = [] := by
          have := (hmap _ _).1 hm
          cases this; rfl
        subst hnil
        obtain ⟨off, hoff, hw⟩ := hfirst
        have hsz : ¬ tbl.size > 0x80 := by
          intro hsz
          simp only [unpackTable, hoff, bind, Except.bind, if_pos hsz] at hd
          unfold iterUnpack at hd
          split at hd
          · next hmod =>
            simp only [Except.ok.injEq, List.map_eq_nil_iff] at hd
            have hlen := chunks_length e.ptrSize ((readAt e.data off tbl.size).length / e.ptrSize) (readAt e.data off tbl.size)
            rw [hd] at hlen
            have h0 := Nat.div_add_mod (readAt e.data off tbl.size).length e.ptrSize
            rw [← hlen, hmod] at h0
            have h1 := (wordAt_exists e.bigEndian e.ptrSize e.data off (ptrSize_pos e)).1 ⟨first, hw⟩
            have h2 := ptrSize_pos e
            simp only [readAt, List.length_take, List.length_drop, List.length_nil, Nat.mul_zero] at h0
            omega
          · cases hd
        have : unpackTable e tbl text = .ok [] := by
          rw [C30_unsized e tbl text off hoff hsz]
          refine ⟨by simp, ⟨first, by simpa using hw⟩, ?_⟩
          rintro w ⟨h1, h2, -⟩
          simp only [List.length_nil, Nat.zero_mul, Nat.add_zero] at h1
          rw [wordAt_unique _ _ _ _ _ _ (ptrSize_pos e) h1 hw] at h2
          exact h h2
        rw [this]
        constructor
        · intro h; cases h; exact .nil
        · intro h; cases h; rfl

/-- a big-endian 64-bit kernel whose table holds one descriptor -/
def descriptorElf : Elf :=
  { bits32 := false, bigEndian := true, machine := 21, eflags := 0,
    data := encTable true 8 [0x210, 0] ++ encTable true 8 [0x104, 0x7777, 0],
    sections := [(cs!".text", ⟨cs!".text", 0x100, 0x1000, 0x20⟩), (cs!".data", ⟨cs!".data", 0x400, 0, 0x10⟩),
      (cs!".opd", ⟨cs!".opd", 0x210, 0x10, 0x18⟩)],
    symbols := [(cs!"sys_call_table", ⟨0x400, 0x400, 0, cs!"OBJECT", cs!"sys_call_table"⟩)],
    functions := [] }

example : ∃ a, newArch .powerpc [6, 0] cs!"ppc64" false = .ok a ∧
    vaddrsFromTable a descriptorElf cs!"sys_call_table" = .ok [0x104] := by
  refine ⟨_, rfl, ?_⟩
  decide +kernel

/-! ## C32 -/

/-- C32: an address of the table has a chosen symbol iff some symbol is there; the choice is a symbol of the ELF at that
address; it is a ni_syscall iff some ni_syscall is at that address. `niOrder` is any iteration order of the set of
ni_syscall symbols. -/
theorem C32_choice (a : Arch) (e : Elf) (niOrder : List Symbol) (hord : niOrder.Perm e.niSyscalls) (seen : List Nat)
    (va : Nat) (hva : va ∈ seen) :
    ((∃ s, s.vaddr = va ∧ (s ∈ e.syms ∨ IsNi e s)) ↔ ∃ s, dget va (symbolsByVaddr a e niOrder seen) = some s) ∧
    ∀ s, dget va (symbolsByVaddr a e niOrder seen) = some s →
      s.vaddr = va ∧ (s ∈ e.syms ∨ s ∈ e.functions.map Prod.snd) ∧ (IsNi e s ↔ ∃ t, IsNi e t ∧ t.vaddr = va) := by
  have hmemni : ∀ s, s ∈ niOrder ↔ IsNi e s := fun s => hord.mem_iff.trans (mem_niSyscalls e s)
  have hinit := initialByVaddr_get niOrder va
  rw [symbolsByVaddr_get a e niOrder seen va hva]
  have hmemsort : ∀ s, s ∈ e.sortedSyms ↔ s ∈ e.syms := fun s => (sortedSyms_perm e).mem_iff
  have hgen := chooseAt_foldl a e.niSyscalls va e.sortedSyms (dget va (initialByVaddr niOrder))
    (fun s => s.vaddr = va ∧ (s ∈ e.syms ∨ s ∈ e.functions.map Prod.snd))
    (fun s hs hv => ⟨hv, .inl ((hmemsort s).1 hs)⟩)
    (fun s hs => ⟨(hinit.1 s hs).2, .inr ((hmemni s).1 (hinit.1 s hs).1).1⟩)
  refine ⟨?_, ?_⟩
  · rw [← Option.isSome_iff_exists, hgen.2, hinit.2]
    constructor
    · rintro ⟨s, hv, hs | hs⟩
      · exact .inr ⟨s, (hmemsort s).2 hs, hv⟩
      · exact .inl ⟨s, (hmemni s).2 hs, hv⟩
    · rintro (⟨s, hs, hv⟩ | ⟨s, hs, hv⟩)
      · exact ⟨s, hv, .inr ((hmemni s).1 hs)⟩
      · exact ⟨s, hv, .inl ((hmemsort s).1 hs)⟩
  · intro s hs
    obtain ⟨h1, h2⟩ := hgen.1 s hs
    refine ⟨h1, h2, ⟨fun h => ⟨s, h, h1⟩, ?_⟩⟩
    rintro ⟨t, ht, hv⟩
    have hsome := hinit.2.2 ⟨t, (hmemni t).2 ht, hv⟩
    obtain ⟨s0, h0⟩ := Option.isSome_iff_exists.1 hsome
    rw [h0] at hs
    have h0ni : s0 ∈ e.niSyscalls := (mem_niSyscalls e s0).2 ((hmemni s0).1 (hinit.1 s0 h0).1)
    obtain ⟨x, hx, he⟩ := chooseAt_ni a e.niSyscalls va e.sortedSyms s0 h0ni
    rw [hs] at he
    cases he
    exact (mem_niSyscalls e s).1 hx

/-- a kernel where a ni_syscall shares its address with another symbol -/
def aliasElf : Elf :=
  let ni : Symbol := ⟨0x100, 0x100, 8, cs!"FUNC", cs!"sys_ni_syscall"⟩
  let al : Symbol := ⟨0x100, 0x100, 8, cs!"FUNC", cs!"sys_bdflush"⟩
  let x : Symbol := ⟨0x108, 0x108, 8, cs!"FUNC", cs!"sys_open"⟩
  let y : Symbol := ⟨0x108, 0x108, 8, cs!"FUNC", cs!"__se_sys_open"⟩
  let d : Dict Str Symbol := [ni, al, x, y].map fun s => (s.name, s)
  { bits32 := false, bigEndian := false, machine := 62, eflags := 0, data := [], sections := [], symbols := d, functions := d }

example : ∃ a, newArch .riscv [6, 0] cs!"rv64" false = .ok a ∧
    (symbolsByVaddr a aliasElf aliasElf.niSyscalls [0x100, 0x108]).map (fun p => p.2.name) =
      [cs!"sys_ni_syscall", cs!"sys_open"] := by
  refine ⟨_, rfl, ?_⟩
  decide +kernel

/-! ## C33 -/

/-- C33 is false of the code when two rows have the same name: only the last row of a name is kept
(theorem `C12_last_row_wins`), so that swapping two rows changes which address has a symbol. -/
theorem C33_reproducible_refuted :
    ∃ (a : Arch) (rows rows' : List Str) (e e' : Elf) (va : Nat), newArch .riscv [6, 0] cs!"rv64" false = .ok a ∧
      rows.Perm rows' ∧
      (e.symbols, e.functions) = extractSymbols 243 rows ∧ (e'.symbols, e'.functions) = extractSymbols 243 rows' ∧
      (∀ s, IsNi e s → s.vaddr ≠ va) ∧ (∀ s, IsNi e' s → s.vaddr ≠ va) ∧
      dget va (symbolsByVaddr a e e.niSyscalls [va]) ≠ dget va (symbolsByVaddr a e' e'.niSyscalls [va]) := by
  let r1 := cs!"  1: 0000000000000100     8 FUNC    GLOBAL DEFAULT    1 sys_open"
  let r2 := cs!"  2: 0000000000000200     8 FUNC    LOCAL  DEFAULT    1 sys_open"
  let mk := fun rows : List Str =>
    ({ bits32 := false, bigEndian := false, machine := 243, eflags := 0, data := [], sections := [],
       symbols := (extractSymbols 243 rows).1, functions := (extractSymbols 243 rows).2 } : Elf)
  refine ⟨_, [r1, r2], [r2, r1], mk [r1, r2], mk [r2, r1], 0x100, rfl, List.Perm.swap _ _ _, rfl, rfl, ?_, ?_, ?_⟩
  · have : (mk [r1, r2]).niSyscalls = [] := by decide +kernel
    intro s hs
    rw [IsNi, ← mem_niSyscalls, this] at hs
    cases hs
  · have : (mk [r2, r1]).niSyscalls = [] := by decide +kernel
    intro s hs
    rw [IsNi, ← mem_niSyscalls, this] at hs
    cases hs
  · decide +kernel

/-- C33, when the symbol names are distinct: the symbol chosen for an address without ni_syscall depends neither on the
order of the rows nor on the iteration order of the ni_syscall set. -/
theorem C33_reproducible_partial (a : Arch) (machine : Nat) (rows rows' : List Str) (hp : rows.Perm rows')
    (hd : (rows.filterMap (parseSymbolLine machine)).Pairwise fun s t => s.name ≠ t.name)
    (e e' : Elf) (he : (e.symbols, e.functions) = extractSymbols machine rows)
    (he' : (e'.symbols, e'.functions) = extractSymbols machine rows')
    (order order' : List Symbol) (ho : order.Perm e.niSyscalls) (ho' : order'.Perm e'.niSyscalls)
    (seen seen' : List Nat) (va : Nat) (hva : va ∈ seen) (hva' : va ∈ seen') (hni : ∀ s, IsNi e s → s.vaddr ≠ va) :
    dget va (symbolsByVaddr a e order seen) = dget va (symbolsByVaddr a e' order' seen') := by
  have hs : e.symbols = (extractSymbols machine rows).1 := congrArg Prod.fst he
  have hf : e.functions = (extractSymbols machine rows).2 := congrArg Prod.snd he
  have hs' : e'.symbols = (extractSymbols machine rows').1 := congrArg Prod.fst he'
  have hf' : e'.functions = (extractSymbols machine rows').2 := congrArg Prod.snd he'
  have hpf : (rows.filterMap (parseSymbolLine machine)).Perm (rows'.filterMap (parseSymbolLine machine)) := hp.filterMap _
  have hd' : (rows'.filterMap (parseSymbolLine machine)).Pairwise fun s t => s.name ≠ t.name :=
    hd.perm hpf (fun h => Ne.symm h)
  have m1 := mem_symbols_of_distinct machine rows hd
  have m2 := mem_symbols_of_distinct machine rows' hd'
  have hperm : e.syms.Perm e'.syms := by
    unfold Elf.syms
    rw [hs, hs']
    rw [List.perm_ext_iff_of_nodup]
    · intro s
      rw [(m1 s).1, (m2 s).1]
      exact hpf.mem_iff
    · exact snd_nodup _ (extractSymbols_nodup machine rows).1 fun p hp => by
        obtain ⟨l, -, -, h⟩ := (extractSymbols_mem machine rows).1 p hp; exact h
    · exact snd_nodup _ (extractSymbols_nodup machine rows').1 fun p hp => by
        obtain ⟨l, -, -, h⟩ := (extractSymbols_mem machine rows').1 p hp; exact h
  have hnames : ∀ s ∈ e.syms, ∀ t ∈ e.syms, s.name = t.name → s = t := by
    intro s h1 t h2 hn
    unfold Elf.syms at h1 h2
    rw [hs, (m1 _).1] at h1 h2
    exact pairwise_ne_inj Symbol.name _ hd s t h1 h2 hn
  have hnimem : ∀ s, s ∈ e.niSyscalls ↔ s ∈ e'.niSyscalls := by
    intro s
    rw [mem_niSyscalls, mem_niSyscalls, hf, hf', (m1 s).2, (m2 s).2, hpf.mem_iff]
  have hinit : ∀ (ord : List Symbol), (∀ s, s ∈ ord → s.vaddr ≠ va) → dget va (initialByVaddr ord) = none := by
    intro ord h
    have := (initialByVaddr_get ord va).2
    cases hx : dget va (initialByVaddr ord) with
    | none => rfl
    | some x =>
      rw [hx] at this
      obtain ⟨s, h1, h2⟩ := this.1 rfl
      exact absurd h2 (h s h1)
  have h1 : ∀ s, s ∈ order → s.vaddr ≠ va := fun s h => hni s ((mem_niSyscalls e s).1 (ho.mem_iff.1 h))
  have h2 : ∀ s, s ∈ order' → s.vaddr ≠ va := fun s h =>
    hni s ((mem_niSyscalls e s).1 ((hnimem s).2 (ho'.mem_iff.1 h)))
  rw [symbolsByVaddr_get a e order seen va hva, symbolsByVaddr_get a e' order' seen' va hva',
    hinit order h1, hinit order' h2, sortedSyms_congr e e' hperm hnames, chooseAt_congr a _ _ va hnimem]

example : let r1 := cs!"  1: 0000000000000100     8 FUNC    GLOBAL DEFAULT    1 sys_open"
    let r2 := cs!"  2: 0000000000000100     8 FUNC    LOCAL  DEFAULT    1 __se_sys_open"
    ([r1, r2].filterMap (parseSymbolLine 243)).map Symbol.name = [cs!"sys_open", cs!"__se_sys_open"] := by
  decide +kernel

/-! ## C34 -/

/-- C34: the number is a strictly increasing function of the table index, wherever it is defined, on every architecture,
ABI and version. -/
theorem C34_slot_increasing (a : Arch) (i j m n : Nat) (hi : a.slot i = some m) (hj : a.slot j = some n) :
    (i < j ↔ m < n) ∧ (i = j ↔ m = n) := by
  rcases Nat.lt_trichotomy i j with h | h | h
  · have := slot_strictMono a i j m n h hi hj; omega
  · subst h; rw [hi] at hj; cases hj; simp
  · have := slot_strictMono a j i n m h hj hi; omega

/-- C34: the syscalls reported from the table have strictly increasing numbers. -/
theorem C34_numbers_increasing (a0 : Arch) (e : Elf) (v : Ver) (env : KEnv) (hok : EnvOk env e) (out : List Syscall)
    (h : extractSyscalls a0 e v env = .ok out) :
    (out.filter fun sc => !sc.esoteric).Pairwise fun x y => x.number < y.number := by
  rcases extract_cases a0 e v env out h with rfl | ⟨entries, hb, he, hne, hni⟩
  · exact .nil
  obtain ⟨cands, located, signed, hx⟩ := extraction_of_ok a0 e v env entries out hb he hne hni h
  obtain ⟨ps, eso, esoScs, ref, code, hc⟩ := candidates_of_ok _ _ _ _ _ _ hx.cands_ok
  have hk := tableEntries_keys _ _ _ hok _ he
  obtain ⟨-, hpw, -⟩ := candidates_facts _ _ _ _ _ hk _ _ _ _ _ _ hc
  have hr := hok.locate _ _ hx.located_ok
  have hs := extractSignatures_resigned _ _ _ _ _ hx.signed_ok
  have key : ∀ l : List Syscall, (l.filter fun sc => !sc.esoteric).Pairwise (fun x y => x.number < y.number) ↔
      l.Pairwise (fun x y => x.esoteric = false → y.esoteric = false → x.number < y.number) := by
    intro l
    rw [List.pairwise_filter]
    constructor
    · intro h; exact h.imp fun {x y} h h1 h2 => h (by simp [h1]) (by simp [h2])
    · intro h; exact h.imp fun {x y} h h1 h2 => h (by simpa using h1) (by simpa using h2)
  rw [key] at hpw ⊢
  have h1 : located.Pairwise (fun x y => x.esoteric = false → y.esoteric = false → x.number < y.number) :=
    forall2_pairwise hr hpw fun a b a' b' h1 h2 h3 => by
      obtain ⟨-, e1, -, -, -, -, e2, -⟩ := relocated_fields h1
      obtain ⟨-, f1, -, -, -, -, f2, -⟩ := relocated_fields h2
      rw [e1, e2, f1, f2]; exact h3
  have h2 : signed.Pairwise (fun x y => x.esoteric = false → y.esoteric = false → x.number < y.number) :=
    forall2_pairwise hs h1 fun a b a' b' h1 h2 h3 => by
      obtain ⟨-, e1, -, -, -, -, e2, -⟩ := resigned_fields h1
      obtain ⟨-, f1, -, -, -, -, f2, -⟩ := resigned_fields h2
      rw [e1, e2, f1, f2]; exact h3
  exact h2.sublist (filterRes_sublist _ _ _ hx.out_ok)

/-! ## C35 -/

/-- C35 below, with the intermediate lists -/
theorem reported_full (a0 : Arch) (e : Elf) (v : Ver) (env : KEnv) (hok : EnvOk env e) (entries : List (Nat × Nat))
    (out : List Syscall) (hb : a0.bits32 = e.bits32) (he : tableEntries (a0.adjustAbi e) e env = .ok entries)
    (hne : entries ≠ []) (hni : ∃ s, IsNi e s) (h : extractSyscalls a0 e v env = .ok out) :
    let a := a0.adjustAbi e
    let chosen := fun va => dget va (symbolsByVaddr a e (env.niOrder e.niSyscalls) (entries.map Prod.snd))
    ∃ (ref : Option Symbol) (code : Option Bytes) (cands located : List Syscall),
      (ref = none → code = none ∧ ∀ p ∈ entries, ∀ s, chosen p.2 = some s → ¬ IsNi e s) ∧
      (∀ r, ref = some r → IsNi e r ∧ 0 < uses chosen entries r ∧
        (∀ s, IsNi e s → uses chosen entries s ≤ uses chosen entries r) ∧
        ∃ c, e.readSymbol r = .ok c ∧ code = some c) ∧
      env.locate cands = .ok located ∧
      (∀ sc, sc ∈ cands → ∀ i, sc.index = some i → Implemented a e chosen ref code entries i sc.symbol sc.number) ∧
      (∀ i sym num, Implemented a e chosen ref code entries i sym num →
        ∃ sc ∈ cands, sc.index = some i ∧ sc.symbol = sym ∧ sc.number = num) ∧
      (∀ i sym num, (∃ sc ∈ out, sc.index = some i ∧ sc.symbol = sym ∧ sc.number = num) ↔
        Implemented a e chosen ref code entries i sym num ∧
        ∃ sc ∈ located, sc.index = some i ∧ ¬ BadNi env.kdir sc) ∧
      (∀ sc ∈ out, sc.index = none ↔ sc.esoteric = true) ∧
      (∀ sc ∈ cands, Unlocated sc) ∧ (∀ sc ∈ out, ∃ l ∈ located, Resigned l sc) ∧
      ∃ (signed : List Syscall) (ps : List Str) (eso : List Esoteric) (esoScs : List Syscall),
        Extraction a e v env entries out cands located signed ∧
        Candidates a e v (env.niOrder e.niSyscalls) entries cands ps eso esoScs ref code := by
  intro a chosen
  have hni' : e.niSyscalls ≠ [] := by
    obtain ⟨s, hs⟩ := hni
    intro h0
    rw [IsNi, ← mem_niSyscalls, h0] at hs
    cases hs
  obtain ⟨cands, located, signed, hx⟩ := extraction_of_ok a0 e v env entries out hb he hne hni' h
  obtain ⟨ps, eso, esoScs, ref, code, hc⟩ := candidates_of_ok _ _ _ _ _ _ hx.cands_ok
  have hk := tableEntries_keys _ _ _ hok _ he
  obtain ⟨hmem, -, hidx⟩ := candidates_facts _ _ _ _ _ hk _ _ _ _ _ _ hc
  have hr := hok.locate _ _ hx.located_ok
  have hs := extractSignatures_resigned _ _ _ _ _ hx.signed_ok
  have hflags := esoteric_flags e eso esoScs hc.esoScs_ok
  have hni_iff : ∀ s, IsNi e s ↔ s ∈ e.niSyscalls := fun s => (mem_niSyscalls e s).symm
  -- candidates
  have hc1 : ∀ sc, sc ∈ cands → ∀ i, sc.index = some i →
      Implemented a e chosen ref code entries i sc.symbol sc.number := by
    intro sc hsc i hi
    obtain ⟨hd, (⟨j, va, sym, h1, h2, h3, h4, h5⟩ | h6)⟩ := (hmem sc).1 hsc
    · rw [h5] at hi hd
      simp only [makeSyscall, Syscall.new, Option.some.injEq] at hi
      subst hi
      have hsym : sc.symbol = sym := by rw [h5]; rfl
      refine ⟨va, h1, ?_, ?_, h4, ?_⟩
      · rw [hsym]; exact h2
      · rw [hsym, hni_iff]; exact h3
      · rw [hsym]; exact hd
    · rw [(hflags sc h6).2] at hi; cases hi
  have hc2 : ∀ i sym num, Implemented a e chosen ref code entries i sym num →
      ∃ sc ∈ cands, sc.index = some i ∧ sc.symbol = sym ∧ sc.number = num := by
    rintro i sym num ⟨va, h1, h2, h3, h4, h5⟩
    have hnum : (makeSyscall a v ps i sym).number = num := by
      have h4' := h4
      simp only [Arch.slot] at h4'
      split at h4'
      · cases h4'
      · cases h4'; rfl
    refine ⟨makeSyscall a v ps i sym, ?_, rfl, rfl, hnum⟩
    rw [hmem]
    refine ⟨h5, .inl ⟨i, va, sym, h1, h2, ?_, ?_, rfl⟩⟩
    · rw [← hni_iff]; exact h3
    · rw [hnum]; exact h4
  have hnone : ∀ sc ∈ cands, sc.index = none ↔ sc.esoteric = true := by
    intro sc hsc
    obtain ⟨-, (⟨j, va, sym, h1, h2, h3, h4, h5⟩ | h6)⟩ := (hmem sc).1 hsc
    · rw [h5]; simp [makeSyscall, Syscall.new]
    · simp [hflags sc h6]
  -- located
  have hlidx : located.Pairwise (fun x y => ∀ i, x.index = some i → y.index ≠ some i) :=
    forall2_pairwise hr hidx fun a b a' b' h1 h2 h3 => by
      rw [(relocated_fields h1).1, (relocated_fields h2).1]; exact h3
  have hluniq : ∀ x ∈ located, ∀ y ∈ located, ∀ i, x.index = some i → y.index = some i → x = y := by
    intro x hx y hy i h1 h2
    have hd : (located.filter fun s => decide (s.index = some i)).Pairwise (fun x y : Syscall => x ≠ x ∧ y ≠ y) := by
      rw [List.pairwise_filter]
      exact hlidx.imp fun {a b} h h1 h2 => absurd (by simpa using h2) (h i (by simpa using h1))
    have h3 : x ∈ located.filter fun s => decide (s.index = some i) := List.mem_filter.2 ⟨hx, by simpa using h1⟩
    have h4 : y ∈ located.filter fun s => decide (s.index = some i) := List.mem_filter.2 ⟨hy, by simpa using h2⟩
    generalize located.filter (fun s => decide (s.index = some i)) = l at hd h3 h4
    match l, hd with
    | [], _ => cases h3
    | [z], _ => rw [List.mem_singleton.1 h3, List.mem_singleton.1 h4]
    | z :: w :: l, hd =>
      rw [List.pairwise_cons] at hd
      exact absurd rfl (hd.1 w (by simp)).1
  have hout : ∀ x, x ∈ out ↔ x ∈ signed ∧ ¬ BadNi env.kdir x := by
    intro x
    rw [filterRes_mem _ _ _ hx.out_ok]
    refine and_congr_right fun hxs => ?_
    obtain ⟨b, hb⟩ := (filterRes_ok _ _ _ hx.out_ok).1 x hxs
    rw [← keepFinal_iff env.kdir x b hb, hb]
    simp
  refine ⟨ref, code, cands, located, ?_, ?_, hx.located_ok, hc1, hc2, ?_, ?_, ?_, ?_, signed, ps, eso, esoScs, hx, hc⟩
  · intro hnone
    refine ⟨hc.code.1 hnone, ?_⟩
    intro p hp s hps hs
    have := hc.ref
    rw [hnone] at this
    have hnil := (maxKey_none _).1 this.symm
    have hget := (niCounts_get e.niSyscalls
      (resolved (symbolsByVaddr a e (env.niOrder e.niSyscalls) (entries.map Prod.snd)) (sortEntries entries)) s).2
    rw [hnil] at hget
    have : (dget s ([] : Dict Symbol Nat)).isSome = true :=
      hget.2 ⟨(hni_iff s).1 hs, (p.1, s), (mem_resolved _ _ _ _).2
        ⟨p.2, (sortEntries_perm entries).mem_iff.2 hp, hps⟩, rfl⟩
    cases this
  · intro r hr'
    have href := hc.ref
    rw [hr'] at href
    obtain ⟨n, hn, hmax⟩ := maxKey_spec _ (niCounts_nodup _ _) r href.symm
    have hcount : ∀ s, (resolved (symbolsByVaddr a e (env.niOrder e.niSyscalls) (entries.map Prod.snd))
        (sortEntries entries)).countP (fun p => p.2 == s) = uses chosen entries s := by
      intro s
      unfold uses
      rw [← (sortEntries_perm entries).countP_eq]
      unfold resolved
      rw [List.countP_filterMap]
      apply List.countP_congr
      intro p _
      simp only [chosen]
      cases dget p.2 (symbolsByVaddr a e (env.niOrder e.niSyscalls) (entries.map Prod.snd)) <;> simp
    have hgetn := fun s => niCounts_get e.niSyscalls
      (resolved (symbolsByVaddr a e (env.niOrder e.niSyscalls) (entries.map Prod.snd)) (sortEntries entries)) s
    have hrni := ((hgetn r).2.1 (by rw [hn]; rfl))
    have hrval : n = uses chosen entries r := by
      have := (hgetn r).1
      rw [hn, show e.niSyscalls.contains r = true by simpa using hrni.1, if_pos rfl, hcount] at this
      simpa using this
    refine ⟨(hni_iff r).2 hrni.1, ?_, ?_, hc.code.2 r hr'⟩
    · obtain ⟨p, hp, hps⟩ := hrni.2
      rw [← hcount, List.countP_pos_iff]
      exact ⟨p, hp, by simpa using hps⟩
    · intro s hs
      have h1 := (hgetn s).1
      rw [show e.niSyscalls.contains s = true by simpa using (hni_iff s).1 hs, if_pos rfl, hcount] at h1
      rw [← h1, ← hrval]
      cases hds : dget s (niCounts e.niSyscalls
        (resolved (symbolsByVaddr a e (env.niOrder e.niSyscalls) (entries.map Prod.snd)) (sortEntries entries))) with
      | none => simp
      | some m => exact hmax s m hds
  · intro i sym num
    constructor
    · rintro ⟨sc, hsc, h1, h2, h3⟩
      obtain ⟨hsig, hbad⟩ := (hout sc).1 hsc
      obtain ⟨l, hl, hls⟩ := forall2_mem_right hs hsig
      obtain ⟨c, hcm, hcl⟩ := forall2_mem_right hr hl
      obtain ⟨r1, r2, -, -, r3, -⟩ := resigned_fields hls
      obtain ⟨l1, l2, -, -, l3, -⟩ := relocated_fields hcl
      have := hc1 c hcm i (by rw [← l1, ← r1]; exact h1)
      rw [← l2, ← l3, ← r2, ← r3, h2, h3] at this
      refine ⟨this, l, hl, by rw [← r1]; exact h1, ?_⟩
      rw [← badNi_resigned hls]; exact hbad
    · rintro ⟨himp, l, hl, h1, h2⟩
      obtain ⟨c, hcm, e1, e2, e3⟩ := hc2 i sym num himp
      obtain ⟨l', hl', hcl⟩ := forall2_mem_left hr hcm
      obtain ⟨l1, l2, -, -, l3, -⟩ := relocated_fields hcl
      have : l' = l := hluniq l' hl' l hl i (by rw [l1]; exact e1) h1
      subst this
      obtain ⟨s, hsm, hls⟩ := forall2_mem_left hs hl
      obtain ⟨r1, r2, -, -, r3, -⟩ := resigned_fields hls
      refine ⟨s, (hout s).2 ⟨hsm, ?_⟩, ?_, ?_, ?_⟩
      · rw [badNi_resigned hls]; exact h2
      · rw [r1]; exact h1
      · rw [r3, l3]; exact e2
      · rw [r2, l2]; exact e3
  · intro sc hsc
    obtain ⟨hsig, -⟩ := (hout sc).1 hsc
    obtain ⟨l, hl, hls⟩ := forall2_mem_right hs hsig
    obtain ⟨c, hcm, hcl⟩ := forall2_mem_right hr hl
    obtain ⟨r1, -, -, -, -, -, r2, -⟩ := resigned_fields hls
    obtain ⟨l1, -, -, -, -, -, l2, -⟩ := relocated_fields hcl
    rw [r1, l1, r2, l2]
    exact hnone c hcm
  · intro sc hsc
    obtain ⟨-, (⟨j, va, sym, h1, h2, h3, h4, h5⟩ | h6)⟩ := (hmem sc).1 hsc
    · rw [h5]; exact ⟨rfl, rfl, rfl, rfl⟩
    · exact esoteric_unlocated e eso esoScs hc.esoScs_ok sc h6
  · intro sc hsc
    obtain ⟨hsig, -⟩ := (hout sc).1 hsc
    exact forall2_mem_right hs hsig

/-- C35: a table index is reported iff it is implemented and its location is not one in kernel/sys_ni.c that could not be
confirmed; the reported syscall has the symbol and the number of the index. The reference for dummies is a ni_syscall used
most often in the table, with its code. `chosen` is the choice described by C32. -/
theorem C35_reported_iff (a0 : Arch) (e : Elf) (v : Ver) (env : KEnv) (hok : EnvOk env e) (entries : List (Nat × Nat))
    (out : List Syscall) (hb : a0.bits32 = e.bits32) (he : tableEntries (a0.adjustAbi e) e env = .ok entries)
    (hne : entries ≠ []) (hni : ∃ s, IsNi e s) (h : extractSyscalls a0 e v env = .ok out) :
    let a := a0.adjustAbi e
    let chosen := fun va => dget va (symbolsByVaddr a e (env.niOrder e.niSyscalls) (entries.map Prod.snd))
    ∃ (ref : Option Symbol) (code : Option Bytes) (cands located : List Syscall),
      (ref = none → code = none ∧ ∀ p ∈ entries, ∀ s, chosen p.2 = some s → ¬ IsNi e s) ∧
      (∀ r, ref = some r → IsNi e r ∧ 0 < uses chosen entries r ∧
        (∀ s, IsNi e s → uses chosen entries s ≤ uses chosen entries r) ∧
        ∃ c, e.readSymbol r = .ok c ∧ code = some c) ∧
      env.locate cands = .ok located ∧
      (∀ sc, sc ∈ cands → ∀ i, sc.index = some i → Implemented a e chosen ref code entries i sc.symbol sc.number) ∧
      (∀ i sym num, Implemented a e chosen ref code entries i sym num →
        ∃ sc ∈ cands, sc.index = some i ∧ sc.symbol = sym ∧ sc.number = num) ∧
      (∀ i sym num, (∃ sc ∈ out, sc.index = some i ∧ sc.symbol = sym ∧ sc.number = num) ↔
        Implemented a e chosen ref code entries i sym num ∧
        ∃ sc ∈ located, sc.index = some i ∧ ¬ BadNi env.kdir sc) ∧
      (∀ sc ∈ out, sc.index = none ↔ sc.esoteric = true) ∧
      (∀ sc ∈ cands, Unlocated sc) ∧ (∀ sc ∈ out, ∃ l ∈ located, Resigned l sc) := by
  intro a chosen
  obtain ⟨ref, code, cands, located, h1, h2, h3, h4, h5, h6, h7, h8, h9, -⟩ := reported_full a0 e v env hok entries out hb he hne hni h
  exact ⟨ref, code, cands, located, h1, h2, h3, h4, h5, h6, h7, h8, h9⟩

/-- C22, for what is reported: names are contiguous pieces of the symbol name. -/
theorem C22_reported_names (a0 : Arch) (e : Elf) (v : Ver) (env : KEnv) (hok : EnvOk env e) (out : List Syscall)
    (h : extractSyscalls a0 e v env = .ok out) (sc : Syscall) (hsc : sc ∈ out) (hes : sc.esoteric = false) :
    sc.origname <:+: sc.symbol.name ∧ sc.name <:+: sc.origname ∧ sc.name <:+: sc.symbol.name := by
  rcases extract_cases a0 e v env out h with rfl | ⟨entries, hb, he, hne, hni⟩
  · cases hsc
  obtain ⟨cands, located, signed, hx⟩ := extraction_of_ok a0 e v env entries out hb he hne hni h
  obtain ⟨ps, eso, esoScs, ref, code, hc⟩ := candidates_of_ok _ _ _ _ _ _ hx.cands_ok
  have hk := tableEntries_keys _ _ _ hok _ he
  obtain ⟨hmem, -, -⟩ := candidates_facts _ _ _ _ _ hk _ _ _ _ _ _ hc
  obtain ⟨l, hl, hls⟩ := forall2_mem_right (extractSignatures_resigned _ _ _ _ _ hx.signed_ok)
    ((filterRes_sublist _ _ _ hx.out_ok).subset hsc)
  obtain ⟨c, hcm, hcl⟩ := forall2_mem_right (hok.locate _ _ hx.located_ok) hl
  obtain ⟨-, -, r1, r2, r3, -, r4, -⟩ := resigned_fields hls
  obtain ⟨-, -, l1, l2, l3, -, l4, -⟩ := relocated_fields hcl
  rw [r1, r2, r3, l1, l2, l3]
  rw [r4, l4] at hes
  obtain ⟨-, (⟨i, va, sym, -, -, -, -, rfl⟩ | h6)⟩ := (hmem c).1 hcm
  · obtain ⟨h1, h2, h3, -⟩ := C22_names_are_pieces (a0.adjustAbi e) v ps i sym
    exact ⟨h1, h2, h3⟩
  · rw [(esoteric_flags e eso esoScs hc.esoScs_ok c h6).1] at hes
    cases hes

/-- C21, for what is reported: the original name is the translated symbol name without the longest of the prefixes
common to at least 20 implemented symbols. -/
theorem C21_reported_names (a0 : Arch) (e : Elf) (v : Ver) (env : KEnv) (hok : EnvOk env e) (out : List Syscall)
    (h : extractSyscalls a0 e v env = .ok out) :
    ∃ names : List Str, ∀ sc ∈ out, sc.esoteric = false →
      sc.symbol.name ∈ names ∧ sc.name = (a0.adjustAbi e).normalizeName sc.origname ∧
      ((∀ p, CommonPrefix names 20 p → ¬ p <+: (a0.adjustAbi e).translateName sc.symbol.name) →
        sc.origname = (a0.adjustAbi e).translateName sc.symbol.name) ∧
      ∀ p, CommonPrefix names 20 p → p <+: (a0.adjustAbi e).translateName sc.symbol.name →
        (∀ q, CommonPrefix names 20 q → q <+: (a0.adjustAbi e).translateName sc.symbol.name → q.length ≤ p.length) →
        p ++ sc.origname = (a0.adjustAbi e).translateName sc.symbol.name := by
  rcases extract_cases a0 e v env out h with rfl | ⟨entries, hb, he, hne, hni⟩
  · exact ⟨[], by simp⟩
  obtain ⟨cands, located, signed, hx⟩ := extraction_of_ok a0 e v env entries out hb he hne hni h
  obtain ⟨ps, eso, esoScs, ref, code, hc⟩ := candidates_of_ok _ _ _ _ _ _ hx.cands_ok
  have hk := tableEntries_keys _ _ _ hok _ he
  obtain ⟨hmem, -, -⟩ := candidates_facts _ _ _ _ _ hk _ _ _ _ _ _ hc
  refine ⟨(implSyms (a0.adjustAbi e) e (env.niOrder e.niSyscalls) entries).map fun p => p.2.name, ?_⟩
  intro sc hsc hes
  obtain ⟨l, hl, hls⟩ := forall2_mem_right (extractSignatures_resigned _ _ _ _ _ hx.signed_ok)
    ((filterRes_sublist _ _ _ hx.out_ok).subset hsc)
  obtain ⟨c, hcm, hcl⟩ := forall2_mem_right (hok.locate _ _ hx.located_ok) hl
  obtain ⟨-, -, r1, r2, r3, -, r4, -⟩ := resigned_fields hls
  obtain ⟨-, -, l1, l2, l3, -, l4, -⟩ := relocated_fields hcl
  rw [r1, r2, r3, l1, l2, l3]
  rw [r4, l4] at hes
  obtain ⟨-, (⟨i, va, sym, h1, h2, h3, -, rfl⟩ | h6)⟩ := (hmem c).1 hcm
  · have hin : (i, sym) ∈ implSyms (a0.adjustAbi e) e (env.niOrder e.niSyscalls) entries :=
      (mem_implSyms _ _ _ _ _ _).2 ⟨va, h1, h2, h3⟩
    have hnm : sym.name ∈ (implSyms (a0.adjustAbi e) e (env.niOrder e.niSyscalls) entries).map fun p => p.2.name :=
      List.mem_map.2 ⟨_, hin, rfl⟩
    refine ⟨hnm, rfl, ?_⟩
    obtain ⟨ps', hps', p1, p2⟩ := C21_longest_prefix _ (List.ne_nil_of_mem hnm) 20 (by decide)
      ((a0.adjustAbi e).translateName sym.name)
    rw [hc.prefixes_ok] at hps'
    cases hps'
    exact ⟨p1, p2⟩
  · rw [(esoteric_flags e eso esoScs hc.esoScs_ok c h6).1] at hes
    cases hes

/-! A small kernel on which the extraction can be followed. -/

/-- RISC-V code: `li a0,-38; ret`, then two different functions -/
def smallText : Bytes :=
  [0x13, 0x05, 0xa0, 0xfd, 0x67, 0x80, 0, 0, 0x93, 0x05, 0x10, 0, 0x67, 0x80, 0, 0, 0x93, 0x05, 0x20, 0, 0x67, 0x80, 0, 0]

/-- a 64-bit RISC-V kernel with the given table entries (all bytes after the text) -/
def smallElf (tbl : List Nat) : Elf :=
  let f := fun (va sz : Nat) (n : Str) => (⟨va, va, sz, cs!"FUNC", n⟩ : Symbol)
  let funcs := [f 0x100 8 cs!"__riscv_sys_ni_syscall", f 0x108 8 cs!"__riscv_sys_open", f 0x110 8 cs!"__riscv_sys_read"]
  let objs := [(⟨0x400, 0x400, 0, cs!"OBJECT", cs!"sys_call_table"⟩ : Symbol),
    ⟨0x400 + 8 * tbl.length, 0x400 + 8 * tbl.length, 0, cs!"OBJECT", cs!"end"⟩]
  { bits32 := false, bigEndian := false, machine := 243, eflags := 0,
    data := smallText ++ encTable false 8 (tbl ++ [0]),
    sections := [(cs!".text", ⟨cs!".text", 0x100, 0, 0x80⟩), (cs!".rodata", ⟨cs!".rodata", 0x400, 24, 0x100⟩)],
    symbols := (funcs ++ objs).map fun s => (s.name, s), functions := funcs.map fun s => (s.name, s) }

/-- no sources: locations are left alone -/
def plainEnv : KEnv :=
  { niOrder := fun l => l, archVaddrs := fun _ => .ok [], locate := .ok, files := fun _ => none, kdir := none }

theorem plainEnv_ok (e : Elf) : EnvOk plainEnv e := by
  refine ⟨List.Perm.refl _, ?_, ?_⟩
  · intro l h; cases h; exact List.nodup_nil
  · intro l l' h
    cases h
    induction l with
    | nil => exact .nil
    | cons x l ih => exact .cons rfl ih

/-- the hypotheses of C34, C35, C21 and C22 hold of an extraction that reports two syscalls -/
example : ∃ a0, newArch .riscv [6, 0] cs!"rv64" false = .ok a0 ∧ EnvOk plainEnv (smallElf [0x100, 0x108, 0x100, 0x110]) ∧
    a0.bits32 = (smallElf [0x100, 0x108, 0x100, 0x110]).bits32 ∧
    tableEntries (a0.adjustAbi (smallElf [0x100, 0x108, 0x100, 0x110])) (smallElf [0x100, 0x108, 0x100, 0x110]) plainEnv =
      .ok [(0, 0x100), (1, 0x108), (2, 0x100), (3, 0x110)] ∧
    (extractSyscalls a0 (smallElf [0x100, 0x108, 0x100, 0x110]) [6, 0] plainEnv).map
        (fun l => l.map fun sc => (sc.index, sc.number, sc.symbol.name)) =
      .ok [(some 1, 1, cs!"__riscv_sys_open"), (some 3, 3, cs!"__riscv_sys_read")] := by
  refine ⟨_, rfl, plainEnv_ok _, rfl, ?_, ?_⟩
  · decide +kernel
  · decide +kernel

/-! ## C36 -/

/-- C36 is false of the code: whenever some table address has no symbol, the extraction fails; it never returns the other
syscalls (the assertion at kernel.py:496 counts the entry). -/
theorem C36_unresolved_refuted (a0 : Arch) (e : Elf) (v : Ver) (env : KEnv) (hok : EnvOk env e) (entries : List (Nat × Nat))
    (hb : a0.bits32 = e.bits32) (he : tableEntries (a0.adjustAbi e) e env = .ok entries) (hni : ∃ s, IsNi e s)
    (p : Nat × Nat) (hp : p ∈ entries) (hno : ∀ s, s ∈ e.syms ∨ IsNi e s → s.vaddr ≠ p.2) :
    ∀ out, extractSyscalls a0 e v env ≠ .ok out := by
  intro out h
  have hni' : e.niSyscalls ≠ [] := by
    obtain ⟨s, hs⟩ := hni
    intro h0
    rw [IsNi, ← mem_niSyscalls, h0] at hs
    cases hs
  obtain ⟨cands, located, signed, hx⟩ := extraction_of_ok a0 e v env entries out hb he (List.ne_nil_of_mem hp) hni' h
  obtain ⟨ps, eso, esoScs, ref, code, hc⟩ := candidates_of_ok _ _ _ _ _ _ hx.cands_ok
  have hcount := hc.count
  rw [← (sortEntries_perm entries).length_eq, resolved_length_eq] at hcount
  have h1 := hcount p ((sortEntries_perm entries).mem_iff.2 hp)
  obtain ⟨s, hs⟩ := Option.isSome_iff_exists.1 h1
  obtain ⟨s', hv, hs'⟩ := (C32_choice (a0.adjustAbi e) e (env.niOrder e.niSyscalls) hok.order (entries.map Prod.snd) p.2
    (List.mem_map.2 ⟨p, hp, rfl⟩)).1.2 ⟨s, hs⟩
  exact hno s' hs' hv

/-- the failure of C36 on a table where only one address is unknown -/
example : ∃ a0, newArch .riscv [6, 0] cs!"rv64" false = .ok a0 ∧
    extractSyscalls a0 (smallElf [0x100, 0x108, 0x118, 0x110]) [6, 0] plainEnv = .error .assertion := by
  refine ⟨_, rfl, ?_⟩
  decide +kernel

/-- C36, for tables whose addresses all have symbols: the extraction up to locations succeeds as soon as one entry is
implemented, the esoteric syscalls are found, the code of the ni_syscalls can be read and the dummy check can read the code
of the symbols. -/
theorem C36_resolved_partial (a : Arch) (e : Elf) (v : Ver) (niOrder : List Symbol) (hord : niOrder.Perm e.niSyscalls)
    (entries : List (Nat × Nat))
    (hsym : ∀ p ∈ entries, ∃ s, s.vaddr = p.2 ∧ (s ∈ e.syms ∨ IsNi e s))
    (hone : ∃ p ∈ entries, ∀ t, IsNi e t → t.vaddr ≠ p.2)
    (eso : List Esoteric) (heso : a.extractEsoteric e = .ok eso) (hesosym : ∀ x ∈ eso, (dget x.symbolName e.symbols).isSome)
    (hread : ∀ s, IsNi e s → ∃ c, e.readSymbol s = .ok c)
    (hdummy : ∀ s, (s.vaddr ∈ entries.map Prod.snd ∧ (s ∈ e.syms ∨ s ∈ e.functions.map Prod.snd)) ∨
        (∃ x ∈ eso, dget x.symbolName e.symbols = some s) →
      (∃ b, a.isDummy s e none none = .ok b) ∧
      ∀ ni c, IsNi e ni → e.readSymbol ni = .ok c → ∃ b, a.isDummy s e (some ni) (some c) = .ok b) :
    ∃ out, candidateSyscalls a e v niOrder entries = .ok out := by
  have himpl : (resolved (symbolsByVaddr a e niOrder (entries.map Prod.snd)) (sortEntries entries)).filter
    (fun p => !e.niSyscalls.contains p.2) = implSyms a e niOrder entries := rfl
  have hC32 := fun va (h : va ∈ entries.map Prod.snd) => C32_choice a e niOrder hord (entries.map Prod.snd) va h
  have hres : (resolved (symbolsByVaddr a e niOrder (entries.map Prod.snd)) (sortEntries entries)).length = entries.length := by
    rw [← (sortEntries_perm entries).length_eq, resolved_length_eq]
    intro p hp
    have hp' := (sortEntries_perm entries).mem_iff.1 hp
    rw [Option.isSome_iff_exists]
    exact (hC32 p.2 (List.mem_map.2 ⟨p, hp', rfl⟩)).1.1 (hsym p hp')
  have hne : (implSyms a e niOrder entries).map (fun p => p.2.name) ≠ [] := by
    obtain ⟨p, hp, hno⟩ := hone
    have hC := hC32 p.2 (List.mem_map.2 ⟨p, hp, rfl⟩)
    obtain ⟨s, hs⟩ := hC.1.1 (hsym p hp)
    have hsni := (hC.2 s hs).2.2
    have : (p.1, s) ∈ implSyms a e niOrder entries := by
      rw [mem_implSyms]
      refine ⟨p.2, hp, hs, ?_⟩
      rw [mem_niSyscalls]
      intro hni
      obtain ⟨t, ht, hv⟩ := hsni.1 hni
      exact hno t ht hv
    exact List.ne_nil_of_mem (List.mem_map.2 ⟨_, this, rfl⟩)
  obtain ⟨ps, hps, -⟩ := C20_common_prefixes _ 20 hne (by decide)
  have hesc : ∃ l, esotericSyscalls e eso = .ok l := by
    clear heso hdummy
    unfold esotericSyscalls
    induction eso with
    | nil => exact ⟨[], rfl⟩
    | cons x xs ih =>
      obtain ⟨l, hl⟩ := ih fun y hy => hesosym y (by simp [hy])
      obtain ⟨s, hs⟩ := Option.isSome_iff_exists.1 (hesosym x (by simp))
      simp only [mapRes, hs, hl, bind, Except.bind]
      exact ⟨_, rfl⟩
  obtain ⟨esoScs, hesc⟩ := hesc
  have hesm : ∀ sc ∈ esoScs, ∃ x ∈ eso, dget x.symbolName e.symbols = some sc.symbol := by
    intro sc hsc
    obtain ⟨x, hxm, hx⟩ := forall2_mem_right (mapRes_get _ _ _ hesc) hsc
    split at hx
    · cases hx
    · next sym hsym2 =>
      cases hx
      exact ⟨x, hxm, hsym2⟩
  have hlen := mapRes_length _ _ _ hesc
  have hid := count_identity a e v niOrder entries ps
  simp only at hid
  simp only [candidateSyscalls, himpl, hps, heso, hesc, bind, Except.bind]
  rw [pyAssert, if_pos (by simp only [decide_eq_true_eq, List.length_append]; omega)]
  simp only
  have hall : ∀ ref code, (ref = none ∧ code = none ∨ ∃ ni c, IsNi e ni ∧ e.readSymbol ni = .ok c ∧ ref = some ni ∧ code = some c) →
      ∃ out, filterRes (fun sc => do let d ← a.isDummy sc.symbol e ref code; .ok (!d))
      (buildSyscalls a v ps (implSyms a e niOrder entries) ++ esoScs) = .ok out := by
    intro ref code hrc
    apply filterRes_of_ok
    intro sc hsc
    have hm : (sc.symbol.vaddr ∈ entries.map Prod.snd ∧ (sc.symbol ∈ e.syms ∨ sc.symbol ∈ e.functions.map Prod.snd)) ∨
        ∃ x ∈ eso, dget x.symbolName e.symbols = some sc.symbol := by
      rcases List.mem_append.1 hsc with h | h
      · obtain ⟨i, s, h1, rfl, -⟩ := (buildSyscalls_mem _ _ _ _ _).1 h
        obtain ⟨va, h2, h3, -⟩ := (mem_implSyms _ _ _ _ _ _).1 h1
        have h4 := (hC32 va (List.mem_map.2 ⟨_, h2, rfl⟩)).2 s h3
        exact .inl ⟨List.mem_map.2 ⟨_, h2, h4.1.symm⟩, h4.2.1⟩
      · exact .inr (hesm sc h)
    obtain ⟨hd1, hd2⟩ := hdummy sc.symbol hm
    have hb : ∃ b, a.isDummy sc.symbol e ref code = .ok b := by
      rcases hrc with ⟨rfl, rfl⟩ | ⟨ni, c, h1, h2, rfl, rfl⟩
      · exact hd1
      · exact hd2 ni c h1 h2
    obtain ⟨b, hb⟩ := hb
    exact ⟨!b, by simp [hb, bind, Except.bind]⟩
  generalize hk : maxKey _ = k
  cases k with
  | none => exact hall none none (.inl ⟨rfl, rfl⟩)
  | some s =>
    obtain ⟨n, hn, -⟩ := maxKey_spec _ (niCounts_nodup _ _) s hk
    have := ((niCounts_get _ _ s).2.1 (by rw [hn]; rfl)).1
    obtain ⟨c, hcc⟩ := hread s ((mem_niSyscalls e s).1 this)
    simp only [hcc]
    exact hall (some s) (some c) (.inr ⟨s, c, (mem_niSyscalls e s).1 this, hcc, rfl, rfl⟩)

/-- the hypotheses of C36_resolved_partial hold of a small kernel -/
example : ∃ a, newArch .riscv [6, 0] cs!"rv64" false = .ok a ∧ a.extractEsoteric (smallElf [0x100, 0x108]) = .ok [] ∧
    (∀ s, IsNi (smallElf [0x100, 0x108]) s → ∃ c, (smallElf [0x100, 0x108]).readSymbol s = .ok c) ∧
    (∃ p ∈ [(0, 0x100), (1, 0x108)], ∀ t, IsNi (smallElf [0x100, 0x108]) t → t.vaddr ≠ p.2) ∧
    (∀ s, (s.vaddr ∈ [0x100, 0x108] ∧ (s ∈ (smallElf [0x100, 0x108]).syms ∨ s ∈ (smallElf [0x100, 0x108]).functions.map Prod.snd)) →
      (∃ b, a.isDummy s (smallElf [0x100, 0x108]) none none = .ok b) ∧
      ∀ ni c, IsNi (smallElf [0x100, 0x108]) ni → (smallElf [0x100, 0x108]).readSymbol ni = .ok c →
        ∃ b, a.isDummy s (smallElf [0x100, 0x108]) (some ni) (some c) = .ok b) := by
  have hni : ∀ s, IsNi (smallElf [0x100, 0x108]) s → s = ⟨0x100, 0x100, 8, cs!"FUNC", cs!"__riscv_sys_ni_syscall"⟩ := by
    intro s hs
    rw [IsNi, ← mem_niSyscalls] at hs
    have h0 : (smallElf [0x100, 0x108]).niSyscalls = [⟨0x100, 0x100, 8, cs!"FUNC", cs!"__riscv_sys_ni_syscall"⟩] := by
      decide +kernel
    rw [h0] at hs
    exact List.mem_singleton.1 hs
  refine ⟨_, rfl, by decide +kernel, ?_, ?_, ?_⟩
  · intro s hs
    rw [hni s hs]
    exact ⟨smallText.take 8, by decide +kernel⟩
  · refine ⟨(1, 0x108), by simp, ?_⟩
    intro t ht
    rw [hni t ht]
    decide
  · rintro s ⟨hv, hs⟩
    have hs' : s = ⟨0x100, 0x100, 8, cs!"FUNC", cs!"__riscv_sys_ni_syscall"⟩ ∨ s = ⟨0x108, 0x108, 8, cs!"FUNC", cs!"__riscv_sys_open"⟩ := by
      simp [smallElf, Elf.syms] at hs
      rcases hs with (rfl | rfl | rfl | rfl | rfl) | (rfl | rfl | rfl) <;> simp at hv ⊢
    refine ⟨?_, ?_⟩
    · rcases hs' with rfl | rfl
      · exact ⟨false, by decide +kernel⟩
      · exact ⟨false, by decide +kernel⟩
    · intro ni c hni' hc
      rw [hni ni hni'] at hc ⊢
      have h1 : (smallElf [0x100, 0x108]).readSymbol ⟨0x100, 0x100, 8, cs!"FUNC", cs!"__riscv_sys_ni_syscall"⟩ =
        .ok (smallText.take 8) := by decide +kernel
      rw [h1] at hc
      cases hc
      rcases hs' with rfl | rfl
      · exact ⟨true, by decide +kernel⟩
      · exact ⟨false, by decide +kernel⟩

/-! ## C37 -/

/-- C37 is false of the code: whenever every table entry is unimplemented the extraction fails with ValueError (`max()` of
no names), instead of returning an empty list. -/
theorem C37_all_unimplemented_refuted (a0 : Arch) (e : Elf) (v : Ver) (env : KEnv) (hok : EnvOk env e)
    (entries : List (Nat × Nat)) (hb : a0.bits32 = e.bits32) (he : tableEntries (a0.adjustAbi e) e env = .ok entries)
    (hne : entries ≠ []) (hni : ∃ s, IsNi e s)
    (hall : ∀ p ∈ entries, (∃ s, IsNi e s ∧ s.vaddr = p.2) ∨ ∀ s, s ∈ e.syms → s.vaddr ≠ p.2) :
    extractSyscalls a0 e v env = .error .value := by
  have h2 : e.niSyscalls.isEmpty = false := by
    obtain ⟨s, hs⟩ := hni
    rw [IsNi, ← mem_niSyscalls] at hs
    cases hx : e.niSyscalls with
    | nil => rw [hx] at hs; cases hs
    | cons => rfl
  have h1 : entries.isEmpty = false := by cases entries with | nil => exact absurd rfl hne | cons => rfl
  have hnil : implSyms (a0.adjustAbi e) e (env.niOrder e.niSyscalls) entries = [] := by
    rw [List.eq_nil_iff_forall_not_mem]
    rintro ⟨i, s⟩ hm
    obtain ⟨va, h3, h4, h5⟩ := (mem_implSyms _ _ _ _ _ _).1 hm
    have hC := (C32_choice (a0.adjustAbi e) e (env.niOrder e.niSyscalls) hok.order (entries.map Prod.snd) va
      (List.mem_map.2 ⟨_, h3, rfl⟩)).2 s h4
    rw [mem_niSyscalls] at h5
    rcases hall _ h3 with ⟨t, ht, hv⟩ | hno
    · exact h5 (hC.2.2.2 ⟨t, ht, hv⟩)
    · rcases (C32_choice (a0.adjustAbi e) e (env.niOrder e.niSyscalls) hok.order (entries.map Prod.snd) va
        (List.mem_map.2 ⟨_, h3, rfl⟩)).1.2 ⟨s, h4⟩ with ⟨t, hv, ht | ht⟩
      · exact hno t ht hv
      · exact h5 (hC.2.2.2 ⟨t, ht, hv⟩)
  have hcand : candidateSyscalls (a0.adjustAbi e) e v (env.niOrder e.niSyscalls) entries = .error .value := by
    have himpl : (resolved (symbolsByVaddr (a0.adjustAbi e) e (env.niOrder e.niSyscalls) (entries.map Prod.snd))
      (sortEntries entries)).filter (fun p => !e.niSyscalls.contains p.2) =
        implSyms (a0.adjustAbi e) e (env.niOrder e.niSyscalls) entries := rfl
    simp only [candidateSyscalls, himpl, hnil, List.map_nil, C20_empty, bind, Except.bind]
  simp only [extractSyscalls, hb, ne_eq, not_true_eq_false, if_false, he, bind, Except.bind, h1, h2, Bool.false_eq_true,
    hcand]

/-- the failure of C37 on a table of ni_syscalls -/
example : ∃ a0, newArch .riscv [6, 0] cs!"rv64" false = .ok a0 ∧
    extractSyscalls a0 (smallElf [0x100, 0x100]) [6, 0] plainEnv = .error .value := by
  refine ⟨_, rfl, ?_⟩
  decide +kernel

/-- C37, for tables without any entry, kernels without ni_syscall and word size mismatches: the result is empty. -/
theorem C37_nothing_partial (a0 : Arch) (e : Elf) (v : Ver) (env : KEnv) (entries : List (Nat × Nat))
    (he : tableEntries (a0.adjustAbi e) e env = .ok entries)
    (h : entries = [] ∨ (∀ s, ¬ IsNi e s) ∨ a0.bits32 ≠ e.bits32) :
    extractSyscalls a0 e v env = .ok [] := by
  unfold extractSyscalls
  by_cases hb : a0.bits32 = e.bits32
  · simp only [hb, ne_eq, not_true_eq_false, if_false, he, bind, Except.bind]
    rcases h with rfl | h | h
    · rfl
    · have : e.niSyscalls = [] := by
        rw [List.eq_nil_iff_forall_not_mem]
        intro s hs
        exact h s ((mem_niSyscalls e s).1 hs)
      rw [this]
      split <;> rfl
    · exact absurd hb h
  · rw [if_pos hb]

example : ∃ a0, newArch .riscv [6, 0] cs!"rv64" false = .ok a0 ∧
    tableEntries (a0.adjustAbi (smallElf [])) (smallElf []) plainEnv = .ok [] := by
  refine ⟨_, rfl, ?_⟩
  decide +kernel

end Verif
