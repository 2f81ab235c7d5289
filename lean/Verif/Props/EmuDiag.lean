import Verif.Lemmas.EmuDiag
/-! # C116: what is told when the syscall switch cannot be analysed -/
set_option autoImplicit false

namespace Verif
open Spec

/-- The messages change nothing: the outcome is that of the analysis all other properties are about. -/
theorem C116_same (text : Insn → Str) (x : X86Env) (a : Arch) (e : Elf) :
    (extractVaddrsL text x a e).2 = extractVaddrs x a e := extractVaddrsL_snd text x a e

/-- the analysis of a dispatch function, in parts -/
theorem dispatch_log (text : Insn → Str) (x : X86Env) (a : Arch) (e : Elf) (sym : Symbol) (insns : List Insn) (h : Dispatch x a e sym insns) :
    extractVaddrsL text x a e = (do
      match ← emulateL text sym.name sym.realVaddr sym.size insns with
      | none => LM.pure []
      | some (nrs, cands) =>
        match ← collectL text x.numOrder nrs (x.candOrder cands) false [] with
        | none => LM.pure []
        | some d => LM.pure d) := by
  obtain ⟨h1, h2, h3, h4, code, h5, h6⟩ := h
  unfold extractVaddrsL
  rw [if_neg (by simp [h1]), h2, h3]
  rw [lm_quiet (LM.lift (pyAssert (none : Option Str).isNone)) _ () rfl rfl]
  simp only
  rw [if_neg (by omega), lm_quiet (LM.lift (e.readSymbol sym)) _ code rfl h5, ← h6]
  rfl

theorem bind_none_said {α β : Type} (m : LM (Option α)) (k : Option α → LM β) (h : m.2 = .ok none) (hk : (k none).1 = []) :
    said (m >>= k).1 = said m.1 := by
  rw [lm_bind_fst _ _ none h, hk, List.append_nil]

/-- Architectures without table other than x86 are told about, and give nothing. -/
theorem C116_other_arch (text : Insn → Str) (x : X86Env) (a : Arch) (e : Elf) (h : a.kind ≠ .x86) :
    said (extractVaddrsL text x a e).1 = [(.error, some cs!"Sorry, don't know how to extract syscall vaddrs for this arch!")] ∧
    (extractVaddrsL text x a e).2 = .ok [] := by
  unfold extractVaddrsL
  rw [if_pos h]
  exact ⟨rfl, rfl⟩

/-- A missing dispatch function is told about, with its name. -/
theorem C116_missing (text : Insn → Str) (x : X86Env) (a : Arch) (e : Elf) (h : a.kind = .x86) (ht : a.tableName = none)
    (hm : dget (a.abi ++ cs!"_sys_call") e.functions = none) :
    said (extractVaddrsL text x a e).1 = [(.error, some (cs!"Could not find function " ++ a.abi ++ cs!"_sys_call"))] ∧
    (extractVaddrsL text x a e).2 = .ok [] := by
  unfold extractVaddrsL
  rw [if_neg (by simp [h]), ht, hm, lm_quiet (LM.lift (pyAssert (none : Option Str).isNone)) _ () rfl rfl]
  refine ⟨?_, rfl⟩
  rw [lm_bind_fst _ _ () rfl]
  simp [said, LM.log, LM.pure, LogCall.text, pyFormat, LogArg.str]

/-- A dispatch function of less than sixteen bytes is told about, with its name and size. -/
theorem C116_too_small (text : Insn → Str) (x : X86Env) (a : Arch) (e : Elf) (sym : Symbol) (h : a.kind = .x86) (ht : a.tableName = none)
    (hm : dget (a.abi ++ cs!"_sys_call") e.functions = some sym) (hs : sym.size < 16) :
    said (extractVaddrsL text x a e).1 = [(.error, some (sym.name ++ cs!" is too small (" ++ natRepr sym.size ++ cs!" bytes)"))] ∧
    (extractVaddrsL text x a e).2 = .ok [] := by
  unfold extractVaddrsL
  rw [if_neg (by simp [h]), ht, hm, lm_quiet (LM.lift (pyAssert (none : Option Str).isNone)) _ () rfl rfl]
  simp only
  rw [if_pos hs]
  refine ⟨?_, rfl⟩
  rw [lm_bind_fst _ _ () rfl]
  simp [said, LM.log, LM.pure, LogCall.text, pyFormat, LogArg.str]

/-- When no register is compared at all, that is told. -/
theorem C116_no_register (text : Insn → Str) (x : X86Env) (a : Arch) (e : Elf) (sym : Symbol) (insns : List Insn)
    (hd : Dispatch x a e sym insns) (h : ∀ i ∈ insns, ∀ r, ¬ ComparesReg i r) :
    said (extractVaddrsL text x a e).1 = [(.error, some cs!"Could not find syscall number register")] ∧
    (extractVaddrsL text x a e).2 = .ok [] := by
  rw [dispatch_log text x a e sym insns hd]
  unfold emulateL
  rw [numberReg_none insns h]
  exact ⟨rfl, rfl⟩

/-- The analysis stops at the first instruction, in the order of the code, that it cannot deal with. One true reason is told, with
the address of the instruction, and nothing is extracted. Whether the instruction is ever reached does not matter. -/
theorem C116_stops (text : Insn → Str) (x : X86Env) (a : Arch) (e : Elf) (sym : Symbol) (insns : List Insn) (r : Nat)
    (hd : Dispatch x a e sym insns) (hr : FirstCompared insns r) (pre post : List Insn) (i : Insn) (hi : insns = pre ++ i :: post)
    (hpre : ∀ pre' j post' m, pre = pre' ++ j :: post' → ¬ Stops text sym.name sym.realVaddr (sym.realVaddr + sym.size) r pre' j m)
    (hs : ∃ m, Stops text sym.name sym.realVaddr (sym.realVaddr + sym.size) r pre i m) :
    (∃ m, Stops text sym.name sym.realVaddr (sym.realVaddr + sym.size) r pre i m ∧
      said (extractVaddrsL text x a e).1 = [(.error, some m)]) ∧ (extractVaddrsL text x a e).2 = .ok [] := by
  rw [dispatch_log text x a e sym insns hd]
  unfold emulateL
  rw [numberReg_first insns r hr]
  simp only
  have hb : passBound insns = insns.length * nrMax + 1 := rfl
  obtain ⟨h1, m, h2, h3⟩ := passLoopL_stops text sym.name sym.realVaddr (sym.realVaddr + sym.size) r insns pre post i hi
    (fun pre' j post' m h => by rw [List.nil_append]; exact hpre pre' j post' m h) hs (insns.length * nrMax) (initialNrs sym.realVaddr) []
  rw [hb]
  have h4 := passLoopL_snd text sym.name sym.realVaddr (sym.realVaddr + sym.size) r insns (insns.length * nrMax + 1) (initialNrs sym.realVaddr) []
  rw [h1] at h4
  refine ⟨⟨m, h2, ?_⟩, ?_⟩
  · rw [bind_none_said _ _ h4 rfl, h3]
  · rw [lm_bind_snd, h4]
    rfl

/-- Whatever the function: at most one message, an error, and then nothing is extracted. -/
theorem C116_one_error (text : Insn → Str) (x : X86Env) (hx : OrdersOk x) (a : Arch) (e : Elf) :
    said (extractVaddrsL text x a e).1 = [] ∨
    ∃ t, said (extractVaddrsL text x a e).1 = [(.error, some t)] ∧ (extractVaddrsL text x a e).2 = .ok [] := by
  by_cases hk : a.kind ≠ .x86
  · exact .inr ⟨_, C116_other_arch text x a e hk⟩
  have hk := Decidable.not_not.1 hk
  cases ht : a.tableName with
  | some t =>
    left
    unfold extractVaddrsL
    rw [if_neg (by simp [hk]), ht]
    rfl
  | none =>
  cases hm : dget (a.abi ++ cs!"_sys_call") e.functions with
  | none => exact .inr ⟨_, C116_missing text x a e hk ht hm⟩
  | some sym =>
  by_cases hs : sym.size < 16
  · exact .inr ⟨_, C116_too_small text x a e sym hk ht hm hs⟩
  cases hc : e.readSymbol sym with
  | error ex =>
    left
    unfold extractVaddrsL
    rw [if_neg (by simp [hk]), ht, hm, lm_quiet (LM.lift (pyAssert (none : Option Str).isNone)) _ () rfl rfl]
    simp only
    rw [if_neg hs, hc]
    rfl
  | ok code =>
  have hd : Dispatch x a e sym (x.decode a.bits32 code sym.realVaddr) := ⟨hk, ht, hm, by omega, code, hc, rfl⟩
  generalize x.decode a.bits32 code sym.realVaddr = insns at hd
  cases hn : numberReg insns with
  | none =>
    right
    rw [dispatch_log text x a e sym insns hd]
    unfold emulateL
    rw [hn]
    exact ⟨_, rfl, rfl⟩
  | some r =>
  by_cases hu : Understood text sym.name sym.realVaddr (sym.realVaddr + sym.size) r [] insns
  · rw [dispatch_log text x a e sym insns hd]
    obtain ⟨h1, h2⟩ := passLoopL_quiet text sym.name sym.realVaddr (sym.realVaddr + sym.size) r insns hu (passBound insns) (initialNrs sym.realVaddr) []
    have h3 := passLoopL_snd text sym.name sym.realVaddr (sym.realVaddr + sym.size) r insns (passBound insns) (initialNrs sym.realVaddr) []
    unfold emulateL
    rw [hn]
    simp only
    cases hp : passLoop sym.realVaddr (sym.realVaddr + sym.size) r insns (passBound insns) (initialNrs sym.realVaddr) [] with
    | error ex =>
      obtain ⟨res, hres, _⟩ := C44_terminates sym.realVaddr sym.size insns
      unfold emulate at hres
      rw [hn] at hres
      simp only at hres
      rw [hp] at hres
      cases hres
    | ok res =>
    cases res with
    | none => exact absurd hp h2
    | some p =>
    obtain ⟨nrs, cands⟩ := p
    rw [lm_quiet _ _ (some (nrs, cands)) h1 (by rw [h3, hp])]
    simp only
    have hcs := collectL_snd text x.numOrder nrs (x.candOrder cands) false []
    rcases collectL_either text x.numOrder hx.numbers nrs (x.candOrder cands) (x.candOrder cands) [] false [] rfl (by simp)
      (by simp [dget]) with ⟨d, g1, g2⟩ | ⟨g1, t, _, g2⟩
    · left
      rw [lm_quiet _ _ (some d) g2 (by rw [hcs, g1])]
      rfl
    · right
      rw [g1] at hcs
      refine ⟨t, ?_, ?_⟩
      · rw [bind_none_said _ _ hcs rfl, g2]
      · rw [lm_bind_snd, hcs]
        rfl
  · right
    rw [dispatch_log text x a e sym insns hd]
    unfold emulateL
    rw [hn]
    simp only
    rcases insnLoopL_either text sym.name sym.realVaddr (sym.realVaddr + sym.size) r insns [] _ (after_nil (initialNrs sym.realVaddr) []) with
      ⟨_, _, _, g⟩ | ⟨_, pre, j, post, m, g2, g3, g4, _⟩
    · exact absurd g hu
    · obtain ⟨h1, m, h2, h3⟩ := passLoopL_stops text sym.name sym.realVaddr (sym.realVaddr + sym.size) r insns pre post j g2 g4 ⟨m, by simpa using g3⟩
        (insns.length * nrMax) (initialNrs sym.realVaddr) []
      have h4 := passLoopL_snd text sym.name sym.realVaddr (sym.realVaddr + sym.size) r insns (insns.length * nrMax + 1) (initialNrs sym.realVaddr) []
      rw [h1] at h4
      have hb : passBound insns = insns.length * nrMax + 1 := rfl
      rw [hb]
      refine ⟨m, ?_, ?_⟩
      · rw [bind_none_said _ _ h4 rfl, h3]
      · rw [lm_bind_snd, h4]
        rfl

/-- an emulation that succeeds tells nothing -/
theorem emulateL_quiet (text : Insn → Str) (func : Str) (start size : Nat) (insns : List Insn) (p : Nrs × List Insn)
    (h : emulate start size insns = .ok (some p)) : (emulateL text func start size insns).1 = [] := by
  unfold emulate at h
  unfold emulateL
  cases hn : numberReg insns with
  | none => rw [hn] at h; cases h
  | some r =>
  rw [hn] at h
  simp only at h ⊢
  by_cases hu : Understood text func start (start + size) r [] insns
  · exact (passLoopL_quiet text func start (start + size) r insns hu (passBound insns) (initialNrs start) []).1
  · rcases insnLoopL_either text func start (start + size) r insns [] _ (after_nil (initialNrs start) []) with
      ⟨_, _, _, g⟩ | ⟨_, pre, j, post, m, g2, g3, g4, _⟩
    · exact absurd g hu
    · obtain ⟨h1, _⟩ := passLoopL_stops text func start (start + size) r insns pre post j g2 g4 ⟨m, by simpa using g3⟩
        (insns.length * nrMax) (initialNrs start) []
      have hb : passBound insns = insns.length * nrMax + 1 := rfl
      rw [hb, h1] at h
      cases h

theorem countP_two (p : Insn → Bool) (i j : Insn) (h : i.key ≠ j.key) (hi : p i = true) (hj : p j = true) :
    ∀ l : List Insn, i ∈ l → j ∈ l → 2 ≤ l.countP p := by
  have one : ∀ (k : Insn) (l : List Insn), k ∈ l → p k = true → 1 ≤ l.countP p := fun k l hk hp => List.countP_pos_iff.2 ⟨k, hk, hp⟩
  intro l
  induction l with
  | nil => simp
  | cons k l ih =>
    intro h1 h2
    rcases List.mem_cons.1 h1 with rfl | g1
    · rcases List.mem_cons.1 h2 with rfl | g2
      · exact absurd rfl h
      · rw [List.countP_cons_of_pos hi]
        have := one j l g2 hj
        omega
    · rcases List.mem_cons.1 h2 with rfl | g2
      · rw [List.countP_cons_of_pos hj]
        have := one i l g1 hi
        omega
      · have := ih g1 g2
        rw [List.countP_cons]
        omega

/-- When every instruction is understood, a message is shown exactly if something does not fit together, and the message says
what. -/
theorem C116_conflict (text : Insn → Str) (x : X86Env) (hx : OrdersOk x) (a : Arch) (e : Elf) (sym : Symbol) (insns : List Insn) (r : Nat)
    (hd : Dispatch x a e sym insns) (hg : GoodSwitch r sym.realVaddr (sym.realVaddr + sym.size) insns) :
    (said (extractVaddrsL text x a e).1 ≠ [] ↔ ∃ t, Conflict text r sym.realVaddr (sym.realVaddr + sym.size) insns t) ∧
    ∀ lv t, (lv, t) ∈ said (extractVaddrsL text x a e).1 →
      lv = .error ∧ ∃ t', t = some t' ∧ Conflict text r sym.realVaddr (sym.realVaddr + sym.size) insns t' := by
  obtain ⟨hc, hs, hf, hk, _⟩ := hg
  obtain ⟨nrs, cands, he, hex, hcin, hcov⟩ := emulate_exact r sym.realVaddr sym.size insns hc hs hf
  have hkeys := emulate_cands _ _ _ _ _ he
  have hperm := hx.cands cands
  have hnum : ∀ i, IsExit sym.realVaddr (sym.realVaddr + sym.size) i → ∀ n, n ∈ numbersAt nrs i.target ↔
      n < 4096 ∧ LeavesTo r sym.realVaddr (sym.realVaddr + sym.size) insns n i.target := by
    intro i hi n
    rw [mem_numbersAt, hex]
    exact ⟨fun ⟨a, _, b⟩ => ⟨a, b, hi.2⟩, fun ⟨a, b, _⟩ => ⟨a, a, b⟩⟩
  have hbig : ∀ i, IsExit sym.realVaddr (sym.realVaddr + sym.size) i → (bigAt nrs i = true ↔
      DefaultTarget r sym.realVaddr (sym.realVaddr + sym.size) insns i.target) := by
    intro i hi
    rw [default_iff _ _ _ _ nrs _ (hnum i hi)]
    simp [bigAt]
  rw [dispatch_log text x a e sym insns hd,
    lm_quiet _ _ (some (nrs, cands)) (emulateL_quiet text sym.name _ _ _ _ he) (by rw [emulateL_snd, he])]
  simp only
  have hcs := collectL_snd text x.numOrder nrs (x.candOrder cands) false []
  rcases collectL_either text x.numOrder hx.numbers nrs (x.candOrder cands) (x.candOrder cands) [] false [] rfl (by simp)
    (by simp [dget]) with ⟨d, g1, g2⟩ | ⟨g1, t, hcl, g2⟩
  · rw [lm_quiet _ _ (some d) g2 (by rw [hcs, g1])]
    obtain ⟨⟨f1, f2, _⟩, _⟩ := collect_some _ hx.numbers _ _ _ _ _ g1
    refine ⟨⟨fun h => absurd rfl h, ?_⟩, by simp [LM.pure, said]⟩
    rintro ⟨t, h⟩
    exfalso
    cases h with
    | unreachable i hi hie hno =>
      obtain ⟨c, hcm, hck⟩ := hcov i hi hie
      have ht : c.target = i.target := hk c (hcin c hcm).1 i hi hck
      refine f1 c (hperm.mem_iff.2 hcm) (List.eq_nil_iff_forall_not_mem.2 fun n hn => ?_)
      have := (hnum c (hcin c hcm).2 n).1 hn
      rw [ht] at this
      exact hno n this.1 this.2
    | defaults i j hi hj hie hje hne hdi hdj =>
      obtain ⟨c, hcm, hck⟩ := hcov i hi hie
      obtain ⟨c', hcm', hck'⟩ := hcov j hj hje
      have ht : c.target = i.target := hk c (hcin c hcm).1 i hi hck
      have ht' : c'.target = j.target := hk c' (hcin c' hcm').1 j hj hck'
      have := countP_two (bigAt nrs) c c' (by rw [hck, hck']; exact hne) ((hbig c (hcin c hcm).2).2 (by rw [ht]; exact hdi))
        ((hbig c' (hcin c' hcm').2).2 (by rw [ht']; exact hdj)) (x.candOrder cands) (hperm.mem_iff.2 hcm) (hperm.mem_iff.2 hcm')
      simp at f2
      omega
  · rw [g1] at hcs
    rw [bind_none_said _ _ hcs rfl, g2]
    have hcon : Conflict text r sym.realVaddr (sym.realVaddr + sym.size) insns t := by
      cases hcl with
      | empty i hi h0 ht =>
        have hi' := hperm.mem_iff.1 hi
        rw [ht]
        refine .unreachable i (hcin i hi').1 (hcin i hi').2 fun n hn hl => ?_
        have := (hnum i (hcin i hi').2 n).2 ⟨hn, hl⟩
        rw [h0] at this
        exact absurd this (by simp)
      | defaults b c i j hall hi hbi hbj ht =>
        have hi' := hperm.mem_iff.1 (show i ∈ x.candOrder cands by simp [hall, hi])
        have hj' := hperm.mem_iff.1 (show j ∈ x.candOrder cands by simp [hall])
        have hnd : ((x.candOrder cands).map Insn.key).Nodup := (hperm.map _).nodup_iff.2 hkeys
        rw [ht]
        refine .defaults i j (hcin i hi').1 (hcin j hj').1 (hcin i hi').2 (hcin j hj').2 ?_ ((hbig i (hcin i hi').2).1 hbi)
          ((hbig j (hcin j hj').2).1 hbj)
        intro hkk
        rw [hall, List.map_append, List.map_cons] at hnd
        have := (List.nodup_append.1 hnd).2.2 i.key (List.mem_map.2 ⟨i, hi, rfl⟩) j.key (by simp)
        exact this hkk
      | number i j n hi hj hni hnj hne =>
        have hi' := hperm.mem_iff.1 hi
        have hj' := hperm.mem_iff.1 hj
        exact absurd (leaves_unique r _ _ insns hc n _ _ ((hnum i (hcin i hi').2 n).1 hni).2 ((hnum j (hcin j hj').2 n).1 hnj).2) hne
    refine ⟨⟨fun _ => ⟨t, hcon⟩, fun _ => by simp⟩, fun lv t' h => ?_⟩
    simp only [List.mem_singleton, Prod.mk.injEq] at h
    exact ⟨h.1, t, h.2, hcon⟩

/-- When nothing is told, everything is extracted. -/
theorem C116_complete (text : Insn → Str) (x : X86Env) (hx : OrdersOk x) (a : Arch) (e : Elf) (sym : Symbol) (insns : List Insn) (r : Nat)
    (hd : Dispatch x a e sym insns) (hg : GoodSwitch r sym.realVaddr (sym.realVaddr + sym.size) insns)
    (h : said (extractVaddrsL text x a e).1 = []) :
    ∃ d, (extractVaddrsL text x a e).2 = .ok d ∧ (d.map Prod.fst).Nodup ∧
      ∀ n t, (n, t) ∈ d ↔ n < 4096 ∧ LeavesTo r sym.realVaddr (sym.realVaddr + sym.size) insns n t ∧
        ¬ DefaultTarget r sym.realVaddr (sym.realVaddr + sym.size) insns t := by
  have hno : ¬ ∃ t, Conflict text r sym.realVaddr (sym.realVaddr + sym.size) insns t :=
    fun hc => (C116_conflict text x hx a e sym insns r hd hg).1.2 hc h
  rw [C116_same]
  refine C46_exact_partial x hx a e sym insns r hd hg.contiguous hg.supported hg.flags hg.keys hg.ends ?_ ?_
  · intro i hi hie
    by_contra hcon
    exact hno ⟨_, .unreachable i hi hie fun n hn hl => hcon ⟨n, hn, hl⟩⟩
  · intro i hi j hj hie hje hdi hdj
    by_contra hcon
    exact hno ⟨_, .defaults i j hi hj hie hje hcon hdi hdj⟩

/-! ## the hypotheses can be met -/

/-- a way to show instructions -/
def showInsn (i : Insn) : Str := cs!"insn " ++ natRepr i.key

/-- nothing is told about the small switch -/
theorem smallSwitch_quiet : said (extractVaddrsL showInsn (switchEnv smallSwitch) x64Switch switchElf).1 = [] := by decide +kernel

example : ∃ d, (extractVaddrsL showInsn (switchEnv smallSwitch) x64Switch switchElf).2 = .ok d ∧ (d.map Prod.fst).Nodup ∧
    ∀ n t, (n, t) ∈ d ↔ n < 4096 ∧ LeavesTo 1 0x1000 (0x1000 + 0x18) smallSwitch n t ∧
      ¬ DefaultTarget 1 0x1000 (0x1000 + 0x18) smallSwitch t :=
  C116_complete showInsn _ (switchEnv_orders _) _ _ _ _ 1 (switch_dispatch smallSwitch) smallSwitch_good smallSwitch_quiet

/-- two jumps to the default case: the message, and what C116_conflict says of it -/
example : said (extractVaddrsL showInsn (switchEnv twoDefaults) x64Switch switchElf).1 =
    [(.error, some cs!"Multiple default switch cases!?")] := by decide +kernel

example : ∃ t, Conflict showInsn 1 0x1000 (0x1000 + 0x18) twoDefaults t := by
  have hc : Contiguous 0x1000 (0x1000 + 0x18) twoDefaults := contiguousB_ok _ _ _ (by decide)
  have hs : Supported 1 0x1000 (0x1000 + 0x18) twoDefaults := supportedB_ok _ _ _ _ (by decide) (by decide)
  refine (C116_conflict showInsn (switchEnv twoDefaults) (switchEnv_orders _) x64Switch switchElf _ twoDefaults 1 (switch_dispatch twoDefaults)
    ⟨hc, hs, C45_fresh_targets _ _ _ _ hc hs (freshTargets_ok _ (by decide)), by unfold KeysOk; decide,
      ⟨twoDefaults.dropLast, ⟨0x100e, 0x1018, .jmp, [.other], 0x9000, 3⟩, rfl, .inr (.inl rfl)⟩⟩).1.1 ?_
  decide +kernel

/-- a branch reached only after a call -/
example : said (extractVaddrsL showInsn (switchEnv thunkSwitch) x64Switch switchElf).1 =
    [(.error, some cs!"Empty set of syscall numbers for 0x8000 (target of insn 5). Unreachable!?")] := by decide +kernel

/-- a switch followed by code that is never reached and compares another register -/
def deadCompare : List Insn :=
  [⟨0x1000, 0x1003, .cmp, [.reg 1, .imm 5], 0, 0⟩,
   ⟨0x1003, 0x1009, .jcc .e, [.other], 0x7005, 1⟩,
   ⟨0x1009, 0x100e, .jmp, [.other], 0x9000, 2⟩,
   ⟨0x100e, 0x1018, .cmp, [.reg 2, .imm 5], 0, 3⟩]

theorem deadCompare_first : FirstCompared deadCompare 1 :=
  ⟨[], _, _, rfl, ⟨.inl rfl, [], [.imm 5], rfl, by simp⟩, by simp⟩

theorem deadCompare_reach (n : Nat) (s : Nat × Option Nat) (h : Reach 1 0x1000 deadCompare n s) :
    s.1 ∈ [0x1000, 0x1003, 0x1009, 0x7005, 0x9000] := by
  induction h with
  | start => decide
  | step s s' _ hs ih =>
    cases hs with
    | cmp i v f hi hm ho | test i f hi hm ho | jmp i f hi hm | call i f hi hm | taken i c v hi hm ho | fall i c v hi hm ho | other i f hi hm =>
      all_goals
        simp only [deadCompare, List.mem_cons, List.not_mem_nil, or_false] at hi
        rcases hi with rfl | rfl | rfl | rfl <;> first | (simp at hm; done) | (simp at ih; done) | (simp; done)

/-- one comparison that is never reached is enough for nothing to be extracted -/
theorem C116_unreached :
    (∀ n f, ¬ Reach 1 0x1000 deadCompare n (0x100e, f)) ∧
    said (extractVaddrsL showInsn (switchEnv deadCompare) x64Switch switchElf).1 =
      [(.error, some cs!"Unexpected register in CMP instruction 0x100e: insn 3")] ∧
    (extractVaddrsL showInsn (switchEnv deadCompare) x64Switch switchElf).2 = .ok [] :=
  ⟨fun n f h => absurd (deadCompare_reach n _ h) (by simp), by decide +kernel, by decide +kernel⟩

/-- what C116_stops says of it -/
example : (∃ m, Stops showInsn cs!"x64_sys_call" 0x1000 (0x1000 + 0x18) 1 (deadCompare.take 3) ⟨0x100e, 0x1018, .cmp, [.reg 2, .imm 5], 0, 3⟩ m ∧
      said (extractVaddrsL showInsn (switchEnv deadCompare) x64Switch switchElf).1 = [(.error, some m)]) ∧
    (extractVaddrsL showInsn (switchEnv deadCompare) x64Switch switchElf).2 = .ok [] := by
  refine C116_stops showInsn _ _ _ _ deadCompare 1 (switch_dispatch deadCompare) deadCompare_first (deadCompare.take 3) [] _ rfl ?_
    ⟨_, .register 2 5 [] rfl (.inl rfl) (by decide)⟩
  intro pre' j post' m h hs
  have hj : (pre', j) ∈ [([], ⟨0x1000, 0x1003, .cmp, [.reg 1, .imm 5], 0, 0⟩),
      ([⟨0x1000, 0x1003, .cmp, [.reg 1, .imm 5], 0, 0⟩], ⟨0x1003, 0x1009, .jcc .e, [.other], 0x7005, 1⟩),
      ([⟨0x1000, 0x1003, .cmp, [.reg 1, .imm 5], 0, 0⟩, ⟨0x1003, 0x1009, .jcc .e, [.other], 0x7005, 1⟩], (⟨0x1009, 0x100e, .jmp, [.other], 0x9000, 2⟩ : Insn))] := by
    simp only [deadCompare, List.take] at h
    rcases pre' with _ | ⟨a, _ | ⟨b, _ | ⟨c, _ | ⟨d, t⟩⟩⟩⟩ <;> simp at h ⊢ <;> simp [h]
  simp only [List.mem_cons, List.not_mem_nil, or_false, Prod.mk.injEq] at hj
  rcases hj with ⟨rfl, rfl⟩ | ⟨rfl, rfl⟩ | ⟨rfl, rfl⟩ <;> cases hs
  all_goals first
    | (rename_i g; exact absurd rfl (g 1 5 []).1)
    | (rename_i t g1 g2 g3 g4; simp at g1; subst g1; exact absurd g2 (by decide))
    | simp_all

/-- functions without comparison, without the function, and too short -/
example : said (extractVaddrsL showInsn (switchEnv [⟨0x1000, 0x1018, .ret, [], 0, 0⟩]) x64Switch switchElf).1 =
    [(.error, some cs!"Could not find syscall number register")] :=
  (C116_no_register showInsn _ _ _ _ _ (switch_dispatch _) (by
    intro i hi r hr
    simp only [List.mem_singleton] at hi
    subst hi
    rcases hr.1 with h | h <;> cases h)).1
example : dget (x64Switch.abi ++ cs!"_sys_call") { switchElf with functions := [] }.functions = none := rfl
example : x64Switch.kind = .x86 ∧ x64Switch.tableName = none ∧ ({ x64Switch with kind := .arm }).kind ≠ .x86 := ⟨rfl, rfl, by decide⟩
example : said (extractVaddrsL showInsn (switchEnv []) x64Switch
    { switchElf with functions := [(cs!"x64_sys_call", ⟨0x1000, 0x1000, 15, cs!"FUNC", cs!"x64_sys_call"⟩)] }).1 =
    [(.error, some cs!"x64_sys_call is too small (15 bytes)")] :=
  (C116_too_small showInsn _ _ _ ⟨0x1000, 0x1000, 15, cs!"FUNC", cs!"x64_sys_call"⟩ rfl rfl (by decide +kernel) (by decide)).1

end Verif
