import Verif.Spec.Arch
import Verif.Lemmas.Utils
import Verif.Lemmas.Elf
/-! # Lemmas on architectures -/
set_option autoImplicit false

namespace Verif
open Spec

/-! ## Names -/

theorem suffix_append_eq {α : Type} {p n q : List α} (h : p <:+ n ++ q) (hl : p.length = q.length) : p = q := by
  obtain ⟨x, hx⟩ := h
  exact (List.append_inj' hx hl).2

theorem sliceToNeg_append {α : Type} (n q : List α) (k : Nat) (hk : q.length = k) (h0 : k ≠ 0) :
    sliceToNeg (n ++ q) k = n := by
  have h1 : n.length + q.length - k = n.length := by omega
  simp only [sliceToNeg, if_neg h0, List.length_append, h1]
  exact List.take_left

theorem nosuffix_append_first (n p : Str) (ps : List Str) (hp : p ≠ []) : nosuffix (n ++ p) (p :: ps) = n := by
  have h : endsWith (n ++ p) p = true := by rw [endsWith_iff]; exact List.suffix_append ..
  simp only [nosuffix, h, if_true]
  exact sliceToNeg_append n p _ rfl (by simpa using hp)

theorem nosuffix_skip (s p : Str) (ps : List Str) (h : ¬ p <:+ s) : nosuffix s (p :: ps) = nosuffix s ps := by
  have : endsWith s p = false := by
    cases hb : endsWith s p with
    | false => rfl
    | true => exact absurd ((endsWith_iff ..).1 hb) h
  simp [nosuffix, this]

theorem noprefix_skip (s p : Str) (ps : List Str) (h : ¬ p <+: s) : noprefix s (p :: ps) = noprefix s ps := by
  have : startsWith s p = false := by
    cases hb : startsWith s p with
    | false => rfl
    | true => exact absurd ((startsWith_iff ..).1 hb) h
  simp [noprefix, this]

theorem noprefix_hit (n p : Str) (ps : List Str) : noprefix (p ++ n) (p :: ps) = n := by
  have h : startsWith (p ++ n) p = true := by rw [startsWith_iff]; exact List.prefix_append ..
  simp [noprefix, h]

theorem noprefix_none {s : Str} {ps : List Str} (h : ∀ p ∈ ps, ¬ p <+: s) : noprefix s ps = s := by
  induction ps with
  | nil => rfl
  | cons p ps ih =>
    rw [noprefix_skip _ _ _ (h p (by simp)), ih fun q hq => h q (by simp [hq])]

theorem endsWith_false {s p : Str} (h : ¬ p <:+ s) : endsWith s p = false := by
  cases hb : endsWith s p with
  | false => rfl
  | true => exact absurd ((endsWith_iff ..).1 hb) h

theorem startsWith_false {s p : Str} (h : ¬ p <+: s) : startsWith s p = false := by
  cases hb : startsWith s p with
  | false => rfl
  | true => exact absurd ((startsWith_iff ..).1 hb) h

theorem noprefix_suffix (s : Str) (ps : List Str) : noprefix s ps <:+ s := by
  induction ps with
  | nil => exact List.suffix_refl _
  | cons p ps ih =>
    simp only [noprefix]
    split
    · exact List.drop_suffix ..
    · exact ih

theorem sliceToNeg_prefix {α : Type} (s : List α) (n : Nat) : sliceToNeg s n <+: s := by
  simp only [sliceToNeg]
  split
  · exact List.nil_prefix
  · exact List.take_prefix ..

theorem nosuffix_prefix (s : Str) (ps : List Str) : nosuffix s ps <+: s := by
  induction ps with
  | nil => exact List.prefix_refl _
  | cons p ps ih =>
    simp only [nosuffix]
    split
    · exact sliceToNeg_prefix ..
    · exact ih

/-- the part of normalisation after the time suffix -/
def Arch.normalizeTail (a : Arch) (n : Str) : Str :=
  a.normalizeArch (noprefix (noprefix n [cs!"32_", cs!"sys32_"]) [cs!"old_"])

/-- the time suffix part of normalisation -/
def stripTime (n : Str) : Str :=
  let n1 := nosuffix n [cs!"_time32", cs!"_time64"]
  if endsWith n1 cs!"time32" || endsWith n1 cs!"time64" then sliceToNeg n1 2 else n1

theorem normalizeName_eq (a : Arch) (n : Str) : a.normalizeName n = a.normalizeTail (stripTime n) := rfl

theorem suffix_cut {p q n : Str} (h : p ++ q <:+ n ++ q) : p <:+ n := by
  obtain ⟨x, hx⟩ := h
  exact ⟨x, by rw [← List.append_assoc] at hx; exact List.append_cancel_right hx⟩

theorem stripTime_suffix (n : Str) (h32 : ¬ cs!"_time32" <:+ n) (h64 : ¬ cs!"_time64" <:+ n) :
    stripTime (n ++ cs!"_time32") = stripTime n ∧ stripTime (n ++ cs!"_time64") = stripTime n := by
  have e0 : nosuffix n [cs!"_time32", cs!"_time64"] = n := by
    rw [nosuffix_skip _ _ _ h32, nosuffix_skip _ _ _ h64]; rfl
  have e1 : nosuffix (n ++ cs!"_time32") [cs!"_time32", cs!"_time64"] = n :=
    nosuffix_append_first _ _ _ (by simp)
  have e2 : nosuffix (n ++ cs!"_time64") [cs!"_time32", cs!"_time64"] = n := by
    rw [nosuffix_skip, nosuffix_append_first _ _ _ (by simp)]
    intro h
    have := suffix_append_eq h rfl
    revert this; decide
  simp only [stripTime, e0, e1, e2, and_self]

theorem suffix_last {p s : Str} {c d : Char} (h : p ++ [c] <:+ s ++ [d]) : c = d := by
  obtain ⟨x, hx⟩ := h
  rw [← List.append_assoc] at hx
  have := List.append_inj' hx rfl
  simpa using this.2

theorem stripTime_digits (n : Str) (h : cs!"time" <:+ n) (hn : ¬ cs!"_time" <:+ n) :
    stripTime (n ++ cs!"32") = n ∧ stripTime (n ++ cs!"64") = n ∧ stripTime n = n := by
  obtain ⟨m, rfl⟩ := h
  have k1 : ∀ p : Str, ∀ c : Char, c ≠ 'e' → ¬ p ++ [c] <:+ m ++ cs!"time" := by
    intro p c hc hs
    have e : m ++ cs!"time" = (m ++ cs!"tim") ++ ['e'] := by simp
    rw [e] at hs
    exact hc (suffix_last hs)
  have n32 : ¬ cs!"_time32" <:+ m ++ cs!"time" := k1 cs!"_time3" '2' (by decide)
  have n64 : ¬ cs!"_time64" <:+ m ++ cs!"time" := k1 cs!"_time6" '4' (by decide)
  have t32 : ¬ cs!"time32" <:+ m ++ cs!"time" := k1 cs!"time3" '2' (by decide)
  have t64 : ¬ cs!"time64" <:+ m ++ cs!"time" := k1 cs!"time6" '4' (by decide)
  refine ⟨?_, ?_, ?_⟩
  · have a1 : ¬ cs!"_time32" <:+ (m ++ cs!"time") ++ cs!"32" := fun hs => hn (suffix_cut (p := cs!"_time") hs)
    have a2 : ¬ cs!"_time64" <:+ (m ++ cs!"time") ++ cs!"32" := by
      intro hs
      have e : (m ++ cs!"time") ++ cs!"32" = ((m ++ cs!"time") ++ ['3']) ++ ['2'] := by simp
      rw [e] at hs
      exact absurd (suffix_last (p := cs!"_time6") hs) (by decide)
    have a3 : endsWith ((m ++ cs!"time") ++ cs!"32") cs!"time32" = true := by
      rw [endsWith_iff]; exact ⟨m, by simp⟩
    have a4 : nosuffix ((m ++ cs!"time") ++ cs!"32") [cs!"_time32", cs!"_time64"] = (m ++ cs!"time") ++ cs!"32" := by
      rw [nosuffix_skip _ _ _ a1, nosuffix_skip _ _ _ a2]; rfl
    simp only [stripTime, a4, a3, Bool.true_or, if_true]
    exact sliceToNeg_append (m ++ cs!"time") cs!"32" 2 rfl (by decide)
  · have a1 : ¬ cs!"_time64" <:+ (m ++ cs!"time") ++ cs!"64" := fun hs => hn (suffix_cut (p := cs!"_time") hs)
    have a2 : ¬ cs!"_time32" <:+ (m ++ cs!"time") ++ cs!"64" := by
      intro hs
      have e : (m ++ cs!"time") ++ cs!"64" = ((m ++ cs!"time") ++ ['6']) ++ ['4'] := by simp
      rw [e] at hs
      exact absurd (suffix_last (p := cs!"_time3") hs) (by decide)
    have a3 : endsWith ((m ++ cs!"time") ++ cs!"64") cs!"time64" = true := by
      rw [endsWith_iff]; exact ⟨m, by simp⟩
    have a4 : nosuffix ((m ++ cs!"time") ++ cs!"64") [cs!"_time32", cs!"_time64"] = (m ++ cs!"time") ++ cs!"64" := by
      rw [nosuffix_skip _ _ _ a2, nosuffix_skip _ _ _ a1]; rfl
    simp only [stripTime, a4, a3, Bool.or_true, if_true]
    exact sliceToNeg_append (m ++ cs!"time") cs!"64" 2 rfl (by decide)
  · have a4 : nosuffix (m ++ cs!"time") [cs!"_time32", cs!"_time64"] = m ++ cs!"time" := by
      rw [nosuffix_skip _ _ _ n32, nosuffix_skip _ _ _ n64]; rfl
    simp only [stripTime, a4, endsWith_false t32, endsWith_false t64, Bool.or_self, Bool.false_eq_true, if_false]

theorem stripTime_none (n : Str) (h : NoTimeSuffix n) : stripTime n = n := by
  obtain ⟨h32, h64⟩ := h
  have n32 : ¬ cs!"_time32" <:+ n := fun hs => h32 (List.IsSuffix.trans (List.suffix_append ['_'] cs!"time32") hs)
  have n64 : ¬ cs!"_time64" <:+ n := fun hs => h64 (List.IsSuffix.trans (List.suffix_append ['_'] cs!"time64") hs)
  have a4 : nosuffix n [cs!"_time32", cs!"_time64"] = n := by
    rw [nosuffix_skip _ _ _ n32, nosuffix_skip _ _ _ n64]; rfl
  simp only [stripTime, a4, endsWith_false h32, endsWith_false h64, Bool.or_self, Bool.false_eq_true, if_false]

theorem normalizeArch_none (a : Arch) (n : Str) (h : ∀ p ∈ sourcePrefixes a.kind a.abi, ¬ p <+: n) :
    a.normalizeArch n = n := by
  unfold Arch.normalizeArch
  unfold sourcePrefixes at h
  cases hk : a.kind <;> simp only [hk] at h ⊢
  · by_cases ho : a.abi = cs!"oabi"
    · simp only [ho, if_true] at h ⊢
      rw [noprefix_skip _ _ _ (h _ (by simp))]
      exact noprefix_none (by intro p hp; exact h p (by simp at hp ⊢; exact Or.inr hp))
    · simp only [if_neg ho] at h ⊢
      exact noprefix_none h
  all_goals first | exact noprefix_none h | rfl

theorem normalizeTail_none (a : Arch) (n : Str) (h : NoSourcePrefix a n) : a.normalizeTail n = n := by
  unfold NoSourcePrefix at h
  have h1 : noprefix n [cs!"32_", cs!"sys32_"] = n := noprefix_none fun p hp => h p (by
    simp only [List.mem_cons, List.not_mem_nil, or_false] at hp
    rcases hp with rfl | rfl <;> simp)
  have h2 : noprefix n [cs!"old_"] = n := noprefix_none fun p hp => h p (by
    simp only [List.mem_cons, List.not_mem_nil, or_false] at hp
    subst hp; simp)
  rw [Arch.normalizeTail, h1, h2]
  exact normalizeArch_none a n fun p hp => h p (by simp [hp])

theorem normalizeArch_infix (a : Arch) (n : Str) : a.normalizeArch n <:+: n := by
  unfold Arch.normalizeArch
  cases a.kind <;> simp only
  · refine List.IsInfix.trans (noprefix_suffix _ _).isInfix ?_
    split
    · exact (noprefix_suffix _ _).isInfix
    · exact List.infix_refl _
  all_goals first | exact (noprefix_suffix _ _).isInfix | exact List.infix_refl _

theorem normalizeName_infix (a : Arch) (n : Str) : a.normalizeName n <:+: n := by
  rw [normalizeName_eq]
  have h1 : stripTime n <+: n := by
    simp only [stripTime]
    split
    · exact List.IsPrefix.trans (sliceToNeg_prefix _ _) (nosuffix_prefix _ _)
    · exact nosuffix_prefix _ _
  refine List.IsInfix.trans ?_ h1.isInfix
  exact List.IsInfix.trans (normalizeArch_infix _ _)
    (List.IsInfix.trans (noprefix_suffix _ _).isInfix (noprefix_suffix _ _).isInfix)

theorem translateName_infix (a : Arch) (n : Str) : a.translateName n <:+: n := by
  unfold Arch.translateName baseTranslate
  cases a.kind <;> simp only
  · exact List.IsInfix.trans (nosuffix_prefix _ _).isInfix (noprefix_suffix _ _).isInfix
  all_goals first
    | exact (noprefix_suffix _ _).isInfix
    | exact List.IsInfix.trans (noprefix_suffix _ _).isInfix (noprefix_suffix _ _).isInfix

/-! ## Matching -/

theorem hasSymbol_iff (e : Elf) (n : Str) : e.hasSymbol n = true ↔ HasSym e n := by
  simp only [Elf.hasSymbol, dmem, dget_isSome_iff, HasSym, List.mem_map]
  constructor
  · rintro ⟨⟨a, s⟩, h, rfl⟩; exact ⟨s, h⟩
  · rintro ⟨s, h⟩; exact ⟨(n, s), h, rfl⟩

theorem machine_unique {m : Nat} {k k' : Kind} {b b' : Option Bool} (h : (m, k, b) ∈ machineTable)
    (h' : (m, k', b') ∈ machineTable) : k = k' ∧ b = b' := by
  have : ∀ x ∈ machineTable, ∀ y ∈ machineTable, x.1 = y.1 → x.2 = y.2 := by decide
  have := this _ h _ h' rfl
  simpa using this

/-- machine numbers a class reacts to -/
theorem match_machine (k : Kind) (e : Elf) (h : k.match e ≠ .ok none) : ∃ b, (e.machine, k, b) ∈ machineTable := by
  cases k <;> simp only [Kind.match, EM_ARM, EM_AARCH64, EM_MIPS, EM_PPC, EM_PPC64, EM_RISCV, EM_386, EM_X86_64] at h
  case arm => by_cases hm : e.machine = 40 <;> simp_all [machineTable]
  case arm64 => by_cases hm : e.machine = 183 <;> simp_all [machineTable]
  case mips => by_cases hm : e.machine = 8 <;> simp_all [machineTable]
  case riscv => by_cases hm : e.machine = 243 <;> simp_all [machineTable]
  case powerpc =>
    by_cases hm : e.machine = 20
    · simp_all [machineTable]
    · by_cases hm' : e.machine = 21
      · simp_all [machineTable]
      · simp [hm, hm', bind, Except.bind] at h
  case x86 =>
    by_cases hm : e.machine = 3
    · simp_all [machineTable]
    · by_cases hm' : e.machine = 62
      · simp_all [machineTable]
      · simp [hm, hm', bind, Except.bind] at h

theorem pyAssert_ok {c : Bool} (h : c = true) : pyAssert c = .ok () := by simp [pyAssert, h]
theorem pyAssert_err {c : Bool} (h : c = false) : pyAssert c = .error .assertion := by simp [pyAssert, h]

/-- A class that reacts to an ELF either accepts it or fails an assertion, according to the ELF class. -/
theorem match_of_machine (k : Kind) (e : Elf) (b : Option Bool) (h : (e.machine, k, b) ∈ machineTable) :
    (b = none ∨ b = some e.bits32 → ∃ abis, k.match e = .ok (some (e.bits32, abis))) ∧
    (b = some (!e.bits32) → k.match e = .error .assertion) := by
  simp only [machineTable, List.mem_cons, Prod.mk.injEq, List.not_mem_nil, or_false] at h
  rcases h with ⟨hm, rfl, rfl⟩ | ⟨hm, rfl, rfl⟩ | ⟨hm, rfl, rfl⟩ | ⟨hm, rfl, rfl⟩ | ⟨hm, rfl, rfl⟩ |
    ⟨hm, rfl, rfl⟩ | ⟨hm, rfl, rfl⟩ | ⟨hm, rfl, rfl⟩ <;>
  cases hb : e.bits32 <;>
  simp only [Kind.match, hm, hb, EM_ARM, EM_AARCH64, EM_MIPS, EM_PPC, EM_PPC64, EM_RISCV, EM_386, EM_X86_64, pyAssert,
    bind, Except.bind] <;> simp <;> (try split) <;> simp

theorem match_isFor (k : Kind) (e : Elf) : (∃ m, k.match e = .ok (some m)) ↔ IsFor k e := by
  constructor
  · rintro ⟨m, hm⟩
    obtain ⟨b, hb⟩ := match_machine k e (by simp [hm])
    refine ⟨_, b, hb, rfl, ?_⟩
    have := (match_of_machine k e b hb).2
    match b, hb, this with
    | none, _, _ => exact Or.inl rfl
    | some c, hb, this =>
      right
      cases hc : c <;> cases hd : e.bits32 <;> simp_all
  · rintro ⟨m, b, hb, rfl, hc⟩
    obtain ⟨abis, ha⟩ := (match_of_machine k e b hb).1 hc
    exact ⟨_, ha⟩

theorem match_bits (k : Kind) (e : Elf) (b : Bool) (abis : List Str) (h : k.match e = .ok (some (b, abis))) :
    b = e.bits32 := by
  obtain ⟨m, c, hc, rfl, hd⟩ := (match_isFor k e).1 ⟨_, h⟩
  obtain ⟨abis', ha⟩ := (match_of_machine k e c hc).1 hd
  rw [h] at ha
  simp only [Except.ok.injEq, Option.some.injEq, Prod.mk.injEq] at ha
  exact ha.1

theorem go_none (e : Elf) (ks : List Kind) (h : ∀ k ∈ ks, k.match e = .ok none) :
    archFromVmlinuxGo e ks = .ok none := by
  induction ks with
  | nil => rfl
  | cons k ks ih =>
    simp only [archFromVmlinuxGo, h k (by simp), bind, Except.bind]
    exact ih fun k' hk => h k' (by simp [hk])

/-- the search result when some class reacts: that class, wherever it is in the list -/
theorem go_some (e : Elf) (ks : List Kind) (k : Kind) (hk : k ∈ ks) (h : k.match e ≠ .ok none) :
    archFromVmlinuxGo e ks = (k.match e).map (fun m => m.map fun x => (k, x)) := by
  obtain ⟨b, hb⟩ := match_machine k e h
  induction ks with
  | nil => simp at hk
  | cons k' ks ih =>
    by_cases hkk : k' = k
    · subst hkk
      simp only [archFromVmlinuxGo, bind, Except.bind, Except.map]
      cases hm : k'.match e with
      | error x => rfl
      | ok r =>
        cases r with
        | none => exact absurd hm h
        | some m => rfl
    · have hn : k'.match e = .ok none := by
        apply Classical.byContradiction
        intro hne
        obtain ⟨b', hb'⟩ := match_machine k' e hne
        exact hkk (machine_unique hb' hb).1
      simp only [archFromVmlinuxGo, hn, bind, Except.bind]
      exact ih (by simpa [Ne.symm hkk] using hk)

/-- the ABI list of a match -/
def detected (k : Kind) (e : Elf) : List Str :=
  match k with
  | .arm => if e.hasSymbol cs!"sys_oabi_call_table" then [cs!"eabi", cs!"oabi"] else [cs!"oabi"]
  | .arm64 => if e.hasSymbol cs!"compat_sys_call_table" then [cs!"aarch64", cs!"aarch32"] else [cs!"aarch64"]
  | .mips =>
    if e.bits32 then [cs!"o32"] else [cs!"n64"]
        ++ (if e.hasSymbol cs!"sys32_call_table" then [cs!"o32"] else [])
        ++ (if e.hasSymbol cs!"sysn32_call_table" then [cs!"n32"] else [])
  | .powerpc =>
    if e.bits32 then [cs!"ppc32"] else [cs!"ppc64"]
        ++ (if e.hasSymbol cs!"compat_sys_call_table" || e.hasSymbol cs!"compat_sys_execve"
              || e.hasSymbol cs!".compat_sys_execve" then [cs!"ppc32"] else [])
        ++ (if e.hasSymbol cs!"spu_syscall_table" then [cs!"spu"] else [])
  | .riscv =>
    if e.bits32 then [cs!"rv32"] else [cs!"rv64"]
        ++ (if e.hasSymbol cs!"compat_sys_call_table" then [cs!"rv32"] else [])
  | .x86 =>
    if e.bits32 then [cs!"ia32"] else [cs!"x64"]
        ++ (if e.hasSymbol cs!"ia32_sys_call_table" then [cs!"ia32"]
            else if e.hasSymbol cs!"ia32_sys_call" then [cs!"ia32"] else [])
        ++ (if e.hasSymbol cs!"x32_sys_call_table" then [cs!"x32"]
            else if e.hasSymbol cs!"x32_sys_call" then [cs!"x32"]
            else if (e.symbols.map Prod.fst).any (isInfix cs!"x32_compat_sys") then [cs!"x32"] else [])

theorem match_detected (k : Kind) (e : Elf) (h : IsFor k e) : k.match e = .ok (some (e.bits32, detected k e)) := by
  obtain ⟨m, c, hc, hm, hd⟩ := h
  simp only [machineTable, List.mem_cons, Prod.mk.injEq, List.not_mem_nil, or_false] at hc
  rcases hc with ⟨rfl, rfl, rfl⟩ | ⟨rfl, rfl, rfl⟩ | ⟨rfl, rfl, rfl⟩ | ⟨rfl, rfl, rfl⟩ | ⟨rfl, rfl, rfl⟩ |
    ⟨rfl, rfl, rfl⟩ | ⟨rfl, rfl, rfl⟩ | ⟨rfl, rfl, rfl⟩ <;>
  cases hb : e.bits32 <;>
  first
  | (rw [hb] at hd; exact absurd hd (by decide))
  | (simp [Kind.match, hm, hb, EM_ARM, EM_AARCH64, EM_MIPS, EM_PPC, EM_PPC64, EM_RISCV, EM_386, EM_X86_64,
       bind, Except.bind, pyAssert, detected]; done)
  | (simp [Kind.match, hm, hb, EM_ARM, EM_AARCH64, EM_MIPS, EM_PPC, EM_PPC64, EM_RISCV, EM_386, EM_X86_64,
       bind, Except.bind, pyAssert, detected]; split <;> rfl)

theorem mem_ite_list {c : Prop} [Decidable c] {a : Str} {l m : List Str} :
    (a ∈ if c then l else m) ↔ (c ∧ a ∈ l) ∨ (¬ c ∧ a ∈ m) := by split <;> simp_all

theorem mem_detected (k : Kind) (e : Elf) (hk : k ≠ .arm) (abi : Str) : abi ∈ detected k e ↔ AbiPresent k e abi := by
  have hany : ((e.symbols.map Prod.fst).any (isInfix cs!"x32_compat_sys") = true) ↔
      ∃ n, HasSym e n ∧ cs!"x32_compat_sys" <:+: n := by
    simp only [List.any_eq_true, List.mem_map, isInfix_iff, HasSym]
    constructor
    · rintro ⟨n, ⟨⟨a, s⟩, h1, rfl⟩, h2⟩; exact ⟨a, ⟨s, h1⟩, h2⟩
    · rintro ⟨n, ⟨s, h1⟩, h2⟩; exact ⟨n, ⟨(n, s), h1, rfl⟩, h2⟩
  cases k
  case arm => exact absurd rfl hk
  all_goals
    simp only [detected, AbiPresent, mem_ite_list, List.mem_append, hany, hasSymbol_iff, Bool.or_eq_true, List.mem_cons,
      List.not_mem_nil, or_false]
    try split
  all_goals
    simp_all
    try grind

/-! ## Constructors -/

/-- what the help table promises about an object -/
def RowAttrs (row : HelpRow) (v : Ver) (a : Arch) : Prop :=
  a.kind = row.kind ∧ a.abi = row.abi ∧ a.bits32 = row.kernel32 ∧ a.abiBits32 = row.abi32 ∧ a.version = v ∧
  a.compat = (!row.kernel32 && decide (row.abi ≠ mainAbi64 row.kind))

theorem verLe_lift {a b v : Ver} (h : verLe a b = true) (hv : verLe b v = true) : verLe a v = true := verLe_trans h hv

theorem newArch_row (row : HelpRow) (h : row ∈ helpTable) (v : Ver) :
    (verLe (minVersion row.kind row.abi row.kernel32) v = true →
      ∃ a, newArch row.kind v row.abi row.kernel32 = .ok a ∧ RowAttrs row v a) ∧
    (verLe (minVersion row.kind row.abi row.kernel32) v = false →
      newArch row.kind v row.abi row.kernel32 = .error .assertion) := by
  have l1 : verLe [2, 6, 31] v = true → verLe [2, 6, 15] v = true := verLe_trans (by decide)
  have l2 : verLe [2, 6, 16] v = true → verLe [2, 6, 15] v = true := verLe_trans (by decide)
  have l3 : verLe [5, 19] v = true → verLe [4, 15] v = true := verLe_trans (by decide)
  simp only [helpTable, List.mem_cons, List.not_mem_nil, or_false] at h
  rcases h with rfl | rfl | rfl | rfl | rfl | rfl | rfl | rfl | rfl | rfl | rfl | rfl | rfl | rfl | rfl | rfl | rfl |
    rfl | rfl
  all_goals
    constructor
    · intro hv
      simp [minVersion] at hv
      simp_all [newArch, newArm, newArm64, newMips, newPowerPC, newRiscV, newX86, pyAssert, bind, Except.bind, verGe,
        RowAttrs, mainAbi64]
    · intro hv
      simp [minVersion] at hv
      first
        | (exfalso; simp [verLe] at hv; done)
        | (simp [newArch, newArm, newArm64, newMips, newPowerPC, newRiscV, newX86, pyAssert, bind, Except.bind, verGe,
            hv]; done)
        | (by_cases h1 : verLe [2, 6, 15] v = true <;>
           simp [newArch, newPowerPC, pyAssert, bind, Except.bind, verGe, hv, h1]; done)
        | (by_cases h1 : verLe [4, 15] v = true <;>
           simp [newArch, newRiscV, pyAssert, bind, Except.bind, verGe, hv, h1]; done)

/-- every ABI detection can report is a row of the help -/
theorem detected_row (k : Kind) (e : Elf) (hf : IsFor k e) (abi : Str) (h : abi ∈ detected k e) :
    ∃ row ∈ helpTable, row.kind = k ∧ row.abi = abi ∧ row.kernel32 = e.bits32 := by
  have arm : k = .arm → e.bits32 = true := by
    rintro rfl; obtain ⟨m, c, hc, -, hd⟩ := hf; simp [machineTable] at hc; obtain ⟨-, rfl⟩ := hc; simpa using hd.symm
  have arm64 : k = .arm64 → e.bits32 = false := by
    rintro rfl; obtain ⟨m, c, hc, -, hd⟩ := hf; simp [machineTable] at hc; obtain ⟨-, rfl⟩ := hc; simpa using hd.symm
  have key : (k, abi, e.bits32) ∈ helpTable.map fun r => (r.kind, r.abi, r.kernel32) := by
    cases k
    case arm =>
      rw [arm rfl]
      simp only [detected, mem_ite_list, List.mem_cons, List.not_mem_nil, or_false] at h
      rcases h with ⟨-, rfl | rfl⟩ | ⟨-, rfl⟩ <;> decide
    case arm64 =>
      rw [arm64 rfl]
      simp only [detected, mem_ite_list, List.mem_cons, List.not_mem_nil, or_false] at h
      rcases h with ⟨-, rfl | rfl⟩ | ⟨-, rfl⟩ <;> decide
    all_goals
      cases hb : e.bits32
      all_goals
        simp only [detected, hb, if_true, if_false, Bool.false_eq_true, mem_ite_list, List.mem_append, List.mem_cons,
          List.not_mem_nil, or_false, and_false] at h
    case mips.false => rcases h with (rfl | ⟨-, rfl⟩) | ⟨-, rfl⟩ <;> decide
    case powerpc.false => rcases h with (rfl | ⟨-, rfl⟩) | ⟨-, rfl⟩ <;> decide
    case riscv.false => rcases h with rfl | ⟨-, rfl⟩ <;> decide
    case x86.false =>
      rcases h with (rfl | ⟨-, rfl⟩ | ⟨-, -, rfl⟩) | ⟨-, rfl⟩ | ⟨-, ⟨-, rfl⟩ | ⟨-, -, rfl⟩⟩ <;> decide
    all_goals subst h; decide
  obtain ⟨row, hr, he⟩ := List.mem_map.1 key
  simp only [Prod.mk.injEq] at he
  exact ⟨row, hr, he.1, he.2.1, he.2.2⟩

/-! ## Instruction sequences -/

theorem indexFrom_some (x start n : Nat) (l : List Nat) (h : indexFrom x start l = some n) :
    start ≤ n ∧ l[n]? = some x ∧ ∀ m, start ≤ m → m < n → l[m]? ≠ some x := by
  simp only [indexFrom, Option.map_eq_some_iff] at h
  obtain ⟨k, hk, rfl⟩ := h
  rw [List.findIdx?_eq_some_iff_getElem] at hk
  obtain ⟨hlt, h1, h2⟩ := hk
  rw [List.length_drop] at hlt
  refine ⟨by omega, ?_, fun m hm1 hm2 hx => ?_⟩
  · rw [List.getElem_drop] at h1
    rw [List.getElem?_eq_getElem (by omega)]
    have h1 := eq_of_beq h1
    simp only [Nat.add_comm start k] at h1
    rw [h1]
  · have h3 := h2 (m - start) (by omega)
    rw [List.getElem_drop] at h3
    have hml : m < l.length := by omega
    rw [List.getElem?_eq_getElem hml] at hx
    have : start + (m - start) = m := by omega
    simp only [this] at h3
    simp only [Option.some.injEq] at hx
    simp [hx] at h3

theorem indexFrom_of_mem (x start n : Nat) (l : List Nat) (hs : start ≤ n) (h : l[n]? = some x) :
    ∃ m, indexFrom x start l = some m ∧ m ≤ n := by
  cases hi : indexFrom x start l with
  | none =>
    simp only [indexFrom, Option.map_eq_none_iff, List.findIdx?_eq_none_iff] at hi
    have : x ∈ l.drop start := by
      rw [List.mem_iff_getElem?]
      exact ⟨n - start, by rw [List.getElem?_drop]; rw [show start + (n - start) = n by omega]; exact h⟩
    have := hi x this
    simp at this
  | some m =>
    refine ⟨m, rfl, ?_⟩
    obtain ⟨h1, h2, h3⟩ := indexFrom_some _ _ _ _ hi
    apply Nat.le_of_not_lt
    intro hlt
    exact h3 n hs hlt h

theorem ppcSwitchEndian_iff (ws : List Nat) : ppcSwitchEndian ws = true ↔ SwitchEndianSeq ws := by
  have hand : ∀ b : Nat, b &&& 0xffff = b % 2 ^ 16 := fun b => Nat.and_two_pow_sub_one_eq_mod b 16
  have hsh : ∀ b : Nat, b >>> 16 = b / 2 ^ 16 := fun b => Nat.shiftRight_eq_div_pow b 16
  unfold ppcSwitchEndian SwitchEndianSeq
  constructor
  · intro h
    split at h
    · simp at h
    · next i hi =>
      obtain ⟨-, hi1, hi2⟩ := indexFrom_some _ _ _ _ hi
      split at h
      · simp at h
      · next beq hb =>
        simp only [hand, hsh] at h
        split at h
        · simp at h
        · next hm =>
          split at h
          · simp at h
          · next hbeq =>
            split at h
            · simp at h
            · next j hj =>
              split at h
              · simp at h
              · next k hk =>
                obtain ⟨l, hl⟩ := Option.isSome_iff_exists.1 h
                obtain ⟨j1, j2, -⟩ := indexFrom_some _ _ _ _ hj
                obtain ⟨k1, k2, -⟩ := indexFrom_some _ _ _ _ hk
                obtain ⟨l1, l2, -⟩ := indexFrom_some _ _ _ _ hl
                refine ⟨i, beq, j, k, l, hi1, fun m hm => hi2 m (by omega) hm, hb, ?_, Classical.not_not.1 hm,
                  by omega, j2, by omega, k2, by omega, l2⟩
                rw [Bool.not_eq_true, Bool.not_eq_false'] at hbeq
                exact List.contains_iff_mem.1 hbeq
  · rintro ⟨i, beq, j, k, l, h1, h2, h3, h4, h5, h6, h7, h8, h9, h10, h11⟩
    obtain ⟨i', hi, hle⟩ := indexFrom_of_mem _ 0 i ws (by omega) h1
    have : i' = i := by
      obtain ⟨-, h, -⟩ := indexFrom_some _ _ _ _ hi
      apply Nat.le_antisymm hle
      apply Nat.le_of_not_lt
      intro hlt
      exact h2 i' hlt h
    subst this
    obtain ⟨j', hj, hjle⟩ := indexFrom_of_mem _ (i' + 1 + beq % 2 ^ 16 / 4 + 1) j ws (by omega) h7
    obtain ⟨k', hk, hkle⟩ := indexFrom_of_mem _ (j' + 1) k ws (by omega) h9
    obtain ⟨l', hl, -⟩ := indexFrom_of_mem _ (k' + 1) l ws (by omega) h11
    have h4' : [0x41c2, 0x41e2, 0x4182, 0x41a2].contains (beq / 2 ^ 16) = true := List.contains_iff_mem.2 h4
    simp only [hi, h3, hand, hsh, h5, ne_eq, not_true_eq_false, if_false, h4', Bool.not_true, Bool.false_eq_true, hj,
      hk, hl, Option.isSome_some]

theorem unpackWords_get (big : Bool) (code : Bytes) (ws : List Nat) (h : unpackWords big code = .ok ws) :
    code.length = 4 * ws.length ∧ ∀ i w, ws[i]? = some w → w = uintOf big (readAt code (4 * i) 4) := by
  induction ws generalizing code with
  | nil =>
    match code, h with
    | [], _ => simp
    | a :: b :: c :: d :: rest, h =>
      simp only [unpackWords, bind, Except.bind] at h
      split at h <;> simp at h
    | [_], h => simp [unpackWords] at h
    | [_, _], h => simp [unpackWords] at h
    | [_, _, _], h => simp [unpackWords] at h
  | cons w ws ih =>
    match code, h with
    | [], h => simp [unpackWords] at h
    | a :: b :: c :: d :: rest, h =>
      simp only [unpackWords, bind, Except.bind] at h
      split at h
      · simp at h
      · next ws' hw =>
        simp only [Except.ok.injEq, List.cons.injEq] at h
        obtain ⟨rfl, rfl⟩ := h
        obtain ⟨h1, h2⟩ := ih rest hw
        refine ⟨by simp [h1]; omega, fun i w hi => ?_⟩
        cases i with
        | zero =>
          simp only [List.getElem?_cons_zero, Option.some.injEq] at hi
          simp [readAt, ← hi]
        | succ i =>
          simp only [List.getElem?_cons_succ] at hi
          rw [h2 i w hi]
          simp [readAt, show 4 * (i + 1) = 4 * i + 4 by omega]
    | [_], h => simp [unpackWords] at h
    | [_, _], h => simp [unpackWords] at h
    | [_, _, _], h => simp [unpackWords] at h

theorem verGe_of_lt {v w : Ver} (h : v < w) : verGe v w = false := by
  rw [verGe, ← Bool.not_eq_true, verLe_iff]
  exact fun hle => not_lt.2 hle h

theorem verGe_of_not_lt {v w : Ver} (h : ¬ v < w) : verGe v w = true := by
  rw [verGe, verLe_iff]
  exact not_lt.1 h

theorem nextAddr_unique {e : Elf} {va s t : Nat} (h : NextAddr e va s) (h' : NextAddr e va t) : s = t := by
  rcases h with ⟨h1, ⟨x, hx, hx'⟩, h3⟩ | ⟨h1, h2⟩ <;> rcases h' with ⟨g1, ⟨y, hy, hy'⟩, g3⟩ | ⟨g1, g2⟩
  · have := h3 y hy (by omega); have := g3 x hx (by omega); omega
  · have := g1 x hx; omega
  · have := h1 y hy; omega
  · omega

theorem nextSymbol_nextAddr (e : Elf) (sym : Symbol) (hr : ∀ s ∈ e.syms, s.realVaddr = s.vaddr)
    (hs : sym.realVaddr = sym.vaddr) :
    NextAddr e sym.vaddr (ppcBoundary e sym) := by
  unfold ppcBoundary
  cases hn : e.nextSymbol sym with
  | none =>
    right
    refine ⟨fun s hm => ?_, rfl⟩
    rw [Elf.nextSymbol, minByKey_none, List.filter_eq_nil_iff] at hn
    have := hn s hm
    simp only [decide_eq_true_eq, hr s hm, hs] at this
    omega
  | some s =>
    left
    obtain ⟨hm, h2⟩ := minByKey_spec _ _ _ hn
    rw [List.mem_filter] at hm
    obtain ⟨hm, hgt⟩ := hm
    simp only [decide_eq_true_eq, hr s hm, hs] at hgt
    refine ⟨hgt, ⟨s, hm, rfl⟩, fun t ht hlt => h2 t ?_⟩
    rw [List.mem_filter]; refine ⟨ht, ?_⟩; simp only [decide_eq_true_eq, hr t ht, hs]; omega

theorem mem_archClasses (k : Kind) : k ∈ archClasses := by cases k <;> simp [archClasses]

end Verif
