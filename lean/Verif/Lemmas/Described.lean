import Verif.Spec.Described
import Verif.Props.EndToEnd
import Verif.Props.SigSound
import Verif.Props.Kconfig
/-! # Lemmas about names, options and signatures in a whole run -/
set_option autoImplicit false

namespace Verif
open Spec

/-! ## Names -/

theorem implementedNames_perm (a : Arch) (e : Elf) (niOrder : List Symbol) (entries : List (Nat × Nat)) :
    ((implSyms a e niOrder entries).map fun p => p.2.name).Perm
      (implementedNames e (fun va => dget va (symbolsByVaddr a e niOrder (entries.map Prod.snd))) entries) := by
  unfold implementedNames
  refine .trans ?_ ((sortEntries_perm entries).filterMap _)
  refine .of_eq ?_
  unfold implSyms resolved
  rw [List.filter_filterMap, List.map_filterMap]
  refine List.filterMap_congr fun q _ => ?_
  simp only
  generalize dget q.2 (symbolsByVaddr a e niOrder (entries.map Prod.snd)) = o
  cases o with
  | none => simp
  | some s =>
    by_cases hn : IsNi e s
    · have : s ∈ e.niSyscalls := (mem_niSyscalls e s).2 hn
      simp [Option.filter, hn, this]
    · have : s ∉ e.niSyscalls := fun h => hn ((mem_niSyscalls e s).1 h)
      simp [Option.filter, hn, this]

theorem countStarting_perm (p : Str) {l l' : List Str} (h : l.Perm l') : countStarting p l = countStarting p l' :=
  (h.filter _).length_eq

theorem sharedPrefix_iff {l l' : List Str} (h : l.Perm l') (p : Str) : SharedPrefix l' p ↔ CommonPrefix l 20 p := by
  unfold SharedPrefix CommonPrefix
  rw [countStarting_perm p h]

/-- among the prefixes with a property there is a longest one -/
theorem longest_prefix (P : Str → Prop) (n : Str) (h : ∃ p, P p ∧ p <+: n) :
    ∃ p, P p ∧ p <+: n ∧ ∀ q, P q → q <+: n → q.length ≤ p.length := by
  classical
  have key : ∀ k, (∃ p, P p ∧ p <+: n ∧ n.length ≤ p.length + k) →
      ∃ p, P p ∧ p <+: n ∧ ∀ q, P q → q <+: n → q.length ≤ p.length := by
    intro k
    induction k with
    | zero =>
      rintro ⟨p, h1, h2, h3⟩
      exact ⟨p, h1, h2, fun q _ hq => by have := hq.length_le; omega⟩
    | succ k ih =>
      rintro ⟨p, h1, h2, h3⟩
      by_cases hb : ∃ q, P q ∧ q <+: n ∧ n.length ≤ q.length + k
      · exact ih hb
      · refine ⟨p, h1, h2, fun q hq hqn => ?_⟩
        have : ¬ n.length ≤ q.length + k := fun hh => hb ⟨q, hq, hqn, hh⟩
        omega
  obtain ⟨p, h1, h2⟩ := h
  exact key n.length ⟨p, h1, h2, by omega⟩

theorem stripped_of_prefixes (names names' : List Str) (hp : names.Perm names') (ps : List Str)
    (h : commonPrefixes names 20 = .ok ps) (n : Str) : Stripped names' n (noprefix n ps) := by
  have hne : names ≠ [] := by rintro rfl; cases h
  obtain ⟨ps', h', h1, h2⟩ := C21_longest_prefix names hne 20 (by decide) n
  rw [h] at h'
  cases h'
  by_cases he : ∃ p, SharedPrefix names' p ∧ p <+: n
  · obtain ⟨p, g1, g2, g3⟩ := longest_prefix _ n he
    refine .inr ⟨p, g1, ?_, g3⟩
    exact (h2 p ((sharedPrefix_iff hp p).1 g1) g2 fun q hq hqn => g3 q ((sharedPrefix_iff hp q).2 hq) hqn).symm
  · refine .inl ⟨fun p hp' hpn => he ⟨p, hp', hpn⟩, ?_⟩
    exact h1 fun p hp' hpn => he ⟨p, (sharedPrefix_iff hp p).2 hp', hpn⟩

/-! ## Options -/

theorem shippedSyscallDeps_iff (k : Kind) (v : Ver) (name c : Str) :
    shippedSyscallDeps k v name = some c ↔ ∃ x, c = cs!"CONFIG_" ++ x ∧ OptionFor k v name x := C61_shipped k v name c

theorem shippedSyscallDeps_none (k : Kind) (v : Ver) (name : Str) :
    shippedSyscallDeps k v name = none ↔ ∀ x, ¬ OptionFor k v name x := by
  constructor
  · intro h x hx
    have := (shippedSyscallDeps_iff k v name _).2 ⟨x, rfl, hx⟩
    rw [h] at this
    cases this
  · intro h
    cases hs : shippedSyscallDeps k v name with
    | none => rfl
    | some c =>
      obtain ⟨x, -, hx⟩ := (shippedSyscallDeps_iff k v name c).1 hs
      exact absurd hx (h x)

theorem makeSyscall_option (a : Arch) (v : Ver) (ps : List Str) (i : Nat) (sym : Symbol) :
    OptionOf a.kind v (makeSyscall a v ps i sym).name (makeSyscall a v ps i sym).origname (makeSyscall a v ps i sym).kconfig := by
  unfold makeSyscall
  simp only [Syscall.new]
  generalize (derivedNames a ps sym.name).2 = name
  generalize (derivedNames a ps sym.name).1 = orig
  cases h1 : shippedSyscallDeps a.kind v name with
  | some c =>
    obtain ⟨x, hc, hx⟩ := (shippedSyscallDeps_iff _ _ _ c).1 h1
    have hne : c ≠ [] := by rw [hc]; simp
    simp only [reduceCtorEq, Option.some.injEq, hne, or_self, if_false]
    exact ⟨x, hc, .inl hx⟩
  | none =>
    have hn := (shippedSyscallDeps_none _ _ _).1 h1
    simp only [true_or, if_true]
    cases h2 : shippedSyscallDeps a.kind v orig with
    | some c =>
      obtain ⟨x, hc, hx⟩ := (shippedSyscallDeps_iff _ _ _ c).1 h2
      exact ⟨x, hc, .inr ⟨hn, hx⟩⟩
    | none => exact fun x => ⟨hn x, (shippedSyscallDeps_none _ _ _).1 h2 x⟩

/-! ## Signatures -/

theorem definitionAt_signature (big : Bool) (lines : List Str) (line : Nat) (s : List Str) (h1 : 1 ≤ line)
    (h : DefinitionAt big lines line s) : signatureFromSource lines line big = .ok (some s) := by
  have split : ∀ text, TextAt lines line text → ∃ pre body post, lines = pre ++ body ++ post ∧ Spells body text ∧ line = pre.length + 1 := by
    rintro text ⟨body, post, hd, hs, -⟩
    refine ⟨lines.take (line - 1), body, post, ?_, hs, ?_⟩
    · rw [List.append_assoc, ← hd, List.take_append_drop]
    · have : (lines.drop (line - 1)).length ≠ 0 := by
        rw [hd]
        have := hs.1
        cases body with
        | nil => exact absurd rfl this
        | cons => simp
      rw [List.length_drop] at this
      rw [List.length_take]
      omega
  cases h with
  | define kw scname items texts g1 g2 g3 g4 g5 g6 g7 =>
    obtain ⟨pre, body, post, rfl, hs, hl⟩ := split _ g7
    exact C47_define_signature big kw scname items texts pre body post line g1 g2 g3 g4 g5 g6 hs hl
  | define0 kw scname g1 g2 g3 =>
    obtain ⟨pre, body, post, rfl, hs, hl⟩ := split _ g3
    exact C47_define_no_arguments big kw scname pre body post line g1 g2 hs hl
  | proto mid args texts g1 g2 g3 g4 g5 g6 g7 =>
    obtain ⟨pre, body, post, rfl, hs, hl⟩ := split _ g7
    exact C49_asmlinkage big mid args texts pre body post line g1 g2 g3 g4 g5 g6 hs hl
  | void mid inner g1 g2 g3 =>
    obtain ⟨pre, body, post, rfl, hs, hl⟩ := split _ g3
    exact C49_asmlinkage_void big mid inner pre body post line g1 g2 hs hl

theorem signatureFromSource_none (lines : List Str) (line : Nat) (big : Bool)
    (h : signatureFromSource lines line big = .ok none) :
    ∃ text, TextAt lines line text ∧ ¬ cs!"asmlinkage" <+: text ∧ ∀ kw ∈ defineMacros, ¬ kw <+: text := by
  unfold signatureFromSource at h
  simp only [bind, Except.bind] at h
  split at h
  · cases h
  next text ht =>
  refine ⟨text, readSigText_text _ _ _ ht, ?_⟩
  unfold signatureOfText at h
  simp only at h
  split at h
  · cases hd : signatureOfDefine (noprefix text definePrefixes) big <;> rw [hd] at h <;> cases h
  next hne =>
  split at h
  · cases hd : signatureOfAsmlinkage text <;> rw [hd] at h <;> cases h
  next ha =>
  refine ⟨fun hp => ha ((startsWith_iff _ _).2 hp), ?_⟩
  rintro kw hk ⟨rest, rfl⟩
  refine hne ?_
  rw [noprefix_define kw rest hk]
  exact define_ne kw rest hk

theorem lastNamed_some (ms : List MetaSpec) (n : Str) (m : MetaSpec) (h : LastNamed ms n m) : lastNamed ms n = some m := by
  obtain ⟨h1, pre, post, rfl, h2⟩ := h
  unfold lastNamed
  rw [List.reverse_append, List.reverse_cons, List.append_assoc, List.find?_append]
  have : post.reverse.find? (fun m => decide (m.name = n)) = none := by
    rw [List.find?_eq_none]
    intro x hx
    simpa using h2 x (by simpa using hx)
  rw [this]
  simp [h1]

theorem lastNamed_none (ms : List MetaSpec) (n : Str) (h : ∀ m ∈ ms, m.name ≠ n) : lastNamed ms n = none := by
  unfold lastNamed
  rw [List.find?_eq_none]
  intro x hx
  simpa using h x (by simpa using hx)

theorem hasMetadata_meta (e : Elf) (ms : List MetaSpec) (h : HasMetadata e ms) :
    ∃ d, e.syscallMeta = .ok (some d) ∧ ∀ n, dget n d = (lastNamed ms n).map MetaSpec.sig := by
  obtain ⟨start, stop, ptrs, h1, h2, h3, h4, h5, h6, h7, h8⟩ := h
  exact C51_ftrace_metadata e start stop ptrs ms h1 h2 h3 h4 h5 h6 h7 h8

/-- what the signature step does to a syscall of the table -/
theorem signature_cases (fs : Files) (e : Elf) (hs : Bool) (l signed : List Syscall) (h : extractSignatures fs e hs l = .ok signed) :
    ∀ y ∈ signed, ∃ x ∈ l, Resigned x y ∧ (x.esoteric = true → y.signature = x.signature) ∧
      (x.esoteric = false → x.signature = none →
        (x.goodLocation = true → ∃ file line lines, FromSource e fs x y.signature file line lines) ∧
        (x.goodLocation = false → FromMetadata e x.name x.origname y.signature)) := by
  obtain ⟨metas, ⟨md, hmd, rfl⟩, hf⟩ := C52_signature_priority fs e hs l signed h
  intro y hy
  obtain ⟨x, hx, src, hsrc, hxy⟩ := forall2_mem_right hf hy
  have hsig : y.signature = expectedSig src (fun n => md.bind (dget n)) x := by rw [hxy]
  refine ⟨x, hx, ?_, ?_, ?_⟩
  · unfold Resigned; rw [hxy]
  · intro he
    rw [hsig, expectedSig, if_pos he]
  · intro he hnone
    have he' : ¬ x.esoteric = true := by rw [he]; simp
    constructor
    · intro hg
      obtain ⟨file, line, lines, g1, g2, g3, g4⟩ := hsrc he hg
      have hs' : y.signature = src := by rw [hsig, expectedSig, if_neg he', if_pos hg]
      refine ⟨file, line, lines, ⟨g1, g2, g3⟩, ?_, ?_, ?_⟩
      · intro h1 s hd
        rw [definitionAt_signature _ _ _ _ h1 hd] at g4
        cases g4
        exact hs'
      · intro s hss
        rw [hs'] at hss
        subst hss
        exact C92_argument_count lines line _ s g4
      · intro hn
        rw [hs'] at hn
        subst hn
        exact signatureFromSource_none lines line _ g4
    · intro hg
      have hg' : ¬ x.goodLocation = true := by rw [hg]; simp
      rw [expectedSig, if_neg he', if_neg hg', hnone] at hsig
      have hmeta : ∀ ms, HasMetadata e ms → ∀ n, md.bind (dget n) = (lastNamed ms n).map MetaSpec.sig := by
        intro ms hms n
        obtain ⟨d, hd, hget⟩ := hasMetadata_meta e ms hms
        rw [hmd] at hd
        cases hd
        exact hget n
      refine ⟨?_, ?_, ?_, ?_⟩
      · intro hno
        rw [C51_no_metadata e hno] at hmd
        cases hmd
        rw [hsig]
        rfl
      · intro ms hms m hm
        rw [hsig]
        simp only [hmeta ms hms, lastNamed_some _ _ _ hm, Option.map_some]
      · intro ms hms hno m hm
        rw [hsig]
        simp only [hmeta ms hms, lastNamed_some _ _ _ hm, lastNamed_none _ _ hno, Option.map_some, Option.map_none]
      · intro ms hms hno hno'
        rw [hsig]
        simp only [hmeta ms hms, lastNamed_none _ _ hno, lastNamed_none _ _ hno', Option.map_none]

/-! ## Special syscalls -/

theorem loaded_symbols {w : MWorld} {hist : List Run} {p : Path} {e : Elf} (h : LoadedFrom w hist p e) :
    ∃ lines, e.symbols = (extractSymbols e.machine lines).1 ∧ e.functions = (extractSymbols e.machine lines).2 := by
  obtain ⟨data, r1, r2, -, -, -, -, -, hl, -⟩ := h
  unfold Elf.load at hl
  simp only [bind, Except.bind] at hl
  split at hl
  · cases hl
  · cases hl
    exact ⟨_, rfl, rfl⟩

theorem loaded_name {e : Elf} {lines : List Str} (h : e.symbols = (extractSymbols e.machine lines).1) {n : Str} {sym : Symbol}
    (hs : dget n e.symbols = some sym) : sym.name = n := by
  have := dget_mem hs
  rw [h] at this
  obtain ⟨l, -, -, hn⟩ := (extractSymbols_mem e.machine lines).1 _ this
  exact hn.symm

theorem loaded_real {e : Elf} {lines : List Str} (h : e.symbols = (extractSymbols e.machine lines).1) (hm : e.machine ≠ EM_ARM) :
    ∀ s ∈ e.syms, s.realVaddr = s.vaddr := by
  intro s hs
  unfold Elf.syms at hs
  obtain ⟨q, hq, rfl⟩ := List.mem_map.1 hs
  rw [h] at hq
  obtain ⟨l, -, hl, -⟩ := (extractSymbols_mem e.machine lines).1 _ hq
  exact (C12_thumb e.machine l _ hl (fun hh => absurd hh hm)).2 (fun hh => hm hh.1)

theorem adjustAbi_fields (a : Arch) (e : Elf) : (a.adjustAbi e).kind = a.kind ∧ (a.adjustAbi e).bits32 = a.bits32 := by
  unfold Arch.adjustAbi
  split
  · split <;> exact ⟨rfl, rfl⟩
  · split
    · exact ⟨rfl, rfl⟩
    · split <;> exact ⟨rfl, rfl⟩
  · exact ⟨rfl, rfl⟩

theorem matches_ppc (a : Arch) (e : Elf) (h : a.matches e = .ok true) (hk : a.kind = .powerpc) : e.machine ≠ EM_ARM := by
  simp only [Arch.matches, hk, bind, Except.bind] at h
  split at h
  · cases h
  · simp only [Except.ok.injEq, Bool.and_eq_true, decide_eq_true_eq] at h
    rw [h.1]
    split <;> decide

theorem esoteric_special (a : Arch) (e : Elf) (lines : List Str) (hsy : e.symbols = (extractSymbols e.machine lines).1)
    (hp : a.kind = .powerpc → e.machine ≠ EM_ARM) (eso : List Esoteric) (h : a.extractEsoteric e = .ok eso)
    (num : Nat) (name : Str) (sig : List Str) (opt : Option Str) (sym : Symbol) :
    (∃ x ∈ eso, x.number = num ∧ x.name = name ∧ x.signature = sig ∧ x.kconfig = opt ∧ dget x.symbolName e.symbols = some sym) ↔
      Special a e num name sig opt sym := by
  by_cases h1 : a.kind = .arm
  · obtain ⟨l, hl, g1, g2, g3⟩ := C40_arm a e h1
    rw [h] at hl
    cases hl
    simp only [Special, h1]
    have hrow' : (num, name, sig) ∈ (armPrivate.take (if [4, 15] ≤ a.version then 6 else 5)).map
        (fun r => (a.numBase + 0xf0000 + r.1, r.2)) ↔
        (∃ r ∈ armPrivate, num = a.numBase + 0xf0000 + r.1 ∧ name = r.2.1 ∧ sig = r.2.2 ∧ (r.1 = 6 → [4, 15] ≤ a.version)) := by
      by_cases hv : [4, 15] ≤ a.version
      · simp only [hv, if_true, implies_true, and_true, List.mem_map, Prod.mk.injEq]
        rw [List.take_of_length_le (by decide)]
        constructor
        · rintro ⟨r, hr, e1, e2⟩; exact ⟨r, hr, e1.symm, by rw [e2], by rw [e2]⟩
        · rintro ⟨r, hr, e1, e2, e3⟩; exact ⟨r, hr, e1.symm, by rw [e2, e3]⟩
      · simp only [hv, if_false, imp_false, List.mem_map, Prod.mk.injEq]
        have key : ∀ r, r ∈ armPrivate.take 5 ↔ r ∈ armPrivate ∧ ¬ r.1 = 6 := by
          intro r
          constructor
          · intro hr
            refine ⟨List.mem_of_mem_take hr, ?_⟩
            have : ∀ r ∈ armPrivate.take 5, ¬ r.1 = 6 := by decide +kernel
            exact this r hr
          · rintro ⟨hr, h6⟩
            have : ∀ r ∈ armPrivate, r.1 = 6 ∨ r ∈ armPrivate.take 5 := by decide +kernel
            exact (this r hr).resolve_left h6
        constructor
        · rintro ⟨r, hr, e1, e2⟩
          exact ⟨r, ((key r).1 hr).1, e1.symm, by rw [e2], by rw [e2], ((key r).1 hr).2⟩
        · rintro ⟨r, hr, e1, e2, e3, e4⟩
          exact ⟨r, (key r).2 ⟨hr, e4⟩, e1.symm, by rw [e2, e3]⟩
    constructor
    · rintro ⟨x, hx, rfl, rfl, rfl, rfl, hd⟩
      have hne : eso ≠ [] := List.ne_nil_of_mem hx
      obtain ⟨s1, s2⟩ := g3 x hx
      rw [s1] at hd
      refine ⟨g1.1 hne, hd, s2, hrow'.1 ?_⟩
      rw [← g2 hne]
      exact List.mem_map.2 ⟨x, hx, rfl⟩
    · rintro ⟨hf, hd, rfl, hr⟩
      have hne := g1.2 hf
      have := hrow'.2 hr
      rw [← g2 hne] at this
      obtain ⟨x, hx, hxe⟩ := List.mem_map.1 this
      simp only [Prod.mk.injEq] at hxe
      obtain ⟨s1, s2⟩ := g3 x hx
      exact ⟨x, hx, hxe.1, hxe.2.1, hxe.2.2, s2, by rw [s1]; exact hd⟩
  by_cases h2 : a.kind = .powerpc
  · obtain ⟨g1, g2, g3⟩ := C40_ppc a e eso h2 (loaded_real hsy (hp h2)) h
    simp only [Special, h2]
    constructor
    · rintro ⟨x, hx, rfl, rfl, rfl, rfl, hd⟩
      obtain ⟨e1, e2, e3, ⟨exc, e4, e5⟩, e6⟩ := g2 x hx
      obtain ⟨q1, q2, exc', ws, q3, q4, q5⟩ := g3.1 (List.ne_nil_of_mem hx)
      rw [e4] at q3
      cases q3
      rw [e5, loaded_name hsy e4, e4] at hd
      cases hd
      exact ⟨q1, q2, e1, e2, e3, e6, e4, ws, q4, q5⟩
    · rintro ⟨q1, q2, rfl, rfl, rfl, rfl, hd, ws, q4, q5⟩
      have hne := g3.2 ⟨q1, q2, sym, ws, hd, q4, q5⟩
      obtain ⟨x, hx⟩ := List.exists_mem_of_ne_nil _ hne
      obtain ⟨e1, e2, e3, ⟨exc, e4, e5⟩, e6⟩ := g2 x hx
      rw [hd] at e4
      cases e4
      exact ⟨x, hx, e1, e2, e3, e6, by rw [e5, loaded_name hsy hd]; exact hd⟩
  · rw [C40_others a e h1 h2] at h
    cases h
    have : ¬ Special a e num name sig opt sym := by
      unfold Special
      cases hk : a.kind <;> simp_all
    simp [this]

theorem esotericSyscalls_mem (e : Elf) (eso : List Esoteric) (scs : List Syscall) (h : esotericSyscalls e eso = .ok scs) (sc : Syscall) :
    sc ∈ scs ↔ ∃ x ∈ eso, ∃ sym, dget x.symbolName e.symbols = some sym ∧
      sc = { Syscall.new none x.number x.name x.name sym x.kconfig with signature := some x.signature, esoteric := true } := by
  have hf := mapRes_get _ _ _ h
  have hone : ∀ (x : Esoteric) (y : Syscall), (match dget x.symbolName e.symbols with
      | none => .error .key
      | some sym => .ok { Syscall.new none x.number x.name x.name sym x.kconfig with
          signature := some x.signature, esoteric := true } : Res Syscall) = .ok y ↔ ∃ sym, dget x.symbolName e.symbols = some sym ∧
      y = { Syscall.new none x.number x.name x.name sym x.kconfig with signature := some x.signature, esoteric := true } := by
    intro x y
    cases dget x.symbolName e.symbols with
    | none => simp
    | some s => simp [eq_comm]
  constructor
  · intro hs
    obtain ⟨x, hx, hxy⟩ := forall2_mem_right hf hs
    exact ⟨x, hx, (hone x sc).1 hxy⟩
  · rintro ⟨x, hx, sym, hd, rfl⟩
    obtain ⟨y, hy, hxy⟩ := forall2_mem_left hf hx
    obtain ⟨sym', hd', rfl⟩ := (hone x y).1 hxy
    rw [hd] at hd'
    cases hd'
    exact hy

end Verif
