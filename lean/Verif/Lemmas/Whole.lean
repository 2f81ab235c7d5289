import Verif.Lemmas.LocDiag
import Verif.Lemmas.EmuDiag
import Verif.Lemmas.Defs
import Verif.Lemmas.Signature2
import Verif.Lemmas.Extract2
import Verif.Model.Whole
/-! # Lemmas for the messages of a whole extraction -/
set_option autoImplicit false

namespace Verif
open Spec

/-! ## Definitions and signatures -/

theorem asmHead_prefix (head rest : Str) (h : AsmHead head) : cs!"asmlinkage" <+: head ++ rest := by
  obtain ⟨ws1, uns, ty, ws2, -, -, -, -, rfl⟩ := h
  exact ⟨ws1 ++ uns ++ ty ++ ws2 ++ rest, by simp only [List.append_assoc]⟩

theorem asmSeq_prefix (guard r : Re) (hg : guard = .bol ∨ guard = .wordB) (text : Str)
    (h : ((Re.seq guard (.seq asmRe r)).match? text).isSome = true) : cs!"asmlinkage" <+: text := by
  rw [Re.match?_isSome_iff] at h
  obtain ⟨st', caps', m0, d0, h0, m1, d1, h1, -⟩ := h
  have : m0 = ⟨none, text⟩ := by
    rcases hg with rfl | rfl
    · exact h0.2.1
    · exact h0.2.1
  subst this
  obtain ⟨head, r1, hh, rfl, -, -⟩ := (asmRe_iff _ _ _ _ _).1 h1
  exact asmHead_prefix head r1 hh

theorem macroSeq_prefix (guard first r : Re) (ms : List Str) (hw : Words first ms) (hg : guard = .bol ∨ guard = .wordB) (text : Str)
    (st' : St) (k' : Caps) (h : (Re.seq guard (.seq first r)).M ⟨none, text⟩ [] st' k') : ∃ m ∈ ms, m <+: text := by
  obtain ⟨m0, d0, h0, m1, d1, h1, -⟩ := h
  have : m0 = ⟨none, text⟩ := by
    rcases hg with rfl | rfl
    · exact h0.2.1
    · exact h0.2.1
  subst this
  obtain ⟨m, hm, r2, h2, -, -⟩ := (hw _ _ _ _ _).1 h1
  exact ⟨m, hm, r2, h2.symm⟩

theorem newstyle_prefix (a : Arch) (name text : Str) (h : ((newstyleRe a name).match? text).isSome = true) :
    ∃ m ∈ defineMacros, m <+: text := by
  rw [Re.match?_isSome_iff] at h
  have h1 : Words (.seq (.lit cs!"SYSCALL") (.seq (.opt (.lit cs!"32")) (.lit cs!"_DEFINE")))
      [cs!"SYSCALL32_DEFINE", cs!"SYSCALL_DEFINE"] :=
    words_seq _ _ _ _ (words_lit _) (words_seq _ _ _ _ (words_opt _ _ (words_lit _)) (words_lit _))
  have hw : ∃ ms, Words (.seq (if a.compat then .opt (.lit cs!"COMPAT_") else .eps)
      (.seq (.lit cs!"SYSCALL") (.seq (.opt (.lit cs!"32")) (.lit cs!"_DEFINE")))) ms ∧ ∀ m ∈ ms, m ∈ defineMacros := by
    cases a.compat with
    | true => exact ⟨_, words_seq _ _ _ _ (words_opt _ _ (words_lit cs!"COMPAT_")) h1, by decide +kernel⟩
    | false => exact ⟨_, words_seq _ _ _ _ words_eps h1, by decide +kernel⟩
  obtain ⟨ms, hw, hms⟩ := hw
  obtain ⟨st', k', m0, d0, h0, m1, d1, h1, m2, d2, h2, m3, d3, h3, m4, d4, h4, h5⟩ := h
  obtain ⟨m, hm, hp⟩ := macroSeq_prefix .bol _ (.cat [.chr isDigit, reWs, .lit cs!"(", nameRe name, .wordB]) ms hw (.inl rfl) text st' k'
    ⟨m0, d0, h0, m4, d4, ⟨m1, d1, h1, m2, d2, h2, m3, d3, h3, h4⟩, h5⟩
  exact ⟨m, hms m hm, hp⟩

/-- a text accepted as a definition starts with one of the known macros or with `asmlinkage` -/
theorem goodDefinition_starts (a : Arch) (text name : Str) (h : goodDefinition a text name = true) :
    (∃ m ∈ defineMacros, m <+: text) ∨ cs!"asmlinkage" <+: text := by
  unfold goodDefinition at h
  split at h
  · next h1 =>
    rcases (Re.alt_match _ _ _).1 h1 with h1 | h1
    · exact .inl (newstyle_prefix a name text h1)
    · exact .inr (asmSeq_prefix .bol _ (.inl rfl) text h1)
  · split at h
    · next h1 =>
      rw [Bool.and_eq_true] at h1
      exact .inr (asmSeq_prefix .bol _ (.inl rfl) text h1.2)
    · have odd : ∀ r, ((oddAsmRe r).match? text).isSome = true → cs!"asmlinkage" <+: text :=
        fun r hr => asmSeq_prefix .wordB _ (.inr rfl) text hr
      unfold Arch.defRe at h
      cases hk : a.kind <;> simp only [hk] at h <;> try (cases h; done)
      · by_cases h1 : a.abi ≠ cs!"oabi"
        · rw [if_pos h1] at h; cases h
        · rw [if_neg h1] at h
          split at h
          · next h2 => split at h2 <;> cases h2
          · next r h2 => split at h2 <;> cases h2 <;> exact .inr (odd _ h)
      · right
        by_cases h1 : a.abi = cs!"n32"
        · simp only [if_pos h1] at h
          by_cases h2 : anyprefix name [cs!"sysn32_"] = true
          · simp only [if_pos h2, altRe] at h
            rcases (Re.alt_match _ _ _).1 h with h | h
            · split at h <;> exact odd _ h
            · exact odd _ h
          · simp only [if_neg h2, altRe] at h
            rcases (Re.alt_match _ _ _).1 h with h | h
            · split at h <;> exact odd _ h
            · exact odd _ h
        · simp only [if_neg h1, altRe] at h
          split at h <;> exact odd _ h
      · by_cases h1 : a.abi ≠ cs!"ppc32"
        · rw [if_pos h1] at h; cases h
        · rw [if_neg h1] at h
          left
          have h := h
          simp only at h
          rw [Re.match?_isSome_iff] at h
          obtain ⟨st', k', h⟩ := h
          obtain ⟨m, hm, hp⟩ := macroSeq_prefix .wordB _ _ _ (words_lit cs!"PPC32_SYSCALL_DEFINE") (.inr rfl) text st' k' h
          rw [List.mem_singleton] at hm
          exact ⟨m, by rw [hm]; decide +kernel, hp⟩
      · by_cases h1 : a.abi ≠ cs!"x32"
        · rw [if_pos h1] at h; cases h
        · rw [if_neg h1] at h
          split at h
          · next h2 => split at h2 <;> cases h2
          · next r h2 => split at h2 <;> cases h2 <;> exact .inr (odd _ h)

theorem strip_keeps (p text : Str) (hne : p ≠ []) (hp : ∀ c ∈ p, isSpace c = false) (h : p <+: text) : p <+: strip text := by
  obtain ⟨rest, rfl⟩ := h
  have h1 : lstrip (p ++ rest) = p ++ rest := by
    cases p with
    | nil => exact absurd rfl hne
    | cons c cs => simp [lstrip, hp c (by simp)]
  unfold strip rstrip
  rw [h1, List.reverse_append, List.dropWhile_append]
  split
  · have h2 : p.reverse.dropWhile isSpace = p.reverse := by
      cases hr : p.reverse with
      | nil => rfl
      | cons c cs =>
        have : c ∈ p := by rw [← List.mem_reverse, hr]; simp
        simp [hp c this]
    rw [h2, List.reverse_reverse]
    exact List.prefix_rfl
  · rw [List.reverse_append, List.reverse_reverse]
    exact List.prefix_append _ _

theorem readSigLoop_prefix (ls : List Str) : ∀ (sig t : Str), readSigLoop sig ls = .ok t → sig <+: t := by
  induction ls with
  | nil =>
    intro sig t h
    simp only [readSigLoop] at h
    split at h
    · cases h; exact List.prefix_rfl
    · cases h
  | cons l ls ih =>
    intro sig t h
    simp only [readSigLoop] at h
    split at h
    · cases h; exact List.prefix_rfl
    · exact (List.prefix_append _ _).trans (ih _ _ h)

theorem defineMacros_plain : ∀ m ∈ defineMacros, m ≠ [] ∧ ∀ c ∈ m, isSpace c = false := by decide +kernel

/-- a text that starts like a definition is not refused -/
theorem signatureOfText_known (sig : Str) (big : Bool) (h : (∃ m ∈ defineMacros, m <+: sig) ∨ cs!"asmlinkage" <+: sig) :
    signatureOfText sig big ≠ .ok none := by
  unfold signatureOfText
  simp only
  split
  · cases signatureOfDefine (noprefix sig definePrefixes) big <;> simp [Except.map]
  · next h1 =>
    have h1 := Decidable.not_not.1 h1
    rcases h with ⟨m, hm, rest, rfl⟩ | h
    · rw [noprefix_define m rest hm] at h1
      have := congrArg List.length h1
      rw [List.length_append] at this
      have hl : m.length ≠ 0 := fun h0 => (defineMacros_plain m hm).1 (List.length_eq_zero_iff.1 h0)
      omega
    · rw [if_pos ((startsWith_iff _ _).2 h)]
      cases signatureOfAsmlinkage sig <;> simp [Except.map]

/-- a line that was accepted as a definition gives a signature, if it gives anything -/
theorem signatureFromSource_known (a : Arch) (lines : List Str) (line : Nat) (text name : Str) (big : Bool)
    (hl : lines[line - 1]? = some text) (hg : goodDefinition a text name = true) : signatureFromSource lines line big ≠ .ok none := by
  unfold signatureFromSource readSigText
  obtain ⟨hlt, ht⟩ := List.getElem?_eq_some_iff.1 hl
  rw [if_neg (by omega), List.drop_eq_getElem_cons hlt, ht]
  simp only
  cases hr : readSigLoop (strip text) (lines.drop (line - 1 + 1)) with
  | error x => intro h; cases h
  | ok t =>
    rw [res_ok_bind]
    have hp := readSigLoop_prefix _ _ _ hr
    refine signatureOfText_known t big ?_
    rcases goodDefinition_starts a text name hg with ⟨m, hm, h⟩ | h
    · exact .inl ⟨m, hm, (strip_keeps m text (defineMacros_plain m hm).1 (defineMacros_plain m hm).2 h).trans hp⟩
    · exact .inr ((strip_keeps _ text (by decide) (by decide) h).trans hp)

/-! ## The same outcome -/

theorem signatureFromSourceL_snd (file : Path) (lines : List Str) (line : Nat) (big : Bool) :
    (signatureFromSourceL file lines line big).2 = signatureFromSource lines line big := by
  unfold signatureFromSourceL
  rw [lm_bind_snd, lm_lift_snd]
  cases signatureFromSource lines line big with
  | error x => rfl
  | ok o => cases o <;> rfl

theorem signSyscallL_snd (fs : Files) (big src : Bool) (metas : Option (Dict Str (List Str))) (sc : Syscall) :
    (signSyscallL fs big src metas sc).2 = signSyscall fs big src metas sc := by
  unfold signSyscallL
  by_cases he : sc.esoteric = true
  · rw [if_pos he]; unfold signSyscall; rw [if_pos he]; rfl
  rw [if_neg he]
  by_cases hg : sc.goodLocation = true
  · rw [if_pos hg]
    unfold signSyscall
    rw [if_neg he, if_pos hg, lm_bind_snd, lm_lift_snd]
    congr 1
    funext _
    cases sc.file with
    | none => rfl
    | some f =>
      cases sc.line with
      | none => rfl
      | some l =>
        simp only
        cases fs f with
        | none => rfl
        | some lines => simp only [lm_bind_snd, signatureFromSourceL_snd]; rfl
  · rw [if_neg hg]; rfl

theorem signLoopL_snd (fs : Files) (big src : Bool) (metas : Option (Dict Str (List Str))) (scs : List Syscall) :
    (signLoopL fs big src metas scs).2 = mapRes (signSyscall fs big src metas) scs := by
  induction scs with
  | nil => rfl
  | cons sc scs ih =>
    simp only [signLoopL, mapRes, lm_bind_snd, signSyscallL_snd, ih]
    rfl

theorem extractSignaturesL_snd (fs : Files) (e : Elf) (src : Bool) (scs : List Syscall) :
    (extractSignaturesL fs e src scs).2 = extractSignatures fs e src scs := by
  unfold extractSignaturesL extractSignatures
  simp only [lm_bind_snd, lm_lift_snd, signLoopL_snd]

theorem wholeEntriesL_snd (text : Insn → Str) (w : Surroundings) (a : Arch) (e : Elf) :
    (wholeEntriesL text w a e).2 = tableEntries a e (w.kenv a) := by
  unfold wholeEntriesL tableEntries
  cases a.tableName with
  | some t => simp only [lm_bind_snd, vaddrsFromTableL_snd]; rfl
  | none => simp only [lm_bind_snd, extractVaddrsL_snd]; rfl

theorem wholeL_snd (text : Insn → Str) (sh : Symbol → Str) (w : Surroundings) (a0 : Arch) (e : Elf) (v : Ver) :
    (wholeL text sh w a0 e v).2 = extractSyscalls a0 e v (w.kenv (a0.adjustAbi e)) := by
  unfold wholeL extractSyscalls
  split
  · rfl
  · rw [lm_bind_snd, wholeEntriesL_snd]
    congr 1
    funext entries
    split
    · rfl
    · split
      · rfl
      · simp only [lm_bind_snd, candidatesL_snd, finalL_snd, extractLocationsL_snd, extractSignaturesL_snd]
        rfl

/-! ## What is told about signatures -/

theorem signSyscallL_quiet (fs : Files) (big src : Bool) (metas : Option (Dict Str (List Str))) (sc : Syscall)
    (h : sc.goodLocation = true → ∀ f l lines, sc.file = some f → sc.line = some l → fs f = some lines →
      signatureFromSource lines l big ≠ .ok none) : (signSyscallL fs big src metas sc).1 = [] := by
  unfold signSyscallL
  by_cases he : sc.esoteric = true
  · rw [if_pos he]; rfl
  rw [if_neg he]
  by_cases hg : sc.goodLocation = true
  · rw [if_pos hg]
    cases src with
    | false => rfl
    | true =>
      rw [lm_bind_fst _ _ () rfl]
      cases hf : sc.file with
      | none => rfl
      | some f =>
        cases hl : sc.line with
        | none => rfl
        | some l =>
          simp only
          cases hx : fs f with
          | none => rfl
          | some lines =>
            have h := h hg f l lines hf hl hx
            simp only
            unfold signatureFromSourceL
            cases hs : signatureFromSource lines l big with
            | error x => rfl
            | ok o =>
              cases o with
              | none => exact absurd hs h
              | some sig => rfl
  · rw [if_neg hg]; rfl

theorem signLoopL_quiet (fs : Files) (big src : Bool) (metas : Option (Dict Str (List Str))) (scs : List Syscall)
    (h : ∀ sc ∈ scs, (signSyscallL fs big src metas sc).1 = []) : (signLoopL fs big src metas scs).1 = [] := by
  induction scs with
  | nil => rfl
  | cons sc scs ih =>
    simp only [signLoopL]
    cases hs : (signSyscallL fs big src metas sc).2 with
    | error x =>
      show (LM.bind _ _).1 = _
      unfold LM.bind
      rw [hs]
      exact h sc (by simp)
    | ok s =>
      rw [lm_bind_fst _ _ s hs, h sc (by simp), List.nil_append]
      have ih := ih fun sc hsc => h sc (by simp [hsc])
      cases hr : (signLoopL fs big src metas scs).2 with
      | error x =>
        show (LM.bind _ _).1 = _
        unfold LM.bind
        rw [hr]
        exact ih
      | ok ss => rw [lm_bind_fst _ _ ss hr, ih]; rfl

theorem extractSignaturesL_quiet (fs : Files) (e : Elf) (src : Bool) (scs : List Syscall)
    (h : ∀ sc ∈ scs, ∀ metas, (signSyscallL fs e.bigEndian src metas sc).1 = []) : (extractSignaturesL fs e src scs).1 = [] := by
  unfold extractSignaturesL
  cases hm : e.syscallMeta with
  | error x => rfl
  | ok metas =>
    rw [lm_bind_fst _ _ metas (by rw [lm_lift_snd])]
    show [] ++ _ = _
    rw [List.nil_append]
    exact signLoopL_quiet fs e.bigEndian src metas scs fun sc hsc => h sc hsc metas

end Verif
