import Verif.Lemmas.Pattern
import Verif.Spec.Build
/-! # The texts of the code, piece by piece (for C127) -/
set_option autoImplicit false
set_option maxRecDepth 8000

namespace Verif
open Spec

/-- a text without names is read by computation -/
local macro "read_text" : term => `(fun _ _ _ _ _ => ⟨_, _, rfl, by
  simp only [flatItems, Reader.push, Frame.push, List.append_assoc] <;> congr 1⟩)

theorem piece_bol : Piece cs!"^" Re.bol.bare.factors := read_text
theorem piece_b : Piece cs!"\\b" Re.wordB.bare.factors := read_text
theorem piece_asm : Piece cs!"asmlinkage\\s*(unsigned\\s+)?\\w+\\s*" asmRe.bare.factors := read_text
theorem piece_open : Piece cs!"\\s*\\(" (reWs.bare.factors ++ (Re.lit cs!"(").bare.factors) := read_text

theorem piece_odd {p name : Str} (hp : Piece p (Re.lit p).bare.factors) (hn : Spliced name) :
    Piece (cs!"\\basmlinkage\\s*(unsigned\\s+)?\\w+\\s*" ++ (p ++ name) ++ cs!"\\s*\\(")
      (oddAsmRe (.seq (.lit p) (nameRe name))).bare.factors := by
  have := (((piece_b.append piece_asm).append (hp.append (.name hn))).append piece_open)
  simpa only [oddAsmRe, Re.cat, Re.bare, Re.factors, List.append_assoc, List.cons_append, List.nil_append, List.append_nil] using this

theorem piece_full {name : Str} (hn : Spliced name) :
    Piece (cs!"\\basmlinkage\\s*(unsigned\\s+)?\\w+\\s*" ++ name ++ cs!"\\s*\\(")
      (oddAsmRe (nameRe name)).bare.factors := by
  have := (((piece_b.append piece_asm).append (.name hn)).append piece_open)
  simpa only [oddAsmRe, Re.cat, Re.bare, Re.factors, List.append_assoc, List.cons_append, List.nil_append, List.append_nil] using this

theorem piece_sysm {name : Str} (hn : Spliced name) :
    Piece (cs!"\\basmlinkage\\s*(unsigned\\s+)?\\w+\\s*(sysm|mipsmt_sys)_" ++ name ++ cs!"\\s*\\(")
      (oddAsmRe (.seq (.alt (.lit cs!"sysm") (.lit cs!"mipsmt_sys")) (.seq (.lit cs!"_") (nameRe name)))).bare.factors := by
  have h0 : Piece cs!"(sysm|mipsmt_sys)_"
      (Re.seq (.alt (.lit cs!"sysm") (.lit cs!"mipsmt_sys")) (.lit cs!"_")).bare.factors := read_text
  have := (((piece_b.append piece_asm).append (h0.append (.name hn))).append piece_open)
  simpa only [oddAsmRe, Re.cat, Re.bare, Re.factors, List.append_assoc, List.cons_append, List.nil_append, List.append_nil] using this

theorem compile_definition (a : Arch) (name : Str) (hn : Spliced name) :
    ∃ r, compileRe (definitionText a name) = .ok r ∧ Alike r (.alt (newstyleRe a name) (oldstyleRe name)) := by
  have h1 : Piece ((if a.compat then cs!"^(COMPAT_)?" else cs!"^") ++ cs!"SYSCALL(32)?_DEFINE\\d\\s*\\(" ++ name ++ cs!"\\b")
      (newstyleRe a name).bare.factors := by
    have h2 : Piece cs!"SYSCALL(32)?_DEFINE\\d\\s*\\("
      (Re.cat [.lit cs!"SYSCALL", .opt (.lit cs!"32"), .lit cs!"_DEFINE", .chr isDigit, reWs, .lit cs!"("]).bare.factors := read_text
    have h3 : Piece (if a.compat then cs!"^(COMPAT_)?" else cs!"^")
        (Re.seq .bol (if a.compat then .opt (.lit cs!"COMPAT_") else .eps)).bare.factors := by
      cases a.compat
      · exact read_text
      · exact read_text
    have := ((h3.append h2).append (.name hn)).append piece_b
    simpa only [newstyleRe, Re.cat, Re.bare, Re.factors, List.append_assoc, List.cons_append, List.nil_append, List.append_nil] using this
  have h2 : Piece (cs!"^asmlinkage\\s*(unsigned\\s+)?\\w+\\s*sys(32)?_" ++ name ++ cs!"\\(") (oldstyleRe name).bare.factors := by
    have h0 : Piece cs!"sys(32)?_" (Re.cat [.lit cs!"sys", .opt (.lit cs!"32"), .lit cs!"_"]).bare.factors := read_text
    have h1 : Piece cs!"\\(" (Re.lit cs!"(").bare.factors := read_text
    have := (((piece_bol.append piece_asm).append h0).append (.name hn)).append h1
    simpa only [oldstyleRe, Re.cat, Re.bare, Re.factors, List.append_assoc, List.cons_append, List.nil_append, List.append_nil] using this
  exact h1.or h2

theorem compile_fullname (name : Str) (hn : Spliced name) :
    ∃ r, compileRe (fullnameText name) = .ok r ∧ Alike r (fullnameRe name) := by
  have h : Piece (fullnameText name) (fullnameRe name).bare.factors := by
    have := ((piece_bol.append piece_asm).append (.name hn)).append piece_open
    simpa only [fullnameRe, fullnameText, Re.cat, Re.bare, Re.factors, List.append_assoc, List.cons_append, List.nil_append, List.append_nil] using this
  exact h.alike

theorem compile_odd (a : Arch) (name : Str) (hn : Spliced name) :
    match a.defText (some name) with
    | none => a.defRe name = none
    | some t => ∃ r q, compileRe t = .ok r ∧ a.defRe name = some q ∧ Alike r q := by
  unfold Arch.defText Arch.defRe
  simp only
  cases a.kind with
  | arm =>
    by_cases ha : a.abi = cs!"oabi"
    rotate_left
    · simp [ha]
    · simp only [ne_eq, ha, not_true_eq_false, if_false]
      by_cases hs : startsWith name cs!"sys_oabi_" = true
      · simp only [hs, if_true]
        obtain ⟨r, h1, h2⟩ := (piece_full hn).alike
        exact ⟨r, _, h1, rfl, h2⟩
      · simp only [hs, if_false, Bool.false_eq_true]
        obtain ⟨r, h1, h2⟩ := (piece_odd (p := cs!"sys_oabi_") read_text hn).alike
        exact ⟨r, _, h1, rfl, h2⟩
  | x86 =>
    by_cases ha : a.abi = cs!"x32"
    rotate_left
    · simp [ha]
    · simp only [ne_eq, ha, not_true_eq_false, if_false]
      by_cases hs : startsWith name cs!"sys32_x32_" = true
      · simp only [hs, if_true]
        obtain ⟨r, h1, h2⟩ := (piece_full hn).alike
        exact ⟨r, _, h1, rfl, h2⟩
      · simp only [hs, if_false, Bool.false_eq_true]
        obtain ⟨r, h1, h2⟩ := (piece_odd (p := cs!"sys32_x32_") read_text hn).alike
        exact ⟨r, _, h1, rfl, h2⟩
  | powerpc =>
    by_cases ha : a.abi = cs!"ppc32"
    rotate_left
    · simp [ha]
    · simp only [ne_eq, ha, not_true_eq_false, if_false]
      have h0 : Piece cs!"\\bPPC32_SYSCALL_DEFINE\\d\\s*\\("
        (Re.cat [.wordB, .lit cs!"PPC32_SYSCALL_DEFINE", .chr isDigit, reWs, .lit cs!"("]).bare.factors := read_text
      have h1 : Piece (cs!"\\bPPC32_SYSCALL_DEFINE\\d\\s*\\(" ++ name ++ cs!"\\b")
          (Re.cat [.wordB, .lit cs!"PPC32_SYSCALL_DEFINE", .chr isDigit, reWs, .lit cs!"(", nameRe name, .wordB]).bare.factors := by
        have := (h0.append (.name hn)).append piece_b
        simpa only [Re.cat, Re.bare, Re.factors, List.append_assoc, List.cons_append, List.nil_append, List.append_nil] using this
      obtain ⟨r, h2, h3⟩ := h1.alike
      exact ⟨r, _, h2, rfl, h3⟩
  | mips =>
    have h1 := piece_full hn
    have h2 := piece_sysm hn
    have h3 := piece_odd (p := cs!"sysn32_") read_text hn
    by_cases hs : anyprefix name [cs!"sysm_", cs!"mipsmt_sys_"] = true <;> by_cases ha : a.abi = cs!"n32"
    · by_cases ht : anyprefix name [cs!"sysn32_"] = true
      · simp only [hs, ha, ht, if_true]
        obtain ⟨r, x, y⟩ := h1.or h1
        exact ⟨r, _, x, rfl, y⟩
      · simp only [hs, ha, ht, if_true, if_false, Bool.false_eq_true]
        obtain ⟨r, x, y⟩ := h1.or h3
        exact ⟨r, _, x, rfl, y⟩
    · simp only [hs, ha, if_true, if_false]
      obtain ⟨r, x, y⟩ := h1.alike
      exact ⟨r, _, x, rfl, y⟩
    · by_cases ht : anyprefix name [cs!"sysn32_"] = true
      · simp only [hs, ha, ht, if_true, if_false, Bool.false_eq_true]
        obtain ⟨r, x, y⟩ := h2.or h1
        exact ⟨r, _, x, rfl, y⟩
      · simp only [hs, ha, ht, if_true, if_false, Bool.false_eq_true]
        obtain ⟨r, x, y⟩ := h2.or h3
        exact ⟨r, _, x, rfl, y⟩
    · simp only [hs, ha, if_false, Bool.false_eq_true]
      obtain ⟨r, x, y⟩ := h2.alike
      exact ⟨r, _, x, rfl, y⟩
  | _ => rfl

theorem piece_base (a : Arch) : Piece (baseText a) (baseRe a).bare.factors := by
  unfold baseText baseRe
  cases a.compat <;> cases a.bits32 <;> exact read_text

theorem slash_base (a : Arch) : Slash (baseText a) := by
  unfold baseText
  cases a.compat <;> cases a.bits32 <;> exact ⟨_, rfl⟩

theorem piece_colon : Piece cs!":" (Re.lit cs!":").bare.factors := read_text

theorem piece_end : Piece cs!"[,)]" (Re.chr (fun c => c == ',' || c == ')')).bare.factors := read_text

theorem piece_tail : Piece cs!"\\s*\\w+" (Re.seq reWs (.plus isWord)).bare.factors := read_text

theorem compile_grep2 (a : Arch) (t : Str) (r : Re) (h : Piece t r.bare.factors) :
    ∃ r', compileRe (cs!"(" ++ baseText a ++ cs!"|" ++ t ++ cs!")\\s*\\w+") = .ok r' ∧
      Alike r' (.cat [.alt (baseRe a) r, reWs, .plus isWord]) := by
  have h1 : Piece (cs!"(" ++ baseText a ++ cs!"|" ++ t ++ cs!")\\s*\\w+")
      (Re.cat [.alt (baseRe a) r, reWs, .plus isWord]).bare.factors := by
    have := ((piece_base a).group2 h (slash_base a)).append piece_tail
    simpa only [Re.cat, Re.bare, Re.factors, List.append_assoc, List.cons_append, List.nil_append, List.append_nil] using this
  exact h1.alike

theorem compile_grep3 (a : Arch) (t u : Str) (r q : Re) (h : Piece t r.bare.factors) (h' : Piece u q.bare.factors) :
    ∃ r', compileRe (cs!"(" ++ baseText a ++ cs!"|" ++ (t ++ cs!"|" ++ u) ++ cs!")\\s*\\w+") = .ok r' ∧
      Alike r' (.cat [.alt (baseRe a) (.alt r q), reWs, .plus isWord]) := by
  have h1 : Piece (cs!"(" ++ baseText a ++ cs!"|" ++ (t ++ cs!"|" ++ u) ++ cs!")\\s*\\w+")
      (Re.cat [.alt (baseRe a) (.alt r q), reWs, .plus isWord]).bare.factors := by
    have := ((piece_base a).group3 h h' (slash_base a)).append piece_tail
    simpa only [Re.cat, Re.bare, Re.factors, List.append_assoc, List.cons_append, List.nil_append, List.append_nil] using this
  exact h1.alike

theorem compile_grep1 (a : Arch) :
    ∃ r', compileRe (baseText a ++ cs!"\\s*\\w+") = .ok r' ∧ Alike r' (.cat [baseRe a, reWs, .plus isWord]) := by
  have h1 : Piece (baseText a ++ cs!"\\s*\\w+") (Re.cat [baseRe a, reWs, .plus isWord]).bare.factors := by
    have := (piece_base a).append piece_tail
    simpa only [Re.cat, Re.bare, Re.factors, List.append_assoc] using this
  exact h1.alike

theorem piece_any_oabi : Piece cs!"\\basmlinkage\\s*(unsigned\\s+)?\\w+\\s*sys_oabi_\\w+\\s*\\("
    (oddAsmRe (.seq (.lit cs!"sys_oabi_") (.plus isWord))).bare.factors := read_text
theorem piece_any_x32 : Piece cs!"\\basmlinkage\\s*(unsigned\\s+)?\\w+\\s*sys32_x32_\\w+\\s*\\("
    (oddAsmRe (.seq (.lit cs!"sys32_x32_") (.plus isWord))).bare.factors := read_text
theorem piece_any_n32 : Piece cs!"\\basmlinkage\\s*(unsigned\\s+)?\\w+\\s*sysn32_\\w+\\s*\\("
    (oddAsmRe (.seq (.lit cs!"sysn32_") (.plus isWord))).bare.factors := read_text
theorem piece_any_sysm : Piece cs!"\\basmlinkage\\s*(unsigned\\s+)?\\w+\\s*(sysm|mipsmt_sys)_\\w+\\s*\\("
    (oddAsmRe (.seq (.alt (.lit cs!"sysm") (.lit cs!"mipsmt_sys")) (.seq (.lit cs!"_") (.plus isWord)))).bare.factors := read_text
theorem piece_any_ppc : Piece cs!"\\bPPC32_SYSCALL_DEFINE\\d\\s*\\("
    (Re.cat [.wordB, .lit cs!"PPC32_SYSCALL_DEFINE", .chr isDigit, reWs, .lit cs!"("]).bare.factors := read_text

/-- `[0-9a-fA-F]` as it is read -/
def hexSet : Char → Bool := fun x =>
  (((((x == '0') || ('0'.toNat ≤ x.toNat && x.toNat ≤ '9'.toNat)) || x == 'a') ||
    ('a'.toNat ≤ x.toNat && x.toNat ≤ 'f'.toNat)) || x == 'A') || ('A'.toNat ≤ x.toNat && x.toNat ≤ 'F'.toNat)

theorem hex_set : hexSet = isHexDigit := by
  have h : ∀ x d : Char, (x == d) = decide (x.toNat = d.toNat) := by
    intro x d
    rw [Bool.eq_iff_iff, beq_iff_eq, decide_eq_true_eq, Char.toNat_inj]
  have e0 : '0'.toNat = 48 := rfl
  have e9 : '9'.toNat = 57 := rfl
  have ea : 'a'.toNat = 97 := rfl
  have ef : 'f'.toNat = 102 := rfl
  have eA : 'A'.toNat = 65 := rfl
  have eF : 'F'.toNat = 70 := rfl
  funext x
  unfold hexSet isHexDigit
  simp only [h, e0, e9, ea, ef, eA, eF]
  rw [Bool.eq_iff_iff]
  simp only [Bool.or_eq_true, Bool.and_eq_true, decide_eq_true_eq]
  omega

/-- one literal character -/
def litc (c : Char) : Re := .chr fun x => x == c

theorem read_symbol : compileRe symbolPat = .ok (catAll [.plus isDigit, litc ':', .plus isSpace, .grp 1 (catAll [.plus hexSet]),
    .plus isSpace, .grp 2 (catAll [.plus isDigit]), .plus isSpace, .grp 3 (catAll [.plus isWord]), .plus notNewline, .plus isSpace,
    .grp 4 (catAll [.plus fun c => !isSpace c]), .eol]) := rfl

theorem read_section : compileRe sectionPat = .ok (catAll [.chr isSpace, .grp 1 (catAll [.plus fun c => c == '.' || isWord c]),
    .plus isSpace, .grp 2 (.alt (catAll [litc 'P', litc 'R', litc 'O', litc 'G', litc 'B', litc 'I', litc 'T', litc 'S'])
      (catAll [litc 'N', litc 'O', litc 'B', litc 'I', litc 'T', litc 'S'])), .plus isSpace, .grp 3 (catAll [.plus hexSet]),
    .plus isSpace, .grp 4 (catAll [.plus hexSet]), .plus isSpace, .grp 5 (catAll [.plus hexSet])]) := rfl

theorem read_version : compileRe versionPat = .ok (catAll [.grp 1 (catAll [.plus isDigit]), litc '.', .grp 2 (catAll [.plus isDigit]),
    .opt (.grp 3 (catAll [litc '.', .grp 4 (catAll [.plus isDigit])]))]) := rfl

theorem way_lit (t : Str) (st : St) (caps : Caps) (st' : St) (caps' : Caps) :
    Way (.lit t) st caps st' caps' ↔ st.rest = t ++ st'.rest ∧ st'.prev = lastOr st.prev t ∧ caps' = caps := by
  induction t generalizing st caps with
  | nil =>
    constructor
    · intro h; cases h; exact ⟨rfl, rfl, rfl⟩
    · rintro ⟨h1, h2, rfl⟩
      obtain ⟨p, x⟩ := st; obtain ⟨q, y⟩ := st'
      simp only [List.nil_append, lastOr] at h1 h2
      subst h1 h2
      exact .eps
  | cons c cs ih =>
    constructor
    · intro h
      cases h with
      | seq ha hb =>
        cases ha with
        | chr hp =>
          obtain ⟨h1, h2, h3⟩ := (ih _ _).1 hb
          have := eq_of_beq hp
          subst this
          exact ⟨congrArg (_ :: ·) h1, h2, h3⟩
    · rintro ⟨h1, h2, h3⟩
      obtain ⟨p, x⟩ := st
      simp only [List.cons_append] at h1
      subst h1
      exact .seq (.chr (beq_self_eq_true c)) ((ih _ _).2 ⟨rfl, h2, h3⟩)

theorem way_star_intro (p : Char → Bool) (ws : Str) (hw : ∀ c ∈ ws, p c = true) (prev : Option Char) (rest : Str) (caps : Caps) :
    Way (.star p) ⟨prev, ws ++ rest⟩ caps ⟨lastOr prev ws, rest⟩ caps := by
  induction ws generalizing prev with
  | nil => exact .none
  | cons c cs ih => exact .more (hw c List.mem_cons_self) (ih (fun d hd => hw d (List.mem_cons_of_mem _ hd)) _)

theorem way_star_elim {p : Char → Bool} {st : St} {caps : Caps} {st' : St} (h : Way (.star p) st caps st' caps) :
    ∃ ws, st.rest = ws ++ st'.rest ∧ ∀ c ∈ ws, p c = true := by
  obtain ⟨prev, s⟩ := st
  induction s generalizing prev with
  | nil => cases h; exact ⟨[], rfl, by simp⟩
  | cons c cs ih =>
    cases h with
    | none => exact ⟨[], rfl, by simp⟩
    | more hp t =>
      obtain ⟨ws, h1, h2⟩ := ih _ t
      refine ⟨c :: ws, congrArg (c :: ·) h1, ?_⟩
      intro d hd
      rcases List.mem_cons.1 hd with rfl | hd
      · exact hp
      · exact h2 d hd

/-- the expression for the Makefile after `^` -/
def flagsRe : Re :=
  .cat [.lit cs!"KBUILD_CFLAGS", .star isSpace, .lit cs!"+=", .star isSpace, .lit cs!"-O", .grp 1 (.lit cs!"2"), .lit cs!"\n"]

/-- the same as it is read -/
def flagsRead : Re := catAll [litc 'K', litc 'B', litc 'U', litc 'I', litc 'L', litc 'D',
    litc '_', litc 'C', litc 'F', litc 'L', litc 'A', litc 'G', litc 'S', .star isSpace, litc '+', litc '=', .star isSpace, litc '-',
    litc 'O', .grp 1 (catAll [litc '2']), litc '\n']

theorem read_flags : compileRe flagsPat = .ok (.seq .bol flagsRead) := rfl

theorem flagsRead_factors : flagsRead.factors = flagsRe.factors := rfl

theorem way_flagsRead (st : St) (caps : Caps) (st' : St) (caps' : Caps) :
    Way flagsRead st caps st' caps' ↔ Way flagsRe st caps st' caps' := by
  rw [← mem_ways, ways_of_factors flagsRead_factors, mem_ways]

theorem way_flags (prev : Option Char) (s : Str) (st : St) (caps : Caps) (h : Way flagsRe ⟨prev, s⟩ [] st caps) :
    caps = [(1, cs!"2")] ∧ ∃ mid, FlagAt s [] mid ('\n' :: st.rest) := by
  simp only [flagsRe, Re.cat] at h
  cases h with | seq h1 h => cases h with | seq h2 h => cases h with | seq h3 h => cases h with | seq h4 h =>
  cases h with | seq h5 h => cases h with | seq h6 h7 =>
  cases h2.star_caps
  cases h4.star_caps
  obtain ⟨a1, -, rfl⟩ := (way_lit ..).1 h1
  obtain ⟨ws, a2, b2⟩ := way_star_elim h2
  obtain ⟨a3, -, rfl⟩ := (way_lit ..).1 h3
  obtain ⟨ws', a4, b4⟩ := way_star_elim h4
  obtain ⟨a5, -, rfl⟩ := (way_lit ..).1 h5
  cases h6 with
  | grp h6 ht =>
    obtain ⟨a6, -, rfl⟩ := (way_lit ..).1 h6
    obtain ⟨a7, -, rfl⟩ := (way_lit ..).1 h7
    refine ⟨?_, cs!"KBUILD_CFLAGS" ++ ws ++ cs!"+=" ++ ws' ++ cs!"-O", ?_, .inl rfl, ⟨ws, ws', rfl, b2, b4⟩, _, rfl⟩
    · rw [a6] at ht
      rw [List.append_cancel_right ht]
    · simp only at a1
      rw [a1, a2, a3, a4, a5, a6, a7]
      simp only [List.append_assoc, List.nil_append, List.cons_append]

theorem way_flags_of (prev : Option Char) (s mid post : Str) (h : FlagAt s [] mid post) :
    ∃ st caps, Way flagsRe ⟨prev, s⟩ [] st caps := by
  obtain ⟨hs, -, ⟨ws, ws', rfl, b1, b2⟩, rest, rfl⟩ := h
  subst hs
  simp only [flagsRe, Re.cat]
  refine ⟨⟨some '\n', rest⟩, [(1, cs!"2")], ?_⟩
  refine .seq (st1 := ⟨some 'S', ws ++ (cs!"+=" ++ (ws' ++ (cs!"-O2\n" ++ rest)))⟩) (caps1 := [])
    ((way_lit ..).2 ⟨by simp, rfl, rfl⟩) ?_
  refine .seq (way_star_intro _ ws b1 _ _ _) ?_
  refine .seq (st1 := ⟨some '=', ws' ++ (cs!"-O2\n" ++ rest)⟩) (caps1 := []) ((way_lit ..).2 ⟨by simp, rfl, rfl⟩) ?_
  refine .seq (way_star_intro _ ws' b2 _ _ _) ?_
  refine .seq (st1 := ⟨some 'O', cs!"2\n" ++ rest⟩) (caps1 := []) ((way_lit ..).2 ⟨by simp, rfl, rfl⟩) ?_
  refine .seq (st1 := ⟨some '2', cs!"\n" ++ rest⟩) (.grp (caps1 := []) (text := cs!"2") ((way_lit ..).2 ⟨by simp, rfl, rfl⟩) (by simp)) ?_
  exact (way_lit ..).2 ⟨by simp, rfl, rfl⟩

end Verif
