import Verif.Lemmas.Locate3
import Verif.Props.Extract
/-! # C52 (end), C53-C60, C79: locations -/
set_option autoImplicit false

namespace Verif
open Spec

/-! ## A small world to try things on -/

/-- a source file -/
def smallFile : Path := ⟨true, [cs!"k", cs!"fs", cs!"open.c"]⟩

def smallLines : List Str :=
  [cs!"#include <x.h>\n", cs!"SYSCALL_DEFINE1(open, int, fd)\n", cs!"{\n", cs!"\treturn 0;\n", cs!"}\n", cs!"\n",
   cs!"SYSCALL_DEFINE0(getpid)\n", cs!"{\n", cs!"\treturn 1;\n", cs!"}\n"]

def smallSym (name : Str) (va size : Nat) : Symbol := { name := name, vaddr := va, realVaddr := va, size := size, type := cs!"FUNC" }

/-- two syscalls -/
def smallScs : List Syscall :=
  [Syscall.new (some 0) 0 cs!"open" cs!"open" (smallSym cs!"__x64_sys_open" 0x1000 16) none,
   Syscall.new (some 1) 1 cs!"getpid" cs!"getpid" (smallSym cs!"__x64_sys_getpid" 0x2000 16) none]

/-- addr2line knows the first one, and a wrong line for the second one, but its last address -/
def smallWorld : LEnv where
  haveAddr2line := true
  addr2line := fun l => .ok (l.map fun a =>
    if a = 0x1000 then cs!"/k/fs/open.c:4" else if a = 0x200f then cs!"/k/fs/open.c:9" else cs!"??:?")
  elfPath := ⟨true, [cs!"out", cs!"vmlinux"]⟩
  files := fun p => if p = smallFile then some smallLines else none
  resolve := id
  grep := .ok []

def x64Arch : Arch := { kind := .x86, version := [5, 10], abi := cs!"x64", bits32 := false }
def ppc32Arch : Arch := { kind := .powerpc, version := [5, 10], abi := cs!"ppc32", bits32 := true, compat := false }

/-- what is found: line 2 at once, line 7 from the last address -/
theorem smallWorld_run : ∃ out, extractLocations smallWorld x64Arch (some ⟨true, [cs!"k"]⟩) none smallScs = .ok out ∧
    out.map (fun s => (s.line, s.goodLocation)) = [(some 2, true), (some 7, true)] := by
  refine ⟨_, rfl, ?_⟩
  decide +kernel

/-! ## C53 -/

/-- C53: a location that is not doubtful is a line of an existing file whose text was accepted as a definition of the
original or of the reported name; grepped locations are never doubtful; without sources all are. -/
theorem C53_good_locations (w : LEnv) (a : Arch) (kdir rdir : Option Path) (scs out : List Syscall)
    (hfresh : ∀ sc ∈ scs, sc.goodLocation = false ∧ sc.greppedLocation = false)
    (h : extractLocations w a kdir rdir scs = .ok out) :
    (∀ sc ∈ out, sc.goodLocation = true → ∃ f l lines text, sc.file = some f ∧ sc.line = some l ∧ w.files f = some lines ∧
      lines[l - 1]? = some text ∧ (goodDefinition a text sc.origname = true ∨ goodDefinition a text sc.name = true)) ∧
    (∀ sc ∈ out, sc.greppedLocation = true → sc.goodLocation = true) ∧
    (kdir = none → ∀ sc ∈ out, sc.goodLocation = false ∧ sc.greppedLocation = false) := by
  obtain ⟨h1, h2⟩ := extractLocations_ok w a kdir rdir scs out h
  refine ⟨?_, ?_, fun hk => h2 hk hfresh⟩
  · intro sc hsc hg
    obtain ⟨sc0, h0, ht⟩ := forall2_mem_right h1 hsc
    exact ht.good (hfresh sc0 h0).1 hg
  · intro sc hsc hg
    obtain ⟨sc0, h0, ht⟩ := forall2_mem_right h1 hsc
    exact ht.grepped (hfresh sc0 h0).2 hg

/-- C53 in terms of the specification: the line defines the syscall (names made of word characters). -/
theorem C53_points_at_definition (w : LEnv) (a : Arch) (kdir rdir : Option Path) (scs out : List Syscall)
    (hfresh : ∀ sc ∈ scs, sc.goodLocation = false ∧ sc.greppedLocation = false)
    (hnames : ∀ sc ∈ scs, Ident sc.origname ∧ Ident sc.name)
    (h : extractLocations w a kdir rdir scs = .ok out) : ∀ sc ∈ out, sc.goodLocation = true → GoodAt w.files a sc := by
  intro sc hsc hg
  obtain ⟨f, l, lines, text, h1, h2, h3, h4, h5⟩ := (C53_good_locations w a kdir rdir scs out hfresh h).1 sc hsc hg
  obtain ⟨sc0, h0, ht⟩ := forall2_mem_right (extractLocations_ok w a kdir rdir scs out h).1 hsc
  obtain ⟨e1, e2⟩ := relocated_names ht.rel
  have hn := hnames sc0 h0
  rw [← e1, ← e2] at hn
  refine ⟨f, l, lines, text, h1, h2, h3, h4, ?_⟩
  rw [← goodDefinition_iff a text _ hn.1, ← goodDefinition_iff a text _ hn.2]
  exact h5

example : (∀ sc ∈ smallScs, sc.goodLocation = false ∧ sc.greppedLocation = false) ∧
    (∀ sc ∈ smallScs, Ident sc.origname ∧ Ident sc.name) := by
  constructor
  · decide
  · intro sc hsc
    simp only [smallScs, List.mem_cons, List.not_mem_nil, or_false] at hsc
    rcases hsc with rfl | rfl <;> exact ⟨⟨by decide, by decide⟩, by decide, by decide⟩

/-! ## C52, the assertion -/

theorem mapRes_error {α β : Type} (f : α → Res β) (l : List α) (x : Exc) (h : mapRes f l = .error x) : ∃ a ∈ l, f a = .error x := by
  induction l with
  | nil => cases h
  | cons a l ih =>
    simp only [mapRes, bind, Except.bind] at h
    split at h
    · next e he => cases h; exact ⟨a, by simp, he⟩
    · split at h
      · next e he =>
        cases h
        obtain ⟨b, hb, e⟩ := ih he
        exact ⟨b, by simp [hb], e⟩
      · cases h

/-- C52: after location extraction, signature extraction can only fail on the metadata or on the text of a good
location: the checks for missing sources, files and lines never fire. -/
theorem C52_only_source_errors (w : LEnv) (a : Arch) (kdir rdir : Option Path) (scs out : List Syscall) (e : Elf) (x : Exc)
    (md : Option (Dict Str (List Str))) (hm : e.syscallMeta = .ok md)
    (hfresh : ∀ sc ∈ scs, sc.goodLocation = false ∧ sc.greppedLocation = false)
    (h : extractLocations w a kdir rdir scs = .ok out) (hs : extractSignatures w.files e kdir.isSome out = .error x) :
    kdir.isSome = true ∧ ∃ sc ∈ out, sc.goodLocation = true ∧ ∃ f l lines, sc.file = some f ∧ sc.line = some l ∧
      w.files f = some lines ∧ signatureFromSource lines l e.bigEndian = .error x := by
  obtain ⟨hg, -, hn⟩ := C53_good_locations w a kdir rdir scs out hfresh h
  unfold extractSignatures at hs
  rw [hm] at hs
  simp only [bind, Except.bind] at hs
  obtain ⟨sc, hsc, hs⟩ := mapRes_error _ _ _ hs
  unfold signSyscall at hs
  by_cases he : sc.esoteric = true
  · rw [if_pos he] at hs; cases hs
  · rw [if_neg he] at hs
    by_cases hgl : sc.goodLocation = true
    · rw [if_pos hgl] at hs
      have hk : kdir.isSome = true := by
        cases hk : kdir with
        | none => have := (hn hk sc hsc).1; rw [hgl] at this; cases this
        | some k => rfl
      obtain ⟨f, l, lines, text, h1, h2, h3, -, -⟩ := hg sc hsc hgl
      simp only [hk, pyAssert, if_true, bind, Except.bind, h1, h2, h3] at hs
      refine ⟨hk, sc, hsc, hgl, f, l, lines, h1, h2, h3, ?_⟩
      split at hs
      · next e' he' => cases hs; exact he'
      · cases hs
    · rw [if_neg hgl] at hs
      repeat' split at hs
      all_goals cases hs

/-! ## C54 -/

/-- C54: exactly the definitions of the specification are accepted. -/
theorem C54_definitions (a : Arch) (text name : Str) (hid : Ident name) :
    goodDefinition a text name = true ↔ Defines a text name := goodDefinition_iff a text name hid

/-- the macros with which some architecture defines syscalls -/
def allMacros : List Str :=
  [cs!"SYSCALL_DEFINE", cs!"SYSCALL32_DEFINE", cs!"COMPAT_SYSCALL_DEFINE", cs!"COMPAT_SYSCALL32_DEFINE", cs!"PPC32_SYSCALL_DEFINE"]

theorem macrosOf_all (a : Arch) (m : Str) (h : m ∈ macrosOf a) : m ∈ allMacros := by
  unfold macrosOf at h
  simp only [List.mem_append] at h
  rcases h with (h | h) | h
  · simp at h; rcases h with rfl | rfl <;> decide
  · split at h
    · simp at h; rcases h with rfl | rfl <;> decide
    · cases h
  · split at h
    · simp at h; subst h; decide
    · cases h

theorem allMacros_ident (m : Str) (h : m ∈ allMacros) : Ident m ∧ ∀ t, m ++ t ≠ [] ∧ ∀ u, m ++ t ≠ 'a' :: u := by
  simp only [allMacros, List.mem_cons, List.not_mem_nil, or_false] at h
  rcases h with rfl | rfl | rfl | rfl | rfl <;> exact ⟨⟨by decide, by decide⟩, fun t => ⟨by simp, by simp⟩⟩

theorem digit_noParen (d : Char) (h : isDigit d = true) : NoParen [d] := by
  intro c hc he
  simp at hc
  subst hc; subst he
  revert h; decide

/-- C54: the definition through a macro of one name is never taken for that of another name. -/
theorem C54_macro_exact (a : Arch) (m text n n' : Str) (hm : m ∈ allMacros) (hu : MacroUse m text n') (hid : Ident n) (hid' : Ident n')
    (h : goodDefinition a text n = true) : n = n' := by
  obtain ⟨d, ws, rest, hd, hws, hnw, ht⟩ := hu
  have hstart : ∀ u, text ≠ 'a' :: u := by
    intro u hu
    rw [hu] at ht
    have := ((allMacros_ident m hm).2 ([d] ++ ws ++ cs!"(" ++ n' ++ rest)).2 u
    apply this
    rw [ht]; simp only [List.append_assoc]
  have hasm : ∀ fn b, ¬ AsmText text fn b := by
    rintro fn b ⟨head, w, r, hh, -, -, rfl⟩
    obtain ⟨t, rfl⟩ := asmHead_starts _ hh
    exact hstart _ rfl
  rcases (goodDefinition_iff a text n hid).1 h with ⟨m', hm', d', ws', rest', hd', hws', hnw', ht'⟩ | ⟨fn, -, hf⟩ | ⟨fn, -, hf⟩
  · have hp : NoParen (m ++ [d] ++ ws) :=
      noParen_append (noParen_append (ident_noParen (allMacros_ident m hm).1) (digit_noParen d hd)) (blank_noParen hws)
    have hp' : NoParen (m' ++ [d'] ++ ws') :=
      noParen_append (noParen_append (ident_noParen (allMacros_ident m' (macrosOf_all a m' hm')).1) (digit_noParen d' hd')) (blank_noParen hws')
    have e : (m ++ [d] ++ ws) ++ '(' :: (n' ++ rest) = (m' ++ [d'] ++ ws') ++ '(' :: (n ++ rest') := by
      have := ht.symm.trans ht'
      simpa using this
    have := (paren_split hp hp' e).2
    have e1 := congrArg (List.takeWhile isWord) this
    rw [takeWhile_append_stop _ _ _ hid'.2 hnw, takeWhile_append_stop _ _ _ hid.2 hnw'] at e1
    exact e1.symm
  · exact absurd hf (hasm _ _)
  · exact absurd hf (hasm _ _)

/-- a function head with a return type, the words separated by blanks -/
def FunctionHead (text fn : Str) : Prop :=
  ∃ ws1 uns ty ws2 ws3 rest, Blank ws1 ∧ ws1 ≠ [] ∧ (uns = [] ∨ ∃ ws, ws ≠ [] ∧ Blank ws ∧ uns = cs!"unsigned" ++ ws) ∧
    Ident ty ∧ ty ≠ cs!"unsigned" ∧ Blank ws2 ∧ ws2 ≠ [] ∧ Blank ws3 ∧
    text = cs!"asmlinkage" ++ ws1 ++ uns ++ ty ++ ws2 ++ fn ++ ws3 ++ cs!"(" ++ rest

/-- C54: the definition of a function `asmlinkage [unsigned] type function(` (where the type is not just `unsigned`)
is only taken for that of a syscall that the function is named after. -/
theorem C54_function_exact_partial (a : Arch) (text n fn : Str) (hf : FunctionHead text fn) (hfn : Ident fn) (hid : Ident n)
    (h : goodDefinition a text n = true) : fn ∈ tightNames n ++ oddNames a n := by
  obtain ⟨ws1, uns, ty, ws2, ws3, rest, h1, h1', h2, h3, h3', h4, h4', h5, ht⟩ := hf
  -- the words as intended
  have hp : NoParen (cs!"asmlinkage" ++ ws1 ++ uns ++ ty ++ ws2 ++ fn ++ ws3) := by
    refine noParen_append (noParen_append (asmHead_noParen ⟨ws1, uns, ty, ws2, h1, h2, h3, h4, rfl⟩) (ident_noParen hfn)) (blank_noParen h5)
  have hw : splitWs (cs!"asmlinkage" ++ ws1 ++ uns ++ ty ++ ws2 ++ fn ++ ws3) = [cs!"asmlinkage", ty, fn] ∨
      splitWs (cs!"asmlinkage" ++ ws1 ++ uns ++ ty ++ ws2 ++ fn ++ ws3) = [cs!"asmlinkage", cs!"unsigned", ty, fn] := by
    have ef := splitWs_word ty ws2 (fn ++ ws3) h3 h4' h4
    rw [splitWs_last fn ws3 hfn h5] at ef
    rcases h2 with rfl | ⟨ws, hne, hws, rfl⟩
    · left
      have e0 := splitWs_word cs!"asmlinkage" ws1 (ty ++ (ws2 ++ (fn ++ ws3))) ident_asmlinkage h1' h1
      rw [ef] at e0
      rw [← e0]
      simp only [List.append_assoc, List.nil_append]
    · right
      have e0 := splitWs_word cs!"asmlinkage" ws1 (cs!"unsigned" ++ (ws ++ (ty ++ (ws2 ++ (fn ++ ws3))))) ident_asmlinkage h1' h1
      rw [splitWs_word cs!"unsigned" ws _ ident_unsigned hne hws, ef] at e0
      rw [← e0]
      simp only [List.append_assoc]
  have key : ∀ fn' b, fn' ∈ tightNames n ++ oddNames a n → AsmText text fn' b → fn = fn' := by
    rintro fn' b hmem ⟨head, w, r, hh, hbl, -, ht'⟩
    have hid' := names_ident a n fn' hid hmem
    have e : (cs!"asmlinkage" ++ ws1 ++ uns ++ ty ++ ws2 ++ fn ++ ws3) ++ '(' :: rest = (head ++ fn' ++ w) ++ '(' :: r := by
      have := ht.symm.trans ht'
      simpa using this
    have e1 := (paren_split hp (noParen_append (noParen_append (asmHead_noParen hh) (ident_noParen hid')) (blank_noParen hbl)) e).1
    have e2 := asmHead_words head fn' w hh hid' hbl
    rw [← e1] at e2
    rcases hw with hw | hw <;> rw [hw] at e2
    · rcases e2 with ⟨x, y, e2, hx⟩ | ⟨x, e2⟩ | ⟨x, e2⟩ | ⟨x, e2⟩ | ⟨x, e2⟩
      · cases e2; exact absurd hx (by decide)
      · simp at e2; exact e2.2
      · simp at e2
      · simp at e2
      · simp at e2; exact absurd e2.1 h3'
    · rcases e2 with ⟨x, y, e2, hx⟩ | ⟨x, e2⟩ | ⟨x, e2⟩ | ⟨x, e2⟩ | ⟨x, e2⟩
      · cases e2; exact absurd hx (by decide)
      · simp at e2
      · simp at e2
      · simp at e2; exact e2.2
      · simp at e2
  rcases (goodDefinition_iff a text n hid).1 h with ⟨m', hm', d', ws', rest', -, -, -, ht'⟩ | ⟨fn', hmem, hf⟩ | ⟨fn', hmem, hf⟩
  · exfalso
    have := ((allMacros_ident m' (macrosOf_all a m' hm')).2 ([d'] ++ ws' ++ cs!"(" ++ n ++ rest')).2
      (cs!"smlinkage" ++ ws1 ++ uns ++ ty ++ ws2 ++ fn ++ ws3 ++ cs!"(" ++ rest)
    apply this
    rw [show m' ++ ([d'] ++ ws' ++ cs!"(" ++ n ++ rest') = text by rw [ht']; simp only [List.append_assoc], ht]
    rfl
  · have := key fn' false (List.mem_append.2 (.inl hmem)) hf
    rw [this]; exact List.mem_append.2 (.inl hmem)
  · have := key fn' true (List.mem_append.2 (.inr hmem)) hf
    rw [this]; exact List.mem_append.2 (.inr hmem)

/-- C54 is false in general: the type and the function name may be glued, so a function returning plain `unsigned`
whose name ends like the wanted one is accepted. -/
theorem C54_other_name_refuted : ¬ ∀ (a : Arch) (text n : Str), Ident n → goodDefinition a text n = true →
    ∀ fn, Ident fn → cs!"asmlinkage unsigned " ++ fn ++ cs!"(" <+: text → fn ∈ tightNames n ++ oddNames a n := by
  intro h
  have := h x64Arch cs!"asmlinkage unsigned old_sys_open(int fd)" cs!"open" ⟨by decide, by decide⟩ (by decide +kernel)
    cs!"old_sys_open" ⟨by decide, by decide⟩ (by decide)
  revert this
  decide +kernel

theorem blank_one : Blank cs!" " := by unfold Blank; decide

example : MacroUse cs!"SYSCALL_DEFINE" cs!"SYSCALL_DEFINE3 (open, const char *, name" cs!"open" ∧ Ident cs!"open" ∧
    goodDefinition x64Arch cs!"SYSCALL_DEFINE3 (open, const char *, name" cs!"open" = true ∧
    goodDefinition x64Arch cs!"SYSCALL_DEFINE3(openat, const char *, name" cs!"open" = false :=
  ⟨⟨'3', cs!" ", cs!", const char *, name", rfl, blank_one, by rintro c cs ⟨⟩; rfl, rfl⟩, ⟨by decide, by decide⟩,
    by decide +kernel, by decide +kernel⟩

example : FunctionHead cs!"asmlinkage unsigned long sys_brk (void)" cs!"sys_brk" :=
  ⟨cs!" ", cs!"unsigned ", cs!"long", cs!" ", cs!" ", cs!"void)", blank_one, by decide,
    .inr ⟨cs!" ", by decide, blank_one, rfl⟩, ⟨by decide, by decide⟩, by decide, blank_one, by decide, blank_one, rfl⟩

/-! ## C55 -/

/-- C55: the line is never moved down, and a line number stays a line number. -/
theorem C55_never_down (fs : Files) (f : Path) (line r : Nat) (h : adjustLine fs f line = .ok r) :
    r ≤ line ∧ (1 ≤ line → 1 ≤ r) := by
  unfold adjustLine at h
  split at h
  · cases h
  · next lines _ =>
    by_cases hl : lines.length < line
    · rw [adjustGo_short lines line hl] at h; cases h
    · rcases adjustGo_spec lines line line (Nat.le_refl _) (by omega) (by intros; omega) with ⟨b, hb, hbl, e⟩ | ⟨-, e⟩
      · rw [e] at h; cases h
        rcases signatureAbove_spec lines b (by have := bodyAt_lt hb; omega) with ⟨j, l, hj, -, -, -, e⟩ | ⟨-, e⟩ <;> rw [e] <;>
          simp <;> omega
      · rw [e] at h; cases h; exact ⟨Nat.le_refl _, id⟩

/-- C55: inside a function body (an opening brace is met first), the line becomes the closest line above the brace that
is neither blank, nor indented, nor a preprocessor directive. -/
theorem C55_signature (fs : Files) (f : Path) (lines : List Str) (line b j : Nat) (l : Str) (hf : fs f = some lines)
    (hlen : line ≤ lines.length) (hb : BodyAt lines line b) (hj : j < b) (hl : lines[j]? = some l) (hs : SigLine l)
    (hbetween : ∀ i l', j < i → i < b → lines[i]? = some l' → ¬ SigLine l') : adjustLine fs f line = .ok (j + 1) := by
  unfold adjustLine
  simp only [hf]
  rcases adjustGo_spec lines line line (Nat.le_refl _) hlen (by intros; omega) with ⟨b', hb', -, e⟩ | ⟨hn, -⟩
  · cases bodyAt_unique lines line b b' hb hb'
    rw [e]
    rcases signatureAbove_spec lines b (by have := bodyAt_lt hb; omega) with ⟨j', l', hj', hl', hs', hn', e⟩ | ⟨hn, -⟩
    · rw [e]
      rcases Nat.lt_trichotomy j j' with hlt | rfl | hlt
      · exact absurd hs' (hbetween j' l' hlt hj' hl')
      · rfl
      · exact absurd hs (hn' j l hlt hj hl)
    · exact absurd hs (hn j l hj hl)
  · exact absurd hb (hn b)

/-- C55: without such a line above the brace, the brace itself is taken. -/
theorem C55_no_signature (fs : Files) (f : Path) (lines : List Str) (line b : Nat) (hf : fs f = some lines)
    (hlen : line ≤ lines.length) (hb : BodyAt lines line b) (hno : ∀ i l, i < b → lines[i]? = some l → ¬ SigLine l) :
    adjustLine fs f line = .ok (b + 1) := by
  unfold adjustLine
  simp only [hf]
  rcases adjustGo_spec lines line line (Nat.le_refl _) hlen (by intros; omega) with ⟨b', hb', -, e⟩ | ⟨hn, -⟩
  · cases bodyAt_unique lines line b b' hb hb'
    rw [e]
    rcases signatureAbove_spec lines b (by have := bodyAt_lt hb; omega) with ⟨j', l', hj', hl', hs', -⟩ | ⟨-, e⟩
    · exact absurd hs' (hno j' l' hj' hl')
    · rw [e]; rfl
  · exact absurd hb (hn b)

/-- C55: the line is unchanged when a closing brace, or the start of the file, is met first. -/
theorem C55_unchanged (fs : Files) (f : Path) (lines : List Str) (line : Nat) (hf : fs f = some lines)
    (hlen : line ≤ lines.length) (hno : ∀ b, ¬ BodyAt lines line b) : adjustLine fs f line = .ok line := by
  unfold adjustLine
  simp only [hf]
  rcases adjustGo_spec lines line line (Nat.le_refl _) hlen (by intros; omega) with ⟨b', hb', -, e⟩ | ⟨-, e⟩
  · exact absurd hb' (hno b')
  · exact e

/-- C55: between the new line and the old one there is no closing brace of a function. -/
theorem C55_same_function (fs : Files) (f : Path) (lines : List Str) (line r : Nat) (hf : fs f = some lines)
    (h : adjustLine fs f line = .ok r) : ∀ i l, r ≤ i → i < line - 1 → lines[i]? = some l → ¬ OnlyChar '}' l := by
  unfold adjustLine at h
  simp only [hf] at h
  intro i l hi hi' hl
  by_cases hlen : lines.length < line
  · rw [adjustGo_short lines line hlen] at h; cases h
  · rcases adjustGo_spec lines line line (Nat.le_refl _) (by omega) (by intros; omega) with ⟨b, hb, hbl, e⟩ | ⟨-, e⟩
    · rw [e] at h; cases h
      rcases Nat.lt_trichotomy i b with hlt | rfl | hlt
      · rintro ⟨ws, rfl, -⟩
        rcases signatureAbove_spec lines b (by have := bodyAt_lt hb; omega) with ⟨j', l', hj', hl', hs', hn, e⟩ | ⟨hn, e⟩ <;> rw [e] at hi
        · exact hn i _ (Nat.lt_of_succ_le (by simpa using hi)) hlt hl (by rintro c cs ⟨⟩; decide)
        · exact hn i _ hlt hl (by rintro c cs ⟨⟩; decide)
      · obtain ⟨l', hl', ho⟩ := hb.2.1
        rw [hl] at hl'; cases hl'
        obtain ⟨w1, e1, -⟩ := ho
        rintro ⟨w2, e2, -⟩
        rw [e1] at e2; simp at e2
      · exact (hb.2.2 i hlt (by omega) l hl).2 hi'
    · rw [e] at h; cases h; omega

/-- C55: a missing file, or one with fewer lines, stops the program. -/
theorem C55_missing (fs : Files) (f : Path) (line : Nat) :
    (fs f = none → adjustLine fs f line = .error (.exit 1)) ∧
    (∀ lines, fs f = some lines → lines.length < line → adjustLine fs f line = .error (.exit 1)) := by
  constructor
  · intro h; simp only [adjustLine, h]
  · intro lines h hl; simp only [adjustLine, h]; exact adjustGo_short lines line hl

example : BodyAt smallLines 9 7 ∧ (∃ l, smallLines[6]? = some l ∧ SigLine l) ∧
    adjustLine smallWorld.files smallFile 9 = .ok 7 ∧ adjustLine smallWorld.files smallFile 6 = .ok 6 := by
  refine ⟨⟨by decide, ⟨_, rfl, cs!"\n", rfl, by decide⟩, ?_⟩, ⟨_, rfl, by rintro c cs ⟨⟩; decide⟩, by decide +kernel, by decide +kernel⟩
  intro i hi hi' l hl
  obtain rfl : i = 8 := by omega
  cases hl
  exact ⟨by rintro ⟨ws, h, -⟩; simp at h, by rintro - ⟨ws, h, -⟩; simp at h⟩

/-! ## C56 -/

/-- C56: each syscall is yielded exactly once. -/
theorem C56_each_once (w : LEnv) (a : Arch) (kdir : Path) (todo : List Ref) (out : List (Ref × Option (Path × Nat)))
    (h : grepSources w a kdir todo = .ok out) : (out.map Prod.fst).Perm todo := by
  unfold grepSources at h
  simp only [bind, Except.bind] at h
  split at h
  · cases h
  · exact grepMatch_perm _ _ _ _ _ h

/-- C56: there is an assignment of the rows, in the order in which they are tried, to syscalls that they match, no
syscall having two; the syscalls found are those with a row, and a row that matches a syscall goes to it unless
it goes to another one or the syscall has an earlier one. -/
theorem C56_assignment (w : LEnv) (a : Arch) (kdir : Path) (todo : List Ref) (out : List (Ref × Option (Path × Nat)))
    (rows : List Str) (hrows : w.grep = .ok rows) (hnd : todo.Nodup) (hid : ∀ r ∈ todo, Ident r.2.origname)
    (h : grepSources w a kdir todo = .ok out) :
    ∃ tried : List Str, tried.Perm rows ∧
      tried.Pairwise (fun x y => (InArch y → InArch x) ∧ ((InArch y ↔ InArch x) → marks a y ≤ marks a x)) ∧
    ∃ asg : Nat → Option Ref,
      (∀ i r, asg i = some r → r ∈ todo ∧ ∃ row, tried[i]? = some row ∧ RowOf a row r.2.origname) ∧
      (∀ i j r, asg i = some r → asg j = some r → i = j) ∧
      (∀ r loc, (r, some loc) ∈ out ↔ ∃ i row, asg i = some r ∧ tried[i]? = some row ∧ rowLocation kdir row = .ok loc) ∧
      (∀ r, (r, none) ∈ out ↔ r ∈ todo ∧ ∀ i, asg i ≠ some r) ∧
      (∀ i row r, tried[i]? = some row → r ∈ todo → RowOf a row r.2.origname →
        asg i = some r ∨ (∃ r', r' ≠ r ∧ asg i = some r') ∨ ∃ j, j < i ∧ asg j = some r) := by
  unfold grepSources at h
  rw [hrows] at h
  simp only [bind, Except.bind] at h
  refine ⟨sortRows a rows, sortBy_perm _ _, ?_, ?_⟩
  · have hp := sortBy_pairwise (fun x y => keyLe (grepKey a y) (grepKey a x))
      (by intro x y; simp only [keyLe, Bool.or_eq_true, Bool.and_eq_true, decide_eq_true_eq]; omega)
      (by intro x y z; simp only [keyLe, Bool.or_eq_true, Bool.and_eq_true, decide_eq_true_eq]; omega) rows
    refine List.Pairwise.imp ?_ hp
    intro x y hxy
    classical
    have ha : ∀ z, boolNat (startsWith z cs!"arch") = if InArch z then 1 else 0 := by
      intro z
      unfold boolNat InArch
      by_cases hz : cs!"arch" <+: z
      · rw [if_pos ((startsWith_iff _ _).2 hz), if_pos hz]
      · rw [if_neg fun hc => hz ((startsWith_iff _ _).1 hc), if_neg hz]
    have hi : ∀ p z : Str, boolNat (isInfix p z) = if p <:+: z then 1 else 0 := by
      intro p z
      unfold boolNat
      by_cases hz : p <:+: z
      · rw [if_pos ((isInfix_iff p z).2 hz), if_pos hz]
      · rw [if_neg fun hc => hz ((isInfix_iff p z).1 hc), if_neg hz]
    have hk : ∀ z, (grepKey a z).2 = marks a z := by
      intro z
      unfold grepKey marks
      cases a.compat <;> cases a.bits32 <;> simp [hi]
    have hk1 : ∀ z, (grepKey a z).1 = if InArch z then 1 else 0 := ha
    simp only [keyLe, Bool.or_eq_true, Bool.and_eq_true, decide_eq_true_eq, hk, hk1] at hxy
    by_cases h1 : InArch x <;> by_cases h2 : InArch y <;> simp [h1, h2] at hxy ⊢ <;> exact hxy
  · obtain ⟨asg, h1, h2, h3, h4, h5⟩ := grepMatch_assign a kdir _ _ _ hnd h
    refine ⟨asg, ?_, h2, h3, h4, ?_⟩
    · intro i r hi
      obtain ⟨e1, row, e2, e3⟩ := h1 i r hi
      exact ⟨e1, row, e2, (syscallGrepRe_search a _ row (hid r e1).2).1 e3⟩
    · intro i row r hrow hr hm
      rcases h5 i row r hrow hr ((syscallGrepRe_search a _ row (hid r hr).2).2 hm) with ⟨r', e⟩ | e
      · by_cases hrr : r' = r
        · exact .inl (hrr ▸ e)
        · exact .inr (.inl ⟨r', hrr, e⟩)
      · exact .inr (.inr e)

/-- C56: rows that rank the same are tried in the order of the output. -/
theorem C56_stable (a : Arch) (rows : List Str) (k : Nat × Nat) :
    (sortRows a rows).filter (fun l => grepKey a l = k) = rows.filter (fun l => grepKey a l = k) := by
  unfold sortRows
  apply sortBy_filter
  intro x y hx hy
  simp only [decide_eq_true_eq] at hx hy
  simp [keyLe, hx, hy]

/-- rows for two definitions of the same name -/
def smallRows : List Str := [cs!"fs/open.c:2:SYSCALL_DEFINE1(open, int, fd)", cs!"arch/x86/open.c:7:SYSCALL_DEFINE1(open, int, fd)"]

/-- C56, an example: the row under arch/ wins -/
example : ∃ out, grepSources { smallWorld with grep := .ok smallRows } x64Arch ⟨true, [cs!"k"]⟩
      [(0, Syscall.new (some 0) 0 cs!"open" cs!"open" (smallSym cs!"__x64_sys_open" 0x1000 16) none)] = .ok out ∧
    out.map Prod.snd = [some (⟨true, [cs!"k", cs!"arch", cs!"x86", cs!"open.c"]⟩, 7)] := ⟨_, rfl, by decide +kernel⟩

/-! ## C57 -/

/-- C57 is false: the definition of a 32-bit PowerPC syscall through its own macro is found in the sources and would be
accepted, but its row is never matched to the syscall. -/
theorem C57_arch_macro_refuted : ∃ (line : Str) (row : Str) (r : Ref),
    (grepFile (grepRe ppc32Arch) [cs!"arch", cs!"powerpc", cs!"kernel", cs!"syscalls.c"] [line]) = [row] ∧
    Defines ppc32Arch line r.2.origname ∧
    ∀ w : LEnv, w.grep = .ok [row] → ∀ kdir, grepSources w ppc32Arch kdir [r] = .ok [(r, none)] := by
  refine ⟨cs!"PPC32_SYSCALL_DEFINE6(mmap2, unsigned long, addr)\n",
    cs!"arch/powerpc/kernel/syscalls.c:1:PPC32_SYSCALL_DEFINE6(mmap2, unsigned long, addr)",
    (0, Syscall.new (some 0) 0 cs!"mmap2" cs!"mmap2" (smallSym cs!"sys_mmap2" 0x1000 16) none), by decide +kernel, ?_, ?_⟩
  · rw [← goodDefinition_iff _ _ _ ⟨by decide, by decide⟩]
    decide +kernel
  · intro w hw kdir
    unfold grepSources
    rw [hw]
    simp only [bind, Except.bind]
    have : sortRows ppc32Arch [cs!"arch/powerpc/kernel/syscalls.c:1:PPC32_SYSCALL_DEFINE6(mmap2, unsigned long, addr)"] =
      [cs!"arch/powerpc/kernel/syscalls.c:1:PPC32_SYSCALL_DEFINE6(mmap2, unsigned long, addr)"] := rfl
    rw [this]
    have hno : takeMatch ppc32Arch cs!"arch/powerpc/kernel/syscalls.c:1:PPC32_SYSCALL_DEFINE6(mmap2, unsigned long, addr)"
      [(0, Syscall.new (some 0) 0 cs!"mmap2" cs!"mmap2" (smallSym cs!"sys_mmap2" 0x1000 16) none)] = none := by decide +kernel
    simp only [grepMatch, hno]
    rfl

/-- C57, what holds: a definition through a standard macro of the architecture, at the start of a line of a searched
file, gives a row that matches the syscall. -/
theorem C57_standard_macros_partial (a : Arch) (rel lines : List Str) (i : Nat) (l stem name : Str) (d x : Char) (ws rest : Str)
    (hl : lines[i]? = some l) (hstem : stem ∈ grepStems a) (hd : isDigit d = true) (hws : Blank ws) (hid : Ident name)
    (hx : x = ',' ∨ x = ')')
    (ht : l = stem ++ cs!"_DEFINE" ++ [d] ++ ws ++ cs!"(" ++ name ++ [x] ++ rest) :
    ∃ row ∈ grepFile (grepRe a) rel lines, RowOf a row name ∧
      ((syscallGrepRe a name).search row).isSome = true := by
  have hsearch : ((grepRe a).search l).isSome = true := by
    unfold Re.search
    rw [Re.searchFrom_isSome_iff]
    obtain ⟨c, mt, rfl, hc⟩ := grepStems_word a stem hstem
    have hbase : (baseRe a).M ⟨none, l⟩ [] ⟨some '(', name ++ [x] ++ rest⟩ [] := by
      refine ⟨_, [], (wordB_iff _ _ _ _ _).2 ⟨?_, rfl, rfl⟩, _, [], (baseRe_words a _ _ _ _ _).2 ⟨_, hstem, cs!"_DEFINE" ++ ([d] ++ (ws ++ (cs!"(" ++ (name ++ [x] ++ rest)))), ?_, rfl, rfl⟩, _, [],
        (Re.M_lit_iff _ _ _ _ _ _).2 ⟨_, rfl, rfl, rfl⟩, _, [], (Re.M_chr_iff _ _ _ _ _ _).2 ⟨d, _, rfl, hd, rfl, rfl⟩, _, [],
        (Re.M_star_iff _ _ _ _ _ _).2 ⟨ws, _, rfl, hws, rfl, rfl⟩, (Re.M_lit_iff _ _ _ _ _ _).2 ⟨_, rfl, rfl, rfl⟩⟩
      · rw [ht]
        show optWord none ≠ optWord (some c)
        simp only [optWord, hc]; decide
      · rw [ht]; simp only [List.append_assoc]
    have htail : (Re.cat [reWs, .plus isWord]).M ⟨some '(', name ++ [x] ++ rest⟩ [] ⟨lastOr (some '(') name, [x] ++ rest⟩ [] :=
      ⟨_, [], (Re.M_star_iff _ _ _ _ _ _).2 ⟨[], _, rfl, by simp, rfl, rfl⟩,
        (Re.M_plus_iff _ _ _ _ _ _).2 ⟨name, _, List.append_assoc _ _ _, hid.1, hid.2, rfl, rfl⟩⟩
    refine ⟨[], l, ⟨lastOr (some '(') name, [x] ++ rest⟩, [], rfl, ?_⟩
    unfold grepRe
    split
    · exact ⟨_, [], .inl hbase, htail⟩
    · exact ⟨_, [], hbase, htail⟩
  -- trailing blanks are cut off
  have hstrip : ∃ rest', brstrip l = stem ++ cs!"_DEFINE" ++ [d] ++ ws ++ cs!"(" ++ name ++ [x] ++ rest' := by
    have hxs : isBSpace x = false := by rcases hx with rfl | rfl <;> decide
    rw [ht]
    generalize stem ++ cs!"_DEFINE" ++ [d] ++ ws ++ cs!"(" ++ name = p
    unfold brstrip
    have : ∀ r q : Str, (r ++ (x :: q)).dropWhile isBSpace = r.dropWhile isBSpace ++ (x :: q) := by
      intro r q
      induction r with
      | nil => simp [hxs]
      | cons y ys ih =>
        rw [List.cons_append, List.dropWhile_cons, List.dropWhile_cons]
        split
        · exact ih
        · rfl
    refine ⟨(rest.reverse.dropWhile isBSpace).reverse, ?_⟩
    rw [List.reverse_append, List.reverse_append]
    have := this rest.reverse p.reverse
    simp only [List.reverse_cons, List.reverse_nil, List.nil_append, List.singleton_append] at this ⊢
    rw [this]
    simp
  obtain ⟨rest', hrest⟩ := hstrip
  have hrow : RowOf a (Path.str ⟨false, rel⟩ ++ cs!":" ++ natRepr (i + 1) ++ cs!":" ++ brstrip l) name :=
    ⟨Path.str ⟨false, rel⟩ ++ cs!":" ++ natRepr (i + 1), stem, d, ws, x, rest', hstem, hd, hws, hx, by
      rw [hrest]; simp only [List.append_assoc]⟩
  exact ⟨_, (grepFile_mem _ _ _ _).2 ⟨i, l, hl, hsearch, rfl⟩, hrow, (syscallGrepRe_search a _ _ hid.2).2 hrow⟩

/-! ## C58 -/

/-- C58, what is asked for: exactly the addresses from vaddr + 1 to vaddr + size - 3. -/
theorem C58_addresses_partial (sc : Syscall) (x : Nat) (h3 : 3 ≤ sc.symbol.size) :
    x ∈ retryAddrs sc ↔ sc.symbol.realVaddr + 1 ≤ x ∧ x ≤ sc.symbol.realVaddr + sc.symbol.size - 3 := by
  unfold retryAddrs
  simp only [List.mem_map, List.mem_range]
  constructor
  · rintro ⟨i, hi, rfl⟩; omega
  · rintro ⟨h1, h2⟩; exact ⟨x - sc.symbol.realVaddr - 1, by omega, by omega⟩

/-- C58 is false: vaddr + size - 2 is never asked for, and for symbols of size 3 addr2line is run without addresses. -/
theorem C58_inner_addresses_refuted :
    (∀ sc : Syscall, 3 ≤ sc.symbol.size → sc.symbol.realVaddr + sc.symbol.size - 2 ∉ retryAddrs sc) ∧
    (∀ sc : Syscall, sc.symbol.size = 3 → retryAddrs sc = []) ∧
    ∀ sc : Syscall, nextBySize 2 sc = .adjust ↔ 3 ≤ sc.symbol.size := by
  refine ⟨?_, ?_, ?_⟩
  · intro sc h hm
    have := ((C58_addresses_partial sc _ h).1 hm).2
    omega
  · intro sc h; simp [retryAddrs, h]
  · intro sc
    unfold nextBySize
    split <;> simp <;> omega

/-! ## C59 -/

theorem excluded_iff (a : Arch) (archs dir : List Str) : excluded a archs dir = true ↔ Skipped a archs dir := by
  unfold Skipped
  constructor
  · intro h
    unfold excluded at h
    split at h
    · next d => exact .inl ⟨d, by simpa using h, rfl⟩
    · next d x =>
      simp only [Bool.and_eq_true, beq_iff_eq, List.contains_iff_mem, bne_iff_ne] at h
      exact .inr ⟨x, h.1.2, h.2, by rw [h.1.1]⟩
    · cases h
  · rintro (⟨d, hd, rfl⟩ | ⟨x, hx, hn, rfl⟩)
    · simpa [excluded] using hd
    · simp [excluded, hx, hn]

/-- C59: the rows found without ripgrep are exactly those of the matching lines of the `*.c` files that are not hidden
and none of whose directories is hidden or excluded. -/
theorem C59_rows (a : Arch) (tree archs : List (Str × Node)) (harch : dget cs!"arch" tree = some (.dir archs)) :
    ∃ rows, grepTree a tree = .ok rows ∧ ∀ row, row ∈ rows ↔
      ∃ path lines i l, At tree path (.file lines) ∧
        (∀ c ∈ path, ¬ cs!"." <+: c) ∧ (∃ last, path.getLast? = some last ∧ cs!".c" <:+ last) ∧
        (∀ k, 0 < k → k < path.length → ¬ Skipped a (archs.map Prod.fst) (path.take k)) ∧
        lines[i]? = some l ∧ ((grepRe a).search l).isSome = true ∧
        row = Path.str ⟨false, path⟩ ++ cs!":" ++ natRepr (i + 1) ++ cs!":" ++ brstrip l := by
  refine ⟨_, by simp only [grepTree, harch]; rfl, ?_⟩
  intro row
  rw [grepDir_mem]
  have hh : ∀ c : Str, isHidden c = false ↔ ¬ cs!"." <+: c := by
    intro c
    rw [Bool.eq_false_iff, ne_eq]
    exact not_congr (startsWith_iff _ _)
  have hc : ∀ c : Str, isCFile c = true ↔ cs!".c" <:+ c := fun c => endsWith_iff _ _
  have hs : ∀ p, excluded a (archs.map Prod.fst) p = false ↔ ¬ Skipped a (archs.map Prod.fst) p := by
    intro p
    rw [Bool.eq_false_iff, ne_eq, excluded_iff]
  simp only [hh, hc, hs, List.nil_append, grepFile_mem]
  constructor
  · rintro ⟨path, lines, h1, h2, h3, h4, i, l, h5⟩; exact ⟨path, lines, i, l, h1, h2, h3, h4, h5⟩
  · rintro ⟨path, lines, i, l, h1, h2, h3, h4, h5⟩; exact ⟨path, lines, h1, h2, h3, h4, i, l, h5⟩

/-- a tree with files to find and to skip -/
def smallTree : List (Str × Node) :=
  [(cs!".git", .dir [(cs!"a.c", .file [cs!"SYSCALL_DEFINE0(fork)\n"])]),
   (cs!"arch", .dir [(cs!"x86", .dir [(cs!"b.c", .file [cs!"\n", cs!"SYSCALL_DEFINE0(vfork)\n"])]),
                     (cs!"arm", .dir [(cs!"c.c", .file [cs!"SYSCALL_DEFINE0(vfork)\n"])])]),
   (cs!"lib", .dir [(cs!"d.c", .file [cs!"SYSCALL_DEFINE0(clone)\n"])]),
   (cs!"kernel", .dir [(cs!"e.c", .file [cs!"SYSCALL_DEFINE0(getpid)\n"]), (cs!"f.h", .file [cs!"SYSCALL_DEFINE0(getpid)\n"]),
                       (cs!"lib", .dir [(cs!"g.c", .file [cs!"SYSCALL_DEFINE0(gettid)\n"])])])]

example : grepTree x64Arch smallTree = .ok [cs!"arch/x86/b.c:2:SYSCALL_DEFINE0(vfork)", cs!"kernel/e.c:1:SYSCALL_DEFINE0(getpid)",
    cs!"kernel/lib/g.c:1:SYSCALL_DEFINE0(gettid)"] := by decide +kernel

/-! ## C60 -/

/-- C60: locations: the same syscalls in the same order, only file, line and the location flags can change. -/
theorem C60_locations_frame (w : LEnv) (a : Arch) (kdir rdir : Option Path) (scs out : List Syscall)
    (h : extractLocations w a kdir rdir scs = .ok out) : List.Forall₂ Relocated scs out :=
  forall2_imp (fun _ _ t => t.rel) (extractLocations_ok w a kdir rdir scs out h).1

/-- C60: signatures: only the signature can change. -/
theorem C60_signatures_frame (fs : Files) (e : Elf) (src : Bool) (scs out : List Syscall)
    (h : extractSignatures fs e src scs = .ok out) : List.Forall₂ Resigned scs out := by
  obtain ⟨metas, -, hf⟩ := C52_signature_priority fs e src scs out h
  refine forall2_imp ?_ hf
  rintro sc sc' ⟨s, -, rfl⟩
  rfl

/-- C60 for the whole extraction: what was assumed of the location step in C21-C37 holds of this one. -/
theorem C60_env_ok (w : LEnv) (a : Arch) (kdir rdir : Option Path) (env : KEnv) (e : Elf)
    (hloc : env.locate = extractLocations w a kdir rdir) (horder : (env.niOrder e.niSyscalls).Perm e.niSyscalls)
    (hkeys : ∀ l, env.archVaddrs e = .ok l → (l.map Prod.fst).Nodup) : EnvOk env e :=
  ⟨horder, hkeys, fun l l' h => C60_locations_frame w a kdir rdir l l' (by rw [← hloc]; exact h)⟩

/-! ## C79 -/

/-- addr2line knows a place inside the function, but nothing about the last addresses asked for -/
def patchyWorld : LEnv := { smallWorld with
  addr2line := fun l => .ok (l.map fun a =>
    if a = 0x1000 then cs!"/k/fs/open.c:4" else if a = 0x2001 then cs!"/k/fs/open.c:4" else cs!"??:?") }

/-- C79 is false: an address without debug information after one with a wrong location stops the program. -/
theorem C79_missing_debug_info_refuted :
    extractLocations patchyWorld x64Arch (some ⟨true, [cs!"k"]⟩) none smallScs = .error .attr := by decide +kernel

theorem retryLoop_lastNone (w : LEnv) (a : Arch) (kdir : Path) (rdir : Option Path) (sc : Syscall) (locs : List (Res Loc))
    (hlast : ∀ l, locs.getLast? = some (.ok l) → l.1.isSome = true) :
    ∀ (i n inv ln : Bool), (locs = [] → n = false) → retryLoop w a kdir rdir sc locs i n = .ok (.failed inv ln) → ln = false := by
  induction locs with
  | nil => intro i n inv ln hn h; cases h; exact hn rfl
  | cons loc locs ih =>
    intro i n inv ln _ h
    have hlast' : ∀ l, locs.getLast? = some (.ok l) → l.1.isSome = true := by
      intro l hl
      apply hlast l
      rw [List.getLast?_cons, hl]; rfl
    simp only [retryLoop, bind, Except.bind] at h
    split at h
    · cases h
    rename_i l _
    split at h
    · cases h
    rename_i file hfile
    have hnone : locs = [] → file.isNone = false := by
      intro hnil
      subst hnil
      have := hlast l rfl
      unfold remapPath at hfile
      cases hl : l.1 with
      | none => rw [hl] at this; cases this
      | some p =>
        rw [hl] at hfile
        simp only at hfile
        split at hfile
        · simp only [bind, Except.bind] at hfile
          split at hfile
          · cases hfile
          · cases hfile; rfl
        · cases hfile; rfl
    split at h
    · exact ih hlast' _ _ _ _ hnone h
    split at h
    · cases h
    split at h
    · cases h
    split at h
    · cases h
    · exact ih hlast' _ _ _ _ (fun _ => rfl) h

theorem relativeTo_not_attr (p q : Path) : p.relativeTo q ≠ .error .attr := by
  unfold Path.relativeTo
  split <;> simp

theorem remapPath_not_attr (kdir : Path) (rdir : Option Path) (p : Option Path) : remapPath kdir rdir p ≠ .error .attr := by
  intro h
  unfold remapPath at h
  split at h
  · cases h
  · split at h
    · simp only [bind, Except.bind] at h
      split at h
      · next e he =>
        cases h
        unfold maybeRel at he
        simp only at he
        split at he
        · exact relativeTo_not_attr _ _ he
        · cases he
      · cases h
    · cases h

theorem smartLoc_not_attr (elf : Path) (dir : Option Path) (row : Str) :
    (do let loc ← parseLocRow row; smartLoc elf dir loc : Res Loc) ≠ .error .attr := by
  intro h
  simp only [bind, Except.bind] at h
  split at h
  · next e he =>
    cases h
    unfold parseLocRow at he
    repeat' split at he
    all_goals cases he
  · unfold smartLoc at h
    split at h
    · cases h
    · split at h
      · cases h
      · split at h
        · simp only [bind, Except.bind] at h
          split at h
          · next e he => cases h; exact relativeTo_not_attr _ _ he
          · cases h
        · cases h

theorem retryLoop_not_attr (w : LEnv) (a : Arch) (kdir : Path) (rdir : Option Path) (sc : Syscall) (locs : List (Res Loc))
    (hl : ∀ l ∈ locs, l ≠ .error .attr) : ∀ (i n : Bool), retryLoop w a kdir rdir sc locs i n ≠ .error .attr := by
  induction locs with
  | nil => intro i n h; cases h
  | cons loc locs ih =>
    intro i n h
    have ih' := ih fun l hl' => hl l (List.mem_cons_of_mem _ hl')
    simp only [retryLoop, bind, Except.bind] at h
    split at h
    · cases h; exact hl _ (by simp) rfl
    split at h
    · next e he => cases h; exact remapPath_not_attr _ _ _ he
    split at h
    · exact ih' _ _ h
    split at h
    · next e he =>
      cases h
      unfold adjustLine at he
      split at he
      · cases he
      · next lines _ =>
        have : ∀ line n, adjustGo lines line n ≠ .error .attr := by
          intro line n
          induction n with
          | zero => intro h; cases h
          | succ n ih =>
            intro h
            simp only [adjustGo] at h
            split at h
            · cases h
            · split at h
              · cases h
              · split at h
                · split at h <;> cases h
                · exact ih h
        exact this _ _ he
    split at h
    · next e he =>
      cases h
      unfold goodLocationAt at he
      split at he
      · cases he
      · split at he <;> cases he
    split at h
    · cases h
    · exact ih' _ _ h

/-- C79, what holds: if addr2line knows the file of the last inner address of every symbol, the search through the
inner addresses does not raise that error. -/
theorem C79_known_last_partial (w : LEnv) (a : Arch) (kdir : Path) (rdir : Option Path) (refs : List Ref)
    (htool : ∀ l, w.addr2line l ≠ .error .attr)
    (hlast : ∀ r ∈ refs, ∀ locs, smartAddr2line w (retryAddrs r.2) (some kdir) = .ok locs →
      ∀ l, locs.getLast? = some (.ok l) → l.1.isSome = true) (k : Work) :
    thirdLoop w a kdir rdir refs k ≠ .error .attr := by
  induction refs generalizing k with
  | nil => intro h; cases h
  | cons r rs ih =>
    intro h
    have ih' := ih (fun x hx => hlast x (List.mem_cons_of_mem _ hx))
    simp only [thirdLoop, bind, Except.bind] at h
    split at h
    · next e he =>
      cases h
      unfold smartAddr2line at he
      simp only [bind, Except.bind] at he
      split at he
      · next e' he' => cases he; exact htool _ he'
      · cases he
    rename_i locs hlocs
    split at h
    · next e he =>
      cases h
      refine retryLoop_not_attr w a kdir rdir r.2 locs ?_ true false he
      unfold smartAddr2line at hlocs
      simp only [bind, Except.bind] at hlocs
      split at hlocs
      · cases hlocs
      · cases hlocs
        intro l hl
        obtain ⟨row, -, rfl⟩ := List.mem_map.1 hl
        exact smartLoc_not_attr _ _ row
    rename_i res hres
    split at h
    · exact ih' _ h
    · rename_i inv ln
      split at h
      · next hc =>
        have := retryLoop_lastNone w a kdir rdir r.2 locs (hlast r (by simp) locs hlocs) true false inv ln (fun _ => rfl) hres
        simp [this] at hc
      · exact ih' _ h

/-- both syscalls, in a world where addr2line always knows a file -/
example : let w := { smallWorld with addr2line := fun l => .ok (l.map fun _ => cs!"/k/fs/open.c:1") }
    (∀ l, w.addr2line l ≠ .error .attr) ∧ (∀ r ∈ [((1 : Nat), smallScs[1])],
      ∀ locs, smartAddr2line w (retryAddrs r.2) (some ⟨true, [cs!"k"]⟩) = .ok locs →
      ∀ l, locs.getLast? = some (.ok l) → l.1.isSome = true) := by
  refine ⟨fun l h => (by cases h), ?_⟩
  intro r hr locs hl l hlast
  simp only [List.mem_singleton] at hr
  subst hr
  cases hl
  have : (some (.ok l) : Option (Res Loc)) = some (.ok (some smallFile, some 1)) := by
    rw [← hlast]
    decide +kernel
  cases this
  rfl

end Verif
