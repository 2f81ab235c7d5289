import Verif.Lemmas.SigMeta
/-! # Properties of symbol prefixes and signatures: C20, C47-C52 -/
set_option autoImplicit false

namespace Verif
open Spec

/-! ## C20 -/

/-- C20: membership. -/
theorem C20_common_prefixes (names : List Str) (t : Nat) (hne : names ≠ []) (ht : 1 ≤ t) :
    ∃ ps, commonPrefixes names t = .ok ps ∧ ps.Nodup ∧ ps.Pairwise (fun p q => q.length ≤ p.length) ∧
      ∀ p, p ∈ ps ↔ 2 ≤ p.length ∧ p.getLast? = some '_' ∧ t ≤ countStarting p names := by
  obtain ⟨m, hm, he⟩ := commonPrefixes_ok names t hne
  have hmem : ∀ l ∈ downTo2 (m - 1), ∀ p ∈ prefixesOfLen names t l, p.length = l := fun l hl p hp =>
    ((mem_prefixesOfLen names t l ht ((mem_downTo2 _ l).1 hl).1 p).1 hp).1
  refine ⟨_, he, ?_, ?_, ?_⟩
  · have hs := downTo2_sorted (m - 1)
    clear he
    generalize hd : downTo2 (m - 1) = ds at hs hmem
    clear hd
    induction ds with
    | nil => simp
    | cons d ds ih =>
      rw [List.flatMap_cons, List.nodup_append]
      obtain ⟨h1, h2⟩ := List.pairwise_cons.1 hs
      refine ⟨prefixesOfLen_nodup names t d, ih h2 (fun l hl => hmem l (by simp [hl])), ?_⟩
      intro a ha b hb hab
      subst hab
      obtain ⟨l, hl, hb⟩ := List.mem_flatMap.1 hb
      have ha := hmem d (by simp) a ha
      have hb := hmem l (by simp [hl]) a hb
      have := h1 l hl
      omega
  · have hs := downTo2_sorted (m - 1)
    clear he
    generalize hd : downTo2 (m - 1) = ds at hs hmem
    clear hd
    induction ds with
    | nil => simp
    | cons d ds ih =>
      rw [List.flatMap_cons, List.pairwise_append]
      obtain ⟨h1, h2⟩ := List.pairwise_cons.1 hs
      refine ⟨?_, ih h2 (fun l hl => hmem l (by simp [hl])), ?_⟩
      · rw [List.pairwise_iff_forall_sublist]
        intro a b hab
        have ha := hmem d (by simp) a (hab.subset (by simp))
        have hb := hmem d (by simp) b (hab.subset (by simp))
        omega
      · intro a ha b hb
        obtain ⟨l, hl, hb⟩ := List.mem_flatMap.1 hb
        have ha := hmem d (by simp) a ha
        have hb := hmem l (by simp [hl]) b hb
        have := h1 l hl
        omega
  · intro p
    rw [List.mem_flatMap]
    constructor
    · rintro ⟨l, hl, hp⟩
      have h2 := ((mem_downTo2 _ l).1 hl).1
      obtain ⟨e, h3, h4⟩ := (mem_prefixesOfLen names t l ht h2 p).1 hp
      exact ⟨by omega, h3, h4⟩
    · rintro ⟨h2, h3, h4⟩
      refine ⟨p.length, ?_, (mem_prefixesOfLen names t _ ht h2 p).2 ⟨rfl, h3, h4⟩⟩
      rw [mem_downTo2]
      refine ⟨h2, ?_⟩
      -- some name starts with p
      unfold countStarting at h4
      have hpos : 0 < (names.filter fun n => decide (p <+: n)).length := by omega
      obtain ⟨n, hn⟩ := List.exists_mem_of_length_pos hpos
      have hn := List.mem_filter.1 hn
      have h5 : p <+: n := by simpa using hn.2
      have := h5.length_le
      have := hm n hn.1
      omega

/-- the empty list is an error (Python's `max()` of nothing) -/
theorem C20_empty (t : Nat) : commonPrefixes [] t = .error .value := rfl

example : commonPrefixes [cs!"sys_a", cs!"sys_b", cs!"__x64_sys_c", cs!"__x64_sys_d"] 2 =
    .ok [cs!"__x64_sys_", cs!"__x64_", cs!"sys_", cs!"__"] := by decide +kernel

/-! ## C47 -/

/-- C47: a definition with arguments, on any lines and with any blanks, is reported argument by argument. -/
theorem C47_define_signature (big : Bool) (kw scname : Str) (items : List Item) (texts : List Str)
    (pre body post : List Str) (line : Nat)
    (hk : kw ∈ defineMacros) (hname : ',' ∉ scname) (hne : items ≠ []) (hw : ∀ it ∈ items, it.WF)
    (hn : (items.flatMap (Item.sig big)).length ≤ 6)
    (ht : List.Forall₂ FieldText (items.flatMap Item.fields) texts)
    (hbody : Spells body (kw ++ digitChar10 (items.flatMap (Item.sig big)).length :: cs!"(" ++ scname ++ cs!"," ++
      joinWith cs!"," texts ++ cs!")"))
    (hline : line = pre.length + 1) :
    signatureFromSource (pre ++ body ++ post) line big = .ok (some (items.flatMap (Item.sig big))) := by
  unfold signatureFromSource
  rw [readSigText_spells pre body post _ hbody (List.getLast?_concat ..) line hline]
  exact signatureOfText_define big kw scname items texts hk hname hne hw ht hn

/-- C47: a definition without arguments. -/
theorem C47_define_no_arguments (big : Bool) (kw scname : Str) (pre body post : List Str) (line : Nat)
    (hk : kw ∈ defineMacros) (hname : ',' ∉ scname) (hbody : Spells body (kw ++ '0' :: cs!"(" ++ scname ++ cs!")"))
    (hline : line = pre.length + 1) :
    signatureFromSource (pre ++ body ++ post) line big = .ok (some []) := by
  unfold signatureFromSource
  rw [readSigText_spells pre body post _ hbody (List.getLast?_concat ..) line hline]
  exact signatureOfText_define0 big kw scname hk hname

/-- `SYSCALL_DEFINE3(read, unsigned int, fd, char __user *, buf,` newline `size_t, count)` -/
example : ∃ (texts body : List Str) (items : List Item),
    items.flatMap (Item.sig false) = [cs!"unsigned int fd", cs!"char *buf", cs!"size_t count"] ∧
    items ≠ [] ∧ (∀ it ∈ items, it.WF) ∧ List.Forall₂ FieldText (items.flatMap Item.fields) texts ∧
    Spells body (cs!"SYSCALL_DEFINE" ++ digitChar10 3 :: cs!"(" ++ cs!"read" ++ cs!"," ++ joinWith cs!"," texts ++ cs!")") ∧
    body = [cs!"SYSCALL_DEFINE3(read, unsigned int, fd, char __user *, buf,", cs!"\t\tsize_t, count)"] := by
  refine ⟨[cs!" unsigned int", cs!" fd", cs!" char __user *", cs!" buf", cs!"size_t", cs!" count"],
    [cs!"SYSCALL_DEFINE3(read, unsigned int, fd, char __user *, buf,", cs!"\t\tsize_t, count)"],
    [.arg [cs!"unsigned", cs!"int"] cs!"fd", .arg [cs!"char", cs!"*"] cs!"buf", .arg [cs!"size_t"] cs!"count"],
    by decide, by simp, ?_, ?_, ⟨by simp, by decide, ?_⟩, rfl⟩
  · have nt2 : ∀ a b : Str, NoTriple [a, b] := by
      intro a b pre x c post h
      have := congrArg List.length h
      simp at this; omega
    intro it hit
    simp only [List.mem_cons, List.not_mem_nil, or_false] at hit
    rcases hit with rfl | rfl | rfl
    · refine ⟨by simp, ?_, nt2 _ _, ?_⟩ <;> (simp only [CleanWord]; decide)
    · refine ⟨by simp, ?_, nt2 _ _, ?_⟩ <;> (simp only [CleanWord]; decide)
    · refine ⟨by simp, ?_, noTriple_single _, ?_⟩ <;> (simp only [CleanWord]; decide)
  · simp only [Item.fields, List.flatMap_cons, List.flatMap_nil, List.cons_append, List.nil_append]
    refine .cons ?_ (.cons ?_ (.cons ?_ (.cons ?_ (.cons ?_ (.cons ?_ .nil)))))
    · exact .mk cs!" " cs!"unsigned" cs!" int" _ (by decide) (.word cs!" " cs!"int" [] _ (by simp) (by decide) (.done [] (by simp)))
    · exact .mk cs!" " cs!"fd" [] _ (by decide) (.done [] (by simp))
    · exact .mk cs!" " cs!"char" cs!" __user *" _ (by decide)
        (.user [] cs!" *" _ (by simp) (.word cs!" " cs!"*" [] _ (by simp) (by decide) (.done [] (by simp))))
    · exact .mk cs!" " cs!"buf" [] _ (by decide) (.done [] (by simp))
    · exact .mk [] cs!"size_t" [] _ (by simp) (.done [] (by simp))
    · exact .mk cs!" " cs!"count" [] _ (by decide) (.done [] (by simp))
  · intro k h1 h2
    have : k = 1 := by simp at h2; omega
    subst this
    decide

/-! ## C48 -/

/-- An argument field: a macro call or anything that is not one. -/
inductive MacroField where
  | plain (f : Str)
  | wide (mac x : Str)

/-- source text of a field -/
def MacroField.text : MacroField → Str
  | .plain f => f
  | .wide mac x => mac ++ cs!"(" ++ x ++ cs!")"

def MacroField.WF : MacroField → Prop
  | .plain f => ∀ m ∈ wideMacros, ¬ m ++ cs!"(" <+: f
  | .wide mac _ => mac ∈ wideMacros

/-- C48 specification: two 32-bit halves, low half first on little endian -/
def MacroField.expanded (big : Bool) : MacroField → List Str
  | .plain f => [f]
  | .wide _ x => if big then [cs!"u32", x ++ cs!"_hi", cs!"u32", x ++ cs!"_lo"] else [cs!"u32", x ++ cs!"_lo", cs!"u32", x ++ cs!"_hi"]

def MacroField.isWide : MacroField → Bool
  | .plain _ => false
  | .wide _ _ => true

/-- C48: every macro call is replaced in place by its two halves, everything else is kept, nothing fails. -/
theorem C48_expand_macros (big : Bool) (fields : List MacroField) (hw : ∀ f ∈ fields, f.WF) :
    expandMacros big (fields.map MacroField.text) = .ok (fields.flatMap (MacroField.expanded big)) := by
  induction fields with
  | nil => rfl
  | cons f fs ih =>
    have hf : expandField big f.text = .ok (f.expanded big) := by
      cases f with
      | plain f =>
        apply expandField_plain
        intro p hp
        have h := hw (.plain f) (by simp)
        simp only [macroPrefixes, List.mem_cons, List.not_mem_nil, or_false] at hp
        rcases hp with rfl | rfl | rfl | rfl
        · exact h cs!"SC_ARG64" (by decide)
        · exact h cs!"arg_u32p" (by decide)
        · exact h cs!"compat_arg_u64_dual" (by decide)
        · exact h cs!"compat_arg_u64" (by decide)
      | wide m x =>
        simp only [MacroField.text]
        rw [expandField_wide big m x (hw (.wide m x) (by simp))]
        cases big <;> rfl
    simp only [List.map_cons, expandMacros, hf, ih (fun x hx => hw x (by simp [hx])), bind, Except.bind, List.flatMap_cons]

/-- C48: the number of fields. -/
theorem C48_field_count (big : Bool) (fields : List MacroField) :
    (fields.flatMap (MacroField.expanded big)).length = fields.length + 3 * (fields.filter MacroField.isWide).length := by
  induction fields with
  | nil => rfl
  | cons f fs ih =>
    cases f with
    | plain f => simp [MacroField.expanded, MacroField.isWide, ih]; omega
    | wide m x =>
      rw [List.filter_cons_of_pos rfl]
      cases big <;> simp [MacroField.expanded, ih] <;> omega

/-- C48: the expansion reaches the signature of a whole definition: fields after cleaning, with at least one macro
somewhere in the text. -/
theorem C48_parse_signature (big : Bool) (sig : Str) (fields : List MacroField) (hw : ∀ f ∈ fields, f.WF)
    (hs : (splitChar ',' sig).map strip = fields.map MacroField.text) (hm : ∃ f ∈ fields, f.isWide = true) :
    parseSignature sig big = .ok (fields.flatMap (MacroField.expanded big)) := by
  unfold parseSignature
  simp only [hs]
  rw [if_neg, C48_expand_macros big fields hw]
  intro hall
  obtain ⟨f, hf, hfw⟩ := hm
  cases f with
  | plain f => simp [MacroField.isWide] at hfw
  | wide m x =>
    have hmem : m ++ cs!"(" ++ x ++ cs!")" ∈ (splitChar ',' sig).map strip := by
      rw [hs]; exact List.mem_map.2 ⟨_, hf, rfl⟩
    obtain ⟨g, hg, he⟩ := List.mem_map.1 hmem
    have hinf : m ++ cs!"(" ++ x ++ cs!")" <:+: sig := by
      rw [← he]; exact (strip_infix g).trans (splitChar_infix _ _ _ hg)
    have hmw : ∃ q ∈ macroWords, q <+: m := by
      have : m ∈ wideMacros := hw _ hf
      simp only [wideMacros, List.mem_cons, List.not_mem_nil, or_false] at this
      rcases this with rfl | rfl | rfl | rfl
      · exact ⟨cs!"SC_ARG64", by decide, by decide⟩
      · exact ⟨cs!"arg_u32p", by decide, by decide⟩
      · exact ⟨cs!"compat_arg_u64", by decide, by decide⟩
      · exact ⟨cs!"compat_arg_u64", by decide, by decide⟩
    obtain ⟨q, hq, hqm⟩ := hmw
    have h1 := List.all_eq_true.1 hall q hq
    have h2 : isInfix q sig = true := by
      rw [isInfix_iff]
      have : q <+: m ++ cs!"(" ++ x ++ cs!")" := by
        rw [List.append_assoc, List.append_assoc]; exact hqm.trans (List.prefix_append _ _)
      exact this.isInfix.trans hinf
    rw [h2] at h1
    exact absurd h1 (by decide)

example : (∀ f ∈ [MacroField.plain cs!"int", .plain cs!"fd", .wide cs!"SC_ARG64" cs!"offset"], f.WF) ∧
    parseSignature cs!"int, fd, SC_ARG64(offset)" true = .ok [cs!"int", cs!"fd", cs!"u32", cs!"offset_hi", cs!"u32", cs!"offset_lo"] := by
  refine ⟨?_, by decide +kernel⟩
  intro f hf
  simp only [List.mem_cons, List.not_mem_nil, or_false] at hf
  rcases hf with rfl | rfl | rfl
  · simp only [MacroField.WF]; decide
  · simp only [MacroField.WF]; decide
  · simp only [MacroField.WF]; decide

/-! ## C49 -/

/-- C49: prototypes with arguments (at most seven; not the single argument `void`). -/
theorem C49_asmlinkage (big : Bool) (mid : Str) (args : List (List Str)) (texts : List Str) (pre body post : List Str)
    (line : Nat) (hmid : '(' ∉ mid) (hne : args ≠ []) (hvoid : args ≠ [[cs!"void"]])
    (hw : ∀ ws ∈ args, (∀ w ∈ ws, CleanWord w) ∧ NoTriple ws) (ht : List.Forall₂ FieldText args texts)
    (hn : args.length ≤ 7)
    (hbody : Spells body (cs!"asmlinkage" ++ mid ++ cs!"(" ++ joinWith cs!"," texts ++ cs!")"))
    (hline : line = pre.length + 1) :
    signatureFromSource (pre ++ body ++ post) line big = .ok (some (args.map glue)) := by
  unfold signatureFromSource
  rw [readSigText_spells pre body post _ hbody (List.getLast?_concat ..) line hline]
  exact signatureOfText_asmlinkage big mid args texts hne hmid hvoid hw ht hn

/-- C49: `(void)` and `()`. -/
theorem C49_asmlinkage_void (big : Bool) (mid inner : Str) (pre body post : List Str) (line : Nat) (hmid : '(' ∉ mid)
    (hin : strip inner = [] ∨ strip inner = cs!"void")
    (hbody : Spells body (cs!"asmlinkage" ++ mid ++ cs!"(" ++ inner ++ cs!")")) (hline : line = pre.length + 1) :
    signatureFromSource (pre ++ body ++ post) line big = .ok (some []) := by
  unfold signatureFromSource
  rw [readSigText_spells pre body post _ hbody (List.getLast?_concat ..) line hline]
  exact signatureOfText_asmlinkage_void big mid inner hmid hin

example : Spells [cs!"asmlinkage long sys_rt_sigreturn( void )"] (cs!"asmlinkage" ++ cs!" long sys_rt_sigreturn" ++ cs!"(" ++ cs!" void " ++ cs!")") ∧
    strip cs!" void " = cs!"void" := by
  refine ⟨⟨by simp, by decide +kernel, ?_⟩, by decide⟩
  intro k h1 h2
  simp at h2; omega

/-- the words of `asmlinkage int sys_x(struct pt_regs __user * regs, int n)` -/
example : List.Forall₂ FieldText [[cs!"struct", cs!"pt_regs", cs!"*", cs!"regs"], [cs!"int", cs!"n"]]
      [cs!"struct pt_regs __user * regs", cs!" int n"] ∧
    [[cs!"struct", cs!"pt_regs", cs!"*", cs!"regs"], [cs!"int", cs!"n"]].map glue = [cs!"struct pt_regs * regs", cs!"int n"] ∧
    Spells [cs!"asmlinkage int sys_x(struct pt_regs __user * regs,", cs!"     int n)"]
      (cs!"asmlinkage" ++ cs!" int sys_x" ++ cs!"(" ++ joinWith cs!"," [cs!"struct pt_regs __user * regs", cs!"int n"] ++ cs!")") := by
  refine ⟨.cons ?_ (.cons ?_ .nil), by decide, by simp, by decide +kernel, ?_⟩
  · exact .mk [] cs!"struct" _ _ (by simp) (.word cs!" " cs!"pt_regs" _ _ (by simp) (by decide)
      (.user [] cs!" * regs" _ (by simp) (.word cs!" " cs!"*" cs!" regs" _ (by simp) (by decide)
        (.word cs!" " cs!"regs" [] _ (by simp) (by decide) (.done [] (by simp))))))
  · exact .mk cs!" " cs!"int" _ _ (by decide) (.word cs!" " cs!"n" [] _ (by simp) (by decide) (.done [] (by simp)))
  · intro k h1 h2
    have : k = 1 := by simp at h2; omega
    subst this
    decide +kernel

/-! ## C50 -/

/-- C50 fails: a file whose last lines contain no closing parenthesis at a line end makes the loop run forever. -/
theorem C50_terminates_refuted : ∃ (lines : List Str) (line : Nat), 1 ≤ line ∧ line ≤ lines.length ∧
    signatureFromSource lines line false = .error .hang ∧
    ∀ n, (ReadSig.steps n ⟨strip cs!"SYSCALL_DEFINE1(foo, int, a) {", []⟩).isSome = true := by
  refine ⟨[cs!"SYSCALL_DEFINE1(foo, int, a) {"], 1, by decide, by decide, by decide +kernel, ?_⟩
  intro n
  exact ReadSig.steps_stuck n _ (by decide +kernel)

/-- C50 (partial): reading a line of the file stops iff the text read from there ends with `)` after some line. -/
theorem C50_terminates_partial (lines : List Str) (line : Nat) (h1 : 1 ≤ line) (h2 : line ≤ lines.length) :
    (readSigText lines line = .error .hang ↔
      ∀ k, 0 < k → ((((lines.drop (line - 1)).take k).map strip).flatten).getLast? ≠ some ')') ∧
    (readSigText lines line ≠ .error .hang → ∃ text, readSigText lines line = .ok text) := by
  unfold readSigText
  rw [if_neg (by omega)]
  cases hd : lines.drop (line - 1) with
  | nil => have := congrArg List.length hd; simp at this; omega
  | cons l ls =>
    simp only
    have key : ∀ (ls : List Str) (sig : Str),
        (readSigLoop sig ls = .error .hang ↔ ∀ k, (sig ++ ((ls.take k).map strip).flatten).getLast? ≠ some ')') ∧
        (readSigLoop sig ls ≠ .error .hang → ∃ text, readSigLoop sig ls = .ok text) := by
      intro ls
      induction ls with
      | nil =>
        intro sig
        simp only [readSigLoop]
        have hp := endsWith_paren sig
        by_cases he : endsWith sig cs!")" = true
        · rw [if_pos he]
          refine ⟨?_, fun _ => ⟨sig, rfl⟩⟩
          constructor
          · intro h; cases h
          · intro h; exact absurd (hp.1 he) (by simpa using h 0)
        · rw [if_neg he]
          refine ⟨?_, fun h => absurd rfl h⟩
          simp only [true_iff]
          intro k hk
          simp at hk
          exact he (hp.2 hk)
      | cons x xs ih =>
        intro sig
        simp only [readSigLoop]
        have hp := endsWith_paren sig
        by_cases he : endsWith sig cs!")" = true
        · rw [if_pos he]
          refine ⟨?_, fun _ => ⟨sig, rfl⟩⟩
          constructor
          · intro h; cases h
          · intro h; exact absurd (hp.1 he) (by simpa using h 0)
        · rw [if_neg he]
          obtain ⟨i1, i2⟩ := ih (sig ++ strip x)
          refine ⟨?_, i2⟩
          rw [i1]
          constructor
          · intro h k
            cases k with
            | zero => simp; exact fun hk => he (hp.2 hk)
            | succ k => simpa using h k
          · intro h k
            simpa using h (k + 1)
    obtain ⟨k1, k2⟩ := key ls (strip l)
    refine ⟨?_, k2⟩
    rw [k1]
    constructor
    · intro h k hk
      cases k with
      | zero => omega
      | succ k => simpa using h k
    · intro h k
      simpa using h (k + 1) (by omega)

/-- C50: a line number more than one past the end of the file is a StopIteration. -/
theorem C50_file_too_short (lines : List Str) (line : Nat) (big : Bool) (h : lines.length + 1 < line) :
    signatureFromSource lines line big = .error .stopIteration := by
  unfold signatureFromSource readSigText
  rw [if_pos (by omega)]
  rfl

example : readSigText [cs!"x", cs!" f(int a,", cs!"int b)", cs!"{"] 2 = .ok cs!"f(int a,int b)" := by decide +kernel

/-! ## C51 -/

/-- the last entry with a name -/
def lastNamed (ms : List MetaSpec) (n : Str) : Option MetaSpec := ms.reverse.find? fun m => decide (m.name = n)

/-- C51: with the table of metadata pointers between the two linker symbols and every object in memory in the
kernel's layout, the map gives for each name the arguments of the last object of that name and nothing else. -/
theorem C51_ftrace_metadata (e : Elf) (start stop : Symbol) (ptrs : List Nat) (ms : List MetaSpec)
    (hstart : dget cs!"__start_syscalls_metadata" e.symbols = some start)
    (hstop : dget cs!"__stop_syscalls_metadata" e.symbols = some stop)
    (hlen : stop.realVaddr = start.realVaddr + ptrs.length * (if e.bits32 then 4 else 8))
    (htable : Holds e start.realVaddr (ptrs.flatMap (encUint e.bigEndian (if e.bits32 then 4 else 8))))
    (hptrs : ∀ p ∈ ptrs, p < 256 ^ (if e.bits32 then 4 else 8))
    (hobjs : List.Forall₂ (HoldsMeta e) ptrs ms) (hwf : ∀ m ∈ ms, m.WF)
    (hopen : ∀ o, dget cs!"__syscall_meta__open" e.symbols = some o → o.size = 0 ∨ 8 + 3 * (if e.bits32 then 4 else 8) ≤ o.size) :
    ∃ d, e.syscallMeta = .ok (some d) ∧ ∀ n, dget n d = (lastNamed ms n).map MetaSpec.sig := by
  unfold Elf.syscallMeta
  rw [hstart, hstop]
  have hr : e.readRange start.realVaddr stop.realVaddr = .ok (ptrs.flatMap (encUint e.bigEndian e.ptrSize)) := by
    unfold Elf.readRange
    rw [if_neg (by omega)]
    exact Holds.read htable _ (by rw [flatMap_enc_length, hlen]; omega)
  have hi := iterUnpack_enc e.bigEndian e.ptrSize (by unfold Elf.ptrSize; split <;> omega) ptrs hptrs
  obtain ⟨d, hd, hget⟩ := readMetaLoop_holds e ptrs ms hobjs hwf []
  refine ⟨d, ?_, ?_⟩
  · simp only [bind, Except.bind, hr, hi, hd]
    cases ho : dget cs!"__syscall_meta__open" e.symbols with
    | none => rfl
    | some o =>
      simp only
      by_cases hz : o.size = 0
      · simp [hz]
      · have h2 : 8 + 3 * e.ptrSize ≤ o.size := by
          rcases hopen o ho with h | h
          · exact absurd h hz
          · exact h
        simp [hz, pyAssert, h2]
  · intro n
    rw [hget n, lastNamed]
    cases ms.reverse.find? (fun m => decide (m.name = n)) <;> rfl

/-- C51: without the start symbol there is no metadata. -/
theorem C51_no_metadata (e : Elf) (h : dget cs!"__start_syscalls_metadata" e.symbols = none) : e.syscallMeta = .ok none := by
  unfold Elf.syscallMeta; rw [h]

/-- a 32-bit little endian image with the metadata of `sys_dup(unsigned int fildes)`: table at 0x1000, object at
0x1004, pointer arrays at 0x1018 and 0x101c, strings from 0x1020 -/
def metaElf : Elf :=
  let data : Bytes :=
    encUint false 4 0x1004 ++
    (encUint false 4 0x1020 ++ encUint false 4 41 ++ encUint false 4 1 ++ encUint false 4 0x1018 ++ encUint false 4 0x101c) ++
    encUint false 4 0x1028 ++ encUint false 4 0x1035 ++
    (cs!"sys_dup").map (fun c => UInt8.ofNat c.toNat) ++ [0] ++
    (cs!"unsigned int").map (fun c => UInt8.ofNat c.toNat) ++ [0] ++
    (cs!"fildes").map (fun c => UInt8.ofNat c.toNat) ++ [0]
  ⟨true, false, EM_386, 0, data, [(cs!".data", ⟨cs!".data", 0x1000, 0, data.length⟩)],
   [(cs!"__start_syscalls_metadata", ⟨0x1000, 0x1000, 0, cs!"NOTYPE", cs!"__start_syscalls_metadata"⟩),
    (cs!"__stop_syscalls_metadata", ⟨0x1004, 0x1004, 0, cs!"NOTYPE", cs!"__stop_syscalls_metadata"⟩)], []⟩

theorem metaElf_holds : HoldsMeta metaElf 0x1004 ⟨cs!"dup", [([cs!"unsigned", cs!"int"], cs!"fildes")]⟩ := by
  have str : ∀ va (s : Str) off, Char.ofNat 0 ∉ s → metaElf.vaddrToFileOffset va = .ok off →
      (s.flatMap String.utf8EncodeChar ++ [0]) <+: metaElf.data.drop off → HoldsStr metaElf va s :=
    fun va s off h1 h2 h3 => ⟨h1, off, h2, h3⟩
  refine ⟨0x1020, 41, 0x1018, 0x101c, [0x1028], [0x1035], by decide, by decide, by decide, by decide,
    ⟨4, by decide +kernel, by decide +kernel⟩, str _ _ 0x20 (by decide) (by decide +kernel) (by decide +kernel), by decide, by decide, by decide, ?_, ?_, ?_⟩
  · intro i p h
    cases i with
    | zero => simp at h; subst h; exact ⟨by decide, 0x18, by decide +kernel, by decide +kernel⟩
    | succ i => simp at h
  · intro i p h
    cases i with
    | zero => simp at h; subst h; exact ⟨by decide, 0x1c, by decide +kernel, by decide +kernel⟩
    | succ i => simp at h
  · intro i t a h
    cases i with
    | zero =>
      simp at h
      obtain ⟨rfl, rfl⟩ := h
      exact ⟨0x1028, 0x1035, rfl, rfl, str _ _ 0x28 (by decide) (by decide +kernel) (by decide +kernel),
        str _ _ 0x35 (by decide) (by decide +kernel) (by decide +kernel)⟩
    | succ i => simp at h

example : metaElf.syscallMeta = .ok (some [(cs!"dup", [cs!"unsigned int fildes"])]) := by decide +kernel

/-! ## C52 -/

/-- C52 specification: the signature a syscall must have afterwards; `src` is the signature found in the sources
at its location, `metas` the metadata. -/
def expectedSig (src : Option (List Str)) (metas : Str → Option (List Str)) (sc : Syscall) : Option (List Str) :=
  if sc.esoteric then sc.signature
  else if sc.goodLocation then src
  else match metas sc.origname, metas sc.name with
    | some s, _ => some s
    | none, some s => some s
    | none, none => sc.signature

/-- C52: whenever extraction succeeds, the list keeps its length and order, each syscall changes at most in its
signature, and the signature is the expected one. -/
theorem C52_signature_priority (fs : Files) (e : Elf) (haveSource : Bool) (scs out : List Syscall)
    (h : extractSignatures fs e haveSource scs = .ok out) :
    ∃ metas : Str → Option (List Str),
      (∃ md, e.syscallMeta = .ok md ∧ metas = fun n => md.bind (dget n)) ∧
      List.Forall₂ (fun sc sc' => ∃ src,
        (sc.esoteric = false → sc.goodLocation = true →
          ∃ file line lines, sc.file = some file ∧ sc.line = some line ∧ fs file = some lines ∧
            signatureFromSource lines line e.bigEndian = .ok src) ∧
        sc' = { sc with signature := expectedSig src metas sc }) scs out := by
  unfold extractSignatures at h
  cases hm : e.syscallMeta with
  | error x => rw [hm] at h; simp [bind, Except.bind] at h
  | ok md =>
    rw [hm] at h
    simp only [bind, Except.bind] at h
    refine ⟨_, ⟨md, rfl, rfl⟩, ?_⟩
    refine forall2_imp ?_ (mapRes_get _ _ _ h)
    intro sc sc' hs
    unfold signSyscall at hs
    unfold expectedSig
    by_cases h1 : sc.esoteric = true
    · rw [if_pos h1] at hs
      simp only [Except.ok.injEq] at hs
      subst hs
      exact ⟨none, fun h => (by rw [h1] at h; cases h), by rw [if_pos h1]⟩
    · rw [if_neg h1] at hs
      by_cases h2 : sc.goodLocation = true
      · rw [if_pos h2] at hs
        cases haveSource with
        | false => simp [pyAssert, bind, Except.bind] at hs
        | true =>
          simp only [pyAssert, if_true, bind, Except.bind] at hs
          cases hf : sc.file with
          | none => rw [hf] at hs; simp at hs
          | some file =>
            rw [hf] at hs
            cases hl : sc.line with
            | none => rw [hl] at hs; simp at hs
            | some line =>
              rw [hl] at hs
              simp only at hs
              cases hfs : fs file with
              | none => rw [hfs] at hs; simp at hs
              | some lines =>
                rw [hfs] at hs
                simp only at hs
                cases hsig : signatureFromSource lines line e.bigEndian with
                | error x => rw [hsig] at hs; simp at hs
                | ok src =>
                  rw [hsig] at hs
                  simp only [Except.ok.injEq] at hs
                  refine ⟨src, fun _ _ => ⟨file, line, lines, rfl, rfl, hfs, hsig⟩, ?_⟩
                  rw [if_neg h1, if_pos h2]; exact hs.symm
      · rw [if_neg h2] at hs
        refine ⟨none, fun _ h => absurd h h2, ?_⟩
        rw [if_neg h1, if_neg h2]
        cases md with
        | none =>
          simp only [Except.ok.injEq] at hs
          subst hs
          simp
        | some d =>
          simp only [Option.bind] at hs ⊢
          cases ho : dget sc.origname d with
          | some s =>
            rw [ho] at hs
            simp only [Except.ok.injEq] at hs
            simp only; exact hs.symm
          | none =>
            rw [ho] at hs
            cases hn : dget sc.name d with
            | some s =>
              rw [hn] at hs
              simp only [Except.ok.injEq] at hs
              simp only; exact hs.symm
            | none =>
              rw [hn] at hs
              simp only [Except.ok.injEq] at hs
              simp only; rw [← hs]

/-- C52: extraction never stops on a syscall without a good location. -/
theorem C52_no_error_without_location (fs : Files) (e : Elf) (haveSource : Bool) (scs : List Syscall) (md : Option (Dict Str (List Str)))
    (hm : e.syscallMeta = .ok md) (hg : ∀ sc ∈ scs, sc.esoteric = false → sc.goodLocation = false) :
    ∃ out, extractSignatures fs e haveSource scs = .ok out := by
  unfold extractSignatures
  rw [hm]
  simp only [bind, Except.bind]
  clear hm
  induction scs with
  | nil => exact ⟨[], rfl⟩
  | cons sc scs ih =>
    obtain ⟨out, ho⟩ := ih fun x hx => hg x (by simp [hx])
    have hs : ∃ sc', signSyscall fs e.bigEndian haveSource md sc = .ok sc' := by
      unfold signSyscall
      by_cases h1 : sc.esoteric = true
      · exact ⟨sc, by rw [if_pos h1]⟩
      · have h2 := hg sc (by simp) (by simpa using h1)
        rw [if_neg h1, h2]
        simp only [Bool.false_eq_true, if_false]
        cases md with
        | none => exact ⟨_, rfl⟩
        | some d =>
          simp only
          cases dget sc.origname d with
          | some s => exact ⟨_, rfl⟩
          | none =>
            cases dget sc.name d with
            | some s => exact ⟨_, rfl⟩
            | none => exact ⟨_, rfl⟩
    obtain ⟨sc', hs⟩ := hs
    exact ⟨sc' :: out, by simp [mapRes, hs, ho, bind, Except.bind]⟩

/-- two syscalls: one located in the sources, one known by metadata -/
example :
    let dup : Syscall := Syscall.new (some 0) 41 cs!"dup" cs!"dup" ⟨0, 0, 0, [], cs!"sys_dup"⟩ none
    let foo : Syscall := { Syscall.new (some 1) 42 cs!"foo" cs!"foo" ⟨0, 0, 0, [], cs!"sys_foo"⟩ none with
      file := some ⟨false, [cs!"a.c"]⟩, line := some 1, goodLocation := true }
    let fs : Files := fun p => if p = ⟨false, [cs!"a.c"]⟩ then some [cs!"SYSCALL_DEFINE1(foo, char __user *, p)"] else none
    (extractSignatures fs metaElf true [dup, foo]).map (List.map Syscall.signature) =
      .ok [some [cs!"unsigned int fildes"], some [cs!"char *p"]] := by decide +kernel

end Verif
