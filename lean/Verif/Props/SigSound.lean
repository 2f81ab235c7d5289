import Verif.Lemmas.SigSound
import Verif.Props.Signature
/-! # Signatures are right or refused (C92) -/
set_option autoImplicit false

namespace Verif
open Spec

/-- C92: a signature taken from a definition has exactly the announced number of arguments, at most 6; one taken from a
prototype has at most 7, without parentheses. Anything else is not taken for a definition (None) or an exception. -/
theorem C92_argument_count (lines : List Str) (line : Nat) (big : Bool) (sig : List Str)
    (h : signatureFromSource lines line big = .ok (some sig)) :
    ∃ text, TextAt lines line text ∧
      ((∃ kw ∈ defineMacros, ∃ n rest, n ≤ 6 ∧ text = kw ++ natRepr n ++ rest ∧ sig.length = n) ∨
        (cs!"asmlinkage" <+: text ∧ sig.length ≤ 7 ∧ ∀ arg ∈ sig, NoParen arg)) := by
  unfold signatureFromSource at h
  simp only [bind, Except.bind] at h
  split at h
  · cases h
  next text ht =>
  refine ⟨text, readSigText_text _ _ _ ht, ?_⟩
  unfold signatureOfText at h
  simp only at h
  split at h
  · next hne =>
    left
    obtain ⟨kw, hk, e⟩ := noprefix_ne text definePrefixes hne
    cases hd : signatureOfDefine (noprefix text definePrefixes) big with
    | error x => rw [hd] at h; cases h
    | ok out =>
      rw [hd] at h
      cases h
      obtain ⟨n, rest, h1, h2, h3⟩ := signatureOfDefine_count _ _ _ hd
      exact ⟨kw, hk, n, rest, h1, by rw [e, h2, List.append_assoc], h3⟩
  · split at h
    · next ha =>
      right
      cases hd : signatureOfAsmlinkage text with
      | error x => rw [hd] at h; cases h
      | ok out =>
        rw [hd] at h
        cases h
        exact ⟨(startsWith_iff _ _).1 ha, signatureOfAsmlinkage_sound _ _ hd⟩
    · cases h

/-- the definition of a function that takes another function is refused; the prototype too -/
example : signatureFromSource [cs!"SYSCALL_DEFINE2(x, int (*)(int), f, int, a)"] 1 false = .error .assertion ∧
    signatureFromSource [cs!"asmlinkage long sys_x(int (*f)(int))"] 1 false = .error .assertion ∧
    signatureFromSource [cs!"SYSCALL_DEFINE2(x, int, a)"] 1 false = .error .assertion ∧
    signatureFromSource [cs!"SYSCALL_DEFINE1(x, int, a)"] 1 false = .ok (some [cs!"int a"]) := by decide +kernel

/-- C92 (partial: argument lists in which none of the known macros is named): the fields have no parentheses, so no macro and no
function pointer is taken for a type or a name. -/
theorem C92_no_macros_partial (sig : Str) (big : Bool) (fields : List Str) (h : parseSignature sig big = .ok fields)
    (hno : ∀ m ∈ wideMacros, ¬ m <:+: sig) : fields = (splitChar ',' sig).map strip ∧ ∀ f ∈ fields, NoParen f := by
  unfold parseSignature at h
  simp only at h
  rw [if_pos] at h
  · simp only [bind, Except.bind] at h
    split at h
    · cases h
    · next u hu =>
      cases h
      exact ⟨rfl, fields_noParen _ (pyAssert_true _ _ hu)⟩
  · rw [List.all_eq_true]
    intro m hm
    have : m ∈ wideMacros := by
      simp only [macroWords, List.mem_cons, List.not_mem_nil, or_false] at hm
      rcases hm with rfl | rfl | rfl <;> decide
    have := hno m this
    rw [← isInfix_iff] at this
    simpa using this

/-- C92: of every argument list, each field is kept or is one call of a known macro, closed by a parenthesis, replaced by its
two halves; a field that begins a call of such a macro without ending it is refused. -/
theorem C92_macro_fields (sig : Str) (big : Bool) (fields : List Str) (h : parseSignature sig big = .ok fields) :
    ∃ outs : List (List Str), fields = outs.flatten ∧
      List.Forall₂ (fun f out => (out = [f] ∧ ∀ m ∈ wideMacros, ¬ m ++ cs!"(" <+: f) ∨
        ∃ m ∈ wideMacros, ∃ x, f = m ++ cs!"(" ++ x ++ cs!")" ∧ out = (halves big x).flatMap fun y => [cs!"u32", y])
        ((splitChar ',' sig).map strip) outs := by
  have key : ∀ (l out : List Str), expandMacros big l = .ok out → ∃ outs : List (List Str), out = outs.flatten ∧
      List.Forall₂ (fun f out => (out = [f] ∧ ∀ m ∈ wideMacros, ¬ m ++ cs!"(" <+: f) ∨
        ∃ m ∈ wideMacros, ∃ x, f = m ++ cs!"(" ++ x ++ cs!")" ∧ out = (halves big x).flatMap fun y => [cs!"u32", y]) l outs := by
    intro l
    induction l with
    | nil => intro out h; cases h; exact ⟨[], rfl, .nil⟩
    | cons f fs ih =>
      intro out h
      simp only [expandMacros, bind, Except.bind] at h
      split at h
      · cases h
      next a ha =>
      split at h
      · cases h
      next b hb =>
      cases h
      obtain ⟨outs, rfl, ho⟩ := ih b hb
      exact ⟨a :: outs, by simp, .cons (expandField_cases big f a ha) ho⟩
  unfold parseSignature at h
  simp only at h
  split at h
  · simp only [bind, Except.bind] at h
    split at h
    · cases h
    · next u hu =>
      cases h
      have hp := fields_noParen _ (pyAssert_true _ _ hu)
      generalize (splitChar ',' sig).map strip = l at hp
      refine ⟨l.map fun f => [f], by rw [← List.flatMap_def]; exact (List.flatMap_singleton' l).symm, ?_⟩
      induction l with
      | nil => exact .nil
      | cons f l ih =>
        refine .cons (.inl ⟨rfl, ?_⟩) (ih fun g hg => hp g (by simp [hg]))
        intro m _ hm
        exact (hp f (by simp)).1 (hm.subset (List.mem_append_right _ (by decide)))
  · exact key _ _ h

/-- an argument list with and one without macros, and an unclosed one -/
example : parseSignature cs!"int, a, char *, b" false = .ok [cs!"int", cs!"a", cs!"char *", cs!"b"] ∧
    parseSignature cs!"int, fd, SC_ARG64(off)" true = .ok [cs!"int", cs!"fd", cs!"u32", cs!"off_hi", cs!"u32", cs!"off_lo"] ∧
    parseSignature cs!"int, fd, SC_ARG64(off, x)" true = .error .assertion ∧
    (∀ m ∈ wideMacros, ¬ m <:+: cs!"int, a, char *, b") := by
  refine ⟨by decide +kernel, by decide +kernel, by decide +kernel, ?_⟩
  decide +kernel

/-- C92 is false in general: next to a known macro, parentheses are not looked for (signature.py:34-39), and an unknown macro
is taken for a type. -/
theorem C92_unknown_macro_refuted :
    signatureFromSource [cs!"SYSCALL_DEFINE3(x, SC_ARG64(off), OTHER(a), b)"] 1 false =
      .ok (some [cs!"u32 off_lo", cs!"u32 off_hi", cs!"OTHER(a) b"]) ∧ ¬ NoParen cs!"OTHER(a) b" := by
  refine ⟨by decide +kernel, ?_⟩
  unfold NoParen
  decide

/-- C92: a signature taken from ftrace metadata belongs to an object pointed to from the table that begins at the symbol for its
beginning and ends at the one for its end (at the end of the file if they are swapped), and has as many arguments as the object says. -/
theorem C92_metadata (e : Elf) (d : Dict Str (List Str)) (h : e.syscallMeta = .ok (some d)) :
    ∃ start stop table, dget cs!"__start_syscalls_metadata" e.symbols = some start ∧
      dget cs!"__stop_syscalls_metadata" e.symbols = some stop ∧
      (∃ off, e.vaddrToFileOffset start.realVaddr = .ok off ∧ table =
        if start.realVaddr ≤ stop.realVaddr then (e.data.drop off).take (stop.realVaddr - start.realVaddr) else e.data.drop off) ∧
      ∀ n sig, dget n d = some sig → ∃ (i ptr namep nr typesp argsp : Nat) (s : Str),
        let w := if e.bits32 then 4 else 8
        w * i < table.length ∧ readAt table (w * i) w = encUint e.bigEndian w ptr ∧
        Holds e ptr (encUint e.bigEndian w namep ++ encUint e.bigEndian 4 nr ++ encUint e.bigEndian 4 sig.length ++
          encUint e.bigEndian w typesp ++ encUint e.bigEndian w argsp) ∧ sig.length < 2 ^ 31 ∧
        e.vaddrReadString namep = .ok s ∧ n = noprefix (strip s) [cs!"sys_"] := by
  unfold Elf.syscallMeta at h
  split at h
  · cases h
  next start hstart =>
  simp only [bind, Except.bind] at h
  split at h
  · cases h
  next stop hstop =>
  split at hstop
  · cases hstop
  next stop' hs =>
  cases hstop
  split at h
  · cases h
  next bs hb =>
  split at h
  · cases h
  next ptrs hp =>
  refine ⟨start, stop, bs, hstart, hs, ?_, ?_⟩
  · unfold Elf.readRange at hb
    split at hb
    · next hlt =>
      simp only [bind, Except.bind] at hb
      split at hb
      · cases hb
      next off ho => cases hb; exact ⟨off, ho, by rw [if_neg (by omega)]⟩
    · next hlt =>
      unfold Elf.vaddrRead at hb
      simp only [bind, Except.bind] at hb
      split at hb
      · cases hb
      next off ho => cases hb; exact ⟨off, ho, by rw [if_pos (by omega)]; rfl⟩
  · intro n sig hg
    have hloop : e.readMetaLoop ptrs [] = .ok d := by
      split at h
      · split at h
        · cases h
        next x hx => cases h; exact hx
      · split at h
        · split at h
          · cases h
          · split at h
            · cases h
            next x hx => cases h; exact hx
        · split at h
          · cases h
          next x hx => cases h; exact hx
    rcases readMetaLoop_mem e ptrs [] d hloop n sig hg with h0 | ⟨ptr, hptr, he⟩
    · cases h0
    · obtain ⟨namep, nr, typesp, argsp, s, g1, g2, g3, g4⟩ := readMetaEntry_sound e ptr n sig he
      unfold iterUnpack at hp
      split at hp
      · cases hp
        have hw : 0 < e.ptrSize := by unfold Elf.ptrSize; split <;> omega
        obtain ⟨i, hi, hr⟩ := chunks_mem e.ptrSize e.bigEndian (bs.length / e.ptrSize) bs (Nat.mul_div_le _ _) ptr hptr
        refine ⟨i, ptr, namep, nr, typesp, argsp, s, ?_, hr, g4, g1, g2, g3⟩
        have := Nat.mul_div_le bs.length e.ptrSize
        have h2 : e.ptrSize * (i + 1) ≤ e.ptrSize * (bs.length / e.ptrSize) := Nat.mul_le_mul_left _ hi
        rw [Nat.mul_succ] at h2
        show e.ptrSize * i < bs.length
        omega
      · cases hp

example : metaElf.syscallMeta = .ok (some [(cs!"dup", [cs!"unsigned int fildes"])]) := by decide +kernel

/-- C92: a table of metadata without a symbol for its end is an error, not a table read up to some other place. -/
theorem C92_metadata_no_end (e : Elf) (start : Symbol) (h : dget cs!"__start_syscalls_metadata" e.symbols = some start)
    (hn : dget cs!"__stop_syscalls_metadata" e.symbols = none) : e.syscallMeta = .error .key := by
  simp only [Elf.syscallMeta, h, hn, bind, Except.bind]

example : { metaElf with symbols := metaElf.symbols.filter (fun x => x.1 ≠ cs!"__stop_syscalls_metadata") }.syscallMeta =
    .error .key := by decide +kernel

end Verif
