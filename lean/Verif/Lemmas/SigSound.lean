import Verif.Lemmas.Signature2
import Verif.Lemmas.Table
/-! # Lemmas: signatures are right or refused (C92) -/
set_option autoImplicit false

namespace Verif
open Spec

theorem readSigLoop_text (ls : List Str) : ∀ (sig text : Str), readSigLoop sig ls = .ok text →
    ∃ body post, ls = body ++ post ∧ sig ++ (body.map strip).flatten = text ∧ text.getLast? = some ')' ∧
      ∀ k, k < body.length → (sig ++ ((body.take k).map strip).flatten).getLast? ≠ some ')' := by
  induction ls with
  | nil =>
    intro sig text h
    simp only [readSigLoop] at h
    split at h
    · next he => cases h; exact ⟨[], [], rfl, by simp, (endsWith_paren _).1 he, by simp⟩
    · cases h
  | cons l ls ih =>
    intro sig text h
    simp only [readSigLoop] at h
    split at h
    · next he => cases h; exact ⟨[], l :: ls, rfl, by simp, (endsWith_paren _).1 he, by simp⟩
    · next he =>
      obtain ⟨body, post, h1, h2, h3, h4⟩ := ih _ _ h
      refine ⟨l :: body, post, by rw [h1]; rfl, by rw [← h2]; simp, h3, ?_⟩
      intro k hk
      cases k with
      | zero => simpa using fun hl => he ((endsWith_paren _).2 hl)
      | succ k =>
        have := h4 k (by simpa using hk)
        simpa using this

theorem readSigText_text (lines : List Str) (line : Nat) (text : Str) (h : readSigText lines line = .ok text) :
    TextAt lines line text := by
  unfold readSigText at h
  split at h
  · cases h
  · split at h
    · next hd =>
      rw [show readSigLoop (strip []) [] = .error .hang by decide +kernel] at h
      cases h
    · next l ls hd =>
      obtain ⟨body, post, h1, h2, h3, h4⟩ := readSigLoop_text _ _ _ h
      refine ⟨l :: body, post, by rw [hd, h1]; rfl, ⟨by simp, by simpa using h2, ?_⟩, h3⟩
      intro k h0 hk
      obtain ⟨k, rfl⟩ : ∃ j, k = j + 1 := ⟨k - 1, by omega⟩
      simpa using h4 k (by simpa using hk)

theorem fmtArgs_length (l : List Str) : ∀ out, fmtArgs l = .ok out → out.length = l.length / 2 := by
  induction l using fmtArgs.induct with
  | case1 t n rest ih =>
    intro out h
    simp only [fmtArgs, bind, Except.bind] at h
    split at h
    · cases h
    · split at h
      · cases h
      · next b hb =>
        cases h
        simp only [List.length_cons, ih b hb]; omega
  | case2 l hno =>
    intro out h
    match l, hno with
    | [], _ => cases h; rfl
    | [x], _ => cases h; simp
    | t :: n :: rest, hno => exact absurd rfl (hno t n rest)

theorem pyAssert_true (b : Bool) (u : Unit) (h : pyAssert b = .ok u) : b = true := by
  cases b with
  | true => rfl
  | false => cases h

theorem noprefix_ne (s : Str) (l : List Str) (h : s ≠ noprefix s l) : ∃ p ∈ l, s = p ++ noprefix s l := by
  induction l with
  | nil => exact absurd rfl h
  | cons q l ih =>
    simp only [noprefix] at h ⊢
    split
    · next hq =>
      rw [startsWith_iff] at hq
      obtain ⟨t, rfl⟩ := hq
      exact ⟨q, by simp, by simp⟩
    · next hq =>
      rw [if_neg hq] at h
      obtain ⟨p, hp, e⟩ := ih h
      exact ⟨p, by simp [hp], e⟩

theorem natRepr_digit (d : Char) (hd : isDigit d = true) : natRepr (natOfDigits [d]) = [d] := by
  have h10 : ∀ n, n < 10 → natRepr (natOfDigits [Char.ofNat (48 + n)]) = [Char.ofNat (48 + n)] := by decide +kernel
  simp only [isDigit, Bool.and_eq_true, decide_eq_true_eq] at hd
  have := h10 (d.toNat - 48) (by omega)
  rw [show 48 + (d.toNat - 48) = d.toNat by omega, Char.ofNat_toNat] at this
  exact this

theorem signatureOfDefine_count (sig : Str) (big : Bool) (out : List Str) (h : signatureOfDefine sig big = .ok out) :
    ∃ n rest, n ≤ 6 ∧ sig = natRepr n ++ rest ∧ out.length = n := by
  unfold signatureOfDefine at h
  split at h
  · cases h
  next d rest =>
  split at h
  · next hd =>
    simp only [bind, Except.bind] at h
    split at h
    · cases h
    next u hu =>
    have hle := pyAssert_true _ _ hu
    rw [decide_eq_true_eq] at hle
    refine ⟨natOfDigits [d], rest, hle, by rw [natRepr_digit d hd]; rfl, ?_⟩
    split at h
    · split at h
      · cases h
      · next u' hu' =>
        have h0 := pyAssert_true _ _ hu'
        rw [decide_eq_true_eq] at h0
        cases h
        rw [h0]
        rfl
    · split at h
      · cases h
      next fields hf =>
      split at h
      · cases h
      · next u' hu' =>
        have h0 := pyAssert_true _ _ hu'
        rw [decide_eq_true_eq] at h0
        rw [fmtArgs_length _ _ h]
        exact h0.2
  · cases h

theorem fields_noParen (s : Str) (h : (!s.contains '(' && !s.contains ')') = true) :
    ∀ f ∈ (splitChar ',' s).map strip, NoParen f := by
  intro f hf
  obtain ⟨g, hg, rfl⟩ := List.mem_map.1 hf
  have hin : strip g <:+: s := (strip_infix g).trans (splitChar_infix _ _ _ hg)
  simp only [Bool.and_eq_true, Bool.not_eq_true', List.contains_eq_mem, decide_eq_false_iff_not] at h
  exact ⟨fun hc => h.1 (hin.subset hc), fun hc => h.2 (hin.subset hc)⟩

theorem signatureOfAsmlinkage_sound (sig : Str) (out : List Str) (h : signatureOfAsmlinkage sig = .ok out) :
    out.length ≤ 7 ∧ ∀ arg ∈ out, NoParen arg := by
  unfold signatureOfAsmlinkage at h
  simp only at h
  split at h
  · cases h; simp
  · simp only [bind, Except.bind] at h
    split at h
    · cases h
    next u hu =>
    split at h
    · cases h
    · next u' hu' =>
      cases h
      have h7 := pyAssert_true _ _ hu'
      rw [decide_eq_true_eq] at h7
      exact ⟨h7, fields_noParen _ (pyAssert_true _ _ hu)⟩

theorem expandField_cases (big : Bool) (f : Str) (out : List Str) (h : expandField big f = .ok out) :
    out = [f] ∧ (∀ m ∈ wideMacros, ¬ m ++ cs!"(" <+: f) ∨
    ∃ m ∈ wideMacros, ∃ x, f = m ++ cs!"(" ++ x ++ cs!")" ∧ out = (halves big x).flatMap fun y => [cs!"u32", y] := by
  have hm : macroPrefixes = wideMacros.map (· ++ cs!"(") := by decide
  unfold expandField at h
  simp only at h
  split at h
  · next he =>
    cases h
    refine .inl ⟨rfl, ?_⟩
    intro m hmm hp
    obtain ⟨t, rfl⟩ := hp
    rw [noprefix_wide m t hmm] at he
    have := congrArg List.length he
    simp at this
    omega
  · next he =>
    obtain ⟨p, hp, e⟩ := noprefix_ne f macroPrefixes (fun h => he h.symm)
    rw [hm] at hp
    obtain ⟨m, hmm, rfl⟩ := List.mem_map.1 hp
    split at h
    · cases h
    next c hc =>
    simp only [bind, Except.bind] at h
    split at h
    · cases h
    next u hu =>
    have hcc := pyAssert_true _ _ hu
    rw [beq_iff_eq] at hcc
    subst hcc
    obtain ⟨x, hx⟩ := List.getLast?_eq_some_iff.1 hc
    rw [hx] at e h
    refine .inr ⟨m, hmm, x, by rw [e]; simp, ?_⟩
    have hs : sliceToNeg (x ++ [')']) 1 = x := by
      simp [sliceToNeg]
    rw [hs] at h
    cases big <;> simp at h <;> rw [← h] <;> rfl

/-! ## ftrace metadata -/

theorem readMetaArgs_length (e : Elf) (types args : Nat) : ∀ n i out, e.readMetaArgs types args i n = .ok out → out.length = n := by
  intro n
  induction n with
  | zero => intro i out h; cases h; rfl
  | succ n ih =>
    intro i out h
    simp only [Elf.readMetaArgs, bind, Except.bind] at h
    split at h
    · cases h
    split at h
    · cases h
    split at h
    · cases h
    split at h
    · cases h
    split at h
    · cases h
    split at h
    · cases h
    next rest hr =>
    cases h
    simp [ih _ _ hr]

theorem vaddrRead_holds (e : Elf) (va n : Nat) (bs : Bytes) (h : e.vaddrRead va n = .ok bs) : Holds e va bs ∧ bs.length ≤ n := by
  unfold Elf.vaddrRead at h
  simp only [bind, Except.bind] at h
  split at h
  · cases h
  next off ho =>
  cases h
  exact ⟨⟨off, ho, List.take_prefix _ _⟩, by simp [readAt]; omega⟩

theorem encUint_slice (big : Bool) (bs : Bytes) (off n : Nat) (h : off + n ≤ bs.length) :
    encUint big n (uintOf big (readAt bs off n)) = readAt bs off n := by
  have hl : (readAt bs off n).length = n := by simp [readAt]; omega
  have := encUint_uintOf big (readAt bs off n)
  rwa [hl] at this

theorem readMeta_holds (e : Elf) (ptr : Nat) (m : Meta) (h : e.readMeta ptr = .ok m) (hn : 0 ≤ m.nargs) :
    ∃ nr : Nat, m.nargs.toNat < 2 ^ 31 ∧
      Holds e ptr (encUint e.bigEndian e.ptrSize m.name ++ encUint e.bigEndian 4 nr ++ encUint e.bigEndian 4 m.nargs.toNat ++
        encUint e.bigEndian e.ptrSize m.types ++ encUint e.bigEndian e.ptrSize m.args) := by
  unfold Elf.readMeta at h
  simp only [bind, Except.bind] at h
  split at h
  · cases h
  next bs hb =>
  split at h
  · next hl =>
    cases h
    simp only at hn ⊢
    generalize e.ptrSize = p at hl hn ⊢
    have hx : uintOf e.bigEndian (readAt bs (p + 4) 4) < 256 ^ 4 := by
      have := uintOf_lt e.bigEndian (readAt bs (p + 4) 4)
      rwa [show (readAt bs (p + 4) 4).length = 4 by simp [readAt]; omega] at this
    have hs : uintOf e.bigEndian (readAt bs (p + 4) 4) < 2 ^ 31 ∧
        (signed32 (uintOf e.bigEndian (readAt bs (p + 4) 4))).toNat = uintOf e.bigEndian (readAt bs (p + 4) 4) := by
      unfold signed32 at hn ⊢
      split at hn
      · next hlt => rw [if_pos hlt]; exact ⟨hlt, by simp⟩
      · omega
    refine ⟨uintOf e.bigEndian (readAt bs p 4), by rw [hs.2]; exact hs.1, ?_⟩
    rw [hs.2, encUint_slice _ _ 0 p (by omega), encUint_slice _ _ p 4 (by omega), encUint_slice _ _ (p + 4) 4 (by omega),
      encUint_slice _ _ (p + 8) p (by omega), encUint_slice _ _ (2 * p + 8) p (by omega)]
    have hcat : readAt bs 0 p ++ readAt bs p 4 ++ readAt bs (p + 4) 4 ++ readAt bs (p + 8) p ++ readAt bs (2 * p + 8) p = bs := by
      have step : ∀ a n, bs.take a ++ readAt bs a n = bs.take (a + n) := by
        intro a n
        rw [readAt, List.take_add]
      have h0 : readAt bs 0 p = bs.take p := by simp [readAt]
      rw [h0, step, step, show p + 4 + 4 = p + 8 by omega, step, show p + 8 + p = 2 * p + 8 by omega, step,
        List.take_of_length_le (by omega)]
    rw [hcat]
    exact (vaddrRead_holds _ _ _ _ hb).1
  · cases h

theorem readMetaLoop_mem (e : Elf) (ps : List Nat) : ∀ d out, e.readMetaLoop ps d = .ok out →
    ∀ n sig, dget n out = some sig → dget n d = some sig ∨ ∃ p ∈ ps, e.readMetaEntry p = .ok (n, sig) := by
  induction ps with
  | nil => intro d out h n sig hg; cases h; exact .inl hg
  | cons p ps ih =>
    intro d out h n sig hg
    simp only [Elf.readMetaLoop, bind, Except.bind] at h
    split at h
    · cases h
    next r hr =>
    rcases ih _ _ h n sig hg with hd | ⟨q, hq, e'⟩
    · by_cases hn : n = r.1
      · rw [hn, dget_dset_self] at hd
        cases hd
        exact .inr ⟨p, by simp, by rw [hn]; exact hr⟩
      · rw [dget_dset_ne _ _ hn] at hd
        exact .inl hd
    · exact .inr ⟨q, by simp [hq], e'⟩

theorem readMetaEntry_sound (e : Elf) (p : Nat) (n : Str) (sig : List Str) (h : e.readMetaEntry p = .ok (n, sig)) :
    ∃ (namep nr typesp argsp : Nat) (s : Str), sig.length < 2 ^ 31 ∧ e.vaddrReadString namep = .ok s ∧
      n = noprefix (strip s) [cs!"sys_"] ∧
      Holds e p (encUint e.bigEndian e.ptrSize namep ++ encUint e.bigEndian 4 nr ++ encUint e.bigEndian 4 sig.length ++
        encUint e.bigEndian e.ptrSize typesp ++ encUint e.bigEndian e.ptrSize argsp) := by
  unfold Elf.readMetaEntry at h
  simp only [bind, Except.bind] at h
  split at h
  · cases h
  next m hm =>
  split at h
  · cases h
  next u hu =>
  split at h
  · cases h
  next s hs =>
  split at h
  · cases h
  next sg hsg =>
  cases h
  have ha := pyAssert_true _ _ hu
  rw [decide_eq_true_eq] at ha
  obtain ⟨nr, h1, h2⟩ := readMeta_holds e p m hm ha.1
  have hl := readMetaArgs_length _ _ _ _ _ _ hsg
  exact ⟨m.name, nr, m.types, m.args, s, by rw [hl]; exact h1, hs, rfl, by rw [hl]; exact h2⟩

theorem chunks_mem (n : Nat) (big : Bool) : ∀ (k : Nat) (bs : Bytes), n * k ≤ bs.length → ∀ x ∈ (chunks n k bs).map (uintOf big),
    ∃ i, i < k ∧ readAt bs (n * i) n = encUint big n x := by
  intro k
  induction k with
  | zero => intro bs _ x hx; cases hx
  | succ k ih =>
    intro bs hl x hx
    rw [Nat.mul_succ] at hl
    simp only [chunks, List.map_cons, List.mem_cons] at hx
    rcases hx with rfl | hx
    · refine ⟨0, by omega, ?_⟩
      have := encUint_slice big bs 0 n (by omega)
      simpa [readAt] using this.symm
    · obtain ⟨i, hi, e⟩ := ih (bs.drop n) (by simp; omega) x hx
      refine ⟨i + 1, by omega, ?_⟩
      rw [← e]
      simp only [readAt, List.drop_drop, Nat.mul_succ]
      rw [Nat.add_comm]

end Verif
