import Verif.Model.Cli
import Verif.Spec.Cli
import Verif.Lemmas.Py
/-! # Lemmas about the command line parser -/
set_option autoImplicit false

namespace Verif
open Spec

/-! ## the table of options -/

def switchOpt : Switch → Opt
  | .build => .build
  | .config => .config
  | .clean => .clean
  | .absolutePaths => .absolutePaths
  | .disableOpt => .disableOpt
  | .quiet => .quiet
  | .verbose => .verbose

def settingOpt : Setting → Opt
  | .kdir => .kdir
  | .arch => .arch
  | .cross => .cross
  | .out => .out
  | .format => .format
  | .remap => .remap
  | .checkout => .checkout

theorem table_dget : ∀ p ∈ optionStrings, dget p.1 optionStrings = some p.2 := by decide +kernel

theorem table_nodup : (optionStrings.map Prod.fst).Nodup := by decide +kernel

theorem table_shape : ∀ p ∈ optionStrings, (p.1.length = 2 ∧ p.1.take 1 = ['-'] ∧ ∀ c ∈ p.1.drop 1, c ∈ letters) ∨
    (p.1 ∈ longNames ∧ p.1.take 2 = ['-', '-']) := by decide +kernel

theorem letters_table : ∀ c ∈ letters, (dget ['-', c] optionStrings).isSome := by decide +kernel

theorem long_table : ∀ l ∈ longNames, (dget l optionStrings).isSome := by decide +kernel

theorem long_prefix : ∀ l ∈ longNames, ∀ l' ∈ longNames, l <+: l' → l' = l := by decide +kernel

theorem long_chars : ∀ l ∈ longNames, '=' ∉ l := by decide +kernel

theorem letters_plain : ∀ c ∈ letters, c ≠ '-' ∧ c ≠ '=' ∧ c ≠ '.' ∧ reDigit c = false := by decide +kernel

theorem switch_table : ∀ f ∈ Switch.all, dget f.long optionStrings = some (switchOpt f) ∧
    (∀ c ∈ f.short, dget ['-', c] optionStrings = some (switchOpt f)) ∧ (switchOpt f).takesValue = false := by decide +kernel

theorem setting_table : ∀ v ∈ Setting.all, dget v.long optionStrings = some (settingOpt v) ∧
    (∀ c ∈ v.short, dget ['-', c] optionStrings = some (settingOpt v)) ∧ (settingOpt v).takesValue = true := by decide +kernel

theorem table_kind : ∀ p ∈ optionStrings, p.2 = .help ∨ p.2 = .version ∨
    (∃ f ∈ Switch.all, p.2 = switchOpt f ∧ (p.1 = f.long ∨ ∃ c ∈ f.short, p.1 = ['-', c])) ∨
    (∃ v ∈ Setting.all, p.2 = settingOpt v ∧ (p.1 = v.long ∨ ∃ c ∈ v.short, p.1 = ['-', c])) := by decide +kernel

theorem switch_mem_all (f : Switch) : f ∈ Switch.all := by cases f <;> decide
theorem setting_mem_all (v : Setting) : v ∈ Setting.all := by cases v <;> decide

/-- an option string of the table is a letter or a long name -/
theorem dget_shape (s : Str) (o : Opt) (h : dget s optionStrings = some o) :
    (∃ c, s = ['-', c] ∧ c ∈ letters) ∨ (s ∈ longNames ∧ ∃ r, s = '-' :: '-' :: r) := by
  rcases table_shape _ (dget_mem h) with ⟨h1, h2, h3⟩ | ⟨h1, h2⟩
  · match s, h1, h2, h3 with
    | [a, c], _, h2, h3 =>
      simp only [List.take_succ_cons, List.take_zero, List.cons.injEq, and_true] at h2
      exact .inl ⟨c, by rw [h2], h3 c (by simp)⟩
  · match s, h2 with
    | a :: b :: r, h2 =>
      simp only [List.take_succ_cons, List.take_zero, List.cons.injEq, and_true] at h2
      exact .inr ⟨h1, r, by rw [h2.1, h2.2]⟩

theorem letter_mem (c : Char) (o : Opt) (h : dget ['-', c] optionStrings = some o) : c ∈ letters := by
  rcases dget_shape _ _ h with ⟨c', e, hc⟩ | ⟨hm, r, e⟩
  · simp only [List.cons.injEq, and_true, true_and] at e
    rw [e]; exact hc
  · exfalso
    rw [e] at hm
    simp only [List.cons.injEq, true_and] at e
    rw [← e.2] at hm
    exact absurd hm (by decide)

/-! ## texts -/

theorem partitionEq_fst (s : Str) : (partitionEq s).1 = beforeEq s := by
  induction s with
  | nil => rfl
  | cons c s ih => by_cases h : c = '=' <;> simp [partitionEq, beforeEq, h, ih]

theorem partitionEq_some (s x : Str) (h : (partitionEq s).2 = some x) : s = beforeEq s ++ '=' :: x := by
  induction s with
  | nil => cases h
  | cons c s ih =>
    by_cases hc : c = '='
    · simp [partitionEq, hc] at h; simp [beforeEq, hc, h]
    · simp only [partitionEq, hc, if_false] at h
      have := ih h
      simp only [beforeEq] at this ⊢
      rw [List.takeWhile_cons_of_pos (by simpa using hc), List.cons_append, ← this]

theorem partitionEq_none (s : Str) (h : (partitionEq s).2 = none) : beforeEq s = s := by
  induction s with
  | nil => rfl
  | cons c s ih =>
    by_cases hc : c = '='
    · simp [partitionEq, hc] at h
    · simp only [partitionEq, hc, if_false] at h
      have := ih h
      simp only [beforeEq] at this ⊢
      rw [List.takeWhile_cons_of_pos (by simpa using hc), this]

theorem partitionEq_plain (n : Str) (h : '=' ∉ n) : partitionEq n = (n, none) := by
  induction n with
  | nil => rfl
  | cons c n ih =>
    simp only [List.mem_cons, not_or] at h
    simp [partitionEq, ih h.2, Ne.symm h.1]

theorem partitionEq_append (n x : Str) (h : '=' ∉ n) : partitionEq (n ++ '=' :: x) = (n, some x) := by
  induction n with
  | nil => simp [partitionEq]
  | cons c n ih =>
    simp only [List.mem_cons, not_or] at h
    simp [partitionEq, ih h.2, Ne.symm h.1]


/-! ## abbreviations -/

theorem abbrev_shape (name full : Str) (hf : full ∈ longNames) (h : Abbreviates name full) :
    '=' ∉ name ∧ ∃ c r, name = '-' :: '-' :: c :: r := by
  refine ⟨fun hm => long_chars full hf (h.1.subset hm), ?_⟩
  have hsh : ∀ l ∈ longNames, ∃ c r, l = '-' :: '-' :: c :: r := by
    intro l hl
    have : ∀ l ∈ longNames, l.take 2 = ['-', '-'] ∧ 2 < l.length := by decide +kernel
    obtain ⟨h1, h2⟩ := this l hl
    match l, h1, h2 with
    | a :: b :: c :: r, h1, _ =>
      simp only [List.take_succ_cons, List.take_zero, List.cons.injEq, and_true] at h1
      exact ⟨c, r, by rw [h1.1, h1.2]⟩
  obtain ⟨c, r, hr⟩ := hsh full hf
  have short : ∀ n : Str, n <+: cs!"--" → n ≠ name := by
    rintro n hn rfl
    have h1 := h.2 cs!"--help" (by decide) (hn.trans (by decide))
    have h2 := h.2 cs!"--kdir" (by decide) (hn.trans (by decide))
    rw [← h1] at h2
    exact absurd h2 (by decide)
  obtain ⟨t, ht⟩ := h.1
  rw [hr] at ht
  match name, ht, short with
  | [], _, short => exact absurd rfl (short [] (by decide))
  | [a], ht, short => simp at ht; exact absurd (by rw [ht.1]) (short ['-'] (by decide))
  | [a, b], ht, short => simp at ht; exact absurd (by rw [ht.1, ht.2.1]) (short ['-', '-'] (by decide))
  | a :: b :: d :: q, ht, _ => simp at ht; exact ⟨d, q, by rw [ht.1, ht.2.1]⟩

theorem filter_unique {α : Type} (p : α → Bool) : ∀ (l : List α) (x : α), l.Nodup → x ∈ l → p x = true →
    (∀ y ∈ l, p y = true → y = x) → l.filter p = [x] := by
  intro l
  induction l with
  | nil => intro x _ hx; cases hx
  | cons a l ih =>
    intro x hn hx hp hu
    rw [List.nodup_cons] at hn
    by_cases ha : p a = true
    · have := hu a (by simp) ha
      subst this
      rw [List.filter_cons_of_pos ha]
      congr 1
      rw [List.filter_eq_nil_iff]
      intro y hy hpy
      exact hn.1 (by rw [← hu y (by simp [hy]) hpy]; exact hy)
    · rw [List.filter_cons_of_neg ha]
      rcases List.mem_cons.mp hx with rfl | hx
      · exact absurd hp ha
      · exact ih x hn.2 hx hp (fun y hy => hu y (by simp [hy]))

theorem table_nodup' : optionStrings.Nodup := by decide +kernel

theorem prefix_long (name : Str) (r : Str) (hn : name = '-' :: '-' :: r) (p : Str × Opt) (hp : p ∈ optionStrings)
    (h : name <+: p.1) : p.1 ∈ longNames := by
  rcases dget_shape _ _ (table_dget p hp) with ⟨c, e, hc⟩ | ⟨hm, _⟩
  · exfalso
    rw [e, hn] at h
    obtain ⟨t, ht⟩ := h
    simp at ht
    exact (letters_plain c hc).1 ht.1.symm
  · exact hm

theorem long_filter (name full : Str) (o : Opt) (hf : full ∈ longNames) (ho : dget full optionStrings = some o)
    (h : Abbreviates name full) : optionStrings.filter (fun p => startsWith p.1 name) = [(full, o)] := by
  obtain ⟨_, c, r, hr⟩ := abbrev_shape name full hf h
  refine filter_unique _ _ _ table_nodup' (dget_mem ho) ((startsWith_iff _ _).mpr h.1) ?_
  rintro ⟨l, o'⟩ hy hp
  have hp' := (startsWith_iff _ _).mp hp
  have := h.2 l (prefix_long name (c :: r) hr _ hy hp') hp'
  subst this
  have := table_dget _ hy
  rw [ho] at this
  cases this
  rfl

/-! ## letters -/

theorem tuples_go (k : Str) (g : Str × Opt → OptTok) (h : Str × Opt → Option OptTok) : ∀ (L : Dict Str Opt), (L.map Prod.fst).Nodup →
    (∀ p ∈ L, p.1 ≠ k → h p = none) →
    L.filterMap (fun p => if p.1 = k then some (g p) else h p) = (match dget k L with | some o => [g (k, o)] | none => []) := by
  intro L
  induction L with
  | nil => intro _ _; rfl
  | cons p L ih =>
    intro hn hh
    obtain ⟨l, o⟩ := p
    simp only [List.map_cons, List.nodup_cons] at hn
    have ih := ih hn.2 (fun q hq => hh q (by simp [hq]))
    by_cases hk : l = k
    · subst hk
      have hnone : dget l L = none := by
        cases hd : dget l L with
        | none => rfl
        | some x => exact absurd (List.mem_map_of_mem (f := Prod.fst) (dget_mem hd)) hn.1
      rw [hnone] at ih
      simp [dget, ih]
    · have := hh (l, o) (by simp) hk
      rw [List.filterMap_cons]
      simp only [hk, if_false, this, ih]
      simp [dget, hk]

theorem optionTuples_letter (c d : Char) (t : Str) (hc : c ≠ '-') :
    optionTuples ('-' :: c :: d :: t) = (match dget ['-', c] optionStrings with
      | some o => [⟨some o, ['-', c], false, some (d :: t)⟩]
      | none => []) := by
  have : optionTuples ('-' :: c :: d :: t) = optionStrings.filterMap fun o =>
      if o.1 = ['-', c] then some ⟨some o.2, o.1, false, some (d :: t)⟩
      else if startsWith o.1 ('-' :: c :: d :: t) then some ⟨some o.2, o.1, false, none⟩ else none := by
    unfold optionTuples
    split
    · next h => simp at h; exact absurd h.1 hc
    · rfl
  rw [this]
  refine tuples_go ['-', c] (fun p => ⟨some p.2, p.1, false, some (d :: t)⟩) _ _ table_nodup ?_
  intro p hp _
  rw [if_neg]
  intro hs
  rw [startsWith_iff] at hs
  rcases dget_shape _ _ (table_dget p hp) with ⟨c', e, _⟩ | ⟨_, r, e⟩
  · rw [e] at hs; have := hs.length_le; simp at this
  · rw [e] at hs
    obtain ⟨t', ht⟩ := hs
    simp at ht
    exact hc ht.1

/-! ## reading one argument -/

/-- the ways an argument is read as an option of the table -/
inductive ReadsAs : Str → OptTok → Prop
  | letter (c : Char) (o : Opt) (h : dget ['-', c] optionStrings = some o) : ReadsAs ['-', c] ⟨some o, ['-', c], false, none⟩
  | letterEq (c : Char) (o : Opt) (x : Str) (h : dget ['-', c] optionStrings = some o) :
      ReadsAs ('-' :: c :: '=' :: x) ⟨some o, ['-', c], true, some x⟩
  | letterMore (c : Char) (o : Opt) (d : Char) (t : Str) (h : dget ['-', c] optionStrings = some o) (hd : d ≠ '=') :
      ReadsAs ('-' :: c :: d :: t) ⟨some o, ['-', c], false, some (d :: t)⟩
  | long (name full : Str) (o : Opt) (hf : full ∈ longNames) (h : dget full optionStrings = some o)
      (ha : Abbreviates name full) : ReadsAs name ⟨some o, full, false, none⟩
  | longEq (name full : Str) (o : Opt) (x : Str) (hf : full ∈ longNames) (h : dget full optionStrings = some o)
      (ha : Abbreviates name full) : ReadsAs (name ++ '=' :: x) ⟨some o, full, true, some x⟩

theorem abbrev_self (l : Str) (h : l ∈ longNames) : Abbreviates l l :=
  ⟨List.prefix_refl l, fun l' hl' hp => long_prefix l h l' hl' hp⟩

theorem dget_abbrev (name full : Str) (o : Opt) (hf : full ∈ longNames) (ho : dget full optionStrings = some o)
    (h : Abbreviates name full) : (name = full ∧ dget name optionStrings = some o) ∨ dget name optionStrings = none := by
  cases hd : dget name optionStrings with
  | none => exact .inr rfl
  | some o' =>
    obtain ⟨_, c, r, hr⟩ := abbrev_shape name full hf h
    rcases dget_shape _ _ hd with ⟨c', e, _⟩ | ⟨hm, _⟩
    · rw [hr] at e; simp at e
    · have := long_prefix name hm full hf h.1
      subst this
      rw [ho] at hd
      exact .inl ⟨rfl, by rw [hd]⟩

theorem dget_eq_char (s : Str) (h : '=' ∈ s) (hl : s.length ≠ 2) : dget s optionStrings = none := by
  cases hd : dget s optionStrings with
  | none => rfl
  | some o =>
    exfalso
    rcases dget_shape _ _ hd with ⟨c', e, _⟩ | ⟨hm, _⟩
    · rw [e] at hl; simp at hl
    · exact long_chars s hm h

theorem dget_letters (c d : Char) (t : Str) (hc : c ≠ '-') : dget ('-' :: c :: d :: t) optionStrings = none := by
  cases hd : dget ('-' :: c :: d :: t) optionStrings with
  | none => rfl
  | some o =>
    exfalso
    rcases dget_shape _ _ hd with ⟨c', e, _⟩ | ⟨_, r, e⟩
    · simp at e
    · simp at e; exact hc e.1

theorem optionTuples_long (s r : Str) (hr : s = '-' :: '-' :: r) :
    optionTuples s = (optionStrings.filter fun o => startsWith o.1 (partitionEq s).1).map fun o =>
      ⟨some o.2, o.1, (partitionEq s).2.isSome, (partitionEq s).2⟩ := by
  subst hr
  rfl

theorem parseOptional_reads (s : Str) (t : OptTok) (h : ReadsAs s t) : parseOptional s = .ok (some t) := by
  cases h with
  | letter c o h => simp [parseOptional, h]
  | letterEq c o x h =>
    have hl := letters_plain c (letter_mem c o h)
    have h1 : dget ('-' :: c :: '=' :: x) optionStrings = none := dget_letters c '=' x hl.1
    have h2 : partitionEq ('-' :: c :: '=' :: x) = (['-', c], some x) :=
      partitionEq_append ['-', c] x (by simp only [List.mem_cons, not_or]; exact ⟨by decide, Ne.symm hl.2.1, by simp⟩)
    simp [parseOptional, h1, h2, h]
  | letterMore c o d t h hd =>
    have hl := letters_plain c (letter_mem c o h)
    have h1 : dget ('-' :: c :: d :: t) optionStrings = none := dget_letters c d t hl.1
    have h2 : (partitionEq ('-' :: c :: d :: t)).1 = '-' :: c :: d :: beforeEq t := by
      rw [partitionEq_fst]
      simp [beforeEq, hl.2.1, hd]
    have h3 : dget ('-' :: c :: d :: beforeEq t) optionStrings = none := dget_letters c d _ hl.1
    simp only [parseOptional, h1, h2, h3, optionTuples_letter c d t hl.1, h]
    simp
  | long _ full o hf h ha =>
    obtain ⟨hq, c, r, hr⟩ := abbrev_shape s full hf ha
    have hhead : s.head? = some '-' := by rw [hr]; rfl
    have hlen : s.length ≠ 1 := by rw [hr]; simp
    have hp := partitionEq_plain s hq
    rcases dget_abbrev s full o hf h ha with ⟨rfl, hd⟩ | hd
    · simp [parseOptional, hhead, hd]
    · have ht : optionTuples s = [⟨some o, full, false, none⟩] := by
        rw [optionTuples_long s _ hr, hp, long_filter s full o hf h ha]
        rfl
      simp [parseOptional, hhead, hd, hlen, hp, ht]
  | longEq name full o x hf h ha =>
    obtain ⟨hq, c, r, hr⟩ := abbrev_shape name full hf ha
    have hhead : (name ++ '=' :: x).head? = some '-' := by rw [hr]; rfl
    have hlen : (name ++ '=' :: x).length ≠ 1 := by rw [hr]; simp
    have hp := partitionEq_append name x hq
    have hn : dget (name ++ '=' :: x) optionStrings = none := dget_eq_char _ (by simp) (by rw [hr]; simp)
    rcases dget_abbrev name full o hf h ha with ⟨rfl, hd⟩ | hd
    · simp only [parseOptional, hhead, hn, hlen, hp, hd]
      simp
    · have ht : optionTuples (name ++ '=' :: x) = [⟨some o, full, true, some x⟩] := by
        rw [optionTuples_long (name ++ '=' :: x) (c :: r ++ '=' :: x) (by rw [hr]; rfl), hp, long_filter name full o hf h ha]
        rfl
      simp only [parseOptional, hhead, hn, hlen, hp, hd, ht]
      simp

theorem long_filter_inv (s r : Str) (hr : s = '-' :: '-' :: r) (p : Str × Opt)
    (h : optionStrings.filter (fun o => startsWith o.1 (beforeEq s)) = [p]) :
    p.1 ∈ longNames ∧ dget p.1 optionStrings = some p.2 ∧ Abbreviates (beforeEq s) p.1 := by
  have hb : ∃ r', beforeEq s = '-' :: '-' :: r' := by rw [hr]; exact ⟨beforeEq r, by simp [beforeEq]⟩
  obtain ⟨r', hr'⟩ := hb
  have hp : p ∈ optionStrings.filter (fun o => startsWith o.1 (beforeEq s)) := by rw [h]; simp
  rw [List.mem_filter, startsWith_iff] at hp
  refine ⟨prefix_long _ r' hr' p hp.1 hp.2, table_dget p hp.1, hp.2, ?_⟩
  intro l hl hpre
  obtain ⟨o, ho⟩ := Option.isSome_iff_exists.mp (long_table l hl)
  have : (l, o) ∈ optionStrings.filter (fun o => startsWith o.1 (beforeEq s)) :=
    List.mem_filter.mpr ⟨dget_mem ho, (startsWith_iff _ _).mpr hpre⟩
  rw [h, List.mem_singleton] at this
  rw [← this]

theorem optionTuples_pair (c : Char) (hc : c ≠ '-') (hnone : dget ['-', c] optionStrings = none) : optionTuples ['-', c] = [] := by
  unfold optionTuples
  split
  · next h => simp at h; exact absurd h.1 hc
  · rw [List.filterMap_eq_nil_iff]
    rintro ⟨l, o⟩ hp
    simp only [List.take_succ_cons, List.take_zero]
    rw [if_neg, if_neg]
    · rw [startsWith_iff]
      intro hpre
      rcases dget_shape _ _ (table_dget _ hp) with ⟨c', e, _⟩ | ⟨_, r, e⟩
      · simp only at e
        rw [e] at hpre
        obtain ⟨t', ht'⟩ := hpre
        simp at ht'
        have := table_dget _ hp
        simp only [e, ← ht'.1] at this
        rw [hnone] at this
        cases this
      · simp only at e
        rw [e] at hpre
        obtain ⟨t', ht'⟩ := hpre
        simp at ht'
        exact hc ht'.1
    · rintro e
      have := table_dget _ hp
      simp only [e] at this
      rw [hnone] at this
      cases this

theorem parseOptional_inv (s : Str) (t : OptTok) (h : parseOptional s = .ok (some t)) : ReadsAs s t ∨ t.opt = none := by
  unfold parseOptional at h
  split at h
  · cases h
  next hhead =>
  split at h
  · next o ho =>
    cases h
    rcases dget_shape _ _ ho with ⟨c, e, _⟩ | ⟨hm, _⟩
    · subst e; exact .inl (.letter c o ho)
    · exact .inl (.long s s o hm ho (abbrev_self s hm))
  next hnone =>
  split at h
  · cases h
  next hlen =>
  have hs : ∃ c d, s = '-' :: c :: d := by
    match s, hhead, hlen with
    | [], hh, _ => simp at hh
    | [a], _, hl => simp at hl
    | a :: c :: d, hh, _ => simp at hh; exact ⟨c, d, by rw [hh]⟩
  obtain ⟨c, d, rfl⟩ := hs
  split at h
  · next x o hx ho =>
    cases h
    have e := partitionEq_some _ x hx
    rw [partitionEq_fst] at ho ⊢
    rcases dget_shape _ _ ho with ⟨c', e', hc'⟩ | ⟨hm, _⟩
    · rw [e'] at ho e ⊢
      rw [e]
      exact .inl (.letterEq c' o x ho)
    · have := ReadsAs.longEq _ _ o x hm ho (abbrev_self _ hm)
      rw [← e] at this
      exact .inl this
  next hno =>
  split at h
  · cases h
  · next t' ht =>
    cases h
    by_cases hc : c = '-'
    · subst hc
      rw [optionTuples_long _ d rfl, partitionEq_fst] at ht
      obtain ⟨p, hp, e⟩ : ∃ p, optionStrings.filter (fun o => startsWith o.1 (beforeEq ('-' :: '-' :: d))) = [p] ∧
          t = ⟨some p.2, p.1, (partitionEq ('-' :: '-' :: d)).2.isSome, (partitionEq ('-' :: '-' :: d)).2⟩ := by
        generalize optionStrings.filter (fun o => startsWith o.1 (beforeEq ('-' :: '-' :: d))) = L at ht
        match L, ht with
        | [p], ht => exact ⟨p, rfl, by simpa using ht.symm⟩
      obtain ⟨h1, h2, h3⟩ := long_filter_inv _ d rfl p hp
      rw [e]
      cases hx : (partitionEq ('-' :: '-' :: d)).2 with
      | none =>
        rw [partitionEq_none _ hx] at h3
        exact .inl (.long _ _ p.2 h1 h2 h3)
      | some x =>
        have := ReadsAs.longEq _ _ p.2 x h1 h2 h3
        rw [← partitionEq_some _ x hx] at this
        exact .inl this
    · match d with
      | [] =>
        exfalso
        have := optionTuples_pair c hc hnone
        rw [this] at ht
        cases ht
      | d' :: t' =>
        rw [optionTuples_letter c d' t' hc] at ht
        split at ht
        · next o ho =>
          cases ht
          by_cases hd : d' = '='
          · exfalso
            have hl := letters_plain c (letter_mem c o ho)
            have h2 : partitionEq ('-' :: c :: d' :: t') = (['-', c], some t') := by
              rw [hd]
              exact partitionEq_append ['-', c] t' (by simp only [List.mem_cons, not_or]; exact ⟨by decide, Ne.symm hl.2.1, by simp⟩)
            exact hno t' o (by rw [h2]) (by rw [h2]; exact ho)
          · exact .inl (.letterMore c o d' t' ho hd)
        · cases ht
  · split at h
    · cases h
    · split at h
      · cases h
      · cases h; exact .inr rfl

/-! ## arguments that are not options -/

theorem reDigit_iff (c : Char) : reDigit c = true ↔ ∃ z ∈ digitZeros, z ≤ c.toNat ∧ c.toNat < z + 10 := by
  simp [reDigit]

theorem reDigits_iff (s : Str) : DecimalDigits digitZeros s ↔ ∀ c ∈ s, reDigit c = true := by
  simp only [DecimalDigits, reDigit_iff]

theorem takeWhile_stop {α : Type} (p : α → Bool) (a b : List α) (ha : ∀ x ∈ a, p x = true) (hb : ∀ x ∈ b.head?, p x = false) :
    (a ++ b).takeWhile p = a ∧ (a ++ b).dropWhile p = b := by
  induction a with
  | nil => cases b with
    | nil => simp
    | cons x b => simp [hb x (by simp)]
  | cons x a ih =>
    have := ih (fun y hy => ha y (by simp [hy]))
    simp [ha x (by simp), this.1, this.2]

theorem digitsEnd_iff (s : Str) : digitsEnd s = true ↔
    ∃ d nl, s = d ++ nl ∧ DecimalDigits digitZeros d ∧ d ≠ [] ∧ (nl = [] ∨ nl = ['\n']) := by
  constructor
  · intro h
    simp only [digitsEnd, Bool.and_eq_true, decide_eq_true_eq] at h
    refine ⟨_, _, List.takeWhile_append_dropWhile.symm, ?_, h.1, h.2⟩
    rw [reDigits_iff]
    intro c hc
    have : ∀ (l : Str), ∀ c ∈ l.takeWhile reDigit, reDigit c = true := by
      intro l
      induction l with
      | nil => intro c hc; cases hc
      | cons x l ih =>
        intro c hc
        by_cases hx : reDigit x = true
        · rw [List.takeWhile_cons_of_pos hx] at hc
          rcases List.mem_cons.mp hc with rfl | hc
          · exact hx
          · exact ih c hc
        · rw [List.takeWhile_cons_of_neg hx] at hc; cases hc
    exact this s c hc
  · rintro ⟨d, nl, rfl, hd, hne, hnl⟩
    rw [reDigits_iff] at hd
    have := takeWhile_stop reDigit d nl hd (by
      rcases hnl with rfl | rfl
      · simp
      · intro x hx; simp at hx; subst hx; decide +kernel)
    simp only [digitsEnd, this.1, this.2, Bool.and_eq_true, decide_eq_true_eq]
    exact ⟨hne, hnl⟩

theorem negativeNumber_iff (s : Str) : negativeNumber s = true ↔ NegativeNumber digitZeros s := by
  constructor
  · intro h
    unfold negativeNumber at h
    split at h
    · next r =>
      rw [Bool.or_eq_true] at h
      rcases h with h | h
      · obtain ⟨d, nl, e, hd, hne, hnl⟩ := (digitsEnd_iff r).mp h
        exact ⟨d, [], nl, by simp [e], hd, hnl, .inl ⟨rfl, hne⟩⟩
      · split at h
        · next t ht =>
          obtain ⟨d, nl, e, hd, hne, hnl⟩ := (digitsEnd_iff t).mp h
          refine ⟨r.takeWhile reDigit, '.' :: d, nl, ?_, ?_, hnl, .inr ⟨d, rfl, hd, hne⟩⟩
          · congr 1
            rw [List.append_assoc, List.cons_append, ← e, ← ht, List.takeWhile_append_dropWhile]
          · rw [reDigits_iff]
            intro c hc
            have := List.all_takeWhile (p := reDigit) (l := r)
            rw [List.all_eq_true] at this
            exact this c hc
        · cases h
    · cases h
  · rintro ⟨int, frac, nl, rfl, hi, hnl, h⟩
    simp only [negativeNumber, Bool.or_eq_true]
    rcases h with ⟨rfl, hne⟩ | ⟨d, rfl, hd, hne⟩
    · exact .inl ((digitsEnd_iff _).mpr ⟨int, nl, by simp, hi, hne, hnl⟩)
    · right
      have := takeWhile_stop reDigit int ('.' :: d ++ nl) ((reDigits_iff int).mp hi) (by
        intro x hx; simp at hx; subst hx; decide +kernel)
      rw [List.append_assoc, this.2]
      exact (digitsEnd_iff _).mpr ⟨d, nl, by simp, hd, hne, hnl⟩

theorem number_noReading (s : Str) (h : NegativeNumber digitZeros s) : NoReading s ∧ ∃ c d, s = '-' :: c :: d := by
  obtain ⟨int, frac, nl, rfl, hi, hnl, h⟩ := h
  have key : ∀ c d, c ∉ letters → c ≠ '-' → NoReading ('-' :: c :: d) := by
    intro c d h1 h2
    unfold NoReading
    split
    · next h => simp at h; exact absurd h.1 h2
    · next h => simp at h; rw [← h.1]; exact h1
    · trivial
  match int, hi, h with
  | [], _, h =>
    rcases h with ⟨_, h⟩ | ⟨d, rfl, _, _⟩
    · exact absurd rfl h
    · exact ⟨key '.' _ (by decide) (by decide), _, _, rfl⟩
  | c :: int, hi, _ =>
    have hc := (reDigits_iff _).mp hi c (by simp)
    refine ⟨key c _ (fun hm => ?_) ?_, c, _, rfl⟩
    · rw [(letters_plain c hm).2.2.2] at hc; cases hc
    · rintro rfl; revert hc; decide +kernel

theorem beforeEq_prefix (s : Str) : beforeEq s <+: s := List.takeWhile_prefix _

theorem noReading_parse (c : Char) (d : Str) (h : NoReading ('-' :: c :: d)) :
    dget ('-' :: c :: d) optionStrings = none ∧ dget (beforeEq ('-' :: c :: d)) optionStrings = none ∧
      optionTuples ('-' :: c :: d) = [] := by
  by_cases hc : c = '-'
  · subst hc
    have hb : ∃ r, beforeEq ('-' :: '-' :: d) = '-' :: '-' :: r := ⟨beforeEq d, by simp [beforeEq]⟩
    obtain ⟨r, hr⟩ := hb
    have h : ∀ l ∈ longNames, ¬ beforeEq ('-' :: '-' :: d) <+: l := h
    refine ⟨?_, ?_, ?_⟩
    · cases hd : dget ('-' :: '-' :: d) optionStrings with
      | none => rfl
      | some o =>
        exfalso
        rcases dget_shape _ _ hd with ⟨c', e, hc'⟩ | ⟨hm, _⟩
        · simp at e; exact (letters_plain c' hc').1 e.1.symm
        · exact h _ hm (beforeEq_prefix _)
    · cases hd : dget (beforeEq ('-' :: '-' :: d)) optionStrings with
      | none => rfl
      | some o =>
        exfalso
        rcases dget_shape _ _ hd with ⟨c', e, hc'⟩ | ⟨hm, _⟩
        · rw [hr] at e; simp at e; exact (letters_plain c' hc').1 e.1.symm
        · exact h _ hm (List.prefix_refl _)
    · rw [optionTuples_long _ d rfl, partitionEq_fst, List.map_eq_nil_iff, List.filter_eq_nil_iff]
      intro p hp hs
      rw [startsWith_iff] at hs
      exact h _ (prefix_long _ r hr p hp hs) hs
  · have hl : c ∉ letters := by
      unfold NoReading at h
      split at h
      · next e => simp at e; exact absurd e.1 hc
      · next e => simp at e; rw [e.1]; exact h
      · next e => exact absurd rfl (e c d)
    have gen : ∀ s : Str, s <+: '-' :: c :: d → dget s optionStrings = none := by
      intro s hs
      cases hd : dget s optionStrings with
      | none => rfl
      | some o =>
        exfalso
        rcases dget_shape _ _ hd with ⟨c', e, hc'⟩ | ⟨_, r, e⟩
        · rw [e] at hs
          obtain ⟨t, ht⟩ := hs
          simp at ht
          exact hl (by rw [← ht.1]; exact hc')
        · rw [e] at hs
          obtain ⟨t, ht⟩ := hs
          simp at ht
          exact hc ht.1.symm
    refine ⟨gen _ (List.prefix_refl _), gen _ (beforeEq_prefix _), ?_⟩
    have hn : dget ['-', c] optionStrings = none := gen _ ⟨d, rfl⟩
    cases d with
    | nil => exact optionTuples_pair c hc hn
    | cons d t => rw [optionTuples_letter c d t hc, hn]

theorem parseOptional_plain (s : Str) : parseOptional s = .ok none ↔ Plain digitZeros s := by
  constructor
  · intro h
    unfold parseOptional at h
    split at h
    · next hh => exact .inl hh
    next hhead =>
    split at h
    · cases h
    next hnone =>
    split at h
    · next hlen =>
      match s, hhead, hlen with
      | [a], hh, _ => simp at hh; exact .inr (.inl (by rw [hh]))
    next hlen =>
    have hs : ∃ c d, s = '-' :: c :: d := by
      match s, hhead, hlen with
      | [], hh, _ => simp at hh
      | [a], _, hl => simp at hl
      | a :: c :: d, hh, _ => simp at hh; exact ⟨c, d, by rw [hh]⟩
    obtain ⟨c, d, rfl⟩ := hs
    split at h
    · cases h
    split at h
    · cases h
    · cases h
    next ht =>
    split at h
    · next hn => exact .inr (.inr (.inl ((negativeNumber_iff _).mp hn)))
    split at h
    · next hsp =>
      refine .inr (.inr (.inr ⟨by simpa using hsp, ?_⟩))
      by_cases hc : c = '-'
      · subst hc
        intro l hl hp
        obtain ⟨o, ho⟩ := Option.isSome_iff_exists.mp (long_table l hl)
        rw [optionTuples_long _ d rfl, partitionEq_fst, List.map_eq_nil_iff, List.filter_eq_nil_iff] at ht
        exact ht (l, o) (dget_mem ho) ((startsWith_iff _ _).mpr hp)
      · unfold NoReading
        split
        · next e => simp at e; exact absurd e.1 hc
        · next c' d' _ e =>
          simp at e
          obtain ⟨rfl, rfl⟩ := e
          intro hm
          obtain ⟨o, ho⟩ := Option.isSome_iff_exists.mp (letters_table c hm)
          cases d with
          | nil => rw [ho] at hnone; cases hnone
          | cons d t => rw [optionTuples_letter c d t hc, ho] at ht; cases ht
        · trivial
    · cases h
  · have key : ∀ c d, NoReading ('-' :: c :: d) → (negativeNumber ('-' :: c :: d) = true ∨ ' ' ∈ ('-' :: c :: d)) →
        parseOptional ('-' :: c :: d) = .ok none := by
      intro c d h h'
      obtain ⟨h1, h2, h3⟩ := noReading_parse c d h
      have hsp : (negativeNumber ('-' :: c :: d) = true) ∨ ('-' :: c :: d).contains ' ' = true := by
        rcases h' with h' | h'
        · exact .inl h'
        · exact .inr (by rw [List.contains_iff_mem]; exact h')
      simp only [parseOptional, h1, partitionEq_fst, h2, h3]
      rcases hsp with hsp | hsp
      · simp [hsp]
      · rw [if_neg (by simp), if_neg (by simp)]
        simp only [hsp, if_true, ite_self]
        cases (partitionEq ('-' :: c :: d)).2 <;> rfl
    rintro (h | rfl | h | ⟨hsp, h⟩)
    · simp [parseOptional, h]
    · decide +kernel
    · obtain ⟨hr, c, d, rfl⟩ := number_noReading s h
      exact key c d hr (.inl ((negativeNumber_iff _).mpr h))
    · by_cases hh : s.head? = some '-'
      · match s, hh, hsp, h with
        | a :: c :: d, hh, hsp, h => simp only [List.head?_cons, Option.some.injEq] at hh; subst hh; exact key c d h (.inr hsp)
        | [a], hh, hsp, _ => simp at hh hsp; rw [hh] at hsp; exact absurd hsp (by decide)
      · simp [parseOptional, hh]

end Verif
