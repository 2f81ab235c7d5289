import Verif.Model.Kconfig
import Verif.Spec.Kconfig
import Verif.Lemmas.Utils
import Verif.Lemmas.Str
import Verif.Lemmas.Signature2
/-! # Lemmas for the Kconfig properties -/
set_option autoImplicit false

namespace Verif
open Spec

/-! ## Unambiguous tables -/
section Amb

theorem ver_not_both {e s' v : Ver} (h : e ≤ s') (h2 : v < e) (h3 : s' ≤ v) : False :=
  absurd (lt_of_lt_of_le h2 (le_trans h h3)) (lt_irrefl v)

variable {κ β : Type} [DecidableEq κ] [DecidableEq β]

/-- pairwise test: same key implies same value or disjoint ranges -/
def pairOk (a b : VEntry κ β) : Bool :=
  decide (a.2.2.1 ≠ b.2.2.1) || decide (a.2.2.2 = b.2.2.2) || verLe a.2.1 b.1 || verLe b.2.1 a.1

/-- all pairs of entries pass -/
def tableOk (log : List (VEntry κ β)) : Bool := log.all fun a => log.all fun b => pairOk a b

theorem unambiguous_of_tableOk {log : List (VEntry κ β)} (h : tableOk log = true) : Unambiguous log := by
  intro v k s e s' e' x y hx hy h1 h2 h3 h4
  have h0 := List.all_eq_true.1 (List.all_eq_true.1 h _ hx) _ hy
  simp only [pairOk, ne_eq, not_true_eq_false, decide_false, Bool.false_or, Bool.or_eq_true, decide_eq_true_eq,
    verLe_iff] at h0
  rcases h0 with (h0 | h0) | h0
  · exact h0
  · exact (ver_not_both h0 h2 h3).elim
  · exact (ver_not_both h0 h4 h1).elim

omit [DecidableEq β] in
theorem answer_covers {log : List (VEntry κ β)} {v : Ver} {k : κ} {x : β} (h : Answer log v k x) : Covers log v k x := by
  obtain ⟨s, e, pre, post, hl, h1, h2, -⟩ := h
  exact ⟨s, e, by rw [hl]; simp, h1, h2⟩

omit [DecidableEq β] in
theorem covers_answer {log : List (VEntry κ β)} (hu : Unambiguous log) {v : Ver} {k : κ} {x : β} (h : Covers log v k x) :
    Answer log v k x := by
  obtain ⟨s, e, hm, h1, h2⟩ := h
  obtain ⟨y, hy⟩ := answer_exists hm h1 h2
  obtain ⟨s', e', hm', h1', h2'⟩ := answer_covers hy
  rw [hu v k s e s' e' x y hm hm' h1 h2 h1' h2']
  exact hy

omit [DecidableEq β] in
/-- on an unambiguous log, the history answers by coverage only -/
theorem history_covers (entries : List (VEntry κ β)) (hist : List (VOp κ β)) (v : Ver) (k : κ) (x : β)
    (hu : Unambiguous (entries ++ addsOf (beforeFirstGet v hist))) :
    dget k ((runOps (VDict.init entries) hist).getItem v).1 = some x ↔
      Covers (entries ++ addsOf (beforeFirstGet v hist)) v k x := by
  rw [history_answer]
  exact ⟨answer_covers, covers_answer hu⟩

omit [DecidableEq β] in
theorem lookup_covers (entries : List (VEntry κ β)) (v : Ver) (k : κ) (x : β) (hu : Unambiguous entries) :
    dget k ((VDict.init entries).getItem v).1 = some x ↔ Covers entries v k x := by
  have := history_covers entries [] v k x (by simpa [addsOf, beforeFirstGet] using hu)
  simpa [addsOf, beforeFirstGet, runOps] using this

omit [DecidableEq β] in
theorem lookup_congr {l1 l2 : List (VEntry κ β)} (hu : Unambiguous l1) (h : ∀ a, a ∈ l1 ↔ a ∈ l2) (v : Ver) (k : κ) :
    dget k ((VDict.init l1).getItem v).1 = dget k ((VDict.init l2).getItem v).1 := by
  have hu2 : Unambiguous l2 := fun v k s e s' e' x y hx hy => hu v k s e s' e' x y ((h _).2 hx) ((h _).2 hy)
  apply Option.ext
  intro x
  rw [lookup_covers _ _ _ _ hu, lookup_covers _ _ _ _ hu2]
  simp [Covers, h]
end Amb

/-! ## `split('=', 1)` -/

theorem splitEq_text (o : Opt) (h : '=' ∉ o.1) : splitEq (Opt.text o) = .ok o := by
  unfold splitEq Opt.text
  rw [findChar_append _ _ _ h]
  simp

/-! ## edit_config -/

theorem optionArgs_decode (o : Opt) (h : '=' ∉ o.1) : ∃ as, optionArgs (Opt.text o) = .ok as ∧ as ≠ [] ∧
    ∀ rest, decodeArgs (as ++ rest) = (decodeArgs rest).map (o :: ·) := by
  obtain ⟨n, v⟩ := o
  simp only [optionArgs, splitEq_text _ h, bind, Except.bind]
  by_cases hy : v = cs!"y"
  · subst hy; exact ⟨_, if_pos rfl, by simp, fun rest => by conv_lhs => { rw [List.cons_append, List.cons_append]; unfold decodeArgs }; rfl⟩
  by_cases hn : v = cs!"n"
  · subst hn; exact ⟨_, rfl, by simp, fun rest => by conv_lhs => { rw [List.cons_append, List.cons_append]; unfold decodeArgs }; rfl⟩
  by_cases hm : v = cs!"m"
  · subst hm; exact ⟨_, rfl, by simp, fun rest => by conv_lhs => { rw [List.cons_append, List.cons_append]; unfold decodeArgs }; rfl⟩
  · rw [if_neg hy, if_neg hn, if_neg hm]
    exact ⟨_, rfl, by simp, fun rest => by conv_lhs => { rw [List.cons_append, List.cons_append]; unfold decodeArgs }; rfl⟩

theorem editArgs_decode (os : List Opt) (h : ∀ o ∈ os, '=' ∉ o.1) :
    ∃ as, editArgs (os.map Opt.text) = .ok as ∧ decodeArgs as = some os := by
  induction os with
  | nil => exact ⟨[], rfl, rfl⟩
  | cons o os ih =>
    obtain ⟨as, h1, h2⟩ := ih fun o ho => h o (by simp [ho])
    obtain ⟨a, h3, -, h4⟩ := optionArgs_decode o (h o (by simp))
    refine ⟨a ++ as, ?_, by rw [h4, h2]; rfl⟩
    simp only [List.map_cons, editArgs, h3, h1, bind, Except.bind]

theorem editConfig_ok (os : List Opt) (h : ∀ o ∈ os, '=' ∉ o.1) (hne : os ≠ []) :
    ∃ as, editConfig (os.map Opt.text) = ([.script as], .ok ()) ∧ decodeArgs as = some os := by
  obtain ⟨as, h1, h2⟩ := editArgs_decode os h
  refine ⟨as, ?_, h2⟩
  unfold editConfig
  rw [if_neg (by simpa using hne), h1]

/-! ## parse_config -/

theorem lastValue_nil (n : Str) : lastValue [] n = none := rfl

theorem lastValue_snoc (os : List Opt) (o : Opt) (n : Str) :
    lastValue (os ++ [o]) n = if o.1 = n then some o.2 else lastValue os n := by
  unfold lastValue
  simp only [List.reverse_append, List.reverse_cons, List.reverse_nil, List.nil_append, List.cons_append, List.find?_cons]
  by_cases h : o.1 = n <;> simp [h]

theorem lastValue_cons (os : List Opt) (o : Opt) (n : Str) :
    lastValue (o :: os) n = match lastValue os n with
      | some v => some v
      | none => if o.1 = n then some o.2 else none := by
  unfold lastValue
  simp only [List.reverse_cons, List.find?_append, List.find?_cons, List.find?_nil]
  cases os.reverse.find? fun o => o.1 = n with
  | some v => simp
  | none => by_cases h : o.1 = n <;> simp [h]

theorem lastValue_mem {os : List Opt} {n v : Str} (h : lastValue os n = some v) : (n, v) ∈ os := by
  unfold lastValue at h
  obtain ⟨o, ho, rfl⟩ := Option.map_eq_some_iff.1 h
  have h1 := List.find?_some ho
  have h2 := List.mem_of_find?_eq_some ho
  simp only [decide_eq_true_eq] at h1
  subst h1
  simpa using h2

theorem parseConfigGo_assign (os : List Opt) (h : ∀ o ∈ os, '=' ∉ o.1) (config : Dict Str Str) :
    ∃ d, parseConfigGo config (os.map fun o => cs!"CONFIG_" ++ Opt.text o) = .ok d ∧
      ∀ n, dget n d = match lastValue os n with
        | some v => some v
        | none => dget n config := by
  induction os generalizing config with
  | nil => exact ⟨config, rfl, fun n => by simp [lastValue_nil]⟩
  | cons o os ih =>
    have hs : splitEq (cs!"CONFIG_" ++ Opt.text o) = .ok (cs!"CONFIG_" ++ o.1, o.2) := by
      have := splitEq_text (cs!"CONFIG_" ++ o.1, o.2) (by
        have := h o (by simp)
        simp [this])
      simpa [Opt.text] using this
    have hl : parseConfigLine config (cs!"CONFIG_" ++ Opt.text o) = .ok (dset o.1 o.2 config) := by
      have hp : startsWith (cs!"CONFIG_" ++ o.1) cs!"CONFIG_" = true := by
        rw [startsWith_iff]; exact List.prefix_append _ _
      simp only [parseConfigLine, hs, bind, Except.bind, hp, pyAssert, if_true]
      rfl
    obtain ⟨d, h1, h2⟩ := ih (fun o ho => h o (by simp [ho])) (dset o.1 o.2 config)
    refine ⟨d, ?_, fun n => ?_⟩
    · simp only [List.map_cons, parseConfigGo, hl, bind, Except.bind]
      exact h1
    · rw [h2, lastValue_cons]
      cases lastValue os n with
      | some v => rfl
      | none =>
        simp only [dget_dset]
        by_cases hn : n = o.1
        · subst hn; simp
        · rw [if_neg hn, if_neg (Ne.symm hn)]

theorem strip_blank (ws : Str) (h : ∀ c ∈ ws, isSpace c = true) : strip ws = [] := by
  unfold strip; rw [lstrip_all_space _ h]; rfl

theorem rstrip_cons (c : Char) (t : Str) (h : isSpace c = false) : ∃ u, rstrip (c :: t) = c :: u := by
  unfold rstrip
  rw [List.reverse_cons, List.dropWhile_append]
  split
  · exact ⟨[], by simp [List.dropWhile_cons, h]⟩
  · exact ⟨_, by rw [List.reverse_append]; rfl⟩

theorem strip_comment (ws rest : Str) (h : ∀ c ∈ ws, isSpace c = true) :
    ∃ t, strip (ws ++ '#' :: rest) = '#' :: t := by
  unfold strip
  rw [lstrip_append_spaces _ _ h, lstrip_of_head '#' rest (by decide)]
  exact rstrip_cons _ _ (by decide)

theorem strip_assign (ws : Str) (o : Opt) (ws' : Str) (h : (ConfLine.assign ws o ws').WF) :
    strip (ConfLine.assign ws o ws').text = cs!"CONFIG_" ++ Opt.text o := by
  obtain ⟨h1, h2, -, h4⟩ := h
  have := strip_surround ws (cs!"CONFIG_" ++ Opt.text o) ws' h1 h2 ?_
  · simpa [ConfLine.text] using this
  · constructor
    · intro c hc
      simp at hc; subst hc; decide
    · intro c hc
      unfold Opt.text at hc
      rcases List.eq_nil_or_concat o.2 with ho | ⟨t, d, ho⟩
      · rw [ho] at hc
        rw [← List.append_assoc, List.getLast?_concat] at hc
        cases hc; decide
      · rw [ho] at hc h4
        simp [List.getLast?_append, List.getLast?_cons] at hc
        subst hc
        exact h4 d (by simp)

theorem conf_lines (ls : List ConfLine) (h : ∀ l ∈ ls, l.WF) :
    (((ls.map ConfLine.text).map strip).filter fun l => !l.isEmpty && !startsWith l cs!"#") =
      (assignments ls).map fun o => cs!"CONFIG_" ++ Opt.text o := by
  induction ls with
  | nil => rfl
  | cons l ls ih =>
    have ih := ih fun l hl => h l (by simp [hl])
    have hl := h l (by simp)
    rw [List.map_cons, List.map_cons, List.filter_cons]
    cases l with
    | blank ws =>
      rw [if_neg (by simp only [ConfLine.text]; rw [strip_blank ws hl]; simp), ih]; rfl
    | comment ws rest =>
      obtain ⟨t, ht⟩ := strip_comment ws rest hl
      rw [if_neg (by simp only [ConfLine.text]; rw [ht]; simp [startsWith]), ih]; rfl
    | assign ws o ws' =>
      rw [strip_assign _ _ _ hl, if_pos (by simp [startsWith, List.isPrefixOf]), ih]; rfl

theorem assignments_names (ls : List ConfLine) (h : ∀ l ∈ ls, l.WF) : ∀ o ∈ assignments ls, '=' ∉ o.1 := by
  induction ls with
  | nil => intro o ho; simp [assignments] at ho
  | cons l ls ih =>
    have ih := ih fun l hl => h l (by simp [hl])
    have hl := h l (by simp)
    cases l with
    | blank ws => exact ih
    | comment ws rest => exact ih
    | assign ws o ws' =>
      intro o' ho'
      rcases List.mem_cons.1 ho' with rfl | ho'
      · exact hl.2.2.1
      · exact ih o' ho'

theorem parseConfig_spec (ls : List ConfLine) (h : ∀ l ∈ ls, l.WF) :
    ∃ d, parseConfig (ls.map ConfLine.text) = .ok d ∧ ∀ n, dget n d = lastValue (assignments ls) n := by
  unfold parseConfig
  rw [conf_lines ls h]
  obtain ⟨d, h1, h2⟩ := parseConfigGo_assign (assignments ls) (assignments_names ls h) []
  refine ⟨d, h1, fun n => ?_⟩
  rw [h2]
  cases lastValue (assignments ls) n <;> rfl

/-! ## edit_config_check_deps -/

theorem tosetOf_spec (os : List Opt) (h : ∀ o ∈ os, '=' ∉ o.1) :
    ∃ d, tosetOf (os.map Opt.text) = .ok d ∧ DNodup d ∧ ∀ n, dget n d = lastValue os n := by
  induction os with
  | nil => exact ⟨[], rfl, by simp [DNodup], fun n => rfl⟩
  | cons o os ih =>
    obtain ⟨d, h1, hd, h2⟩ := ih fun o ho => h o (by simp [ho])
    refine ⟨dupdate [o] d, ?_, DNodup.dupdate (by simp [DNodup]) d, fun n => ?_⟩
    · simp only [List.map_cons, tosetOf, splitEq_text o (h o (by simp)), h1, bind, Except.bind]
    · rw [dget_dupdate hd, lastValue_cons, ← h2]
      cases dget n d with
      | some v => rfl
      | none =>
        simp only [dget]

/-- the oracle of the script printing `dflt` -/
theorem strip_printDefault (dflt : Str → Option Str) (n : Str)
    (h : ∀ v, dflt n = some v → v ≠ cs!"undef" ∧ strip v = v) :
    (if strip (printDefault dflt n) = cs!"undef" then none else some (strip (printDefault dflt n))) = dflt n := by
  unfold printDefault
  cases hd : dflt n with
  | none => rfl
  | some v =>
    obtain ⟨h1, h2⟩ := h v hd
    obtain ⟨a, b, hab, ha, hb, ht⟩ := strip_decomp v
    have h3 : strip (v ++ cs!"\n") = v := by
      have := strip_surround a v (b ++ cs!"\n") ha ?_ (h2 ▸ ht)
      · have hab' := hab
        rw [h2] at hab'
        have hla := congrArg List.length hab'
        simp at hla
        have ha0 : a = [] := List.eq_nil_of_length_eq_zero (by omega)
        have hb0 : b = [] := List.eq_nil_of_length_eq_zero (by omega)
        subst ha0 hb0
        simpa using this
      · intro c hc
        rcases List.mem_append.1 hc with hc | hc
        · exact hb c hc
        · simp at hc; subst hc; decide
    simp only [h3, if_neg h1]

theorem depActual_spec (options config : List Opt) (dflt : Str → Option Str) (toset cfg : Dict Str Str) (before : List (List Str)) (n : Str)
    (hv : ∀ o ∈ options, o.2 ≠ [])
    (ht : ∀ n, dget n toset = lastValue options n) (hc : ∀ n, dget n cfg = lastValue config n)
    (hd : ∀ v, dflt n = some v → v ≠ cs!"undef" ∧ strip v = v) :
    (depActual toset cfg (fun _ => printDefault dflt) before n).2 = effective options config dflt n ∧
    ∀ e ∈ (depActual toset cfg (fun _ => printDefault dflt) before n).1, e = .script [cs!"-s", n] := by
  unfold depActual effective
  simp only [ht, hc]
  cases h1 : lastValue options n with
  | some v =>
    cases v with
    | nil => exact absurd rfl (hv _ (lastValue_mem h1))
    | cons c v => simp
  | none =>
    cases h2 : lastValue config n with
    | some v => simp
    | none =>
      refine ⟨?_, by simp⟩
      exact strip_printDefault dflt n hd

theorem anyprefix_caps (n : Str) :
    anyprefix n [cs!"HAVE_", cs!"ARCH_HAS_"] = true ↔ cs!"HAVE_" <+: n ∨ cs!"ARCH_HAS_" <+: n := by
  simp [anyprefix, startsWith_iff]

theorem checkDep_spec (options config : List Opt) (dflt : Str → Option Str) (toset cfg : Dict Str Str)
    (before : List (List Str)) (opt : Str) (dep : Opt) (hdep : '=' ∉ dep.1)
    (hv : ∀ o ∈ options, o.2 ≠ [])
    (ht : ∀ n, dget n toset = lastValue options n) (hc : ∀ n, dget n cfg = lastValue config n)
    (hd : ∀ n v, dflt n = some v → v ≠ cs!"undef" ∧ strip v = v) :
    ∃ evs, checkDep toset cfg (fun _ => printDefault dflt) before opt (Opt.text dep) = (evs, .ok ()) ∧
      (∀ o d, KEvent.error o d ∈ evs ↔ o = opt ∧ d = Opt.text dep ∧ Unmet dep (effective options config dflt dep.1)) ∧
      (∀ o d, KEvent.warn o d ∈ evs ↔ o = opt ∧ d = Opt.text dep ∧
        Unavailable dep (effective options config dflt dep.1)) ∧
      ∀ as, KEvent.script as ∈ evs → as = [cs!"-s", dep.1] := by
  obtain ⟨h1, h2⟩ := depActual_spec options config dflt toset cfg before dep.1 hv ht hc (hd dep.1)
  obtain ⟨n, w⟩ := dep
  simp only at hdep h1 h2 ⊢
  have hs := splitEq_text (n, w) hdep
  unfold checkDep
  rw [hs]
  simp only
  generalize depActual toset cfg (fun _ => printDefault dflt) before n = da at h1 h2 ⊢
  obtain ⟨evs, actual⟩ := da
  simp only at h1 h2 ⊢
  subst h1
  have he : ∀ o d, KEvent.error o d ∉ evs := fun o d h => by cases h2 _ h
  have hw : ∀ o d, KEvent.warn o d ∉ evs := fun o d h => by cases h2 _ h
  have hsc : ∀ as, KEvent.script as ∈ evs → as = [cs!"-s", n] := fun as h => by
    have := h2 _ h; simpa using this
  generalize effective options config dflt n = eff
  by_cases hne : eff ≠ some w
  · rw [if_pos hne]
    by_cases hoff : w = cs!"n" ∧ eff = none
    · rw [if_pos hoff]
      refine ⟨_, rfl, ?_, ?_, hsc⟩
      · intro o d
        simp only [he, false_iff, Unmet, OffAndUnset]
        tauto
      · intro o d
        obtain ⟨rfl, -⟩ := hoff
        simp [hw, Unavailable]
    · rw [if_neg hoff]
      by_cases hun : w = cs!"y" ∧ (eff = some cs!"n" ∨ eff = none) ∧ anyprefix n [cs!"HAVE_", cs!"ARCH_HAS_"] = true
      · rw [if_pos hun]
        have hun' : Unavailable (n, w) eff := by
          rw [anyprefix_caps] at hun; exact hun
        refine ⟨_, rfl, ?_, ?_, ?_⟩
        · intro o d
          simp [he, Unmet, hun']
        · intro o d
          simp [hw, hun']
        · intro as h; exact hsc as (by simpa using h)
      · rw [if_neg hun]
        have hun' : ¬ Unavailable (n, w) eff := by
          rw [anyprefix_caps] at hun; exact hun
        have hoff' : ¬ OffAndUnset (n, w) eff := hoff
        refine ⟨_, rfl, ?_, ?_, ?_⟩
        · intro o d
          have : Unmet (n, w) eff := ⟨hne, hoff', hun'⟩
          simp [he, this]
        · intro o d
          simp [hw, hun']
        · intro as h; exact hsc as (by simpa using h)
  · rw [if_neg hne]
    rw [not_not] at hne
    subst hne
    refine ⟨_, rfl, ?_, ?_, hsc⟩
    · intro o d; simp [he, Unmet]
    · intro o d
      simp only [hw, false_iff, Unavailable]
      rintro ⟨-, -, h1, h2 | h2, -⟩
      · simp only [Option.some.injEq] at h1 h2
        rw [h1] at h2
        exact absurd h2 (by decide)
      · cases h2

theorem checkDeps_spec (options config : List Opt) (dflt : Str → Option Str) (toset cfg : Dict Str Str)
    (work : List (Str × Opt)) (hdep : ∀ p ∈ work, '=' ∉ p.2.1)
    (hv : ∀ o ∈ options, o.2 ≠ [])
    (ht : ∀ n, dget n toset = lastValue options n) (hc : ∀ n, dget n cfg = lastValue config n)
    (hd : ∀ n v, dflt n = some v → v ≠ cs!"undef" ∧ strip v = v) :
    ∀ before, ∃ evs, checkDeps toset cfg (fun _ => printDefault dflt) before (work.map fun p => (p.1, Opt.text p.2)) = (evs, .ok ()) ∧
      (∀ o d, KEvent.error o d ∈ evs ↔ ∃ p ∈ work, o = p.1 ∧ d = Opt.text p.2 ∧
        Unmet p.2 (effective options config dflt p.2.1)) ∧
      (∀ o d, KEvent.warn o d ∈ evs ↔ ∃ p ∈ work, o = p.1 ∧ d = Opt.text p.2 ∧
        Unavailable p.2 (effective options config dflt p.2.1)) ∧
      ∀ as, KEvent.script as ∈ evs → ∃ p ∈ work, as = [cs!"-s", p.2.1] := by
  induction work with
  | nil => exact fun _ => ⟨[], rfl, by simp, by simp, by simp⟩
  | cons p work ih =>
    intro before
    obtain ⟨evs0, g1, g2, g3, g4⟩ := checkDep_spec options config dflt toset cfg before p.1 p.2 (hdep p (by simp)) hv ht hc hd
    obtain ⟨evs, h1, h2, h3, h4⟩ := ih (fun p hp => hdep p (by simp [hp])) (before ++ scriptsOf evs0)
    refine ⟨evs0 ++ evs, ?_, ?_, ?_, ?_⟩
    · simp only [List.map_cons, checkDeps, g1, h1]
    · intro o d; simp [g2, h2]
    · intro o d; simp [g3, h3]
    · intro as has
      rcases List.mem_append.1 has with has | has
      · exact ⟨p, by simp, g4 as has⟩
      · obtain ⟨q, hq, e⟩ := h4 as has
        exact ⟨q, by simp [hq], e⟩

/-! ## Histories of architecture objects -/

/-- the operation succeeds on class `k` -/
def ArchOp.opsOn (k : Kind) : ArchOp → List (VOp Str (List Str))
  | .create k' v abi bits32 =>
    if k' = k then
      match newArch k' v abi bits32 with
      | .ok _ => (ctorAdds k' abi bits32).map fun e => .add e.1 e.2.1 e.2.2.1 e.2.2.2
      | .error _ => []
    else []
  | .lookup k' v => if k' = k then [.get v] else []

theorem runOps_append {κ β : Type} [DecidableEq κ] (d : VDict κ β) (h1 h2 : List (VOp κ β)) :
    runOps d (h1 ++ h2) = runOps (runOps d h1) h2 := by
  induction h1 generalizing d with
  | nil => rfl
  | cons o h1 ih => cases o <;> exact ih _

theorem runOps_adds {κ β : Type} [DecidableEq κ] (d : VDict κ β) (es : List (VEntry κ β)) :
    runOps d (es.map fun e => .add e.1 e.2.1 e.2.2.1 e.2.2.2) = d.addAll es := by
  induction es generalizing d with
  | nil => rfl
  | cons e es ih => exact ih _

theorem step_opsOn (st : KStore) (o : ArchOp) (k : Kind) : ArchOp.step st o k = runOps (st k) (o.opsOn k) := by
  cases o with
  | create k' v abi bits32 =>
    simp only [ArchOp.step, ArchOp.opsOn, createArch, bind, Except.bind]
    cases newArch k' v abi bits32 with
    | error x => by_cases h : k' = k <;> simp [h, runOps]
    | ok a =>
      by_cases h : k' = k
      · subst h
        simp [runOps_adds]
      · simp [h, Ne.symm h, runOps]
  | lookup k' v =>
    simp only [ArchOp.step, ArchOp.opsOn]
    by_cases h : k' = k
    · subst h; simp [runOps]
    · simp [h, Ne.symm h, runOps]

theorem runArchOps_opsOn (st : KStore) (h : List ArchOp) (k : Kind) :
    runArchOps st h k = runOps (st k) (h.flatMap (ArchOp.opsOn k)) := by
  induction h generalizing st with
  | nil => rfl
  | cons o h ih =>
    have : runArchOps st (o :: h) = runArchOps (ArchOp.step st o) h := rfl
    rw [this, ih, step_opsOn, List.flatMap_cons, runOps_append]

theorem addsOf_map {κ β : Type} (es : List (VEntry κ β)) :
    addsOf (es.map fun e => VOp.add e.1 e.2.1 e.2.2.1 e.2.2.2) = es := by
  induction es with
  | nil => rfl
  | cons e es ih => simp [addsOf, ih]

/-- every addition of the history is one of the constructor's -/
theorem mem_adds_opsOn (k : Kind) (abi : Str) (bits32 : Bool) (h : List ArchOp)
    (hsame : ∀ v abi' b', ArchOp.create k v abi' b' ∈ h → abi' = abi ∧ b' = bits32)
    {s e : Ver} {key : Str} {x : List Str} (hm : VOp.add s e key x ∈ h.flatMap (ArchOp.opsOn k)) :
    (s, e, key, x) ∈ ctorAdds k abi bits32 := by
  obtain ⟨o, ho, hm⟩ := List.mem_flatMap.1 hm
  cases o with
  | create k' v abi' b' =>
    simp only [ArchOp.opsOn] at hm
    by_cases hk : k' = k
    · subst hk
      rw [if_pos rfl] at hm
      obtain ⟨rfl, rfl⟩ := hsame v abi' b' ho
      cases hn : newArch k' v abi' b' with
      | error x => rw [hn] at hm; simp at hm
      | ok a =>
        rw [hn] at hm
        simp only [List.mem_map] at hm
        obtain ⟨a', ha', he⟩ := hm
        simp only [VOp.add.injEq] at he
        obtain ⟨rfl, rfl, rfl, rfl⟩ := he
        exact ha'
    · rw [if_neg hk] at hm; simp at hm
  | lookup k' v =>
    simp only [ArchOp.opsOn] at hm
    by_cases hk : k' = k
    · subst hk; simp at hm
    · rw [if_neg hk] at hm; simp at hm

/-- if the class has an object before its first lookup at `v`, the additions are visible -/
theorem adds_before_get (k : Kind) (v v0 : Ver) (abi : Str) (bits32 : Bool) (h1 h2 : List ArchOp) (a : Arch)
    (hno : ArchOp.lookup k v ∉ h1) (ha : newArch k v0 abi bits32 = .ok a)
    {s e : Ver} {key : Str} {x : List Str} (hm : (s, e, key, x) ∈ ctorAdds k abi bits32) :
    (s, e, key, x) ∈ addsOf (beforeFirstGet v ((h1 ++ ArchOp.create k v0 abi bits32 :: h2).flatMap (ArchOp.opsOn k))) := by
  have hg : VOp.get v ∉ h1.flatMap (ArchOp.opsOn k) := by
    intro hc
    obtain ⟨o, ho, hc⟩ := List.mem_flatMap.1 hc
    rename_i hc0
    clear hc0
    cases o with
    | create k' v' abi' b' =>
      simp only [ArchOp.opsOn] at hc
      by_cases hk : k' = k
      · rw [if_pos hk] at hc
        cases hn : newArch k' v' abi' b' with
        | error x => rw [hn] at hc; simp at hc
        | ok a => rw [hn] at hc; simp at hc
      · rw [if_neg hk] at hc; simp at hc
    | lookup k' v' =>
      simp only [ArchOp.opsOn] at hc
      by_cases hk : k' = k
      · rw [if_pos hk] at hc
        simp only [List.mem_singleton, VOp.get.injEq] at hc
        subst hk hc
        exact hno ho
      · rw [if_neg hk] at hc; simp at hc
  rw [List.flatMap_append, List.flatMap_cons]
  rw [beforeFirstGet_append hg, addsOf_append]
  refine List.mem_append.2 (Or.inr ?_)
  simp only [ArchOp.opsOn, if_true, ha]
  rw [beforeFirstGet_append (by simp), addsOf_append, addsOf_map]
  exact List.mem_append.2 (Or.inl hm)

theorem newArch_kind {k : Kind} {v : Ver} {abi : Str} {b : Bool} {a : Arch} (h : newArch k v abi b = .ok a) : a.kind = k := by
  cases k <;> simp only [newArch, newArm, newArm64, newMips, newPowerPC, newRiscV, newX86, bind, Except.bind, pyAssert] at h
  case riscv =>
    split at h
    · cases h
    split at h
    · cases h
    split at h
    · cases h
    rename_i a1 hq
    have h1 : a1.kind = .riscv := by
      repeat' (first | (cases hq; done) | (cases hq; rfl) | split at hq)
    split at h <;> cases h <;> exact h1
  all_goals repeat' (first | (cases h; done) | (cases h; rfl) | split at h)

end Verif
