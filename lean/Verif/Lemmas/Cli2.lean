import Verif.Lemmas.Cli
/-! # Lemmas about the command line parser: options and their values -/
set_option autoImplicit false

namespace Verif
open Spec

/-! ## actions -/

theorem formatOf_eq (x : Str) : formatOf x = formatNamed x := by
  have h : ∀ a b : Str, (a = b) = (b = a) := fun a b => propext ⟨Eq.symm, Eq.symm⟩
  simp only [formatOf, formatNamed, dget, h x]

theorem take_switch (a : Args) (f : Switch) : takeAction a (switchOpt f, none) = .ok (f.apply a) := by
  cases f <;> rfl

theorem take_setting (a : Args) (v : Setting) (x : Str) (h : Acceptable v x) :
    takeAction a (settingOpt v, some x) = .ok (v.apply a x) := by
  cases v
  case format =>
    obtain ⟨f, hf⟩ := Option.isSome_iff_exists.mp (h rfl)
    simp only [settingOpt, takeAction, formatOf_eq, hf, Setting.apply, Option.getD_some]
  all_goals rfl

theorem take_setting_inv (a a' : Args) (v : Setting) (x : Str) (h : takeAction a (settingOpt v, some x) = .ok a') :
    Acceptable v x := by
  intro e
  subst e
  simp only [settingOpt, takeAction, formatOf_eq] at h
  split at h
  · next f hf => rw [hf]; rfl
  · cases h

theorem takeActions_append (a b : Args) (l m : List (Opt × Option Str)) (h : takeActions a l = .ok b) :
    takeActions a (l ++ m) = takeActions b m := by
  induction l generalizing a with
  | nil => cases h; rfl
  | cons p l ih =>
    simp only [takeActions, List.cons_append, bind, Except.bind] at h ⊢
    split at h
    · cases h
    next c hc => exact ih c h

theorem takeActions_mem (l : List (Opt × Option Str)) : ∀ (a b : Args), takeActions a l = .ok b →
    ∀ p ∈ l, ∃ c d, takeAction c p = .ok d := by
  induction l with
  | nil => intro a b _ p hp; cases hp
  | cons q l ih =>
    intro a b h p hp
    simp only [takeActions, bind, Except.bind] at h
    split at h
    · cases h
    next c hc =>
    rcases List.mem_cons.mp hp with rfl | hp
    · exact ⟨a, c, hc⟩
    · exact ih c b h p hp

theorem take_switches (fs : List Switch) : ∀ a, takeActions a (fs.map fun f => (switchOpt f, none)) = .ok (fs.foldl Switch.apply a) := by
  induction fs with
  | nil => intro a; rfl
  | cons f fs ih => intro a; simp only [List.map_cons, takeActions, take_switch, bind, Except.bind, ih, List.foldl_cons]

/-! ## letters -/

/-- the last option of a group, as it is written -/
def lastText : Option (Setting × Str × Join) → Str
  | none => []
  | some (v, x, .attached) => v.short.toList ++ x
  | some (v, x, .equals) => v.short.toList ++ '=' :: x
  | some (v, _, .detached) => v.short.toList

def lastActs : Option (Setting × Str × Join) → List (Opt × Option Str)
  | none => []
  | some (v, x, _) => [(settingOpt v, some x)]

def lastTail : Option (Setting × Str × Join) → List Str
  | some (_, x, .detached) => [x]
  | _ => []

def groupText (fs : List Switch) (last : Option (Setting × Str × Join)) : Str := fs.filterMap Switch.short ++ lastText last

def groupActs (fs : List Switch) (last : Option (Setting × Str × Join)) : List (Opt × Option Str) :=
  (fs.map fun f => (switchOpt f, none)) ++ lastActs last

theorem group_args (fs : List Switch) (last : Option (Setting × Str × Join)) :
    (CliItem.group fs last).args = ('-' :: groupText fs last) :: lastTail last := by
  match last with
  | none => simp [CliItem.args, groupText, lastText, lastTail]
  | some (v, x, .attached) => simp [CliItem.args, groupText, lastText, lastTail]
  | some (v, x, .equals) => simp [CliItem.args, groupText, lastText, lastTail]
  | some (v, x, .detached) => simp [CliItem.args, groupText, lastText, lastTail]

theorem take_group (fs : List Switch) (last : Option (Setting × Str × Join)) (h : ∀ v x j, last = some (v, x, j) → Acceptable v x) (a : Args) :
    takeActions a (groupActs fs last) = .ok ((CliItem.group fs last).apply a) := by
  rw [groupActs, takeActions_append _ _ _ _ (take_switches fs a)]
  match last, h with
  | none, _ => rfl
  | some (v, x, j), h =>
    simp only [lastActs, takeActions, take_setting _ v x (h v x j rfl), bind, Except.bind]
    rfl

/-- a group without its first letter -/
def MoreOk (fs : List Switch) (last : Option (Setting × Str × Join)) : Prop :=
  (∀ f ∈ fs, f.short.isSome) ∧ ∀ v x j, last = some (v, x, j) → v.short.isSome ∧ Acceptable v x ∧
    (j = .attached → x ≠ [] ∧ x.head? ≠ some '=')

theorem switch_short (f : Switch) (h : f.short.isSome) : ∃ c, f.short = some c ∧ c ∈ letters ∧
    dget ['-', c] optionStrings = some (switchOpt f) := by
  obtain ⟨c, hc⟩ := Option.isSome_iff_exists.mp h
  have := (switch_table f (switch_mem_all f)).2.1 c (by rw [hc]; rfl)
  exact ⟨c, hc, letter_mem c _ this, this⟩

theorem setting_short (v : Setting) (h : v.short.isSome) : ∃ c, v.short = some c ∧ c ∈ letters ∧
    dget ['-', c] optionStrings = some (settingOpt v) := by
  obtain ⟨c, hc⟩ := Option.isSome_iff_exists.mp h
  have := (setting_table v (setting_mem_all v)).2.1 c (by rw [hc]; rfl)
  exact ⟨c, hc, letter_mem c _ this, this⟩

theorem switch_takes (f : Switch) : (switchOpt f).takesValue = false := (switch_table f (switch_mem_all f)).2.2
theorem setting_takes (v : Setting) : (settingOpt v).takesValue = true := (setting_table v (setting_mem_all v)).2.2

/-- the first letter of a group and what follows it -/
theorem groupText_cons (fs : List Switch) (last : Option (Setting × Str × Join)) (h : MoreOk fs last) :
    (fs = [] ∧ last = none) ∨
    (∃ f fs' c, fs = f :: fs' ∧ MoreOk fs' last ∧ f.short = some c ∧ c ∈ letters ∧
      dget ['-', c] optionStrings = some (switchOpt f) ∧ groupText fs last = c :: groupText fs' last) ∨
    (∃ v x j c, fs = [] ∧ last = some (v, x, j) ∧ c ∈ letters ∧ dget ['-', c] optionStrings = some (settingOpt v) ∧
      groupText fs last = c :: (match j with | .attached => x | .equals => '=' :: x | .detached => [])) := by
  match fs, last, h with
  | [], none, _ => exact .inl ⟨rfl, rfl⟩
  | f :: fs', last, h =>
    obtain ⟨c, hc, hm, hd⟩ := switch_short f (h.1 f (by simp))
    exact .inr (.inl ⟨f, fs', c, rfl, ⟨fun g hg => h.1 g (by simp [hg]), h.2⟩, hc, hm, hd, by simp [groupText, hc]⟩)
  | [], some (v, x, j), h =>
    obtain ⟨c, hc, hm, hd⟩ := setting_short v (h.2 v x j rfl).1
    refine .inr (.inr ⟨v, x, j, c, rfl, rfl, hm, hd, ?_⟩)
    cases j <;> simp [groupText, lastText, hc]

theorem noExplicit_switch (f : Switch) (rest : List Tok) : noExplicit (switchOpt f) rest = .ok { acts := [(switchOpt f, none)] } := by
  simp [noExplicit, switch_takes]

theorem noExplicit_setting (v : Setting) (x : Str) (rest : List Tok) :
    noExplicit (settingOpt v) (.arg x :: rest) = .ok { acts := [(settingOpt v, some x)], next := true } := by
  simp [noExplicit, setting_takes]

theorem withExplicit_setting (v : Setting) (rest : List Tok) (n : Nat) (long sep : Bool) (x : Str) :
    withExplicit rest n (settingOpt v) long sep x = .ok { acts := [(settingOpt v, some x)] } := by
  unfold withExplicit
  rw [if_pos (setting_takes v)]

/-- `next` of a group -/
def lastNext (last : Option (Setting × Str × Join)) : Bool := decide (lastTail last ≠ [])

theorem head_letter (fs : List Switch) (last : Option (Setting × Str × Join)) (h : MoreOk fs last) (d : Char) (t : Str)
    (e : groupText fs last = d :: t) : d ≠ '=' ∧ d ≠ '-' := by
  rcases groupText_cons fs last h with ⟨rfl, rfl⟩ | ⟨f, fs', c, _, _, _, hm, _, e'⟩ | ⟨v, x, j, c, _, _, hm, _, e'⟩
  · cases e
  · rw [e] at e'
    cases e'
    exact ⟨(letters_plain d hm).2.1, (letters_plain d hm).1⟩
  · rw [e] at e'
    cases e'
    exact ⟨(letters_plain d hm).2.1, (letters_plain d hm).1⟩

theorem groupText_nil (fs : List Switch) (last : Option (Setting × Str × Join)) (h : MoreOk fs last)
    (e : groupText fs last = []) : fs = [] ∧ last = none := by
  rcases groupText_cons fs last h with h | ⟨f, fs', c, _, _, _, hm, _, e'⟩ | ⟨v, x, j, c, _, _, hm, _, e'⟩
  · exact h
  · rw [e] at e'; cases e'
  · rw [e] at e'; cases e'

/-- one letter and what follows it: what both the first letter of an argument and a further one are given -/
theorem more_letters (rest : List Tok) : ∀ (fs : List Switch) (last : Option (Setting × Str × Join)) (n : Nat) (f : Switch),
    MoreOk fs last → groupText fs last ≠ [] → (groupText fs last).length ≤ n →
    withExplicit ((lastTail last).map Tok.arg ++ rest) n (switchOpt f) false false (groupText fs last) =
      .ok { acts := (switchOpt f, none) :: groupActs fs last, next := lastNext last } := by
  intro fs
  induction fs with
  | nil =>
    intro last n f h hne hn
    rcases groupText_cons [] last h with ⟨_, rfl⟩ | ⟨f, fs', c, e, _⟩ | ⟨v, x, j, c, _, rfl, hm, hd, e⟩
    · exact absurd rfl hne
    · cases e
    · rw [e] at hn ⊢
      obtain ⟨n, rfl⟩ : ∃ m, n = m + 1 := ⟨n - 1, by simp at hn; omega⟩
      have hl := letters_plain c hm
      unfold withExplicit
      simp only [switch_takes, Bool.false_eq_true, if_false, hl.1, decide_false, Bool.or_false, hd]
      have hj := (h.2 v x j rfl).2.2
      cases j with
      | attached =>
        obtain ⟨h1, h2⟩ := hj rfl
        match x, h1, h2 with
        | y :: x, _, h2 =>
          simp only [List.head?_cons, ne_eq, Option.some.injEq] at h2
          simp only [bind, Except.bind]
          split
          · cases ‹_ :: _ = []›
          · next hh => simp at hh; exact absurd hh.1 h2
          · rw [withExplicit_setting]; simp [groupActs, lastActs, lastNext, lastTail]
      | equals =>
        simp only [withExplicit_setting, bind, Except.bind, groupActs, lastActs, lastNext, lastTail]
        simp
      | detached =>
        simp only [lastTail, List.map_cons, List.map_nil, List.cons_append, List.nil_append, noExplicit_setting, bind, Except.bind,
          groupActs, lastActs, lastNext]
        simp
  | cons g fs ih =>
    intro last n f h hne hn
    rcases groupText_cons (g :: fs) last h with ⟨e, _⟩ | ⟨g', fs', c, e, h', hc, hm, hd, et⟩ | ⟨v, x, j, c, e, _⟩
    · cases e
    · cases e
      rw [et] at hn ⊢
      obtain ⟨n, rfl⟩ : ∃ m, n = m + 1 := ⟨n - 1, by simp at hn; omega⟩
      have hl := letters_plain c hm
      unfold withExplicit
      simp only [switch_takes, Bool.false_eq_true, if_false, hl.1, decide_false, Bool.or_false, hd]
      by_cases ht : groupText fs last = []
      · obtain ⟨rfl, rfl⟩ := groupText_nil fs last h' ht
        rw [ht]
        simp only [noExplicit_switch, bind, Except.bind, groupActs, lastActs, lastNext, lastTail]
        simp
      · have := ih last n g h' ht (by simp at hn; exact hn)
        generalize hg : groupText fs last = gt at ht this
        match gt, ht with
        | d :: t, _ =>
          have hd' := (head_letter fs last h' d t hg).1
          simp only [bind, Except.bind]
          split
          · cases ‹_ :: _ = []›
          · next hh => simp at hh; exact absurd hh.1 hd'
          · rw [this]; simp [groupActs]
    · cases e

/-! ## an item, read -/

/-- what the parser makes of the arguments `s :: tail` of an item -/
structure ReadAs (i : CliItem) (s : Str) (tail : List Str) (t : OptTok) (c : Consumed) : Prop where
  args : i.args = s :: tail
  sep : s ≠ cs!"--"
  parse : parseOptional s = .ok (some t)
  following : (tail = [] ∧ c.next = false) ∨ ∃ x, tail = [x] ∧ Plain digitZeros x ∧ c.next = true
  consume : ∀ rest, consumeOptional s t (tail.map Tok.arg ++ rest) = .ok c
  extras : c.extras = []
  acts : ∀ a, takeActions a c.acts = .ok (i.apply a)

theorem dashes_not_read (s : Str) (t : OptTok) (h : parseOptional s = .ok (some t)) : s ≠ cs!"--" := by
  rintro rfl
  have : parseOptional cs!"--" = .error .usage := by decide +kernel
  rw [this] at h
  cases h

theorem long_flag (l : Str) (h : l ∈ longNames) : decide (l.drop 1 |>.head? |> (· = some '-')) = true := by
  have : ∀ l ∈ longNames, decide (l.drop 1 |>.head? |> (· = some '-')) = true := by decide +kernel
  exact this l h

theorem letter_flag (c : Char) (h : c ∈ letters) : decide ((['-', c] : Str).drop 1 |>.head? |> (· = some '-')) = false := by
  have : ∀ c ∈ letters, decide ((['-', c] : Str).drop 1 |>.head? |> (· = some '-')) = false := by decide +kernel
  exact this c h

theorem switch_long_mem (f : Switch) : f.long ∈ longNames := by cases f <;> decide
theorem setting_long_mem (v : Setting) : v.long ∈ longNames := by cases v <;> decide

theorem item_read (i : CliItem) (h : i.Ok digitZeros) (hv : i.isVmlinux = false) : ∃ s tail t c, ReadAs i s tail t c := by
  match i, h, hv with
  | .switch f name, h, _ =>
    have hd := (switch_table f (switch_mem_all f)).1
    have hp := parseOptional_reads _ _ (.long name f.long _ (switch_long_mem f) hd h)
    exact ⟨name, [], _, { acts := [(switchOpt f, none)] }, rfl, dashes_not_read _ _ hp, hp, .inl ⟨rfl, rfl⟩,
      fun rest => by simp only [consumeOptional, noExplicit_switch], rfl,
      fun a => by simp only [takeActions, take_switch, bind, Except.bind]; rfl⟩
  | .setting v name x true, h, _ =>
    have hd := (setting_table v (setting_mem_all v)).1
    have hp := parseOptional_reads _ _ (.longEq name v.long _ x (setting_long_mem v) hd h.1)
    exact ⟨name ++ '=' :: x, [], _, { acts := [(settingOpt v, some x)] }, rfl, dashes_not_read _ _ hp, hp, .inl ⟨rfl, rfl⟩,
      fun rest => by simp only [consumeOptional, withExplicit_setting], rfl,
      fun a => by simp only [takeActions, take_setting _ v x h.2.1, bind, Except.bind]; rfl⟩
  | .setting v name x false, h, _ =>
    have hd := (setting_table v (setting_mem_all v)).1
    have hp := parseOptional_reads _ _ (.long name v.long _ (setting_long_mem v) hd h.1)
    exact ⟨name, [x], _, { acts := [(settingOpt v, some x)], next := true }, rfl, dashes_not_read _ _ hp, hp,
      .inr ⟨x, rfl, h.2.2 rfl, rfl⟩,
      fun rest => by simp only [consumeOptional, List.map_cons, List.map_nil, List.cons_append, List.nil_append, noExplicit_setting], rfl,
      fun a => by simp only [takeActions, take_setting _ v x h.2.1, bind, Except.bind]; rfl⟩
  | .group fs last, h, _ =>
    have hm : MoreOk fs last := by
      refine ⟨h.1, ?_⟩
      rintro v x j rfl
      have := h.2
      simp only at this
      refine ⟨this.1, this.2.1, ?_⟩
      rintro rfl
      exact this.2.2
    have hacc : ∀ v x j, last = some (v, x, j) → Acceptable v x := fun v x j e => (hm.2 v x j e).2.1
    have hne : ¬ (fs = [] ∧ last = none) := by
      rintro ⟨rfl, rfl⟩
      exact h.2 rfl
    have htail : (lastTail last = [] ∧ lastNext last = false) ∨
        ∃ x, lastTail last = [x] ∧ Plain digitZeros x ∧ lastNext last = true := by
      match last, h with
      | none, _ => exact .inl ⟨rfl, rfl⟩
      | some (v, x, .attached), _ => exact .inl ⟨rfl, rfl⟩
      | some (v, x, .equals), _ => exact .inl ⟨rfl, rfl⟩
      | some (v, x, .detached), h => exact .inr ⟨x, rfl, h.2.2.2, rfl⟩
    refine ⟨'-' :: groupText fs last, lastTail last, ?_⟩
    suffices ∃ t, parseOptional ('-' :: groupText fs last) = .ok (some t) ∧
        ∀ rest, consumeOptional ('-' :: groupText fs last) t ((lastTail last).map Tok.arg ++ rest) =
          .ok { acts := groupActs fs last, next := lastNext last } by
      obtain ⟨t, hp, hc⟩ := this
      exact ⟨t, { acts := groupActs fs last, next := lastNext last }, group_args fs last, dashes_not_read _ _ hp, hp, htail, hc, rfl,
        take_group fs last hacc⟩
    rcases groupText_cons fs last hm with e | ⟨f, fs', c, rfl, hm', hc, hl, hd, et⟩ | ⟨v, x, j, c, rfl, rfl, hl, hd, et⟩
    · exact absurd e hne
    · rw [et]
      cases hg : groupText fs' last with
      | nil =>
        obtain ⟨rfl, rfl⟩ := groupText_nil fs' last hm' hg
        exact ⟨_, parseOptional_reads _ _ (.letter c _ hd), fun rest => by
          simp only [consumeOptional, noExplicit_switch]; rfl⟩
      | cons d t =>
        refine ⟨_, parseOptional_reads _ _ (.letterMore c _ d t hd (head_letter fs' last hm' d t hg).1), fun rest => ?_⟩
        simp only [consumeOptional, letter_flag c hl]
        have := more_letters rest fs' last (d :: t).length f hm' (by rw [hg]; simp) (by rw [hg]; exact Nat.le_refl _)
        rw [hg] at this
        rw [this]
        rfl
    · rw [et]
      cases j with
      | attached =>
        obtain ⟨h1, h2⟩ := (hm.2 v x .attached rfl).2.2 rfl
        match x, h1, h2 with
        | y :: x, _, h2 =>
          simp only [List.head?_cons, ne_eq, Option.some.injEq] at h2
          exact ⟨_, parseOptional_reads _ _ (.letterMore c _ y x hd h2), fun rest => by
            simp only [consumeOptional, withExplicit_setting]; rfl⟩
      | equals =>
        exact ⟨_, parseOptional_reads _ _ (.letterEq c _ x hd), fun rest => by
          simp only [consumeOptional, withExplicit_setting]; rfl⟩
      | detached =>
        exact ⟨_, parseOptional_reads _ _ (.letter c _ hd), fun rest => by
          simp only [consumeOptional, lastTail, List.map_cons, List.map_nil, List.cons_append, List.nil_append, noExplicit_setting]; rfl⟩

/-! ## what was read was an item -/

theorem letter_kind (c : Char) (o : Opt) (hd : dget ['-', c] optionStrings = some o) : o = .help ∨ o = .version ∨
    (∃ f : Switch, o = switchOpt f ∧ f.short = some c) ∨ (∃ v : Setting, o = settingOpt v ∧ v.short = some c) := by
  have nl : ∀ l ∈ longNames, l.length ≠ 2 := by decide +kernel
  rcases table_kind _ (dget_mem hd) with h | h | ⟨f, _, e, h⟩ | ⟨v, _, e, h⟩
  · exact .inl h
  · exact .inr (.inl h)
  · rcases h with h | ⟨c', hc, h⟩
    · exact absurd rfl (nl _ (h ▸ switch_long_mem f))
    · simp at h; rw [← h] at hc; exact .inr (.inr (.inl ⟨f, e, hc⟩))
  · rcases h with h | ⟨c', hc, h⟩
    · exact absurd rfl (nl _ (h ▸ setting_long_mem v))
    · simp at h; rw [← h] at hc; exact .inr (.inr (.inr ⟨v, e, hc⟩))

theorem long_kind (l : Str) (hl : l ∈ longNames) (o : Opt) (hd : dget l optionStrings = some o) : o = .help ∨ o = .version ∨
    (∃ f : Switch, o = switchOpt f ∧ l = f.long) ∨ (∃ v : Setting, o = settingOpt v ∧ l = v.long) := by
  have nl : ∀ l ∈ longNames, l.length ≠ 2 := by decide +kernel
  rcases table_kind _ (dget_mem hd) with h | h | ⟨f, _, e, h⟩ | ⟨v, _, e, h⟩
  · exact .inl h
  · exact .inr (.inl h)
  · rcases h with h | ⟨c', hc, h⟩
    · exact .inr (.inr (.inl ⟨f, e, h⟩))
    · exact absurd (by rw [show l = ['-', c'] from h]; rfl) (nl l hl)
  · rcases h with h | ⟨c', hc, h⟩
    · exact .inr (.inr (.inr ⟨v, e, h⟩))
    · exact absurd (by rw [show l = ['-', c'] from h]; rfl) (nl l hl)

/-- no action of an option that ends the program -/
def Going (acts : List (Opt × Option Str)) : Prop := ∀ p ∈ acts, ∃ a b, takeAction a p = .ok b

theorem Going.not (acts : List (Opt × Option Str)) (h : Going acts) (x : Option Str) : (.help, x) ∉ acts ∧ (.version, x) ∉ acts := by
  constructor
  · intro hm; obtain ⟨a, b, e⟩ := h _ hm; cases e
  · intro hm; obtain ⟨a, b, e⟩ := h _ hm; cases e

theorem Going.acceptable (acts : List (Opt × Option Str)) (h : Going acts) (v : Setting) (x : Str) (hm : (settingOpt v, some x) ∈ acts) :
    Acceptable v x := by
  obtain ⟨a, b, e⟩ := h _ hm
  exact take_setting_inv a b v x e

theorem noExplicit_inv (o : Opt) (rest : List Tok) (c : Consumed) (h : noExplicit o rest = .ok c) :
    (o.takesValue = false ∧ c = { acts := [(o, none)] }) ∨
    (o.takesValue = true ∧ ∃ x r, rest = .arg x :: r ∧ c = { acts := [(o, some x)], next := true }) := by
  unfold noExplicit at h
  split at h
  · next ht =>
    split at h
    · next x r => cases h; exact .inr ⟨ht, x, r, rfl, rfl⟩
    · cases h
  · next ht => cases h; exact .inl ⟨by simpa using ht, rfl⟩

/-- the following argument is the value of the last option of the group -/
def LastPosIn (last : Option (Setting × Str × Join)) (rest : List Tok) : Prop :=
  ∀ v x, last = some (v, x, .detached) → ∃ r, rest = .arg x :: r

theorem withExplicit_inv (rest : List Tok) : ∀ (n : Nat) (o : Opt) (sep : Bool) (x : Str) (c : Consumed),
    o.takesValue = false → withExplicit rest n o false sep x = .ok c → c.extras = [] → Going c.acts →
    sep = false ∧ ∃ fs last, MoreOk fs last ∧ groupText fs last = x ∧ x ≠ [] ∧ LastPosIn last rest ∧
      c = { acts := (o, none) :: groupActs fs last, next := lastNext last } := by
  intro n
  induction n with
  | zero =>
    intro o sep x c ht h _ _
    unfold withExplicit at h
    simp only [ht, Bool.false_eq_true, if_false] at h
    split at h
    · cases h
    · cases h
    · exact absurd ‹0 = _› (Nat.succ_ne_zero _).symm
  | succ n ih =>
    intro o sep x c ht h hex hg
    unfold withExplicit at h
    simp only [ht, Bool.false_eq_true, if_false] at h
    split at h
    · cases h
    · cases h
    next n' y cs hy =>
    cases hy
    split at h
    · cases h
    next hsep =>
    simp only [Bool.or_eq_true, decide_eq_true_eq, not_or, Bool.not_eq_true] at hsep
    split at h
    · cases h; cases hex
    next o' hd =>
    refine ⟨hsep.1, ?_⟩
    have wrap : ∀ r : Consumed, c = { r with acts := (o, none) :: r.acts } → Going r.acts ∧ r.extras = [] := by
      rintro r rfl
      exact ⟨fun p hp => hg p (by simp [hp]), hex⟩
    have hkind := letter_kind y o' hd
    simp only [bind, Except.bind] at h
    split at h
    · split at h
      · cases h
      next r hr =>
      cases h
      obtain ⟨hg', hex'⟩ := wrap r rfl
      rcases noExplicit_inv o' rest r hr with ⟨ht', rfl⟩ | ⟨ht', x, r', hrest, rfl⟩
      · rcases hkind with rfl | rfl | ⟨f, rfl, hf⟩ | ⟨v, rfl, hv⟩
        · exact absurd (by simp) (hg'.not _ none).1
        · exact absurd (by simp) (hg'.not _ none).2
        · refine ⟨[f], none, ⟨by simp [hf], by simp⟩, by simp [groupText, lastText, hf], by simp, (by intro v x e; cases e), ?_⟩
          simp [groupActs, lastActs, lastNext, lastTail]
        · rw [setting_takes] at ht'; cases ht'
      · rcases hkind with rfl | rfl | ⟨f, rfl, hf⟩ | ⟨v, rfl, hv⟩
        · cases ht'
        · cases ht'
        · rw [switch_takes] at ht'; cases ht'
        · have hacc := hg'.acceptable _ v x (by simp)
          refine ⟨[], some (v, x, .detached), ⟨by simp, ?_⟩, by simp [groupText, lastText, hv], by simp, ?_, ?_⟩
          · intro v' x' j' e; cases e; exact ⟨by rw [hv]; rfl, hacc, by intro e; cases e⟩
          · intro v' x' e; cases e; exact ⟨r', hrest⟩
          · simp [groupActs, lastActs, lastNext, lastTail]
    · next cs' =>
      split at h
      · cases h
      next r hr =>
      cases h
      obtain ⟨hg', hex'⟩ := wrap r rfl
      rcases hkind with rfl | rfl | ⟨f, rfl, hf⟩ | ⟨v, rfl, hv⟩
      · cases (ih .help true cs' r rfl hr hex' hg').1
      · cases (ih .version true cs' r rfl hr hex' hg').1
      · cases (ih (switchOpt f) true cs' r (switch_takes f) hr hex' hg').1
      · rw [withExplicit_setting] at hr
        cases hr
        have hacc := hg'.acceptable _ v cs' (by simp)
        refine ⟨[], some (v, cs', .equals), ⟨by simp, ?_⟩, by simp [groupText, lastText, hv], by simp, ?_, ?_⟩
        · intro v' x' j' e; cases e; exact ⟨by rw [hv]; rfl, hacc, by intro e; cases e⟩
        · intro v' x' e; cases e
        · simp [groupActs, lastActs, lastNext, lastTail]
    · next hne heq =>
      split at h
      · cases h
      next r hr =>
      cases h
      obtain ⟨hg', hex'⟩ := wrap r rfl
      rcases hkind with rfl | rfl | ⟨f, rfl, hf⟩ | ⟨v, rfl, hv⟩
      · obtain ⟨_, fs, last, _, _, _, _, e⟩ := ih .help false cs r rfl hr hex' hg'
        exact absurd (by rw [e]; simp) (hg'.not _ none).1
      · obtain ⟨_, fs, last, _, _, _, _, e⟩ := ih .version false cs r rfl hr hex' hg'
        exact absurd (by rw [e]; simp) (hg'.not _ none).2
      · obtain ⟨_, fs, last, h1, h2, h3, h4, e⟩ := ih (switchOpt f) false cs r (switch_takes f) hr hex' hg'
        refine ⟨f :: fs, last, ⟨?_, h1.2⟩, ?_, by simp, h4, ?_⟩
        · intro g hg
          rcases List.mem_cons.mp hg with rfl | hg
          · rw [hf]; rfl
          · exact h1.1 g hg
        · simp only [groupText] at h2
          simp [groupText, hf, h2]
        · rw [e]; simp [groupActs]
      · rw [withExplicit_setting] at hr
        cases hr
        have hacc := hg'.acceptable _ v cs (by simp)
        refine ⟨[], some (v, cs, .attached), ⟨by simp, ?_⟩, by simp [groupText, lastText, hv], by simp, ?_, ?_⟩
        · intro v' x' j' e
          cases e
          refine ⟨by rw [hv]; rfl, hacc, fun _ => ⟨hne, ?_⟩⟩
          match cs, heq with
          | [], _ => simp
          | z :: zs, heq => simp only [List.head?_cons, ne_eq, Option.some.injEq]; rintro rfl; exact heq zs rfl
        · intro v' x' e; cases e
        · simp [groupActs, lastActs, lastNext, lastTail]

end Verif
