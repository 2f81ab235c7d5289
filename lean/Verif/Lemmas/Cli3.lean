import Verif.Lemmas.Cli2
/-! # Lemmas about the command line parser: whole lines -/
set_option autoImplicit false

namespace Verif
open Spec

/-- what an item was read from -/
def IsItem (a a' : Args) (s : Str) (rest : List Tok) (next : Bool) : Prop :=
  ∃ i tail r, CliItem.Ok digitZeros i ∧ i.isVmlinux = false ∧ i.args = s :: tail ∧ rest = tail.map Tok.arg ++ r ∧
    (if next then rest.drop 1 else rest) = r ∧ i.apply a = a' ∧ tail.length ≤ 1

theorem group_isItem (fs : List Switch) (last : Option (Setting × Str × Join)) (a a' : Args) (rest : List Tok)
    (hm : MoreOk fs last) (hl : LastPosIn last rest) (hne : ¬ (fs = [] ∧ last = none))
    (hrest : ∀ x r, rest = .arg x :: r → Plain digitZeros x) (hta : takeActions a (groupActs fs last) = .ok a') :
    IsItem a a' ('-' :: groupText fs last) rest (lastNext last) := by
  have hacc : ∀ v x j, last = some (v, x, j) → Acceptable v x := fun v x j e => (hm.2 v x j e).2.1
  rw [take_group fs last hacc a] at hta
  cases hta
  have hr : ∃ r, rest = (lastTail last).map Tok.arg ++ r ∧ (if lastNext last then rest.drop 1 else rest) = r := by
    match last, hl with
    | none, _ => exact ⟨rest, rfl, rfl⟩
    | some (v, x, .attached), _ => exact ⟨rest, rfl, rfl⟩
    | some (v, x, .equals), _ => exact ⟨rest, rfl, rfl⟩
    | some (v, x, .detached), hl =>
      obtain ⟨r, rfl⟩ := hl v x rfl
      exact ⟨r, rfl, rfl⟩
  obtain ⟨r, h1, h2⟩ := hr
  refine ⟨.group fs last, lastTail last, r, ⟨hm.1, ?_⟩, rfl, group_args fs last, h1, h2, rfl, ?_⟩
  · match last, hm, hl, hne with
    | none, _, _, hne => exact fun e => hne ⟨e, rfl⟩
    | some (v, x, .attached), hm, _, _ => exact ⟨(hm.2 v x _ rfl).1, (hm.2 v x _ rfl).2.1, (hm.2 v x _ rfl).2.2 rfl⟩
    | some (v, x, .equals), hm, _, _ => exact ⟨(hm.2 v x _ rfl).1, (hm.2 v x _ rfl).2.1, trivial⟩
    | some (v, x, .detached), hm, hl, _ =>
      obtain ⟨r, e⟩ := hl v x rfl
      exact ⟨(hm.2 v x _ rfl).1, (hm.2 v x _ rfl).2.1, hrest x r e⟩
  · match last with
    | none => simp [lastTail]
    | some (v, x, .attached) => simp [lastTail]
    | some (v, x, .equals) => simp [lastTail]
    | some (v, x, .detached) => simp [lastTail]

theorem read_item (a a' : Args) (s : Str) (t : OptTok) (rest : List Tok) (c : Consumed) (hr : ReadsAs s t)
    (hc : consumeOptional s t rest = .ok c) (hex : c.extras = []) (hta : takeActions a c.acts = .ok a')
    (hrest : ∀ x r, rest = .arg x :: r → Plain digitZeros x) : IsItem a a' s rest c.next := by
  have hg : Going c.acts := takeActions_mem c.acts a a' hta
  cases hr with
  | letter y o hd =>
    simp only [consumeOptional] at hc
    rcases noExplicit_inv o rest c hc with ⟨ht, rfl⟩ | ⟨ht, x, r, hr, rfl⟩
    · rcases letter_kind y o hd with rfl | rfl | ⟨f, rfl, hf⟩ | ⟨v, rfl, hv⟩
      · exact absurd (by simp) (hg.not _ none).1
      · exact absurd (by simp) (hg.not _ none).2
      · have := group_isItem [f] none a a' rest ⟨by simp [hf], by simp⟩ (by intro v x e; cases e) (by simp) hrest hta
        simpa [groupText, lastText, hf, lastNext, lastTail] using this
      · rw [setting_takes] at ht; cases ht
    · rcases letter_kind y o hd with rfl | rfl | ⟨f, rfl, hf⟩ | ⟨v, rfl, hv⟩
      · cases ht
      · cases ht
      · rw [switch_takes] at ht; cases ht
      · have hacc := hg.acceptable _ v x (by simp)
        have := group_isItem [] (some (v, x, .detached)) a a' rest ⟨by simp, ?_⟩ (by intro v' x' e; cases e; exact ⟨r, hr⟩) (by simp) hrest hta
        · simpa [groupText, lastText, hv, lastNext, lastTail] using this
        · intro v' x' j' e; cases e; exact ⟨by rw [hv]; rfl, hacc, by intro e; cases e⟩
  | letterEq y o x hd =>
    simp only [consumeOptional, letter_flag y (letter_mem y o hd)] at hc
    rcases letter_kind y o hd with rfl | rfl | ⟨f, rfl, hf⟩ | ⟨v, rfl, hv⟩
    · cases (withExplicit_inv rest _ .help true x c rfl hc hex hg).1
    · cases (withExplicit_inv rest _ .version true x c rfl hc hex hg).1
    · cases (withExplicit_inv rest _ (switchOpt f) true x c (switch_takes f) hc hex hg).1
    · rw [withExplicit_setting] at hc
      cases hc
      have hacc := hg.acceptable _ v x (by simp)
      have := group_isItem [] (some (v, x, .equals)) a a' rest ⟨by simp, ?_⟩ (by intro v' x' e; cases e) (by simp) hrest hta
      · simpa [groupText, lastText, hv, lastNext, lastTail] using this
      · intro v' x' j' e; cases e; exact ⟨by rw [hv]; rfl, hacc, by intro e; cases e⟩
  | letterMore y o d t hd hne =>
    simp only [consumeOptional, letter_flag y (letter_mem y o hd)] at hc
    rcases letter_kind y o hd with rfl | rfl | ⟨f, rfl, hf⟩ | ⟨v, rfl, hv⟩
    · obtain ⟨_, fs, last, _, _, _, _, e⟩ := withExplicit_inv rest _ .help false _ c rfl hc hex hg
      exact absurd (by rw [e]; simp) (hg.not _ none).1
    · obtain ⟨_, fs, last, _, _, _, _, e⟩ := withExplicit_inv rest _ .version false _ c rfl hc hex hg
      exact absurd (by rw [e]; simp) (hg.not _ none).2
    · obtain ⟨_, fs, last, h1, h2, h3, h4, e⟩ := withExplicit_inv rest _ (switchOpt f) false _ c (switch_takes f) hc hex hg
      rw [e] at hta ⊢
      have := group_isItem (f :: fs) last a a' rest ⟨?_, h1.2⟩ h4 (by simp) hrest hta
      · simp only [groupText, List.filterMap_cons, hf, List.cons_append] at this
        simp only [groupText] at h2
        rw [h2] at this
        exact this
      · intro g hg
        rcases List.mem_cons.mp hg with rfl | hg
        · rw [hf]; rfl
        · exact h1.1 g hg
    · rw [withExplicit_setting] at hc
      cases hc
      have hacc := hg.acceptable _ v (d :: t) (by simp)
      have := group_isItem [] (some (v, d :: t, .attached)) a a' rest ⟨by simp, ?_⟩ (by intro v' x' e; cases e) (by simp) hrest hta
      · simpa [groupText, lastText, hv, lastNext, lastTail] using this
      · intro v' x' j' e; cases e; exact ⟨by rw [hv]; rfl, hacc, fun _ => ⟨by simp, by simpa using hne⟩⟩
  | long _ full o hf hd ha =>
    simp only [consumeOptional] at hc
    rcases noExplicit_inv o rest c hc with ⟨ht, rfl⟩ | ⟨ht, x, r, hr, rfl⟩
    · rcases long_kind full hf o hd with rfl | rfl | ⟨f, rfl, rfl⟩ | ⟨v, rfl, rfl⟩
      · exact absurd (by simp) (hg.not _ none).1
      · exact absurd (by simp) (hg.not _ none).2
      · simp only [takeActions, take_switch, bind, Except.bind] at hta
        cases hta
        exact ⟨.switch f s, [], rest, ha, rfl, rfl, rfl, rfl, rfl, by simp⟩
      · rw [setting_takes] at ht; cases ht
    · rcases long_kind full hf o hd with rfl | rfl | ⟨f, rfl, rfl⟩ | ⟨v, rfl, rfl⟩
      · cases ht
      · cases ht
      · rw [switch_takes] at ht; cases ht
      · have hacc := hg.acceptable _ v x (by simp)
        simp only [takeActions, take_setting _ v x hacc, bind, Except.bind] at hta
        cases hta
        exact ⟨.setting v s x false, [x], r, ⟨ha, hacc, fun _ => hrest x r hr⟩, rfl, rfl, by rw [hr]; rfl, by rw [hr]; rfl, rfl, by simp⟩
  | longEq name full o x hf hd ha =>
    simp only [consumeOptional, long_flag full hf] at hc
    have hlong : o.takesValue = true ∧ c = { acts := [(o, some x)] } := by
      unfold withExplicit at hc
      split at hc
      · next ht => cases hc; exact ⟨ht, rfl⟩
      · cases hc
    obtain ⟨ht, rfl⟩ := hlong
    rcases long_kind full hf o hd with rfl | rfl | ⟨f, rfl, rfl⟩ | ⟨v, rfl, rfl⟩
    · cases ht
    · cases ht
    · rw [switch_takes] at ht; cases ht
    · have hacc := hg.acceptable _ v x (by simp)
      simp only [takeActions, take_setting _ v x hacc, bind, Except.bind] at hta
      cases hta
      exact ⟨.setting v name x true, [], rest, ⟨ha, hacc, fun e => by cases e⟩, rfl, rfl, rfl, rfl, rfl, by simp⟩

/-! ## classification -/

theorem classify_str (ss : List Str) : ∀ ts, classify ss = .ok ts → ts.map Tok.str = ss := by
  induction ss with
  | nil => intro ts h; cases h; rfl
  | cons s ss ih =>
    intro ts h
    simp only [classify] at h
    split at h
    · next hs =>
      cases h
      have : ss.map (Tok.str ∘ Tok.arg) = ss := by
        clear ih
        induction ss with
        | nil => rfl
        | cons x xs ih => simp [Tok.str, ih]
      simp [hs, Tok.str, this]
    · simp only [bind, Except.bind] at h
      split at h
      · cases h
      next t ht =>
      split at h
      · cases h
      next ts' hts =>
      split at h
      · cases h; simp [Tok.str, ih _ hts]
      · cases h; simp [Tok.str, ih _ hts]

/-- the first argument and the others -/
theorem classify_cons (ss : List Str) (t : Tok) (ts : List Tok) (h : classify ss = .ok (t :: ts)) :
    ∃ ss', ss = t.str :: ss' ∧ ((t = .dashes ∧ ts = ss'.map Tok.arg) ∨ (t.str ≠ cs!"--" ∧ classify ss' = .ok ts ∧
      ((∃ x, t = .arg x ∧ Plain digitZeros x) ∨ ∃ s o, t = .opt s o ∧ parseOptional s = .ok (some o)))) := by
  cases ss with
  | nil => cases h
  | cons s ss =>
    simp only [classify] at h
    split at h
    · next hs => cases h; exact ⟨ss, by rw [hs]; rfl, .inl ⟨rfl, rfl⟩⟩
    · next hs =>
      simp only [bind, Except.bind] at h
      split at h
      · cases h
      next t' ht =>
      split at h
      · cases h
      next ts' hts =>
      split at h
      · cases h; exact ⟨ss, rfl, .inr ⟨hs, hts, .inl ⟨s, rfl, (parseOptional_plain s).mp ht⟩⟩⟩
      · cases h; exact ⟨ss, rfl, .inr ⟨hs, hts, .inr ⟨s, _, rfl, ht⟩⟩⟩

theorem args_not_opt (ss : List Str) : (ss.map Tok.arg).any Tok.isOpt = false := by
  induction ss with
  | nil => rfl
  | cons s ss ih => simp [Tok.isOpt]

theorem classify_nil (ss : List Str) (h : classify ss = .ok []) : ss = [] := by
  have := classify_str ss [] h
  exact this.symm

/-! ## extras only grow -/

theorem loop_extras : ∀ (n : Nat) (avail : Bool) (a : Args) (ex : List Str) (ts : List Tok) (r : Args × List Str),
    parseLoop n avail a ex ts = .ok r → ∃ e, r.2 = ex ++ e := by
  intro n
  induction n with
  | zero =>
    intro avail a ex ts r h
    unfold parseLoop at h
    split at h
    · cases ts with
      | nil => cases h
      | cons t ts => cases t <;> cases h
    · cases h; exact ⟨_, rfl⟩
  | succ n ih =>
    intro avail a ex ts r h
    unfold parseLoop at h
    split at h
    · cases ts with
      | nil => cases h
      | cons t ts =>
        cases t with
        | opt s o =>
          simp only [bind, Except.bind] at h
          split at h
          · cases h
          split at h
          · cases h
          obtain ⟨e, he⟩ := ih _ _ _ _ _ h
          exact ⟨_, by rw [he, List.append_assoc]⟩
        | arg x =>
          simp only at h
          split at h
          · exact ih _ _ _ _ _ h
          · obtain ⟨e, he⟩ := ih _ _ _ _ _ h
            exact ⟨_, by rw [he, List.append_assoc]⟩
        | dashes =>
          simp only at h
          split at h
          · exact ih _ _ _ _ _ h
          · obtain ⟨e, he⟩ := ih _ _ _ _ _ h
            exact ⟨_, by rw [he, List.append_assoc]⟩
    · cases h; exact ⟨_, rfl⟩

/-! ## lines -/

/-- a line, or the rest of one: `avail` when VMLINUX has not been named -/
def LineOk (avail : Bool) (items : List CliItem) (ending : Ending) : Prop :=
  (∀ i ∈ items, i.Ok digitZeros) ∧
  match ending with
  | .nothing => items.countP CliItem.isVmlinux ≤ (if avail then 1 else 0)
  | .dashes => avail = true ∧ (items.countP CliItem.isVmlinux = 0 ∨
      ∃ init x, items = init ++ [.vmlinux x] ∧ init.countP CliItem.isVmlinux = 0)
  | .dashesThen _ => avail = true ∧ items.countP CliItem.isVmlinux = 0

def lineMeaning (a : Args) (items : List CliItem) (ending : Ending) : Args :=
  match ending with
  | .dashesThen x => { items.foldl CliItem.apply a with vmlinux := some x }
  | _ => items.foldl CliItem.apply a

def lineArgs (items : List CliItem) (ending : Ending) : List Str := items.flatMap CliItem.args ++ ending.args

theorem switch_vmlinux (a : Args) (f : Switch) : (f.apply a).vmlinux = a.vmlinux := by cases f <;> rfl

theorem setting_vmlinux (a : Args) (x : Str) (v : Setting) : (v.apply a x).vmlinux = a.vmlinux := by cases v <;> rfl

theorem switches_vmlinux (fs : List Switch) : ∀ a, (fs.foldl Switch.apply a).vmlinux = a.vmlinux := by
  induction fs with
  | nil => intro a; rfl
  | cons f fs ih => intro a; rw [List.foldl_cons, ih, switch_vmlinux]

theorem item_vmlinux (a : Args) (i : CliItem) (h : i.isVmlinux = false) : (i.apply a).vmlinux = a.vmlinux := by
  match i, h with
  | .switch f _, _ => exact switch_vmlinux a f
  | .setting v _ x _, _ => exact setting_vmlinux a x v
  | .group fs none, _ => exact switches_vmlinux fs a
  | .group fs (some (v, x, _)), _ => exact (setting_vmlinux _ x v).trans (switches_vmlinux fs a)

theorem args_vmlinux (a : Args) (h : a.vmlinux = none) : { a with vmlinux := none } = a := by
  cases a
  simp only at h
  rw [h]

theorem plain_not_dashes (x : Str) (h : Plain digitZeros x) : x ≠ cs!"--" := by
  rintro rfl
  have : parseOptional cs!"--" = .error .usage := by decide +kernel
  rw [(parseOptional_plain _).mpr h] at this
  cases this

theorem classify_arg (x : Str) (ss : List Str) (ts : List Tok) (h : Plain digitZeros x) (hc : classify ss = .ok ts) :
    classify (x :: ss) = .ok (.arg x :: ts) := by
  simp only [classify, if_neg (plain_not_dashes x h), (parseOptional_plain x).mpr h, hc, bind, Except.bind]

theorem positional_one (x : Str) (h : x ≠ cs!"--") : positionalValue [x] = some x := by
  have h' : ¬ (x == cs!"--") = true := by simpa using h
  simp [positionalValue, h']

/-- a line said properly is understood -/
theorem line_forward (ending : Ending) : ∀ (items : List CliItem) (avail : Bool) (a : Args), LineOk avail items ending →
    (avail = true → a.vmlinux = none) →
    ∃ ts, classify (lineArgs items ending) = .ok ts ∧ (items.any (fun i => !i.isVmlinux) = true → ts.any Tok.isOpt = true) ∧
      (∀ i is, items = i :: is → i.isVmlinux = false → ∃ s t r, ts = .opt s t :: r) ∧
      ∀ n, ts.length ≤ n → parseLoop n avail a [] ts = .ok (lineMeaning a items ending, []) := by
  intro items
  induction items with
  | nil =>
    intro avail a h hv
    cases ending with
    | nothing =>
      refine ⟨[], rfl, by simp, by simp, fun n _ => ?_⟩
      unfold parseLoop
      cases avail with
      | true =>
        simp only [List.any_nil, Bool.false_eq_true, if_false, consumePositionals, if_true, lineMeaning, List.foldl_nil]
        simp only [positionalCount, List.take_zero, List.map_nil, positionalValue, List.erase_nil, List.head?_nil, List.drop_nil, List.append_nil,
          args_vmlinux a (hv rfl)]
      | false => simp [consumePositionals, lineMeaning]
    | dashes =>
      obtain ⟨_, rfl, _⟩ := h
      refine ⟨[.dashes], rfl, by simp, by simp, fun n _ => ?_⟩
      unfold parseLoop
      have : positionalValue [cs!"--"] = none := by decide
      simp only [List.any_cons, Tok.isOpt, List.any_nil, Bool.or_false, Bool.false_eq_true, if_false, consumePositionals, if_true, lineMeaning,
        List.foldl_nil, positionalCount, List.take_succ_cons, List.take_zero, List.map_cons, List.map_nil, Tok.str, this, List.drop_succ_cons,
        List.drop_nil, List.append_nil, args_vmlinux a (hv rfl)]
    | dashesThen x =>
      obtain ⟨_, rfl, _⟩ := h
      refine ⟨[.dashes, .arg x], rfl, by simp, by simp, fun n _ => ?_⟩
      unfold parseLoop
      have : positionalValue [cs!"--", x] = some x := by simp [positionalValue]
      simp only [List.any_cons, Tok.isOpt, List.any_nil, Bool.or_false, Bool.false_eq_true, if_false, consumePositionals, if_true, lineMeaning,
        List.foldl_nil, positionalCount, List.take_succ_cons, List.take_zero, List.map_cons, List.map_nil, Tok.str, this, List.drop_succ_cons,
        List.drop_nil, List.append_nil]
  | cons i items ih =>
    intro avail a h hv
    cases hi : i.isVmlinux with
    | false =>
      have hrest : LineOk avail items ending := by
        refine ⟨fun j hj => h.1 j (by simp [hj]), ?_⟩
        have h2 := h.2
        cases ending with
        | nothing => simpa [hi] using h2
        | dashesThen x => simpa [hi] using h2
        | dashes =>
          refine ⟨h2.1, ?_⟩
          rcases h2.2 with h2 | ⟨init, x, e, hc⟩
          · exact .inl (by simpa [hi] using h2)
          · cases init with
            | nil => simp at e; rw [e.1] at hi; cases hi
            | cons j init =>
              simp at e
              exact .inr ⟨init, x, e.2, by simp [← e.1, hi] at hc; simpa using hc⟩
      obtain ⟨s, tail, t, c, hr⟩ := item_read i (h.1 i (by simp)) hi
      obtain ⟨ts, hts, _, _, hloop⟩ := ih avail (i.apply a) hrest (by
        intro e; rw [item_vmlinux a i hi]; exact hv e)
      have hargs : lineArgs (i :: items) ending = s :: (tail ++ lineArgs items ending) := by
        simp [lineArgs, hr.args]
      have hcl : classify (tail ++ lineArgs items ending) = .ok (tail.map Tok.arg ++ ts) := by
        rcases hr.following with ⟨rfl, _⟩ | ⟨x, rfl, hp, _⟩
        · simpa using hts
        · exact classify_arg x _ ts hp hts
      have hcl' : classify (lineArgs (i :: items) ending) = .ok (.opt s t :: (tail.map Tok.arg ++ ts)) := by
        rw [hargs]
        simp only [classify, if_neg hr.sep, hr.parse, hcl, bind, Except.bind]
      refine ⟨_, hcl', by simp [Tok.isOpt], fun j js _ _ => ⟨s, t, _, rfl⟩, fun n hn => ?_⟩
      obtain ⟨n, rfl⟩ : ∃ m, n = m + 1 := ⟨n - 1, by simp at hn; omega⟩
      unfold parseLoop
      simp only [List.any_cons, Tok.isOpt, Bool.true_or, if_true, hr.consume ts, hr.acts a, bind, Except.bind, hr.extras, List.append_nil]
      have hnext : (if c.next = true then (tail.map Tok.arg ++ ts).drop 1 else tail.map Tok.arg ++ ts) = ts := by
        rcases hr.following with ⟨rfl, e⟩ | ⟨x, rfl, _, e⟩ <;> simp [e]
      rw [hnext, hloop n (by simp at hn; omega)]
      simp only [lineMeaning, List.foldl_cons]
    | true =>
      obtain ⟨x, rfl⟩ : ∃ x, i = .vmlinux x := by cases i <;> first | exact ⟨_, rfl⟩ | cases hi
      have hx : Plain digitZeros x := h.1 (.vmlinux x) (by simp)
      have hav : avail = true := by
        have h2 := h.2
        cases ending with
        | nothing => cases avail with
          | true => rfl
          | false => simp [CliItem.isVmlinux] at h2
        | dashes => exact h2.1
        | dashesThen x => exact h2.1
      subst hav
      have hargs : lineArgs (.vmlinux x :: items) ending = x :: lineArgs items ending := by simp [lineArgs, CliItem.args]
      cases items with
      | nil =>
        cases ending with
        | nothing =>
          refine ⟨[.arg x], by rw [hargs]; exact classify_arg x _ [] hx rfl, by simp [CliItem.isVmlinux], ?_, fun n _ => ?_⟩
          · intro i is e hi; cases e; cases hi
          · unfold parseLoop
            simp only [List.any_cons, Tok.isOpt, List.any_nil, Bool.or_false, Bool.false_eq_true, if_false, consumePositionals, if_true, lineMeaning,
              List.foldl_cons, List.foldl_nil, positionalCount, List.take_succ_cons, List.take_zero, List.map_cons, List.map_nil, Tok.str,
              positional_one x (plain_not_dashes x hx), List.drop_succ_cons, List.drop_nil, List.append_nil, CliItem.apply]
        | dashes =>
          refine ⟨[.arg x, .dashes], by rw [hargs]; exact classify_arg x _ [.dashes] hx rfl, by simp [CliItem.isVmlinux], ?_, fun n _ => ?_⟩
          · intro i is e hi; cases e; cases hi
          · have hpos : positionalValue [x, cs!"--"] = some x := by
              have h' : ¬ (x == cs!"--") = true := by simpa using plain_not_dashes x hx
              simp [positionalValue, h']
            unfold parseLoop
            simp only [List.any_cons, Tok.isOpt, List.any_nil, Bool.or_false, Bool.false_eq_true, if_false, consumePositionals, if_true, lineMeaning,
              List.foldl_cons, List.foldl_nil, positionalCount, List.take_succ_cons, List.take_zero, List.map_cons, List.map_nil, Tok.str,
              hpos, List.drop_succ_cons, List.drop_nil, List.append_nil, CliItem.apply]
        | dashesThen y =>
          have := h.2.2
          simp [CliItem.isVmlinux] at this
      | cons j js =>
        have hj : j.isVmlinux = false ∧ LineOk false (j :: js) ending := by
          have h2 := h.2
          cases ending with
          | nothing =>
            have hc : (CliItem.vmlinux x :: j :: js).countP CliItem.isVmlinux = (j :: js).countP CliItem.isVmlinux + 1 :=
              List.countP_cons_of_pos rfl
            have h0 : (j :: js).countP CliItem.isVmlinux = 0 := by
              have h2 : (CliItem.vmlinux x :: j :: js).countP CliItem.isVmlinux ≤ 1 := h2
              omega
            refine ⟨?_, fun k hk => h.1 k (by simp at hk ⊢; exact .inr hk), by simp [h0]⟩
            cases e : j.isVmlinux with
            | false => rfl
            | true => simp [e] at h0
          | dashes =>
            rcases h2.2 with h2 | ⟨init, y, e, hc⟩
            · simp [CliItem.isVmlinux] at h2
            · cases init with
              | nil => simp at e
              | cons k init => simp at e; rw [← e.1] at hc; simp [CliItem.isVmlinux] at hc
          | dashesThen y => have := h2.2; simp [CliItem.isVmlinux] at this
        obtain ⟨ts, hts, _, hopt, hloop⟩ := ih false { a with vmlinux := some x } hj.2 (by intro e; cases e)
        obtain ⟨s, t, r, rfl⟩ := hopt j js rfl hj.1
        refine ⟨.arg x :: .opt s t :: r, by rw [hargs]; exact classify_arg x _ _ hx hts, by simp [Tok.isOpt], ?_, fun n hn => ?_⟩
        · intro i is e hi; cases e; cases hi
        · obtain ⟨n, rfl⟩ : ∃ m, n = m + 1 := ⟨n - 1, by simp at hn; omega⟩
          unfold parseLoop
          simp only [List.any_cons, Tok.isOpt, Bool.true_or, Bool.false_or, if_true, consumePositionals, positionalCount, List.take_succ_cons,
            List.take_zero, List.map_cons, List.map_nil, Tok.str, positional_one x (plain_not_dashes x hx), List.drop_succ_cons, List.drop_zero]
          rw [hloop n (by simp at hn ⊢; omega)]
          simp only [lineMeaning, List.foldl_cons, CliItem.apply]

/-- what is understood was said properly -/
theorem line_backward : ∀ (n : Nat) (ss : List Str) (ts : List Tok) (avail : Bool) (a a' : Args), classify ss = .ok ts →
    (avail = true → a.vmlinux = none) → parseLoop n avail a [] ts = .ok (a', []) →
    ∃ items ending, LineOk avail items ending ∧ lineArgs items ending = ss ∧ lineMeaning a items ending = a' := by
  intro n
  have final : ∀ (m : Nat) (ss : List Str) (ts : List Tok) (avail : Bool) (a a' : Args), classify ss = .ok ts →
      (avail = true → a.vmlinux = none) → ts.any Tok.isOpt = false → parseLoop m avail a [] ts = .ok (a', []) →
      ∃ items ending, LineOk avail items ending ∧ lineArgs items ending = ss ∧ lineMeaning a items ending = a' := by
    intro m ss ts avail a a' hc hv hno h
    unfold parseLoop at h
    rw [if_neg (by simp [hno])] at h
    simp only [Except.ok.injEq, Prod.mk.injEq, List.nil_append, List.map_eq_nil_iff] at h
    obtain ⟨h1, h2⟩ := h
    have hstr := classify_str ss ts hc
    cases avail with
    | false =>
      simp only [consumePositionals, Bool.false_eq_true, if_false] at h1 h2
      subst h2
      exact ⟨[], .nothing, ⟨by simp, by simp⟩, hstr, h1⟩
    | true =>
      simp only [consumePositionals, if_true] at h1 h2
      match ts, hc, hno, hstr, h1, h2 with
      | [], _, _, hstr, h1, _ =>
        refine ⟨[], .nothing, ⟨by simp, by simp⟩, hstr, ?_⟩
        rw [← h1]
        simp only [lineMeaning, List.foldl_nil, positionalCount, List.take_zero, List.map_nil, positionalValue, List.erase_nil, List.head?_nil]
        exact (args_vmlinux a (hv rfl)).symm
      | [.dashes], _, _, hstr, h1, _ =>
        refine ⟨[], .dashes, ⟨by simp, rfl, by simp⟩, hstr, ?_⟩
        rw [← h1]
        have : positionalValue [cs!"--"] = none := by decide
        simp only [lineMeaning, List.foldl_nil, positionalCount, List.take_succ_cons, List.take_zero, List.map_cons, List.map_nil, Tok.str, this]
        exact (args_vmlinux a (hv rfl)).symm
      | [.dashes, .arg x], _, _, hstr, h1, _ =>
        refine ⟨[], .dashesThen x, ⟨by simp, rfl, by simp⟩, hstr, ?_⟩
        rw [← h1]
        have : positionalValue [cs!"--", x] = some x := by simp [positionalValue]
        simp only [lineMeaning, List.foldl_nil, positionalCount, List.take_succ_cons, List.take_zero, List.map_cons, List.map_nil, Tok.str, this]
      | [.arg x], hc, _, hstr, h1, _ =>
        obtain ⟨ss', _, ⟨e, _⟩ | ⟨_, _, ⟨y, e, hp⟩ | ⟨s, o, e, _⟩⟩⟩ := classify_cons ss _ _ hc
        · cases e
        · cases e
          refine ⟨[.vmlinux x], .nothing, ⟨by simpa [CliItem.Ok] using hp, by simp [CliItem.isVmlinux]⟩, hstr, ?_⟩
          rw [← h1]
          simp only [lineMeaning, List.foldl_cons, List.foldl_nil, positionalCount, List.take_succ_cons, List.take_zero, List.map_cons, List.map_nil,
            Tok.str, positional_one x (plain_not_dashes x hp), CliItem.apply]
        · cases e
      | [.arg x, .dashes], hc, _, hstr, h1, _ =>
        obtain ⟨ss', _, ⟨e, _⟩ | ⟨_, _, ⟨y, e, hp⟩ | ⟨s, o, e, _⟩⟩⟩ := classify_cons ss _ _ hc
        · cases e
        · cases e
          refine ⟨[.vmlinux x], .dashes, ⟨by simpa [CliItem.Ok] using hp, rfl, .inr ⟨[], x, rfl, rfl⟩⟩, hstr, ?_⟩
          rw [← h1]
          have hpos : positionalValue [x, cs!"--"] = some x := by
            have h' : ¬ (x == cs!"--") = true := by simpa using plain_not_dashes x hp
            simp [positionalValue, h']
          simp only [lineMeaning, List.foldl_cons, List.foldl_nil, positionalCount, List.take_succ_cons, List.take_zero, List.map_cons, List.map_nil,
            Tok.str, hpos, CliItem.apply]
        · cases e
      | .dashes :: .arg x :: t :: r, _, _, _, _, h2 => simp [positionalCount] at h2
      | .dashes :: .dashes :: r, _, _, _, _, h2 => simp [positionalCount] at h2
      | .arg x :: .dashes :: t :: r, _, _, _, _, h2 => simp [positionalCount] at h2
      | .arg x :: .arg y :: r, _, _, _, _, h2 => simp [positionalCount] at h2
      | .opt s t :: r, _, hno, _, _, _ => simp [Tok.isOpt] at hno
      | .arg x :: .opt s t :: r, _, hno, _, _, _ => simp [Tok.isOpt] at hno
      | .dashes :: .opt s t :: r, _, hno, _, _, _ => simp [Tok.isOpt] at hno
  induction n with
  | zero =>
    intro ss ts avail a a' hc hv h
    by_cases hany : ts.any Tok.isOpt = true
    · unfold parseLoop at h
      rw [if_pos hany] at h
      cases ts with
      | nil => cases hany
      | cons t ts => cases t <;> cases h
    · exact final 0 ss ts avail a a' hc hv (by simpa using hany) h
  | succ n ih =>
    intro ss ts avail a a' hc hv h
    by_cases hany : ts.any Tok.isOpt = true
    · unfold parseLoop at h
      rw [if_pos hany] at h
      cases ts with
      | nil => cases hany
      | cons t rest =>
        obtain ⟨ss', rfl, hcase⟩ := classify_cons ss t rest hc
        rcases hcase with ⟨rfl, hr⟩ | ⟨hsep, hcl, ⟨x, rfl, hp⟩ | ⟨s, o, rfl, hpo⟩⟩
        · rw [hr] at hany
          simp only [List.any_cons, Tok.isOpt, Bool.false_or, args_not_opt] at hany
          cases hany
        · simp only at h
          cases avail with
          | false =>
            rw [if_neg (by simp)] at h
            obtain ⟨e, he⟩ := loop_extras _ _ _ _ _ _ h
            simp [Tok.isOpt] at he
          | true =>
            rw [if_pos rfl] at h
            have hcount : positionalCount (.arg x :: rest) = 1 := by
              cases rest with
              | nil => rfl
              | cons t r =>
                cases t with
                | dashes =>
                  exfalso
                  obtain ⟨ss2, _, ⟨_, hr⟩ | ⟨hs, _⟩⟩ := classify_cons ss' _ _ hcl
                  · rw [hr] at hany
                    simp only [List.any_cons, Tok.isOpt, Bool.false_or, args_not_opt] at hany
                    cases hany
                  · exact hs rfl
                | _ => rfl
            simp only [consumePositionals, if_true, hcount, List.take_succ_cons, List.take_zero, List.map_cons, List.map_nil, Tok.str,
              positional_one x (plain_not_dashes x hp), List.drop_succ_cons, List.drop_zero] at h
            obtain ⟨items, ending, h1, h2, h3⟩ := ih ss' rest false _ a' hcl (by intro e; cases e) h
            refine ⟨.vmlinux x :: items, ending, ⟨?_, ?_⟩, ?_, ?_⟩
            · intro i hi
              rcases List.mem_cons.mp hi with rfl | hi
              · exact hp
              · exact h1.1 i hi
            · have := h1.2
              cases ending with
              | nothing =>
                have hc : (CliItem.vmlinux x :: items).countP CliItem.isVmlinux = items.countP CliItem.isVmlinux + 1 :=
                  List.countP_cons_of_pos rfl
                have this : items.countP CliItem.isVmlinux ≤ 0 := this
                show (CliItem.vmlinux x :: items).countP CliItem.isVmlinux ≤ 1
                omega
              | dashes => cases this.1
              | dashesThen y => cases this.1
            · rw [← h2]; simp [lineArgs, CliItem.args, Tok.str]
            · rw [← h3]; cases ending <;> simp [lineMeaning, CliItem.apply]
        · simp only [bind, Except.bind] at h
          split at h
          · cases h
          next c hcons =>
          split at h
          · cases h
          next a1 hta =>
          have hex : c.extras = [] := by
            obtain ⟨e, he⟩ := loop_extras _ _ _ _ _ _ h
            simp at he
            exact he.1
          rw [hex] at h
          rcases parseOptional_inv s o hpo with hr | hnone
          · have hrest : ∀ x r, rest = .arg x :: r → Plain digitZeros x := by
              rintro x r rfl
              obtain ⟨ss2, _, ⟨e, _⟩ | ⟨_, _, ⟨y, e, hp⟩ | ⟨s', o', e, _⟩⟩⟩ := classify_cons ss' _ _ hcl
              · cases e
              · cases e; exact hp
              · cases e
            obtain ⟨i, tail, r, g1, g2, g3, g4, g5, g6, g7⟩ := read_item a a1 s o rest c hr hcons hex hta hrest
            rw [g5] at h
            have hcl2 : ∃ ss2, ss' = tail ++ ss2 ∧ classify ss2 = .ok r := by
              match tail, g4, g7 with
              | [], g4, _ => exact ⟨ss', rfl, by rw [hcl, g4]; rfl⟩
              | [x], g4, _ =>
                rw [g4] at hcl
                obtain ⟨ss2, e1, ⟨e, _⟩ | ⟨_, e2, _⟩⟩ := classify_cons ss' (.arg x) r hcl
                · cases e
                · exact ⟨ss2, e1, e2⟩
            obtain ⟨ss2, e1, e2⟩ := hcl2
            obtain ⟨items, ending, h1, h2, h3⟩ := ih ss2 r avail a1 a' e2 (by
              intro e; rw [← g6, item_vmlinux a i g2]; exact hv e) h
            refine ⟨i :: items, ending, ⟨?_, ?_⟩, ?_, ?_⟩
            · intro j hj
              rcases List.mem_cons.mp hj with rfl | hj
              · exact g1
              · exact h1.1 j hj
            · have := h1.2
              cases ending with
              | nothing => simpa [g2] using this
              | dashesThen y => simpa [g2] using this
              | dashes =>
                refine ⟨this.1, ?_⟩
                rcases this.2 with h0 | ⟨init, x, e, h0⟩
                · exact .inl (by simpa [g2] using h0)
                · exact .inr ⟨i :: init, x, by rw [e]; rfl, by simpa [g2] using h0⟩
            · rw [e1, ← h2]; simp [lineArgs, g3, Tok.str]
            · rw [← h3, ← g6]; cases ending <;> simp [lineMeaning]
          · exfalso
            simp only [consumeOptional, hnone] at hcons
            cases hcons
            cases hex
    · exact final (n + 1) ss ts avail a a' hc hv (by simpa using hany) h

/-! ## help and version -/

/-- after some items the parser is where it would be with the rest of the line alone -/
theorem items_then (ss : List Str) (s : Str) (t : OptTok) (r : List Tok) (hs : classify ss = .ok (.opt s t :: r)) :
    ∀ (items : List CliItem) (avail : Bool) (a : Args), (∀ i ∈ items, i.Ok digitZeros) →
      items.countP CliItem.isVmlinux ≤ (if avail then 1 else 0) →
      ∃ pre k avail', classify (items.flatMap CliItem.args ++ ss) = .ok (pre ++ .opt s t :: r) ∧ k ≤ pre.length ∧
        ∀ n, parseLoop (n + k) avail a [] (pre ++ .opt s t :: r) = parseLoop n avail' (items.foldl CliItem.apply a) [] (.opt s t :: r) := by
  intro items
  induction items with
  | nil => intro avail a _ _; exact ⟨[], 0, avail, hs, Nat.le_refl _, fun n => rfl⟩
  | cons i items ih =>
    intro avail a hok hcount
    cases hi : i.isVmlinux with
    | false =>
      obtain ⟨pre, k, avail', hc, hk, hloop⟩ := ih avail (i.apply a) (fun j hj => hok j (by simp [hj])) (by simpa [hi] using hcount)
      obtain ⟨s', tail, t', c, hr⟩ := item_read i (hok i (by simp)) hi
      have hcl : classify (tail ++ (items.flatMap CliItem.args ++ ss)) = .ok (tail.map Tok.arg ++ (pre ++ .opt s t :: r)) := by
        rcases hr.following with ⟨rfl, _⟩ | ⟨x, rfl, hp, _⟩
        · simpa using hc
        · exact classify_arg x _ _ hp hc
      refine ⟨.opt s' t' :: (tail.map Tok.arg ++ pre), k + 1, avail', ?_, ?_, fun n => ?_⟩
      · have : (i :: items).flatMap CliItem.args ++ ss = s' :: (tail ++ (items.flatMap CliItem.args ++ ss)) := by simp [hr.args]
        rw [this]
        simp only [classify, if_neg hr.sep, hr.parse, hcl, bind, Except.bind]
        simp
      · simp; omega
      · rw [← Nat.add_assoc]
        show parseLoop (n + k + 1) avail a [] (.opt s' t' :: ((tail.map Tok.arg ++ pre) ++ .opt s t :: r)) = _
        rw [List.foldl_cons]
        conv => lhs; unfold parseLoop
        rw [List.append_assoc]
        simp only [List.any_cons, Tok.isOpt, Bool.true_or, if_true, hr.consume, hr.acts a, bind, Except.bind, hr.extras, List.append_nil]
        have hnext : (if c.next = true then (tail.map Tok.arg ++ (pre ++ .opt s t :: r)).drop 1 else tail.map Tok.arg ++ (pre ++ .opt s t :: r)) =
            pre ++ .opt s t :: r := by
          rcases hr.following with ⟨rfl, e⟩ | ⟨x, rfl, _, e⟩ <;> simp [e]
        rw [hnext, hloop n]
    | true =>
      obtain ⟨x, rfl⟩ : ∃ x, i = .vmlinux x := by cases i <;> first | exact ⟨_, rfl⟩ | cases hi
      have hx : Plain digitZeros x := hok (.vmlinux x) (by simp)
      have hc : (CliItem.vmlinux x :: items).countP CliItem.isVmlinux = items.countP CliItem.isVmlinux + 1 := List.countP_cons_of_pos rfl
      have hav : avail = true := by
        cases avail with
        | true => rfl
        | false => simp only [Bool.false_eq_true, if_false] at hcount; omega
      subst hav
      simp only [if_true] at hcount
      obtain ⟨pre, k, avail', hcl, hk, hloop⟩ := ih false { a with vmlinux := some x } (fun j hj => hok j (by simp [hj])) (by
        simp only [Bool.false_eq_true, if_false]; omega)
      have hhead : ∀ q, pre ++ .opt s t :: r ≠ .dashes :: q := by
        intro q e
        rw [e] at hcl
        obtain ⟨ss2, _, ⟨_, hr⟩ | ⟨hsep, _⟩⟩ := classify_cons _ _ _ hcl
        · have : (pre ++ .opt s t :: r).any Tok.isOpt = false := by
            rw [e, hr]
            simp only [List.any_cons, Tok.isOpt, Bool.false_or, args_not_opt]
          simp [Tok.isOpt] at this
        · exact hsep rfl
      refine ⟨.arg x :: pre, k + 1, avail', ?_, by simp; omega, fun n => ?_⟩
      · exact classify_arg x _ _ hx hcl
      · rw [← Nat.add_assoc]
        show parseLoop (n + k + 1) true a [] (.arg x :: (pre ++ .opt s t :: r)) = _
        have hcount1 : positionalCount (.arg x :: (pre ++ .opt s t :: r)) = 1 := by
          generalize hq : pre ++ .opt s t :: r = q at hhead
          match q, hhead with
          | [], _ => rfl
          | .dashes :: q, hhead => exact absurd rfl (hhead q)
          | .arg _ :: q, _ => rfl
          | .opt _ _ :: q, _ => rfl
        rw [List.foldl_cons]
        conv => lhs; unfold parseLoop
        rw [if_pos (by simp [Tok.isOpt])]
        simp only [CliItem.apply, consumePositionals, if_true, hcount1, List.take_succ_cons, List.take_zero, List.map_cons, List.map_nil, Tok.str,
          positional_one x (plain_not_dashes x hx), List.drop_succ_cons, List.drop_zero]
        rw [hloop n]

theorem parseOptional_error (s : Str) (e : Stop) (h : parseOptional s = .error e) : Ambiguous s ∧ e = .usage := by
  unfold parseOptional at h
  split at h
  · cases h
  next hhead =>
  split at h
  · cases h
  next hnone =>
  split at h
  · cases h
  next hlen =>
  have hs : ∃ c d, s = '-' :: c :: d := by
    match s, hhead, hlen with
    | [], hh, _ => simp at hh
    | [a], _, hl => simp at hl
    | a :: c :: d, hh, _ => simp at hh; exact ⟨c, d, by rw [hh]⟩
  obtain ⟨c, d, rfl⟩ := hs
  split at h
  · cases h
  next hno =>
  split at h
  · next t1 t2 ts ht =>
    cases h
    refine ⟨?_, rfl⟩
    by_cases hc : c = '-'
    · subst hc
      refine ⟨rfl, ?_⟩
      obtain ⟨r', hr'⟩ : ∃ r', beforeEq ('-' :: '-' :: d) = '-' :: '-' :: r' := ⟨beforeEq d, by simp [beforeEq]⟩
      rw [optionTuples_long _ d rfl, partitionEq_fst] at ht
      have hsub := List.filter_sublist (p := fun o : Str × Opt => startsWith o.1 (beforeEq ('-' :: '-' :: d))) (l := optionStrings)
      have hnd := (hsub.map Prod.fst).nodup table_nodup
      have hmem : ∀ p ∈ optionStrings.filter (fun o : Str × Opt => startsWith o.1 (beforeEq ('-' :: '-' :: d))),
          p.1 ∈ longNames ∧ beforeEq ('-' :: '-' :: d) <+: p.1 := by
        intro p hp
        rw [List.mem_filter, startsWith_iff] at hp
        exact ⟨prefix_long _ r' hr' p hp.1 hp.2, hp.2⟩
      generalize optionStrings.filter (fun o : Str × Opt => startsWith o.1 (beforeEq ('-' :: '-' :: d))) = L at ht hnd hmem
      match L, ht, hnd, hmem with
      | p :: q :: L, _, hnd, hmem =>
        simp only [List.map_cons, List.nodup_cons, List.mem_cons, not_or] at hnd
        exact ⟨p.1, (hmem p (by simp)).1, q.1, (hmem q (by simp)).1, hnd.1.1, (hmem p (by simp)).2, (hmem q (by simp)).2⟩
    · exfalso
      cases d with
      | nil => rw [optionTuples_pair c hc hnone] at ht; cases ht
      | cons d t =>
        rw [optionTuples_letter c d t hc] at ht
        split at ht <;> cases ht
  · cases h
  · split at h
    · cases h
    · split at h <;> cases h

theorem parseOptional_ambiguous (s : Str) (h : Ambiguous s) : parseOptional s = .error .usage := by
  obtain ⟨h2, l, hl, l', hl', hne, hp, hp'⟩ := h
  have hs : ∃ d, s = '-' :: '-' :: d := by
    match s, h2 with
    | a :: b :: d, h2 => simp at h2; exact ⟨d, by rw [h2.1, h2.2]⟩
  obtain ⟨d, rfl⟩ := hs
  have hshape : ∀ t, parseOptional ('-' :: '-' :: d) = .ok (some t) → False := by
    intro t ht
    rcases parseOptional_inv _ t ht with hr | hnone
    · generalize hq : '-' :: '-' :: d = q at hr
      have key : ∀ full name : Str, full ∈ longNames → Abbreviates name full → beforeEq q = name → False := by
        rintro full name _ ha rfl
        subst hq
        exact hne ((ha.2 l hl hp).trans (ha.2 l' hl' hp').symm)
      cases hr with
      | letter c o hd => simp at hq; exact (letters_plain c (letter_mem c o hd)).1 hq.1.symm
      | letterEq c o x hd => simp at hq; exact (letters_plain c (letter_mem c o hd)).1 hq.1.symm
      | letterMore c o y x hd _ => simp at hq; exact (letters_plain c (letter_mem c o hd)).1 hq.1.symm
      | long _ full o hf hd ha =>
        refine key full q hf ha ?_
        rw [← partitionEq_fst, partitionEq_plain q (abbrev_shape q full hf ha).1]
      | longEq name full o x hf hd ha =>
        refine key full name hf ha ?_
        rw [← partitionEq_fst, partitionEq_append name x (abbrev_shape name full hf ha).1]
    · unfold parseOptional at ht
      rw [if_neg (by simp)] at ht
      split at ht
      · cases ht; cases hnone
      rw [if_neg (by simp)] at ht
      split at ht
      · cases ht; cases hnone
      split at ht
      · cases ht
      · next t' hone =>
        cases ht
        rw [optionTuples_long _ d rfl] at hone
        have : t ∈ ((optionStrings.filter fun o => startsWith o.1 (partitionEq ('-' :: '-' :: d)).1).map fun o =>
          (⟨some o.2, o.1, (partitionEq ('-' :: '-' :: d)).2.isSome, (partitionEq ('-' :: '-' :: d)).2⟩ : OptTok)) := by rw [hone]; simp
        obtain ⟨o, _, e⟩ := List.mem_map.mp this
        rw [← e] at hnone
        cases hnone
      · next hnil =>
        obtain ⟨o, ho⟩ := Option.isSome_iff_exists.mp (long_table l hl)
        rw [optionTuples_long _ d rfl, partitionEq_fst, List.map_eq_nil_iff, List.filter_eq_nil_iff] at hnil
        exact hnil (l, o) (dget_mem ho) ((startsWith_iff _ _).mpr hp)
  have hplain : parseOptional ('-' :: '-' :: d) ≠ .ok none := by
    intro e
    rcases (parseOptional_plain _).mp e with h | h | h | ⟨_, h⟩
    · simp at h
    · simp at h
    · obtain ⟨hr, _⟩ := number_noReading _ h
      exact hr l hl hp
    · exact h l hl hp
  cases he : parseOptional ('-' :: '-' :: d) with
  | error e => rw [(parseOptional_error _ e he).2]
  | ok t =>
    cases t with
    | none => exact absurd he hplain
    | some t => exact absurd he (fun h => hshape t h)

theorem classify_total (ss : List Str) (h : ∀ s ∈ beforeDashes ss, ¬ Ambiguous s) : ∃ ts, classify ss = .ok ts := by
  induction ss with
  | nil => exact ⟨[], rfl⟩
  | cons s ss ih =>
    by_cases hs : s = cs!"--"
    · exact ⟨_, by simp only [classify, if_pos hs]; rfl⟩
    · have hb : beforeDashes (s :: ss) = s :: beforeDashes ss := by
        rw [beforeDashes, List.takeWhile_cons_of_pos (by simpa using hs)]; rfl
      rw [hb] at h
      obtain ⟨ts, hts⟩ := ih (fun x hx => h x (by simp [hx]))
      cases hp : parseOptional s with
      | error e => exact absurd (parseOptional_error s e hp).1 (h s (by simp))
      | ok t =>
        cases t with
        | none => exact ⟨_, by simp only [classify, if_neg hs, hp, hts, bind, Except.bind]; rfl⟩
        | some t => exact ⟨_, by simp only [classify, if_neg hs, hp, hts, bind, Except.bind]; rfl⟩

theorem classify_ambiguous (ss : List Str) (s : Str) (hs : s ∈ beforeDashes ss) (ha : Ambiguous s) : classify ss = .error .usage := by
  induction ss with
  | nil => cases hs
  | cons x ss ih =>
    by_cases hx : x = cs!"--"
    · rw [beforeDashes, List.takeWhile_cons_of_neg (by simpa using hx)] at hs; cases hs
    · rw [beforeDashes, List.takeWhile_cons_of_pos (by simpa using hx)] at hs
      simp only [classify, if_neg hx, bind, Except.bind]
      rcases List.mem_cons.mp hs with rfl | hs
      · rw [parseOptional_ambiguous s ha]
      · cases hp : parseOptional x with
        | error e => simp only [(parseOptional_error x e hp).2]
        | ok t => simp only [ih hs]

/-- an argument whose action ends the program does so, whatever follows -/
theorem ending_option (o : Opt) (st : Stop) (hst : ∀ a, takeAction a (o, none) = .error st) (ht : o.takesValue = false) (s : Str) (t : OptTok)
    (hs : s ≠ cs!"--") (hp : parseOptional s = .ok (some t)) (ho : t.opt = some o) (hx : t.explicit = none)
    (items : List CliItem) (hok : ∀ i ∈ items, i.Ok digitZeros) (hcount : items.countP CliItem.isVmlinux ≤ 1) (rest : List Str)
    (hrest : ∀ x ∈ beforeDashes rest, ¬ Ambiguous x) : parseArgs (items.flatMap CliItem.args ++ s :: rest) = .error st := by
  obtain ⟨ts, hts⟩ := classify_total rest hrest
  have hc : classify (s :: rest) = .ok (.opt s t :: ts) := by simp only [classify, if_neg hs, hp, hts, bind, Except.bind]
  obtain ⟨pre, k, avail, hcl, hk, hloop⟩ := items_then (s :: rest) s t ts hc items true {} hok hcount
  unfold parseArgs
  simp only [hcl, bind, Except.bind]
  obtain ⟨m, hm⟩ : ∃ m, (pre ++ Tok.opt s t :: ts).length = m + 1 + k := ⟨(pre ++ Tok.opt s t :: ts).length - 1 - k, by simp; omega⟩
  rw [hm, hloop (m + 1)]
  unfold parseLoop
  simp only [List.any_cons, Tok.isOpt, Bool.true_or, if_true, consumeOptional, ho, hx, noExplicit, ht, Bool.false_eq_true, if_false, bind, Except.bind,
    takeActions, hst]

/-! ## why the program ended -/

theorem plain_letter (c : Char) (o : Opt) (hd : dget ['-', c] optionStrings = some o) (ht : o.takesValue = false) : c ∈ plainLetters := by
  have : ∀ c ∈ letters, ∀ o ∈ dget ['-', c] optionStrings, o.takesValue = false → c ∈ plainLetters := by decide +kernel
  exact this c (letter_mem c o hd) o hd ht

theorem noExplicit_error (o : Opt) (rest : List Tok) (e : Stop) (h : noExplicit o rest = .error e) : e = .usage := by
  unfold noExplicit at h
  split at h
  · split at h
    · cases h
    · cases h; rfl
  · cases h

/-- the actions of a group name the options of its letters; what fails is the usage -/
theorem withExplicit_acts (rest : List Tok) : ∀ (n : Nat) (o : Opt) (long sep : Bool) (x : Str),
    (∀ e, withExplicit rest n o long sep x = .error e → e = .usage) ∧
    ∀ c, withExplicit rest n o long sep x = .ok c → (∃ y, c.acts = [(o, some y)] ∧ o.takesValue = true) ∨
      (o.takesValue = false ∧ long = false ∧
      ∀ p ∈ c.acts, p.1.takesValue = false → p.1 = o ∨ ∃ u l v, x = u ++ l :: v ∧ (∀ z ∈ u, z ∈ plainLetters) ∧
        dget ['-', l] optionStrings = some p.1) := by
  intro n
  induction n with
  | zero =>
    intro o long sep x
    constructor
    · intro e h
      unfold withExplicit at h
      split at h
      · cases h
      split at h
      · cases h; rfl
      split at h
      · cases h; rfl
      · cases h; rfl
      · exact absurd ‹0 = _› (Nat.succ_ne_zero _).symm
    · intro c h
      unfold withExplicit at h
      split at h
      · next ht => cases h; exact .inl ⟨x, rfl, ht⟩
      split at h
      · cases h
      split at h
      · cases h
      · cases h
      · exact absurd ‹0 = _› (Nat.succ_ne_zero _).symm
  | succ n ih =>
    intro o long sep x
    constructor
    · intro e h
      unfold withExplicit at h
      split at h
      · cases h
      split at h
      · cases h; rfl
      split at h
      · cases h; rfl
      · cases h; rfl
      next n' y cs hy =>
      cases hy
      split at h
      · cases h; rfl
      split at h
      · cases h
      simp only [bind, Except.bind] at h
      split at h
      · split at h
        · next e' he => cases h; exact noExplicit_error _ _ _ he
        · cases h
      · split at h
        · next e' he => cases h; exact (ih _ _ _ _).1 _ he
        · cases h
      · split at h
        · next e' he => cases h; exact (ih _ _ _ _).1 _ he
        · cases h
    · intro c h
      unfold withExplicit at h
      split at h
      · next ht => cases h; exact .inl ⟨x, rfl, ht⟩
      next hto =>
      split at h
      · cases h
      next hlong =>
      split at h
      · cases h
      · cases h
      next n' y cs hy =>
      cases hy
      split at h
      · cases h
      refine .inr ⟨by simpa using hto, by simpa using hlong, ?_⟩
      split at h
      · cases h
        intro p hp ht
        simp at hp
        exact .inl (by rw [hp])
      next o' hd =>
      have step : ∀ (cs' : Str) (pre : Str) (r : Consumed), cs = pre ++ cs' → (pre = [] ∨ o'.takesValue = true ∨ ∀ p ∈ r.acts, p.1.takesValue = false → p.1 = o') →
          ((∃ y, r.acts = [(o', some y)] ∧ o'.takesValue = true) ∨ (o'.takesValue = false ∧
            ∀ p ∈ r.acts, p.1.takesValue = false → p.1 = o' ∨ ∃ u l v, cs' = u ++ l :: v ∧ (∀ z ∈ u, z ∈ plainLetters) ∧
              dget ['-', l] optionStrings = some p.1)) →
          ∀ p ∈ (o, none) :: r.acts, p.1.takesValue = false → p.1 = o ∨ ∃ u l v, y :: cs = u ++ l :: v ∧ (∀ z ∈ u, z ∈ plainLetters) ∧
            dget ['-', l] optionStrings = some p.1 := by
        intro cs' pre r hcs hpre hr p hp ht
        rcases List.mem_cons.mp hp with rfl | hp
        · exact .inl rfl
        · right
          rcases hr with ⟨z, hz, ht'⟩ | ⟨ht', hr⟩
          · rw [hz] at hp
            simp at hp
            rw [hp] at ht
            simp only [ht'] at ht
            cases ht
          · rcases hr p hp ht with e | ⟨u, l, v, e, hu, hl⟩
            · exact ⟨[], y, cs, rfl, by simp, by rw [hd, e]⟩
            · rcases hpre with rfl | hpre | hpre
              · refine ⟨y :: u, l, v, by rw [hcs, e]; rfl, ?_, hl⟩
                intro z hz
                rcases List.mem_cons.mp hz with rfl | hz
                · exact plain_letter z o' hd ht'
                · exact hu z hz
              · rw [ht'] at hpre; cases hpre
              · exact ⟨[], y, cs, rfl, by simp, by rw [hd, hpre p hp ht]⟩
      simp only [bind, Except.bind] at h
      split at h
      · split at h
        · cases h
        next r hr =>
        cases h
        refine step [] [] r rfl (.inl rfl) ?_
        rcases noExplicit_inv o' rest r hr with ⟨ht, rfl⟩ | ⟨ht, x, r', _, rfl⟩
        · exact .inr ⟨ht, by intro p hp _; simp at hp; exact .inl (by rw [hp])⟩
        · exact .inl ⟨x, rfl, ht⟩
      · next cs' =>
        split at h
        · cases h
        next r hr =>
        cases h
        have := (ih o' false true cs').2 r hr
        have hsep : o'.takesValue = true := by
          cases hto' : o'.takesValue with
          | true => rfl
          | false =>
            exfalso
            unfold withExplicit at hr
            simp only [hto', Bool.false_eq_true, if_false, Bool.true_or, if_true] at hr
            split at hr <;> cases hr
        refine step cs' ['='] r rfl (.inr (.inl hsep)) ?_
        rcases this with h1 | ⟨h1, _, h3⟩
        · exact .inl h1
        · exact .inr ⟨h1, h3⟩
      · split at h
        · cases h
        next r hr =>
        cases h
        refine step cs [] r rfl (.inl rfl) ?_
        rcases (ih o' false false cs).2 r hr with h1 | ⟨h1, _, h3⟩
        · exact .inl h1
        · exact .inr ⟨h1, h3⟩

theorem consume_error (s : Str) (t : OptTok) (rest : List Tok) (e : Stop) (h : consumeOptional s t rest = .error e) : e = .usage := by
  unfold consumeOptional at h
  split at h
  · cases h
  · split at h
    · exact (withExplicit_acts rest _ _ _ _ _).1 e h
    · exact noExplicit_error _ _ _ h

/-- an option without a value is acted upon only when the argument names it -/
theorem consume_names (s : Str) (t : OptTok) (rest : List Tok) (c : Consumed) (hr : ReadsAs s t) (h : consumeOptional s t rest = .ok c)
    (p : Opt × Option Str) (hp : p ∈ c.acts) (ht : p.1.takesValue = false) :
    (∃ full, full ∈ longNames ∧ dget full optionStrings = some p.1 ∧ Abbreviates s full) ∨
    ∃ u l v, s = '-' :: (u ++ l :: v) ∧ (∀ z ∈ u, z ∈ plainLetters) ∧ dget ['-', l] optionStrings = some p.1 := by
  have one : ∀ o : Opt, noExplicit o rest = .ok c → p.1 = o := by
    intro o h
    rcases noExplicit_inv o rest c h with ⟨_, rfl⟩ | ⟨_, x, r, _, rfl⟩
    · simp at hp; rw [hp]
    · simp at hp; rw [hp]
  have more : ∀ (n : Nat) (o : Opt) (long sep : Bool) (x : Str), withExplicit rest n o long sep x = .ok c → p.1 = o ∧ long = false ∨
      o.takesValue = false ∧ long = false ∧
      ∃ u l v, x = u ++ l :: v ∧ (∀ z ∈ u, z ∈ plainLetters) ∧ dget ['-', l] optionStrings = some p.1 := by
    intro n o long sep x h
    rcases (withExplicit_acts rest n o long sep x).2 c h with ⟨y, e, hto⟩ | ⟨h1, h2, h3⟩
    · rw [e] at hp
      simp at hp
      rw [hp] at ht
      simp only [hto] at ht
      cases ht
    · rcases h3 p hp ht with h3 | h3
      · exact .inl ⟨h3, h2⟩
      · exact .inr ⟨h1, h2, h3⟩
  cases hr with
  | letter y o hd =>
    have := one o h
    exact .inr ⟨[], y, [], rfl, by simp, by rw [this]; exact hd⟩
  | letterEq y o x hd =>
    have hw : ∀ n, withExplicit rest n o false true x = .ok c → o.takesValue = true := by
      intro n hw
      cases hto : o.takesValue with
      | true => rfl
      | false =>
        exfalso
        unfold withExplicit at hw
        simp only [hto, Bool.false_eq_true, if_false, Bool.true_or, if_true] at hw
        split at hw <;> cases hw
    simp only [consumeOptional, letter_flag y (letter_mem y o hd)] at h
    rcases more _ _ _ _ _ h with ⟨e, _⟩ | ⟨e, _⟩
    · rw [e] at ht; rw [hw _ h] at ht; cases ht
    · rw [hw _ h] at e; cases e
  | letterMore y o d t hd hne =>
    simp only [consumeOptional, letter_flag y (letter_mem y o hd)] at h
    rcases more _ _ _ _ _ h with ⟨e, _⟩ | ⟨hto, _, u, l, v, e, hu, hl⟩
    · exact .inr ⟨[], y, d :: t, rfl, by simp, by rw [e]; exact hd⟩
    · refine .inr ⟨y :: u, l, v, by rw [e]; rfl, ?_, hl⟩
      intro z hz
      rcases List.mem_cons.mp hz with rfl | hz
      · exact plain_letter z o hd hto
      · exact hu z hz
  | long _ full o hf hd ha => exact .inl ⟨full, hf, by rw [one o h]; exact hd, ha⟩
  | longEq name full o x hf hd ha =>
    simp only [consumeOptional, long_flag full hf] at h
    rcases more _ _ _ _ _ h with ⟨_, e⟩ | ⟨_, e, _⟩ <;> cases e

theorem takeActions_error (l : List (Opt × Option Str)) : ∀ (a : Args) (e : Stop), takeActions a l = .error e →
    ∃ p ∈ l, ∃ b, takeAction b p = .error e := by
  induction l with
  | nil => intro a e h; cases h
  | cons q l ih =>
    intro a e h
    simp only [takeActions, bind, Except.bind] at h
    split at h
    · next e' he => cases h; exact ⟨q, by simp, a, he⟩
    · next b hb =>
      obtain ⟨p, hp, hx⟩ := ih b e h
      exact ⟨p, by simp [hp], hx⟩

theorem loop_error : ∀ (n : Nat) (avail : Bool) (a : Args) (ex : List Str) (ts : List Tok) (e : Stop),
    parseLoop n avail a ex ts = .error e → e = .usage ∨ ∃ s t rest c, Tok.opt s t ∈ ts ∧ consumeOptional s t rest = .ok c ∧
      ∃ p ∈ c.acts, ∃ b, takeAction b p = .error e := by
  intro n
  have weaken : ∀ (ts ts' : List Tok) (e : Stop), (∀ x ∈ ts', x ∈ ts) →
      (e = .usage ∨ ∃ s t rest c, Tok.opt s t ∈ ts' ∧ consumeOptional s t rest = .ok c ∧ ∃ p ∈ c.acts, ∃ b, takeAction b p = .error e) →
      (e = .usage ∨ ∃ s t rest c, Tok.opt s t ∈ ts ∧ consumeOptional s t rest = .ok c ∧ ∃ p ∈ c.acts, ∃ b, takeAction b p = .error e) := by
    rintro ts ts' e hs (h | ⟨s, t, rest, c, h1, h2⟩)
    · exact .inl h
    · exact .inr ⟨s, t, rest, c, hs _ h1, h2⟩
  induction n with
  | zero =>
    intro avail a ex ts e h
    unfold parseLoop at h
    split at h
    · cases ts with
      | nil => cases h; exact .inl rfl
      | cons t ts => cases t <;> (cases h; exact .inl rfl)
    · cases h
  | succ n ih =>
    intro avail a ex ts e h
    unfold parseLoop at h
    split at h
    · cases ts with
      | nil => cases h; exact .inl rfl
      | cons t ts =>
        cases t with
        | opt s o =>
          simp only [bind, Except.bind] at h
          split at h
          · next e' he => cases h; exact .inl (consume_error _ _ _ _ he)
          next c hc =>
          split at h
          · next e' he =>
            cases h
            obtain ⟨p, hp, hx⟩ := takeActions_error _ _ _ he
            exact .inr ⟨s, o, ts, c, by simp, hc, p, hp, hx⟩
          · refine weaken _ _ _ ?_ (ih _ _ _ _ _ h)
            intro x hx
            split at hx
            · exact List.mem_cons_of_mem _ (List.mem_of_mem_drop hx)
            · exact List.mem_cons_of_mem _ hx
        | arg x =>
          simp only at h
          split at h
          · refine weaken _ _ _ ?_ (ih _ _ _ _ _ h)
            intro y hy
            unfold consumePositionals at hy
            split at hy <;> exact List.mem_of_mem_drop hy
          · exact weaken _ _ _ (fun y hy => (List.dropWhile_sublist _).mem hy) (ih _ _ _ _ _ h)
        | dashes =>
          simp only at h
          split at h
          · refine weaken _ _ _ ?_ (ih _ _ _ _ _ h)
            intro y hy
            unfold consumePositionals at hy
            split at hy <;> exact List.mem_of_mem_drop hy
          · exact weaken _ _ _ (fun y hy => (List.dropWhile_sublist _).mem hy) (ih _ _ _ _ _ h)
    · cases h

theorem classify_opt (ss : List Str) : ∀ ts, classify ss = .ok ts → ∀ s t, Tok.opt s t ∈ ts → s ∈ beforeDashes ss ∧ parseOptional s = .ok (some t) := by
  induction ss with
  | nil => intro ts h s t hm; cases h; cases hm
  | cons x ss ih =>
    intro ts h s t hm
    simp only [classify] at h
    split at h
    · cases h
      simp at hm
    · next hx =>
      rw [beforeDashes, List.takeWhile_cons_of_pos (by simpa using hx)]
      simp only [bind, Except.bind] at h
      split at h
      · cases h
      next t' ht =>
      split at h
      · cases h
      next ts' hts =>
      split at h
      · cases h
        rcases List.mem_cons.mp hm with e | hm
        · cases e
        · have := ih _ hts s t hm; exact ⟨List.mem_cons_of_mem _ this.1, this.2⟩
      · cases h
        rcases List.mem_cons.mp hm with e | hm
        · cases e; exact ⟨by simp, ht⟩
        · have := ih _ hts s t hm; exact ⟨List.mem_cons_of_mem _ this.1, this.2⟩

theorem parse_stop (argv : List Str) (e : Stop) (h : parseArgs argv = .error e) (hne : e ≠ .usage) :
    ∃ s ∈ beforeDashes argv, ∃ o b, takeAction b o = .error e ∧ (o.1.takesValue = false →
      (∃ full, full ∈ longNames ∧ dget full optionStrings = some o.1 ∧ Abbreviates s full) ∨
      ∃ u l v, s = '-' :: (u ++ l :: v) ∧ (∀ z ∈ u, z ∈ plainLetters) ∧ dget ['-', l] optionStrings = some o.1) := by
  unfold parseArgs at h
  simp only [bind, Except.bind] at h
  split at h
  · next e' he =>
    cases h
    exfalso
    have : ∀ ss, ∀ e, classify ss = .error e → e = .usage := by
      intro ss
      induction ss with
      | nil => intro e h; cases h
      | cons x ss ih =>
        intro e h
        simp only [classify] at h
        split at h
        · cases h
        simp only [bind, Except.bind] at h
        split at h
        · next e' he' => cases h; exact (parseOptional_error _ _ he').2
        split at h
        · next e' he' => cases h; exact ih _ he'
        split at h <;> cases h
    exact hne (this _ _ he)
  next ts hts =>
  split at h
  · next e' he =>
    cases h
    rcases loop_error _ _ _ _ _ _ he with h | ⟨s, t, rest, c, hm, hc, p, hp, b, hb⟩
    · exact absurd h hne
    · obtain ⟨h1, h2⟩ := classify_opt argv ts hts s t hm
      refine ⟨s, h1, p, b, hb, ?_⟩
      rcases parseOptional_inv s t h2 with hr | hnone
      · exact consume_names s t rest c hr hc p hp
      · simp only [consumeOptional, hnone] at hc
        cases hc
        cases hp
  · split at h
    · cases h
    · cases h; exact absurd rfl hne

end Verif
