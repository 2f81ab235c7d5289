import Verif.Lemmas.Build
/-! # Lemmas: the configuration -/
set_option autoImplicit false

namespace Verif
open Spec

/-! ## Phases -/

theorem AllPhases_append {ps qs : List (List Run → Prop)} {R S : List Run} (h : AllPhases ps R) (h' : AllPhases qs S) :
    AllPhases (ps ++ qs) (R ++ S) := by
  induction h with
  | next p ps R R' h1 _ ih => rw [List.append_assoc]; exact .next p (ps ++ qs) R (R' ++ S) h1 ih
  | done => exact h'

theorem Phases_append {ps qs : List (List Run → Prop)} {R S : List Run} (h : AllPhases ps R) (h' : Phases qs S) :
    Phases (ps ++ qs) (R ++ S) := by
  induction h with
  | next p ps R R' h1 _ ih => rw [List.append_assoc]; exact .next p (ps ++ qs) R (R' ++ S) h1 ih
  | done => exact h'

theorem Phases_left {ps : List (List Run → Prop)} {R : List Run} (qs : List (List Run → Prop)) (hne : ps ≠ [])
    (hq : ∀ q ∈ qs.head?, ∃ X, q X) (h : Phases ps R) : Phases (ps ++ qs) R := by
  induction h with
  | stop p ps R more h1 => exact .stop p (ps ++ qs) R more h1
  | next p ps R R' h1 h2 ih =>
    cases ps with
    | nil =>
      cases h2
      cases qs with
      | nil => exact .next p [] R [] h1 .done
      | cons q qs =>
        obtain ⟨X, hX⟩ := hq q rfl
        exact .next p (q :: qs) R [] h1 (.stop q qs [] X hX)
    | cons p' ps => exact .next p _ R R' h1 (ih (by simp))
  | done => exact absurd rfl hne

/-- the arguments of `make kernelversion` -/
def kvArgv : List Str := [cs!"make", cs!"kernelversion"]

/-- An action that, with a known version, goes through phases. -/
def StepOk (v : Ver) (m : BM Unit) (ps : List (List Run → Prop)) : Prop :=
  ∀ s : BState, s.version = some v → ∃ R, (m s).2.hist = s.hist ++ R ∧ (∀ r ∈ R, r.argv ≠ kvArgv) ∧ (m s).2.version = some v ∧
    ((m s).1 = .ok () → AllPhases ps R) ∧ (∀ e, (m s).1 = .error e → Phases ps R)

theorem StepOk.seq {v : Ver} {m m' : BM Unit} {ps qs : List (List Run → Prop)} (h : StepOk v m ps) (h' : StepOk v m' qs)
    (hne : ps ≠ []) (hq : ∀ q ∈ qs.head?, ∃ X, q X) : StepOk v (m >>= fun _ => m') (ps ++ qs) := by
  intro s hs
  obtain ⟨R, h1, h2, h3, h4, h5⟩ := h s hs
  rw [bm_bind]
  cases hm : m s with
  | mk res s' =>
    rw [hm] at h1 h3 h4 h5
    simp only at h1 h3 h4 h5
    cases res with
    | error e => exact ⟨R, h1, h2, h3, by simp, fun _ _ => Phases_left qs hne hq (h5 e rfl)⟩
    | ok u =>
      obtain ⟨S, g1, g2, g3, g4, g5⟩ := h' s' h3
      refine ⟨R ++ S, by simp only [g1, h1, List.append_assoc], ?_, g3, ?_, ?_⟩
      · intro r hr
        rcases List.mem_append.1 hr with hr | hr
        · exact h2 r hr
        · exact g2 r hr
      · intro hk; exact AllPhases_append (h4 rfl) (g4 hk)
      · intro e he; exact Phases_append (h4 rfl) (g5 e he)

/-- one phase from a predicate -/
theorem StepOk.one {v : Ver} {m : BM Unit} {p : List Run → Prop}
    (h : ∀ s : BState, s.version = some v → ∃ R, (m s).2.hist = s.hist ++ R ∧ (∀ r ∈ R, r.argv ≠ kvArgv) ∧ (m s).2.version = some v ∧
      ((m s).1 = .ok () → p R) ∧ ∃ more, p (R ++ more)) : StepOk v m [p] := by
  intro s hs
  obtain ⟨R, h1, h2, h3, h4, more, h5⟩ := h s hs
  refine ⟨R, h1, h2, h3, ?_, ?_⟩
  · intro hk
    have := AllPhases.next p [] R [] (h4 hk) .done
    simpa using this
  · intro e _; exact .stop p [] R more h5

/-! ## make -/

theorem makeArgv_ne_kv (w : World) (b : Builder) (t : Str) : makeArgv w b t ≠ kvArgv := by
  intro h
  have := congrArg List.length h
  unfold makeArgv kvArgv at this
  simp at this

theorem makeCall (w : World) (b : Builder) (t : Str) (input : Option Str) (mf : Str) :
    MakeCall b.kdir b.arch.kind.name t ⟨makeArgv w b t, some b.kdir, input, false, mf⟩ := by
  refine ⟨rfl, ([cs!"-j" ++ natRepr (max (w.ncpu - 1) 1), cs!"ARCH=" ++ b.arch.kind.name,
    cs!"KCFLAGS='-fdebug-prefix-map=" ++ (b.kdir.absolute w.cwd).str ++ cs!"=.'"] ++
    (match b.toolchainPrefix with | some (c :: cs) => [cs!"CROSS_COMPILE=" ++ (c :: cs)] | _ => []) ++
    (match b.outdir with | some o => [cs!"O=" ++ o.str] | none => [])), rfl, by simp, ?_⟩
  intro o ho
  simp only [List.mem_append, List.mem_cons, List.not_mem_nil, or_false] at ho
  rcases ho with ((rfl | rfl | rfl) | ho) | ho
  · exact Or.inl ⟨_, rfl⟩
  · right; simp
  · right; simp
  · right
    split at ho
    · simp only [List.mem_singleton] at ho; subst ho; simp
    · simp at ho
  · right
    split at ho
    · simp only [List.mem_singleton] at ho; subst ho; simp
    · simp at ho

theorem getVersion_cached (w : World) (b : Builder) (s : BState) (v : Ver) (h : s.version = some v) :
    getVersion w b s = (.ok v, s) := by
  unfold getVersion
  simp only [bm_bind, bm_get, h, bm_pure]

theorem sync_step (w : World) (b : Builder) (v : Ver) : StepOk v (syncConfig w b) [SyncCall b.kdir b.arch.kind.name v] := by
  refine StepOk.one ?_
  intro s hs
  have e : syncConfig w b s = (if verGe v [3, 7] then make w b cs!"olddefconfig" none
      else make w b cs!"oldconfig" (some (List.replicate 1000 '\n'))) s := by
    unfold syncConfig
    simp only [bm_bind, getVersion_cached w b s v hs]
  rw [e]
  have hv : verGe v [3, 7] = true ↔ [3, 7] ≤ v := verLe_iff _ _
  by_cases h : verGe v [3, 7] = true
  · have h' := hv.1 h
    simp only [h, if_true, make_eq]
    refine ⟨_, rfl, ?_, hs, ?_, [], ?_⟩
    · intro r hr; simp only [List.mem_singleton] at hr; subst hr; exact makeArgv_ne_kv w b _
    · intro _; exact ⟨_, rfl, by rw [if_pos h']; exact makeCall w b _ _ _⟩
    · exact ⟨_, List.append_nil _, by rw [if_pos h']; exact makeCall w b _ _ _⟩
  · have h' : ¬ [3, 7] ≤ v := fun q => h (hv.2 q)
    simp only [h, Bool.false_eq_true, if_false, make_eq]
    refine ⟨_, rfl, ?_, hs, ?_, [], ?_⟩
    · intro r hr; simp only [List.mem_singleton] at hr; subst hr; exact makeArgv_ne_kv w b _
    · intro _; exact ⟨_, rfl, by rw [if_neg h']; exact makeCall w b _ _ _⟩
    · exact ⟨_, List.append_nil _, by rw [if_neg h']; exact makeCall w b _ _ _⟩

theorem sync_inhabited (w : World) (b : Builder) (v : Ver) : ∃ X, SyncCall b.kdir b.arch.kind.name v X :=
  ⟨_, _, rfl, makeCall w b _ none []⟩

/-! ## scripts/config -/

theorem scriptsOf_append (a b : List KEvent) : scriptsOf (a ++ b) = scriptsOf a ++ scriptsOf b := by
  induction a with
  | nil => rfl
  | cons e es ih => cases e <;> simp [scriptsOf, ih]

theorem mem_scriptsOf {as : List Str} {es : List KEvent} : as ∈ scriptsOf es ↔ KEvent.script as ∈ es := by
  induction es with
  | nil => simp [scriptsOf]
  | cons e es ih => cases e <;> simp [scriptsOf, ih]

/-- the run of the script with arguments -/
def scriptRun (b : Builder) (s : BState) (as : List Str) : Run :=
  s.runOf ([cs!"./scripts/config", cs!"--file", b.configFile.str] ++ as) (some b.kdir) none

theorem scriptRun_call (b : Builder) (s : BState) (as : List Str) : ConfigCall b.kdir b.configFile as (scriptRun b s as) :=
  ⟨rfl, rfl⟩

theorem performK_spec (w : World) (b : Builder) (es : List KEvent) : ∀ s : BState,
    ∃ R k, (performK w b es s).2.hist = s.hist ++ R ∧ (performK w b es s).2.version = s.version ∧
      R = ((scriptsOf es).take k).map (scriptRun b s) ∧ ((performK w b es s).1 = .ok () → R = (scriptsOf es).map (scriptRun b s)) := by
  induction es with
  | nil => intro s; exact ⟨[], 0, by simp [performK, bm_pure], rfl, rfl, fun _ => rfl⟩
  | cons e es ih =>
    intro s
    cases e with
    | script as =>
      unfold performK
      simp only [bm_bind, ensureCommand_eq]
      have hr : ∀ X : List Run, (s.push (scriptRun b s as)).hist ++ X = s.hist ++ (scriptRun b s as :: X) := by
        intro X; simp [BState.push]
      have hstep : ∀ q, scriptRun b (s.push (scriptRun b s as)) q = scriptRun b s q := fun q => rfl
      have hf : scriptRun b (s.push (scriptRun b s as)) = scriptRun b s := funext hstep
      have hsr : s.runOf ([cs!"./scripts/config", cs!"--file", b.configFile.str] ++ as) (some b.kdir) none = scriptRun b s as := rfl
      rw [hsr]
      split
      · rename_i x s' hx
        obtain ⟨R, k, h1, h2, h3, h4⟩ := ih s'
        have hs' : s' = s.push (scriptRun b s as) := by
          simp only [Prod.mk.injEq] at hx
          exact hx.2.symm
        subst hs'
        rw [hf] at h3 h4
        refine ⟨scriptRun b s as :: R, k + 1, by rw [h1, hr], h2, ?_, ?_⟩
        · simp [scriptsOf, h3]
        · intro hk; simp [scriptsOf, h4 hk]
      · rename_i x s' hx
        have hs' : s' = s.push (scriptRun b s as) := by
          simp only [Prod.mk.injEq] at hx
          exact hx.2.symm
        subst hs'
        exact ⟨[scriptRun b s as], 1, rfl, rfl, by simp [scriptsOf], by simp⟩
    | warn o d =>
      obtain ⟨R, k, h⟩ := ih s
      exact ⟨R, k, h⟩
    | error o d =>
      obtain ⟨R, k, h⟩ := ih s
      exact ⟨R, k, h⟩

theorem performAll_spec (w : World) (b : Builder) (p : List KEvent × Res Unit) (s : BState) :
    ∃ R k, (performAll w b p s).2.hist = s.hist ++ R ∧ (performAll w b p s).2.version = s.version ∧
      R = ((scriptsOf p.1).take k).map (scriptRun b s) ∧
      ((performAll w b p s).1 = .ok () → p.2 = .ok () ∧ R = (scriptsOf p.1).map (scriptRun b s)) := by
  obtain ⟨R, k, h1, h2, h3, h4⟩ := performK_spec w b p.1 s
  unfold performAll
  rw [bm_bind]
  cases hp : performK w b p.1 s with
  | mk res s' =>
    rw [hp] at h1 h2 h4
    cases res with
    | error e => exact ⟨R, k, h1, h2, h3, by simp⟩
    | ok u => exact ⟨R, k, h1, h2, h3, fun hk => ⟨hk, h4 rfl⟩⟩

/-! ## Options -/

/-- an option read at the first `=` -/
def parseOpt (t : Str) : Opt := (t.takeWhile (· ≠ '='), (t.dropWhile (· ≠ '=')).tail)

theorem parseOpt_name (t : Str) : '=' ∉ (parseOpt t).1 := by
  intro h
  have := List.all_takeWhile (p := (· ≠ '=')) (l := t)
  have := List.all_eq_true.1 this '=' h
  simp at this

theorem parseOpt_text {t : Str} (h : '=' ∈ t) : Opt.text (parseOpt t) = t := by
  unfold Opt.text parseOpt
  induction t with
  | nil => cases h
  | cons c cs ih =>
    by_cases hc : c = '='
    · subst hc; simp
    · have := ih (by simpa [Ne.symm hc] using h)
      simp only [List.takeWhile_cons, List.dropWhile_cons]
      simp only [ne_eq, hc, not_false_eq_true, decide_true, if_true, List.cons_append]
      exact congrArg (c :: ·) this

theorem parseOpt_of_text (o : Opt) (h : '=' ∉ o.1) : parseOpt (Opt.text o) = o := by
  obtain ⟨n, x⟩ := o
  unfold Opt.text parseOpt
  simp only at h ⊢
  rw [takeWhile_append_stop _ _ _ (by intro c hc; have : c ≠ '=' := fun e => h (e ▸ hc); simpa using this) (by intro c cs e; cases e; decide),
    dropWhile_append_stop _ _ _ (by intro c hc; have : c ≠ '=' := fun e => h (e ▸ hc); simpa using this) (by intro c cs e; cases e; decide)]
  rfl

/-- options as texts, parsed -/
theorem parsed_options (opts : List Str) (h : ∀ t ∈ opts, '=' ∈ t) :
    (opts.map parseOpt).map Opt.text = opts ∧ (∀ o ∈ opts.map parseOpt, '=' ∉ o.1) ∧
    ∀ o, o ∈ opts.map parseOpt ↔ '=' ∉ o.1 ∧ Opt.text o ∈ opts := by
  refine ⟨?_, ?_, ?_⟩
  · rw [List.map_map]
    conv => rhs; rw [← List.map_id opts]
    apply List.map_congr_left
    intro t ht
    exact parseOpt_text (h t ht)
  · intro o ho
    obtain ⟨t, -, rfl⟩ := List.mem_map.1 ho
    exact parseOpt_name t
  · intro o
    constructor
    · intro ho
      obtain ⟨t, ht, rfl⟩ := List.mem_map.1 ho
      exact ⟨parseOpt_name t, by rw [parseOpt_text (h t ht)]; exact ht⟩
    · rintro ⟨h1, h2⟩
      exact List.mem_map.2 ⟨_, h2, parseOpt_of_text o h1⟩

/-- the argument list that sets options -/
theorem setArgs (opts : List Str) (h : ∀ t ∈ opts, '=' ∈ t) (hne : opts ≠ []) :
    ∃ args os, editConfig opts = ([.script args], .ok ()) ∧ decodeArgs args = some os ∧
      ∀ o, o ∈ os ↔ '=' ∉ o.1 ∧ Opt.text o ∈ opts := by
  obtain ⟨h1, h2, h3⟩ := parsed_options opts h
  obtain ⟨as, g1, g2⟩ := editConfig_ok (opts.map parseOpt) h2 (by simpa using hne)
  rw [h1] at g1
  exact ⟨as, _, g1, g2, h3⟩

theorem script_ne_kv (b : Builder) (s : BState) (L : List (List Str)) : ∀ r ∈ L.map (scriptRun b s), r.argv ≠ kvArgv := by
  intro r hr
  obtain ⟨as, -, rfl⟩ := List.mem_map.1 hr
  intro e
  have : (cs!"./scripts/config" : Str) = cs!"make" := by
    have := congrArg List.head? e
    simpa [scriptRun, BState.runOf, kvArgv] using this
  exact absurd this (by decide)

/-- Running events that are queries, then the call that sets the options. -/
theorem group_step (w : World) (b : Builder) (v : Ver) (opts : List Str) (want : Opt → Prop) (m : BM Unit)
    (hopt : ∀ t ∈ opts, '=' ∈ t) (hwant : ∀ o, '=' ∉ o.1 → (Opt.text o ∈ opts ↔ want o))
    (hm : ∀ s, (∃ p : List KEvent × Res Unit, m s = performAll w b p s ∧
        ((∀ as ∈ scriptsOf p.1, ∃ n, as = [cs!"-s", n]) ∧ (p.2 = .ok () → opts = [] ∧ scriptsOf p.1 = []) ∨
          opts ≠ [] ∧ ∃ Q args os, scriptsOf p.1 = Q ++ [args] ∧ (∀ as ∈ Q, ∃ n, as = [cs!"-s", n]) ∧ decodeArgs args = some os ∧
            ∀ o, o ∈ os ↔ '=' ∉ o.1 ∧ Opt.text o ∈ opts)) ∨ ∃ e, m s = (.error e, s)) :
    StepOk v m [SetsGroup b.kdir b.configFile want] := by
  have hnone : opts = [] → ∀ o, '=' ∉ o.1 → ¬ want o := by
    intro h o ho hw
    have := (hwant o ho).2 hw
    rw [h] at this
    cases this
  have hno : opts = [] → ∀ o, '=' ∉ o.1 → ¬ want o := hnone
  -- queries can always be completed
  have hcomplete : ∀ (s : BState) (Q : List (List Str)), (∀ as ∈ Q, ∃ n, as = [cs!"-s", n]) →
      ∃ more, SetsGroup b.kdir b.configFile want (Q.map (scriptRun b s) ++ more) := by
    intro s Q hQ
    have hq : ∀ q ∈ Q.map (scriptRun b s), ∃ n, ConfigCall b.kdir b.configFile [cs!"-s", n] q := by
      intro q hq
      obtain ⟨as, has, rfl⟩ := List.mem_map.1 hq
      obtain ⟨n, rfl⟩ := hQ as has
      exact ⟨n, scriptRun_call b s _⟩
    by_cases ho : opts = []
    · refine ⟨[scriptRun b s []], Or.inr ⟨_, _, [], [], rfl, hq, scriptRun_call b s _, rfl, ?_⟩⟩
      intro o
      simp only [List.not_mem_nil, false_iff, not_and]
      exact hno ho o
    · obtain ⟨args, os, -, h2, h3⟩ := setArgs opts hopt ho
      refine ⟨[scriptRun b s args], Or.inr ⟨_, _, args, os, rfl, hq, scriptRun_call b s _, h2, ?_⟩⟩
      intro o
      rw [h3]
      constructor
      · rintro ⟨a1, a2⟩; exact ⟨a1, (hwant o a1).1 a2⟩
      · rintro ⟨a1, a2⟩; exact ⟨a1, (hwant o a1).2 a2⟩
  refine StepOk.one ?_
  intro s hs
  rcases hm s with ⟨p, hp, hq⟩ | ⟨e, he⟩
  · obtain ⟨R, k, h1, h2, h3, h4⟩ := performAll_spec w b p s
    rw [hp]
    refine ⟨R, h1, ?_, h2.trans hs, ?_, ?_⟩
    · rw [h3]; exact script_ne_kv b s _
    · intro hk
      obtain ⟨g1, g2⟩ := h4 hk
      rcases hq with ⟨-, hq⟩ | ⟨ho, Q, args, os, hQ, hQs, hd, hos⟩
      · obtain ⟨ho, hsc⟩ := hq g1
        rw [hsc] at g2
        exact Or.inl ⟨g2, hno ho⟩
      · rw [hQ, List.map_append] at g2
        refine Or.inr ⟨_, _, args, os, g2, ?_, scriptRun_call b s _, hd, ?_⟩
        · intro q hq
          obtain ⟨as, has, rfl⟩ := List.mem_map.1 hq
          obtain ⟨n, rfl⟩ := hQs as has
          exact ⟨n, scriptRun_call b s _⟩
        · intro o
          rw [hos]
          constructor
          · rintro ⟨a1, a2⟩; exact ⟨a1, (hwant o a1).1 a2⟩
          · rintro ⟨a1, a2⟩; exact ⟨a1, (hwant o a1).2 a2⟩
    · rcases hq with ⟨hq, -⟩ | ⟨ho, Q, args, os, hQ, hQs, hd, hos⟩
      · rw [h3]
        exact hcomplete s _ (fun as has => hq as (List.mem_of_mem_take has))
      · rw [h3, hQ]
        by_cases hk : k ≤ Q.length
        · rw [List.take_append_of_le_length hk]
          exact hcomplete s _ (fun as has => hQs as (List.mem_of_mem_take has))
        · have : (Q ++ [args]).take k = Q ++ [args] := List.take_of_length_le (by simp; omega)
          rw [this, List.map_append]
          refine ⟨[], Or.inr ⟨_, _, args, os, List.append_nil _, ?_, scriptRun_call b s _, hd, ?_⟩⟩
          · intro q hq
            obtain ⟨as, has, rfl⟩ := List.mem_map.1 hq
            obtain ⟨n, rfl⟩ := hQs as has
            exact ⟨n, scriptRun_call b s _⟩
          · intro o
            rw [hos]
            constructor
            · rintro ⟨a1, a2⟩; exact ⟨a1, (hwant o a1).1 a2⟩
            · rintro ⟨a1, a2⟩; exact ⟨a1, (hwant o a1).2 a2⟩
  · rw [he]
    exact ⟨[], by simp, by simp, hs, by simp, hcomplete s [] (by simp)⟩

theorem group_inhabited (b : Builder) (opts : List Str) (want : Opt → Prop)
    (hopt : ∀ t ∈ opts, '=' ∈ t) (hwant : ∀ o, '=' ∉ o.1 → (Opt.text o ∈ opts ↔ want o)) :
    ∃ X, SetsGroup b.kdir b.configFile want X := by
  by_cases ho : opts = []
  · exact ⟨[], Or.inl ⟨rfl, fun o h hw => by have := (hwant o h).2 hw; rw [ho] at this; cases this⟩⟩
  · obtain ⟨args, os, -, h2, h3⟩ := setArgs opts hopt ho
    refine ⟨_, Or.inr ⟨[], scriptRun b {} args, args, os, rfl, by simp, scriptRun_call b _ _, h2, ?_⟩⟩
    intro o
    rw [h3]
    constructor
    · rintro ⟨a1, a2⟩; exact ⟨a1, (hwant o a1).1 a2⟩
    · rintro ⟨a1, a2⟩; exact ⟨a1, (hwant o a1).2 a2⟩

theorem applyOptions_step (w : World) (b : Builder) (v : Ver) (opts : List Str) (want : Opt → Prop)
    (hopt : ∀ t ∈ opts, '=' ∈ t) (hwant : ∀ o, '=' ∉ o.1 → (Opt.text o ∈ opts ↔ want o)) :
    StepOk v (applyOptions w b opts) [SetsGroup b.kdir b.configFile want] := by
  refine group_step w b v opts want _ hopt hwant ?_
  intro s
  refine Or.inl ⟨editConfig opts, rfl, ?_⟩
  by_cases ho : opts = []
  · subst ho
    left
    exact ⟨by simp [editConfig, scriptsOf], fun _ => ⟨rfl, rfl⟩⟩
  · obtain ⟨args, os, h1, h2, h3⟩ := setArgs opts hopt ho
    right
    refine ⟨ho, [], args, os, by rw [h1]; rfl, by simp, h2, h3⟩

/-- the script calls of the dependency check are queries -/
theorem checkDeps_queries (toset config : Dict Str Str) (defaults : List (List Str) → Str → Str) (work : List (Str × Str)) :
    ∀ before, ∀ as ∈ scriptsOf (checkDeps toset config defaults before work).1, ∃ n, as = [cs!"-s", n] := by
  have hone : ∀ before o d, ∀ as ∈ scriptsOf (checkDep toset config defaults before o d).1, ∃ n, as = [cs!"-s", n] := by
    intro before o d as has
    rw [mem_scriptsOf] at has
    have hd : ∀ n, ∀ as, KEvent.script as ∈ (depActual toset config defaults before n).1 → ∃ n, as = [cs!"-s", n] := by
      intro n as h
      unfold depActual at h
      simp only at h
      split at h
      · cases h
      · simp only [List.mem_singleton, KEvent.script.injEq] at h
        exact ⟨n, h⟩
    unfold checkDep at has
    split at has
    · cases has
    · rename_i name wanted heq
      simp only at has
      split at has
      · split at has
        · exact hd _ _ has
        · split at has
          · simp only [List.mem_append, List.mem_singleton, reduceCtorEq, or_false] at has
            exact hd _ _ has
          · simp only [List.mem_append, List.mem_singleton, reduceCtorEq, or_false] at has
            exact hd _ _ has
      · exact hd _ _ has
  induction work with
  | nil => simp [checkDeps, scriptsOf]
  | cons p rest ih =>
    obtain ⟨o, d⟩ := p
    intro before as has
    simp only [checkDeps] at has
    split at has
    · rename_i evs x hx
      have := hone before o d as
      rw [hx] at this
      exact this has
    · rename_i evs hx
      simp only [scriptsOf_append, List.mem_append] at has
      rcases has with has | has
      · have := hone before o d as
        rw [hx] at this
        exact this has
      · exact ih _ as has

/-- answers only matter after queries -/
theorem checkDeps_before (toset config : Dict Str Str) (d1 d2 : List (List Str) → Str → Str) (work : List (Str × Str))
    (h : ∀ before n, (∀ as ∈ before, ∃ n, as = [cs!"-s", n]) → d1 before n = d2 before n) :
    ∀ before, (∀ as ∈ before, ∃ n, as = [cs!"-s", n]) → checkDeps toset config d1 before work = checkDeps toset config d2 before work := by
  induction work with
  | nil => intro _ _; rfl
  | cons p rest ih =>
    obtain ⟨o, d⟩ := p
    intro before hb
    have h1 : checkDep toset config d1 before o d = checkDep toset config d2 before o d := by
      unfold checkDep
      split
      · rfl
      · rename_i name wanted _
        have : depActual toset config d1 before name = depActual toset config d2 before name := by
          unfold depActual
          rw [h before name hb]
        rw [this]
    have hq := checkDeps_queries toset config d2 [(o, d)] before
    simp only [checkDeps, h1]
    simp only [checkDeps] at hq
    cases hx : checkDep toset config d2 before o d with
    | mk evs r =>
      rw [hx] at hq
      cases r with
      | error x => rfl
      | ok u =>
        simp only [List.append_nil] at hq
        simp only
        rw [ih (before ++ scriptsOf evs) (by
          intro as has
          rcases List.mem_append.1 has with has | has
          · exact hb as has
          · exact hq as has)]

theorem editConfigCheckDeps_before (lines : List Str) (d1 d2 : List (List Str) → Str → Str) (options : Dict Str (List Str))
    (h : ∀ before n, (∀ as ∈ before, ∃ n, as = [cs!"-s", n]) → d1 before n = d2 before n) :
    editConfigCheckDeps lines d1 options = editConfigCheckDeps lines d2 options := by
  unfold editConfigCheckDeps
  split
  · rfl
  · split
    · rfl
    · split
      · rfl
      · rw [checkDeps_before _ _ d1 d2 _ h [] (by simp)]

theorem applyOptionsCheck_step (w : World) (b : Builder) (v : Ver) (options : Dict Str (List Str)) (want : Opt → Prop)
    (hopt : ∀ t ∈ options.map Prod.fst, '=' ∈ t) (hwant : ∀ o, '=' ∉ o.1 → (Opt.text o ∈ options.map Prod.fst ↔ want o)) :
    StepOk v (applyOptionsCheck w b options) [SetsGroup b.kdir b.configFile want] := by
  refine group_step w b v (options.map Prod.fst) want _ hopt hwant ?_
  intro s
  unfold applyOptionsCheck
  by_cases ho : options = []
  · subst ho
    left
    refine ⟨([], .ok ()), rfl, Or.inl ⟨by simp [scriptsOf], fun _ => ⟨rfl, rfl⟩⟩⟩
  · rw [if_neg (by simpa using ho)]
    simp only [bm_bind, bm_get, checkEvents]
    cases w.readLines s.hist (b.configFile.absolute w.cwd) with
    | none => right; exact ⟨_, rfl⟩
    | some lines =>
      left
      refine ⟨_, rfl, ?_⟩
      have hne : options.map Prod.fst ≠ [] := by simpa using ho
      obtain ⟨args, os, h1, h2, h3⟩ := setArgs _ hopt hne
      unfold editConfigCheckDeps
      beta_reduce
      rw [if_neg (by simpa using ho)]
      split
      · left; exact ⟨by simp [scriptsOf], by simp⟩
      · split
        · left; exact ⟨by simp [scriptsOf], by simp⟩
        · rename_i toset _ _ config _
          have hq := checkDeps_queries toset config (fun before n => w.output (s.hist ++ before.map (configRun b s))
            (configRun b s [cs!"-s", n])) (options.flatMap fun od => od.2.map fun d => (od.1, d)) []
          split
          · rename_i evs x hx
            rw [hx] at hq
            left; exact ⟨hq, by simp⟩
          · rename_i evs hx
            rw [hx] at hq
            right
            refine ⟨hne, scriptsOf evs, args, os, ?_, hq, h2, h3⟩
            rw [h1]
            simp only [scriptsOf_append]
            rfl

/-! ## Tables -/

theorem dkeys_iff {κ β : Type} [DecidableEq κ] (d : Dict κ β) (k : κ) : k ∈ d.map Prod.fst ↔ dget k d ≠ none := by
  rw [ne_eq, dget_eq_none_iff, not_not]

theorem dictTable_keys (entries : List (VEntry Str (List Str))) (v : Ver) (k : Str) :
    k ∈ ((VDict.init entries).getItem v).1.map Prod.fst ↔ ∃ deps, Covers entries v k deps := by
  rw [dkeys_iff]
  have := history_absent entries [] v k
  simp only [runOps, beforeFirstGet, addsOf, List.append_nil] at this
  rw [ne_eq, this]
  unfold Covers
  constructor
  · intro h
    simp only [not_forall, not_not] at h
    obtain ⟨s, e, x, h1, h2⟩ := h
    exact ⟨x, s, e, h1, h2⟩
  · rintro ⟨x, s, e, h1, h2⟩ h
    exact h s e x h1 h2

theorem listTable_mem (tab : List (Ver × Ver × List Str)) (v : Ver) (o : Opt) :
    Opt.text o ∈ ((VList.init tab).getItem v).1 ↔ InListTable tab v o := vlist_mem tab v _

theorem listTable_eq {tab : List (Ver × Ver × List Str)} (h : ∀ e ∈ tab, ∀ t ∈ e.2.2, '=' ∈ t) (v : Ver) :
    ∀ t ∈ ((VList.init tab).getItem v).1, '=' ∈ t := by
  intro t ht
  obtain ⟨s, e, vals, h1, -, -, h2⟩ := (vlist_mem tab v t).1 ht
  exact h _ h1 t h2

theorem dictTable_eq {tab : List (VEntry Str (List Str))} (h : ∀ e ∈ tab, '=' ∈ e.2.2.1) (v : Ver) :
    ∀ t ∈ ((VDict.init tab).getItem v).1.map Prod.fst, '=' ∈ t := by
  intro t ht
  obtain ⟨deps, s, e, h1, -⟩ := (dictTable_keys tab v t).1 ht
  exact h _ h1

/-! ## All of it -/

theorem targets_step (w : World) (b : Builder) (ts : List Str) : ∀ s : BState, s.version = none →
    ∃ R, ((ts.forM fun t => make w b t none) s).2.hist = s.hist ++ R ∧ (∀ r ∈ R, r.argv ≠ kvArgv) ∧
      ((ts.forM fun t => make w b t none) s).2.version = none ∧
      (((ts.forM fun t => make w b t none) s).1 = .ok () → MakeCalls b.kdir b.arch.kind.name ts R) ∧
      ∃ more, MakeCalls b.kdir b.arch.kind.name ts (R ++ more) := by
  induction ts with
  | nil =>
    intro s hs
    exact ⟨[], (List.append_nil _).symm, by simp, hs, fun _ => .nil, [], .nil⟩
  | cons t ts ih =>
    intro s hs
    have e : ((t :: ts).forM fun t => make w b t none) s = (make w b t none >>= fun _ => ts.forM fun t => make w b t none) s := rfl
    rw [e, bm_bind, make_eq]
    have hc := makeCall w b t none s.makefile
    have hrun : s.runOf (makeArgv w b t) (some b.kdir) none = ⟨makeArgv w b t, some b.kdir, none, false, s.makefile⟩ := rfl
    rw [hrun]
    have hall : ∀ us : List Str, ∃ more, MakeCalls b.kdir b.arch.kind.name us more := by
      intro us
      induction us with
      | nil => exact ⟨[], .nil⟩
      | cons u us ih => obtain ⟨m, hm⟩ := ih; exact ⟨_ :: m, .cons (makeCall w b u none []) hm⟩
    split
    · rename_i x s' hx
      have hs' : s' = s.push ⟨makeArgv w b t, some b.kdir, none, false, s.makefile⟩ := by
        simp only [Prod.mk.injEq] at hx; exact hx.2.symm
      obtain ⟨R, h1, h2, h3, h4, more, h5⟩ := ih s' (by rw [hs']; exact hs)
      refine ⟨⟨makeArgv w b t, some b.kdir, none, false, s.makefile⟩ :: R, ?_, ?_, h3, fun hk => .cons hc (h4 hk), more, .cons hc h5⟩
      · rw [h1, hs']; simp [BState.push]
      · intro r hr
        rcases List.mem_cons.1 hr with rfl | hr
        · exact makeArgv_ne_kv w b t
        · exact h2 r hr
    · rename_i x s' hx
      have hs' : s' = s.push ⟨makeArgv w b t, some b.kdir, none, false, s.makefile⟩ := by
        simp only [Prod.mk.injEq] at hx; exact hx.2.symm
      subst hs'
      obtain ⟨more, hm⟩ := hall ts
      refine ⟨[⟨makeArgv w b t, some b.kdir, none, false, s.makefile⟩], rfl, ?_, hs, by simp, more, .cons hc hm⟩
      intro r hr
      simp only [List.mem_singleton] at hr
      subst hr
      exact makeArgv_ne_kv w b t

/-- asking `make` for the version -/
theorem getVersion_fresh (w : World) (b : Builder) (s : BState) (h : s.version = none) :
    (∃ e, getVersion w b s = (.error e, s.push (s.runOf kvArgv (some b.kdir) none))) ∨
    ∃ v, versionFromStr (w.output s.hist (s.runOf kvArgv (some b.kdir) none)) = some v ∧
      getVersion w b s = (.ok v, { s.push (s.runOf kvArgv (some b.kdir) none) with version := some v }) := by
  unfold getVersion
  simp only [bm_bind, bm_get, h, ensureCommand_eq]
  rw [show s.runOf [cs!"make", cs!"kernelversion"] (some b.kdir) none = s.runOf kvArgv (some b.kdir) none from rfl]
  split
  · rename_i x s' hx
    simp only [Prod.mk.injEq] at hx
    obtain ⟨hx, rfl⟩ := hx
    have hx' : x = w.output s.hist (s.runOf kvArgv (some b.kdir) none) := by
      split at hx
      · cases hx
      · split at hx
        · simp only [Except.ok.injEq] at hx; exact hx.symm
        · cases hx
    cases hv : versionFromStr x with
    | none => left; exact ⟨_, rfl⟩
    | some v => right; exact ⟨v, by rw [← hx']; exact hv, rfl⟩
  · rename_i x s' hx
    simp only [Prod.mk.injEq] at hx
    obtain ⟨hx, rfl⟩ := hx
    left
    exact ⟨_, rfl⟩

theorem StepOk.version {v : Ver} {w : World} {b : Builder} {f : Ver → BM Unit} {ps : List (List Run → Prop)}
    (h : StepOk v (f v) ps) : StepOk v (getVersion w b >>= f) ps := by
  intro s hs
  rw [bm_bind, getVersion_cached w b s v hs]
  exact h s hs

/-- the part after the version is known -/
def configureRest (w : World) (b : Builder) (v : Ver) : BM Unit := do
  applyOptions w b ((VList.init kconfigDebuggingTable).getItem v).1
  syncConfig w b
  let v ← getVersion w b
  applyOptions w b ((VList.init kconfigCompatibilityTable).getItem v).1
  syncConfig w b
  let v ← getVersion w b
  applyOptionsCheck w b ((VDict.init kconfigMoreSyscallsTable).getItem v).1
  syncConfig w b
  let v ← getVersion w b
  applyOptionsCheck w b (archKconfig b.store b.arch v)
  syncConfig w b

theorem configure_unfold (w : World) (b : Builder) (s : BState) :
    configure w b s = ((b.arch.configTargets.forM fun t => make w b t none) >>= fun _ => getVersion w b >>= configureRest w b)
      { s with version := none } := rfl

theorem debugging_eq : ∀ e ∈ kconfigDebuggingTable, ∀ t ∈ e.2.2, '=' ∈ t := by decide +kernel
theorem compatibility_eq : ∀ e ∈ kconfigCompatibilityTable, ∀ t ∈ e.2.2, '=' ∈ t := by decide +kernel
theorem moreSyscalls_eq : ∀ e ∈ kconfigMoreSyscallsTable, '=' ∈ e.2.2.1 := by decide +kernel

theorem rest_step (w : World) (b : Builder) (v : Ver) (archTable : List (VEntry Str (List Str)))
    (hstore : b.store b.arch.kind = VDict.init archTable) (harch : ∀ e ∈ archTable, '=' ∈ e.2.2.1) :
    StepOk v (configureRest w b v)
      ((configPhases b.kdir b.configFile b.arch.kind.name b.arch.configTargets archTable v).drop 2) := by
  have a1 := applyOptions_step w b v _ (InListTable kconfigDebuggingTable v) (listTable_eq debugging_eq v)
    (fun o _ => listTable_mem _ v o)
  have a2 := applyOptions_step w b v _ (InListTable kconfigCompatibilityTable v) (listTable_eq compatibility_eq v)
    (fun o _ => listTable_mem _ v o)
  have a3 := applyOptionsCheck_step w b v _ (InDictTable kconfigMoreSyscallsTable v) (dictTable_eq moreSyscalls_eq v)
    (fun o _ => dictTable_keys _ v _)
  have hk : archKconfig b.store b.arch v = ((VDict.init archTable).getItem v).1 := by unfold archKconfig; rw [hstore]
  have a4 := applyOptionsCheck_step w b v (archKconfig b.store b.arch v) (InDictTable archTable v) (by rw [hk]; exact dictTable_eq harch v)
    (fun o _ => by rw [hk]; exact dictTable_keys _ v _)
  have i2 := group_inhabited b _ (InListTable kconfigCompatibilityTable v) (listTable_eq compatibility_eq v)
    (fun o _ => listTable_mem _ v o)
  have i3 := group_inhabited b _ (InDictTable kconfigMoreSyscallsTable v) (dictTable_eq moreSyscalls_eq v)
    (fun o _ => dictTable_keys _ v _)
  have i4 := group_inhabited b _ (InDictTable archTable v) (dictTable_eq harch v) (fun o _ => dictTable_keys _ v _)
  have sy := sync_step w b v
  have si := sync_inhabited w b v
  have hh : ∀ (p : List Run → Prop) (ps : List (List Run → Prop)), (∃ X, p X) → ∀ q ∈ (p :: ps).head?, ∃ X, q X := by
    intro p ps hp q hq
    simp only [List.head?_cons, Option.mem_def, Option.some.injEq] at hq
    subst hq; exact hp
  have t4 := StepOk.version (w := w) (b := b) (f := fun v' => applyOptionsCheck w b (archKconfig b.store b.arch v') >>= fun _ => syncConfig w b)
    (a4.seq sy (by simp) (hh _ _ si))
  have t3 := StepOk.version (w := w) (b := b) (f := fun v' => applyOptionsCheck w b ((VDict.init kconfigMoreSyscallsTable).getItem v').1 >>= fun _ => syncConfig w b >>= fun _ =>
    getVersion w b >>= fun v' => applyOptionsCheck w b (archKconfig b.store b.arch v') >>= fun _ => syncConfig w b)
    (a3.seq (sy.seq t4 (by simp) (hh _ _ i4)) (by simp) (hh _ _ si))
  have t2 := StepOk.version (w := w) (b := b) (f := fun v' => applyOptions w b ((VList.init kconfigCompatibilityTable).getItem v').1 >>= fun _ => syncConfig w b >>= fun _ =>
    getVersion w b >>= fun v' => applyOptionsCheck w b ((VDict.init kconfigMoreSyscallsTable).getItem v').1 >>= fun _ => syncConfig w b >>= fun _ =>
    getVersion w b >>= fun v' => applyOptionsCheck w b (archKconfig b.store b.arch v') >>= fun _ => syncConfig w b)
    (a2.seq (sy.seq t3 (by simp) (hh _ _ i3)) (by simp) (hh _ _ si))
  exact a1.seq (sy.seq t2 (by simp) (hh _ _ i2)) (by simp) (hh _ _ si)

theorem configure_spec (w : World) (b : Builder) (s : BState) (archTable : List (VEntry Str (List Str)))
    (hstore : b.store b.arch.kind = VDict.init archTable) (harch : ∀ e ∈ archTable, '=' ∈ e.2.2.1) :
    ∃ R v, (configure w b s).2.hist = s.hist ++ R ∧ VersionPrinted w.output s.hist v R ∧
      ((configure w b s).1 = .ok () →
        AllPhases (configPhases b.kdir b.configFile b.arch.kind.name b.arch.configTargets archTable v) R) ∧
      (∀ e, (configure w b s).1 = .error e →
        Phases (configPhases b.kdir b.configFile b.arch.kind.name b.arch.configTargets archTable v) R) := by
  rw [configure_unfold, bm_bind]
  obtain ⟨R, h1, h2, h3, h4, more, h5⟩ := targets_step w b b.arch.configTargets { s with version := none } rfl
  have hno : ∀ (A : List Run) v, (∀ r ∈ A, r.argv ≠ kvArgv) → VersionPrinted w.output s.hist v A := by
    intro A v hA pre r post e hr _
    exact absurd hr (hA r (by rw [e]; simp))
  cases hm : (b.arch.configTargets.forM fun t => make w b t none) { s with version := none } with
  | mk res s' =>
    rw [hm] at h1 h3 h4
    simp only at h1 h3 h4
    cases res with
    | error e => exact ⟨R, [], h1, hno _ _ h2, by simp, fun _ _ => .stop _ _ R more h5⟩
    | ok u =>
      simp only [bm_bind]
      have h4 := h4 rfl
      have hkv : VersionCall b.kdir [s'.runOf kvArgv (some b.kdir) none] := ⟨_, rfl, rfl, rfl⟩
      have hcall : (s'.runOf kvArgv (some b.kdir) none).argv = [cs!"make", cs!"kernelversion"] := rfl
      rcases getVersion_fresh w b s' h3 with ⟨e, he⟩ | ⟨v, hv, he⟩
      · rw [he]
        refine ⟨R ++ [s'.runOf kvArgv (some b.kdir) none], [], by simp [BState.push, h1], ?_, by simp, ?_⟩
        · intro pre r post e hr hp
          exfalso
          rcases List.append_eq_append_iff.1 e with ⟨c, h6, h7⟩ | ⟨c, h6, h7⟩
          · cases c with
            | nil => simp only [List.nil_append, List.cons.injEq] at h7; exact hp h7.2.symm
            | cons x xs => simp at h7
          · cases c with
            | nil =>
              simp only [List.nil_append, List.cons.injEq] at h7
              exact hp h7.2
            | cons x xs =>
              simp only [List.cons_append, List.cons.injEq] at h7
              exact h2 r (by rw [h6, ← h7.1]; simp) hr
        · intro _ _
          exact .next _ _ R _ h4 (.stop _ _ _ [] hkv)
      · rw [he]
        obtain ⟨S, g1, g2, g3, g4, g5⟩ := rest_step w b v archTable hstore harch
          { s'.push (s'.runOf kvArgv (some b.kdir) none) with version := some v } rfl
        refine ⟨R ++ ([s'.runOf kvArgv (some b.kdir) none] ++ S), v, by rw [g1]; simp [BState.push, h1], ?_, ?_, ?_⟩
        · intro pre r post e hr hp
          rcases List.append_eq_append_iff.1 e with ⟨c, h6, h7⟩ | ⟨c, h6, h7⟩
          · cases c with
            | nil =>
              simp only [List.nil_append, List.cons_append, List.cons.injEq] at h7
              rw [h6, ← h7.1]
              simp only [List.append_nil]
              rw [← h1]; exact hv
            | cons x xs =>
              simp only [List.cons_append, List.nil_append, List.cons.injEq] at h7
              exact absurd hr (g2 r (by rw [h7.2]; simp))
          · cases c with
            | nil =>
              simp only [List.nil_append, List.cons_append, List.cons.injEq] at h7
              simp only [List.append_nil] at h6
              rw [← h6, h7.1, ← h1]; exact hv
            | cons x xs =>
              simp only [List.cons_append, List.cons.injEq] at h7
              exact absurd hr (h2 r (by rw [h6, ← h7.1]; simp))
        · intro hk
          exact .next _ _ R _ h4 (.next _ _ _ S hkv (g4 hk))
        · intro e hk
          exact .next _ _ R _ h4 (.next _ _ _ S hkv (g5 e hk))

end Verif
