import Verif.Model.Utils
import Verif.Lemmas.Py
import Verif.Lemmas.Utf8
import Verif.Spec.Utils
import Mathlib.Data.List.Induction
/-! Helper lemmas for the utilities. -/
set_option autoImplicit false

namespace Verif
open Spec

theorem noprefix_cases (s : Str) (pxs : List Str) :
    ((∀ p ∈ pxs, ¬ p <+: s) ∧ noprefix s pxs = s) ∨
    (∃ pre p post, pxs = pre ++ p :: post ∧ (∀ q ∈ pre, ¬ q <+: s) ∧ p ++ noprefix s pxs = s) := by
  induction pxs with
  | nil => left; simp [noprefix]
  | cons px pxs ih =>
    unfold noprefix
    by_cases h : startsWith s px
    · right
      refine ⟨[], px, pxs, rfl, by simp, ?_⟩
      rw [if_pos h]
      exact append_drop_of_prefix ((startsWith_iff _ _).1 h)
    · rw [if_neg h]
      rw [startsWith_iff] at h
      rcases ih with ⟨h1, h2⟩ | ⟨pre, p, post, rfl, h2, h3⟩
      · left; refine ⟨?_, h2⟩
        intro p hp
        rcases List.mem_cons.1 hp with rfl | hp
        · exact h
        · exact h1 p hp
      · right
        refine ⟨px :: pre, p, post, rfl, ?_, h3⟩
        intro q hq
        rcases List.mem_cons.1 hq with rfl | hq
        · exact h
        · exact h2 q hq

theorem nosuffix_cases (s : Str) (sxs : List Str) (hne : ∀ p ∈ sxs, p ≠ []) :
    ((∀ p ∈ sxs, ¬ p <:+ s) ∧ nosuffix s sxs = s) ∨
    (∃ pre p post, sxs = pre ++ p :: post ∧ (∀ q ∈ pre, ¬ q <:+ s) ∧ nosuffix s sxs ++ p = s) := by
  induction sxs with
  | nil => left; simp [nosuffix]
  | cons px pxs ih =>
    unfold nosuffix
    by_cases h : endsWith s px
    · right
      refine ⟨[], px, pxs, rfl, by simp, ?_⟩
      rw [if_pos h]
      have hp : px.length ≠ 0 := by
        have := hne px (by simp)
        simpa using this
      unfold sliceToNeg
      rw [if_neg hp]
      exact take_append_of_suffix ((endsWith_iff _ _).1 h)
    · rw [if_neg h]
      rw [endsWith_iff] at h
      rcases ih (fun p hp => hne p (by simp [hp])) with ⟨h1, h2⟩ | ⟨pre, p, post, rfl, h2, h3⟩
      · left; refine ⟨?_, h2⟩
        intro p hp
        rcases List.mem_cons.1 hp with rfl | hp
        · exact h
        · exact h1 p hp
      · right
        refine ⟨px :: pre, p, post, rfl, ?_, h3⟩
        intro q hq
        rcases List.mem_cons.1 hq with rfl | hq
        · exact h
        · exact h2 q hq

/-! ## version order vs core lexicographic order -/

theorem verLt_iff (a b : Ver) : verLt a b = true ↔ a < b := by
  induction a generalizing b with
  | nil => cases b <;> simp [verLt]
  | cons a as ih =>
    cases b with
    | nil => simp [verLt]
    | cons b bs =>
      simp only [verLt, List.cons_lt_cons_iff]
      by_cases h : a = b
      · subst h; simp [ih]
      · simp [h]

theorem verLe_iff (a b : Ver) : verLe a b = true ↔ a ≤ b := by
  have h := verLt_eq_not_verLe b a
  have h2 := verLt_iff b a
  rw [← not_lt]
  cases h3 : verLe a b <;> simp [h3] at h <;> simp [h] at h2 <;> simp [h2]

theorem inRange_iff (s e v : Ver) : inRange s e v = true ↔ s ≤ v ∧ v < e := by
  simp [inRange, verLe_iff, verLt_iff]

/-! ## VersionedDict -/
section VDict
variable {κ β : Type} [DecidableEq κ]

/-- state after a log of additions -/
def addLog (d : VDict κ β) (log : List (VEntry κ β)) : VDict κ β :=
  log.foldl (fun d e => d.add e.1 e.2.1 e.2.2.1 e.2.2.2) d

theorem addLog_append (d : VDict κ β) (l1 l2 : List (VEntry κ β)) :
    addLog d (l1 ++ l2) = addLog (addLog d l1) l2 := by simp [addLog]

/-- `x` is the last value assigned to key `k` of range `(s, e)` -/
def LastIn (log : List (VEntry κ β)) (s e : Ver) (k : κ) (x : β) : Prop :=
  ∃ pre post, log = pre ++ (s, e, k, x) :: post ∧ ∀ y, (s, e, k, y) ∉ post

theorem lastIn_snoc (log : List (VEntry κ β)) (s e s' e' : Ver) (k k' : κ) (x x' : β) :
    LastIn (log ++ [(s', e', k', x')]) s e k x ↔
      ((s', e') = (s, e) ∧ k' = k ∧ x' = x) ∨
      (¬ ((s', e') = (s, e) ∧ k' = k) ∧ LastIn log s e k x) := by
  constructor
  · rintro ⟨pre, post, h, hp⟩
    rcases List.eq_nil_or_concat post with rfl | ⟨post', z, rfl⟩
    · have h2 := List.append_inj' h (by rfl)
      obtain ⟨_, h3⟩ := h2
      simp at h3
      left; simp [h3]
    · rw [List.concat_eq_append] at h hp
      rw [← List.cons_append, ← List.append_assoc] at h
      obtain ⟨h2, h3⟩ := List.append_inj' h (by rfl)
      simp at h3
      subst h3
      right
      refine ⟨?_, pre, post', h2, ?_⟩
      · rintro ⟨h4, h5⟩
        cases h4; subst h5
        exact hp x' (by simp)
      · intro y hy; exact hp y (by simp [hy])
  · rintro (⟨h1, h2, h3⟩ | ⟨h1, pre, post, rfl, hp⟩)
    · cases h1; subst h2; subst h3
      exact ⟨log, [], by simp, by simp⟩
    · refine ⟨pre, post ++ [(s', e', k', x')], by simp, ?_⟩
      intro y hy
      rcases List.mem_append.1 hy with hy | hy
      · exact hp y hy
      · simp at hy
        exact h1 ⟨by rw [← hy.1, ← hy.2.1], hy.2.2.1.symm⟩

/-- invariant tying the `versions` dict to the log of additions -/
structure VInv (log : List (VEntry κ β)) (vs : Dict (Ver × Ver) (Dict κ β)) : Prop where
  nodup : DNodup vs
  inner : ∀ r d, (r, d) ∈ vs → DNodup d
  keys : ∀ r, r ∈ vs.map Prod.fst ↔ ∃ k x, (r.1, r.2, k, x) ∈ log
  order : vs.Pairwise (fun a b => created log a.1 < created log b.1)
  vals : ∀ s e d, ((s, e), d) ∈ vs → ∀ k x, dget k d = some x ↔ LastIn log s e k x

theorem created_lt_of_mem (log : List (VEntry κ β)) (r : Ver × Ver) (k : κ) (x : β)
    (h : (r.1, r.2, k, x) ∈ log) : created log r < log.length := by
  unfold created
  rw [List.findIdx_lt_length]
  exact ⟨_, h, by simp⟩

theorem created_snoc_of_mem (log : List (VEntry κ β)) (r : Ver × Ver) (a : VEntry κ β) (k : κ) (x : β)
    (h : (r.1, r.2, k, x) ∈ log) : created (log ++ [a]) r = created log r := by
  unfold created
  rw [List.findIdx_append, if_pos]
  rw [List.findIdx_lt_length]
  exact ⟨_, h, by simp⟩

theorem created_snoc_new (log : List (VEntry κ β)) (r : Ver × Ver) (k : κ) (x : β)
    (h : ∀ k x, (r.1, r.2, k, x) ∉ log) : created (log ++ [(r.1, r.2, k, x)]) r = log.length := by
  unfold created
  rw [List.findIdx_append, if_neg]
  · simp [List.findIdx_cons]
  · rw [List.findIdx_lt_length]
    rintro ⟨⟨a, b, c, d⟩, hm, hd⟩
    simp at hd
    obtain ⟨h1, h2⟩ := Prod.ext_iff.1 hd
    simp at h1 h2; subst h1; subst h2
    exact h _ _ hm

theorem dset_of_not_mem {κ' β' : Type} [DecidableEq κ'] (k : κ') (v : β') (d : Dict κ' β') (h : k ∉ d.map Prod.fst) :
    dset k v d = d ++ [(k, v)] := by
  induction d with
  | nil => rfl
  | cons kv d ih =>
    obtain ⟨a, b⟩ := kv
    simp at h
    have : ¬ a = k := fun e => h.1 e.symm
    simp only [dset, this, if_false, List.cons_append]
    rw [ih (by simpa using h.2)]

theorem keys_dset_of_mem {κ' β' : Type} [DecidableEq κ'] (k : κ') (v : β') (d : Dict κ' β') (h : k ∈ d.map Prod.fst) :
    (dset k v d).map Prod.fst = d.map Prod.fst := by
  induction d with
  | nil => simp at h
  | cons kv d ih =>
    obtain ⟨a, b⟩ := kv
    by_cases hk : a = k
    · simp [dset, hk]
    · simp only [dset, hk, if_false, List.map_cons]
      rw [ih]
      rcases List.mem_cons.1 h with h | h
      · exact absurd h.symm hk
      · exact h

theorem mem_dset {κ' β' : Type} [DecidableEq κ'] {k : κ'} {v : β'} {d : Dict κ' β'} (hd : DNodup d) {k' : κ'} {v' : β'} :
    (k', v') ∈ dset k v d ↔ (k' = k ∧ v' = v) ∨ (k' ≠ k ∧ (k', v') ∈ d) := by
  rw [← dget_eq_some_iff (hd.dset k v), dget_dset, ← dget_eq_some_iff hd]
  by_cases h : k' = k
  · simp [h, eq_comm]
  · simp [h]

theorem VInv.add {log : List (VEntry κ β)} {d : VDict κ β} (h : VInv log d.versions) (s e : Ver) (k : κ) (x : β) :
    VInv (log ++ [(s, e, k, x)]) (d.add s e k x).versions := by
  have hkeys : ∀ r, r ∈ ((d.add s e k x).versions).map Prod.fst ↔
      ∃ k' x', (r.1, r.2, k', x') ∈ log ++ [(s, e, k, x)] := by
    intro r
    simp only [VDict.add]
    rw [mem_keys_dset, h.keys]
    constructor
    · rintro (rfl | ⟨k', x', hm⟩)
      · exact ⟨k, x, by simp⟩
      · exact ⟨k', x', by simp [hm]⟩
    · rintro ⟨k', x', hm⟩
      rcases List.mem_append.1 hm with hm | hm
      · exact Or.inr ⟨k', x', hm⟩
      · simp at hm; left; rw [← hm.1, ← hm.2.1]
  have hcur : DNodup (match dget (s, e) d.versions with | some x => x | none => []) ∧
      ∀ k' x', dget k' (match dget (s, e) d.versions with | some x => x | none => []) = some x' ↔ LastIn log s e k' x' := by
    cases hg : dget (s, e) d.versions with
    | some c => exact ⟨h.inner _ _ (dget_mem hg), h.vals s e c (dget_mem hg)⟩
    | none =>
      refine ⟨by simp [DNodup], ?_⟩
      intro k' x'
      simp only [dget_nil, reduceCtorEq, false_iff]
      rintro ⟨pre, post, rfl, -⟩
      have := dget_eq_none_iff.1 hg
      rw [h.keys] at this
      exact this ⟨k', x', by simp⟩
  refine ⟨h.nodup.dset _ _, ?_, hkeys, ?_, ?_⟩
  · intro r c hm
    simp only [VDict.add] at hm
    rw [mem_dset h.nodup] at hm
    rcases hm with ⟨-, rfl⟩ | ⟨-, hm⟩
    · exact hcur.1.dset _ _
    · exact h.inner r c hm
  · simp only [VDict.add]
    by_cases hm : (s, e) ∈ d.versions.map Prod.fst
    · obtain ⟨k0, x0, h0⟩ := (h.keys (s, e)).1 hm
      have hk := keys_dset_of_mem (s, e)
        (dset k x (match dget (s, e) d.versions with | some x => x | none => [])) d.versions hm
      have : (List.map Prod.fst (dset (s, e)
        (dset k x (match dget (s, e) d.versions with | some x => x | none => [])) d.versions)).Pairwise
          (fun a b => created (log ++ [(s, e, k, x)]) a < created (log ++ [(s, e, k, x)]) b) := by
        rw [hk]
        have h2 := h.order
        rw [← List.pairwise_map (f := Prod.fst) (R := fun a b => created log a < created log b)] at h2
        refine h2.imp_of_mem ?_
        intro a b ha hb hab
        obtain ⟨k1, x1, h1⟩ := (h.keys a).1 ha
        obtain ⟨k2, x2, h2⟩ := (h.keys b).1 hb
        rw [created_snoc_of_mem log a _ k1 x1 h1, created_snoc_of_mem log b _ k2 x2 h2]
        exact hab
      rwa [List.pairwise_map] at this
    · rw [dset_of_not_mem _ _ _ hm, List.pairwise_append]
      refine ⟨?_, by simp, ?_⟩
      · refine h.order.imp_of_mem ?_
        intro a b ha hb hab
        obtain ⟨k1, x1, h1⟩ := (h.keys a.1).1 (List.mem_map_of_mem (f := Prod.fst) ha)
        obtain ⟨k2, x2, h2⟩ := (h.keys b.1).1 (List.mem_map_of_mem (f := Prod.fst) hb)
        rw [created_snoc_of_mem log a.1 _ k1 x1 h1, created_snoc_of_mem log b.1 _ k2 x2 h2]
        exact hab
      · intro a ha b hb
        simp at hb; subst hb
        obtain ⟨k1, x1, h1⟩ := (h.keys a.1).1 (List.mem_map_of_mem (f := Prod.fst) ha)
        rw [created_snoc_of_mem log a.1 _ k1 x1 h1]
        have hnew : ∀ k' x', ((s, e).1, (s, e).2, k', x') ∉ log := by
          intro k' x' hx
          exact hm ((h.keys (s, e)).2 ⟨k', x', hx⟩)
        have := created_snoc_new log (s, e) k x hnew
        simp only at this
        rw [this]
        exact created_lt_of_mem log a.1 k1 x1 h1
  · intro s' e' c hm k' x'
    simp only [VDict.add] at hm
    rw [mem_dset h.nodup] at hm
    rw [lastIn_snoc]
    rcases hm with ⟨hr, rfl⟩ | ⟨hr, hm⟩
    · cases hr
      rw [dget_dset]
      by_cases hk : k' = k
      · subst hk; simp
      · have hk2 : ¬ k = k' := fun e => hk e.symm
        simp only [hk, if_false, hk2, and_false, false_and, not_false_eq_true, true_and, false_or]
        exact hcur.2 k' x'
    · have hr2 : ¬ ((s, e) = (s', e')) := fun e => hr e.symm
      rw [h.vals s' e' c hm]
      simp [hr2]

theorem VInv.empty : VInv ([] : List (VEntry κ β)) (VDict.empty : VDict κ β).versions := by
  refine ⟨by simp [DNodup, VDict.empty], by simp [VDict.empty], by simp [VDict.empty], by simp [VDict.empty], by simp [VDict.empty]⟩

theorem VInv.addLog {log : List (VEntry κ β)} {d : VDict κ β} (h : VInv log d.versions) (l : List (VEntry κ β)) :
    VInv (log ++ l) (addLog d l).versions := by
  induction l generalizing log d with
  | nil => simpa [Verif.addLog]
  | cons a l ih =>
    obtain ⟨s, e, k, x⟩ := a
    have := ih (h.add s e k x)
    simpa [Verif.addLog] using this

theorem getVersion_fold (vs : Dict (Ver × Ver) (Dict κ β)) (hin : ∀ r d, (r, d) ∈ vs → DNodup d)
    (v : Ver) (k : κ) (res : Dict κ β) (x : β) :
    dget k (vs.foldl (fun res r => if inRange r.1.1 r.1.2 v then dupdate res r.2 else res) res) = some x ↔
    (∃ pre r d post, vs = pre ++ (r, d) :: post ∧ inRange r.1 r.2 v = true ∧ dget k d = some x ∧
      ∀ r' d', (r', d') ∈ post → inRange r'.1 r'.2 v = true → dget k d' = none) ∨
    ((∀ r' d', (r', d') ∈ vs → inRange r'.1 r'.2 v = true → dget k d' = none) ∧ dget k res = some x) := by
  induction vs generalizing res with
  | nil => simp
  | cons a vs ih =>
    obtain ⟨r, d⟩ := a
    have hd : DNodup d := hin r d (by simp)
    rw [List.foldl_cons, ih (fun r d h => hin r d (by simp [h]))]
    constructor
    · rintro (⟨pre, r1, d1, post, rfl, h2, h3, h4⟩ | ⟨h1, h2⟩)
      · left; exact ⟨(r, d) :: pre, r1, d1, post, rfl, h2, h3, h4⟩
      · by_cases hr : inRange r.1 r.2 v = true
        · simp only [hr, if_true] at h2
          rw [dget_dupdate hd] at h2
          cases hk : dget k d with
          | some y =>
            simp only [hk] at h2
            cases h2
            left; exact ⟨[], r, d, vs, rfl, hr, hk, h1⟩
          | none =>
            simp only [hk] at h2
            right
            refine ⟨?_, h2⟩
            intro r' d' hm hr'
            rcases List.mem_cons.1 hm with hm | hm
            · cases hm; exact hk
            · exact h1 r' d' hm hr'
        · simp only [hr] at h2
          right
          refine ⟨?_, h2⟩
          intro r' d' hm hr'
          rcases List.mem_cons.1 hm with hm | hm
          · cases hm; exact absurd hr' hr
          · exact h1 r' d' hm hr'
    · rintro (⟨pre, r1, d1, post, h1, h2, h3, h4⟩ | ⟨h1, h2⟩)
      · cases pre with
        | nil =>
          simp at h1
          obtain ⟨⟨rfl, rfl⟩, rfl⟩ := h1
          right
          refine ⟨h4, ?_⟩
          simp only [h2, if_true]
          rw [dget_dupdate hd, h3]
        | cons p pre =>
          simp at h1
          obtain ⟨rfl, rfl⟩ := h1
          left; exact ⟨pre, r1, d1, post, rfl, h2, h3, h4⟩
      · right
        refine ⟨fun r' d' hm => h1 r' d' (by simp [hm]), ?_⟩
        by_cases hr : inRange r.1 r.2 v = true
        · simp only [hr, if_true]
          rw [dget_dupdate hd, h1 r d (by simp) hr]
          exact h2
        · simp only [hr]; exact h2

theorem getVersion_answer {log : List (VEntry κ β)} {d : VDict κ β} (h : VInv log d.versions)
    (v : Ver) (k : κ) (x : β) : dget k (d.getVersion v) = some x ↔ Answer log v k x := by
  unfold VDict.getVersion
  rw [getVersion_fold _ h.inner]
  simp only [dget_nil, reduceCtorEq, and_false, or_false]
  constructor
  · rintro ⟨pre, ⟨s, e⟩, c, post, hvs, hr, hk, hpost⟩
    have hm : ((s, e), c) ∈ d.versions := by rw [hvs]; simp
    obtain ⟨lpre, lpost, hl, hlast⟩ := (h.vals s e c hm k x).1 hk
    obtain ⟨h1, h2⟩ := (inRange_iff _ _ _).1 hr
    refine ⟨s, e, lpre, lpost, hl, h1, h2, hlast, ?_⟩
    intro s' e' y hy hs' he' hne
    have hin' : inRange s' e' v = true := (inRange_iff _ _ _).2 ⟨hs', he'⟩
    have hk' : (s', e') ∈ d.versions.map Prod.fst := (h.keys (s', e')).2 ⟨k, y, hy⟩
    obtain ⟨⟨r', c'⟩, hm', hr'⟩ := List.mem_map.1 hk'
    simp at hr'; subst hr'
    -- c' defines k
    have hdef : ∃ z, dget k c' = some z := by
      cases hz : dget k c' with
      | some z => exact ⟨z, rfl⟩
      | none =>
        exfalso
        -- there is a last assignment
        have : ∃ z, LastIn log s' e' k z := by
          clear hz hl hvs hpost hlast hm hk
          clear h hm' hk'
          induction log using List.reverseRecOn generalizing y with
          | nil => simp at hy
          | append_singleton l a ih =>
            obtain ⟨sa, ea, ka, xa⟩ := a
            by_cases hc : (sa, ea) = (s', e') ∧ ka = k
            · exact ⟨xa, (lastIn_snoc l s' e' sa ea k ka xa xa).2 (Or.inl ⟨hc.1, hc.2, rfl⟩)⟩
            · rcases List.mem_append.1 hy with hy | hy
              · obtain ⟨z, hz⟩ := ih y hy
                exact ⟨z, (lastIn_snoc l s' e' sa ea k ka z xa).2 (Or.inr ⟨hc, hz⟩)⟩
              · simp at hy
                exact absurd ⟨by rw [hy.1, hy.2.1], hy.2.2.1.symm⟩ hc
        obtain ⟨z, hz'⟩ := this
        rw [← h.vals s' e' c' hm' k z] at hz'
        rw [hz] at hz'; cases hz'
    obtain ⟨z, hz⟩ := hdef
    rw [hvs] at hm'
    rcases List.mem_append.1 hm' with hm' | hm'
    · have ho := h.order
      rw [hvs, List.pairwise_append] at ho
      exact ho.2.2 _ hm' ((s, e), c) (by simp)
    · rcases List.mem_cons.1 hm' with hm' | hm'
      · cases hm'; exact absurd rfl hne
      · have := hpost _ _ hm' hin'
        rw [hz] at this; cases this
  · rintro ⟨s, e, lpre, lpost, hl, h1, h2, hlast, hmax⟩
    have hk' : (s, e) ∈ d.versions.map Prod.fst := (h.keys (s, e)).2 ⟨k, x, by rw [hl]; simp⟩
    obtain ⟨⟨r, c⟩, hm, hr⟩ := List.mem_map.1 hk'
    simp at hr; subst hr
    obtain ⟨pre, post, hvs⟩ := List.append_of_mem hm
    refine ⟨pre, (s, e), c, post, hvs, (inRange_iff _ _ _).2 ⟨h1, h2⟩, ?_, ?_⟩
    · exact (h.vals s e c hm k x).2 ⟨lpre, lpost, hl, hlast⟩
    · rintro ⟨s', e'⟩ c' hm' hr'
      cases hz : dget k c' with
      | none => rfl
      | some z =>
        exfalso
        have hm2 : ((s', e'), c') ∈ d.versions := by rw [hvs]; simp [hm']
        obtain ⟨p1, p2, hl2, -⟩ := (h.vals s' e' c' hm2 k z).1 hz
        obtain ⟨h3, h4⟩ := (inRange_iff _ _ _).1 hr'
        have ho := h.order
        rw [hvs, List.pairwise_append, List.pairwise_cons] at ho
        have hlt := ho.2.1.1 _ hm'
        simp at hlt
        have hne : (s', e') ≠ (s, e) := by
          rintro heq
          rw [heq] at hlt
          omega
        have := hmax s' e' z (by rw [hl2]; simp) h3 h4 hne
        omega

/-! ### histories -/

/-- run a history of calls, ignoring the answers -/
def runOps (d : VDict κ β) : List (VOp κ β) → VDict κ β
  | [] => d
  | .add s e k x :: h => runOps (d.add s e k x) h
  | .get v :: h => runOps (d.getItem v).2 h

theorem runOps_cached (d : VDict κ β) (h : List (VOp κ β)) (v : Ver) (r : Dict κ β)
    (hc : dget v d.cache = some r) : dget v (runOps d h).cache = some r := by
  induction h generalizing d with
  | nil => exact hc
  | cons o h ih =>
    cases o with
    | add s e k x => exact ih _ hc
    | get w =>
      refine ih _ ?_
      unfold VDict.getItem
      cases hw : dget w d.cache with
      | some r' => exact hc
      | none =>
        have : v ≠ w := by rintro rfl; rw [hc] at hw; cases hw
        simp only
        rw [dget_dset_ne _ _ this]; exact hc

theorem getItem_of_cached {d : VDict κ β} {v : Ver} {r : Dict κ β} (h : dget v d.cache = some r) :
    (d.getItem v).1 = r := by
  simp [VDict.getItem, h]

theorem runOps_getItem (d : VDict κ β) (h : List (VOp κ β)) (v : Ver) (hc : dget v d.cache = none) :
    ((runOps d h).getItem v).1 = (addLog d (addsOf (beforeFirstGet v h))).getVersion v := by
  have hgv : ∀ (d1 d2 : VDict κ β), d1.versions = d2.versions → d1.getVersion v = d2.getVersion v := by
    intro d1 d2 h; unfold VDict.getVersion; rw [h]
  have haddv : ∀ (d1 d2 : VDict κ β) (l : List (VEntry κ β)), d1.versions = d2.versions →
      (addLog d1 l).versions = (addLog d2 l).versions := by
    intro d1 d2 l
    induction l generalizing d1 d2 with
    | nil => intro h; exact h
    | cons a l ih =>
      intro h
      refine ih _ _ ?_
      simp [VDict.add, h]
  induction h generalizing d with
  | nil => simp [runOps, VDict.getItem, hc, addsOf, beforeFirstGet, addLog]
  | cons o h ih =>
    cases o with
    | add s e k x =>
      simp only [runOps, addsOf, beforeFirstGet]
      rw [ih _ (by simpa [VDict.add] using hc)]
      rfl
    | get w =>
      simp only [runOps, beforeFirstGet]
      by_cases hw : w = v
      · subst hw
        simp only [if_true]
        have hst : (d.getItem w).2.cache = dset w (d.getVersion w) d.cache := by
          simp [VDict.getItem, hc]
        have : dget w (runOps (d.getItem w).2 h).cache = some (d.getVersion w) :=
          runOps_cached _ _ _ _ (by rw [hst]; simp)
        rw [getItem_of_cached this]
        simp [addsOf, addLog]
      · simp only [hw, if_false, addsOf]
        have hv : (d.getItem w).2.versions = d.versions := by
          unfold VDict.getItem
          cases dget w d.cache <;> rfl
        have hc' : dget v (d.getItem w).2.cache = none := by
          unfold VDict.getItem
          cases hw2 : dget w d.cache with
          | some r => exact hc
          | none =>
            simp only
            rw [dget_dset_ne _ _ (fun e => hw e.symm)]; exact hc
        rw [ih _ hc']
        exact hgv _ _ (haddv _ _ _ hv)

theorem VDict.init_eq (entries : List (VEntry κ β)) : VDict.init entries = addLog VDict.empty entries := rfl

theorem addLog_cache (d : VDict κ β) (l : List (VEntry κ β)) : (addLog d l).cache = d.cache := by
  induction l generalizing d with
  | nil => rfl
  | cons a l ih => exact (ih _).trans rfl

theorem history_answer (entries : List (VEntry κ β)) (h : List (VOp κ β)) (v : Ver) (k : κ) (x : β) :
    dget k ((runOps (VDict.init entries) h).getItem v).1 = some x ↔
      Answer (entries ++ addsOf (beforeFirstGet v h)) v k x := by
  rw [runOps_getItem _ _ _ (by rw [VDict.init_eq, addLog_cache]; rfl)]
  have h1 : VInv entries (VDict.init entries).versions := by
    have := VInv.addLog VInv.empty entries
    simpa [VDict.init_eq] using this
  exact getVersion_answer (h1.addLog _) v k x

end VDict


/-! ## VersionedList -/
section VList
variable {β : Type}

theorem dset_map_keys {κ' β' : Type} [DecidableEq κ'] (k : κ') (v : β') (f : κ' → β') (ks : List κ') (hn : ks.Nodup)
    (h : k ∈ ks) : dset k v (ks.map fun a => (a, f a)) = ks.map fun a => (a, if a = k then v else f a) := by
  induction ks with
  | nil => simp at h
  | cons a ks ih =>
    rw [List.nodup_cons] at hn
    simp only [List.map_cons, dset]
    by_cases ha : a = k
    · subst ha
      simp only [if_true]
      congr 1
      apply List.map_congr_left
      intro b hb
      have : b ≠ a := by rintro rfl; exact hn.1 hb
      simp [this]
    · simp only [ha, if_false]
      rw [ih hn.2 ((List.mem_cons.1 h).resolve_left (fun e => ha e.symm))]

theorem dget_map_keys {κ' β' : Type} [DecidableEq κ'] (k : κ') (f : κ' → β') (ks : List κ') (h : k ∈ ks) :
    dget k (ks.map fun a => (a, f a)) = some (f k) := by
  induction ks with
  | nil => simp at h
  | cons a ks ih =>
    simp only [List.map_cons, dget]
    by_cases ha : a = k
    · simp [ha]
    · simp only [ha, if_false]
      exact ih ((List.mem_cons.1 h).resolve_left (fun e => ha e.symm))

/-- values listed for range `r` -/
def valsOf (log : List (Ver × Ver × List β)) (r : Ver × Ver) : List β :=
  (log.filter fun a => decide ((a.1, a.2.1) = r)).flatMap fun a => a.2.2

theorem valsOf_snoc (log : List (Ver × Ver × List β)) (a : Ver × Ver × List β) (r : Ver × Ver) :
    valsOf (log ++ [a]) r = valsOf log r ++ (if (a.1, a.2.1) = r then a.2.2 else []) := by
  unfold valsOf
  rw [List.filter_append, List.flatMap_append]
  by_cases h : (a.1, a.2.1) = r <;> simp [h]

theorem nodup_eraseDups' {α : Type} [BEq α] [LawfulBEq α] (l : List α) : l.eraseDups.Nodup := by
  induction l using List.reverseRecOn with
  | nil => simp
  | append_singleton l a ih =>
    rw [List.eraseDups_append]
    by_cases h : a ∈ l
    · have : [a].removeAll l = [] := by simp [List.removeAll, h]
      rw [this]; simpa
    · have : [a].removeAll l = [a] := by simp [List.removeAll, h]
      rw [this, List.nodup_append]
      refine ⟨ih, by simp [List.eraseDups_cons], ?_⟩
      intro x hx y hy
      rw [List.mem_eraseDups] at hx
      simp [List.eraseDups_cons] at hy
      rintro rfl
      exact h (hy ▸ hx)

theorem VList.init_versions (log : List (Ver × Ver × List β)) :
    (VList.init log).versions = (log.map fun a => (a.1, a.2.1)).eraseDups.map fun r => (r, valsOf log r) := by
  unfold VList.init
  induction log using List.reverseRecOn with
  | nil => rfl
  | append_singleton l a ih =>
    rw [List.foldl_append]
    simp only [List.foldl_cons, List.foldl_nil]
    obtain ⟨s, e, vs⟩ := a
    generalize hD : l.foldl (fun (d : VList β) e => d.add e.1 e.2.1 e.2.2) VList.empty = D at ih ⊢
    unfold VList.add
    simp only
    rw [ih]
    by_cases hm : (s, e) ∈ l.map fun a => (a.1, a.2.1)
    · have hm2 : (s, e) ∈ (l.map fun a => (a.1, a.2.1)).eraseDups := by rw [List.mem_eraseDups]; exact hm
      rw [dget_map_keys _ _ _ hm2]
      simp only
      rw [dset_map_keys _ _ _ _ (nodup_eraseDups' _) hm2]
      rw [List.map_append, List.eraseDups_append]
      have : ([(s, e, vs)].map fun a => (a.1, a.2.1)).removeAll (l.map fun a => (a.1, a.2.1)) = [] := by
        simp only [List.map_cons, List.map_nil, List.removeAll, List.filter_cons, List.filter_nil]
        have : (List.elem (s, e) (l.map fun a => (a.1, a.2.1))) = true := by
          rw [List.elem_eq_mem]; simpa using hm
        simp only [this]; rfl
      rw [this]
      simp only [List.eraseDups_nil, List.append_nil]
      apply List.map_congr_left
      intro r _
      rw [valsOf_snoc]
      simp only
      by_cases hr : r = (s, e)
      · subst hr; simp
      · have : ¬ (s, e) = r := fun e => hr e.symm
        simp [hr, this]
    · have hm2 : (s, e) ∉ (l.map fun a => (a.1, a.2.1)).eraseDups := by rw [List.mem_eraseDups]; exact hm
      have hk : (s, e) ∉ ((l.map fun a => (a.1, a.2.1)).eraseDups.map fun r => (r, valsOf l r)).map Prod.fst := by
        simpa using hm2
      rw [dget_eq_none_iff.2 hk]
      simp only
      rw [dset_of_not_mem _ _ _ hk]
      rw [List.map_append, List.eraseDups_append]
      have : ([(s, e, vs)].map fun a => (a.1, a.2.1)).removeAll (l.map fun a => (a.1, a.2.1)) = [(s, e)] := by
        simp only [List.map_cons, List.map_nil, List.removeAll, List.filter_cons, List.filter_nil]
        have : (List.elem (s, e) (l.map fun a => (a.1, a.2.1))) = false := by
          rw [List.elem_eq_mem]; simpa using hm
        simp only [this]; rfl
      rw [this, List.map_append]
      congr 1
      · apply List.map_congr_left
        intro r hr
        rw [valsOf_snoc]
        have : ¬ (s, e) = r := by
          rintro rfl; exact hm2 hr
        simp [this]
      · have : valsOf l (s, e) = [] := by
          unfold valsOf
          rw [List.filter_eq_nil_iff.2]
          · rfl
          · intro a ha
            simp only [decide_eq_true_eq]
            intro h
            exact hm (List.mem_map.2 ⟨a, ha, h⟩)
        simp [valsOf_snoc, this, List.eraseDups_cons]

theorem VList.getVersion_eq (d : VList β) (v : Ver) :
    d.getVersion v = (d.versions.filter fun r => inRange r.1.1 r.1.2 v).flatMap Prod.snd := by
  unfold VList.getVersion
  have : ∀ (vs : Dict (Ver × Ver) (List β)) (res : List β),
      vs.foldl (fun res r => if inRange r.1.1 r.1.2 v then res ++ r.2 else res) res =
        res ++ (vs.filter fun r => inRange r.1.1 r.1.2 v).flatMap Prod.snd := by
    intro vs
    induction vs with
    | nil => simp
    | cons a vs ih =>
      intro res
      rw [List.foldl_cons, ih]
      by_cases h : inRange a.1.1 a.1.2 v <;> simp [h]
  simpa using this d.versions []
end VList

/-! ## durations -/

theorem isDigit_iff (c : Char) : isDigit c = true ↔ ('0' ≤ c ∧ c ≤ '9') := by
  have h1 : ('0' : Char).toNat = 48 := rfl
  have h2 : ('9' : Char).toNat = 57 := rfl
  rw [Char.le_def, Char.le_def, UInt32.le_iff_toNat_le, UInt32.le_iff_toNat_le]
  simp only [isDigit, Bool.and_eq_true, decide_eq_true_eq]
  rfl

theorem readFields_digits (ds rest : Str) (h : ∀ c ∈ ds, isDigit c = true) (acc : Nat) :
    readFields acc (ds ++ rest) = readFields (ds.foldl (fun n c => 10 * n + (c.toNat - 48)) acc) rest := by
  induction ds generalizing acc with
  | nil => rfl
  | cons c ds ih =>
    have hc := (isDigit_iff c).1 (h c (by simp))
    rw [List.cons_append, readFields, if_pos hc, ih (fun c hc => h c (by simp [hc]))]
    rfl

theorem readFields_natRepr (n : Nat) (rest : Str) : readFields 0 (natRepr n ++ rest) = readFields n rest := by
  rw [readFields_digits _ _ (natRepr_all_digits n)]
  have := natOfDigits_natRepr n
  unfold natOfDigits at this
  rw [this]

theorem readFields_pad02 (n : Nat) (rest : Str) : readFields 0 (pad02 n ++ rest) = readFields n rest := by
  unfold pad02
  split
  · rw [List.cons_append, readFields]
    simp only [show ('0' ≤ '0' ∧ '0' ≤ '9') from by decide, if_true]
    exact readFields_natRepr n rest
  · exact readFields_natRepr n rest

theorem readFields_unit (n : Nat) (u : Char) (rest : Str) (h : u = 'h' ∨ u = 'm' ∨ u = 's') :
    readFields n (u :: ' ' :: rest) = (n, u) :: readFields 0 rest := by
  rcases h with rfl | rfl | rfl <;> simp [readFields]

theorem readFields_last (n : Nat) (u : Char) (h : u = 'h' ∨ u = 'm' ∨ u = 's') :
    readFields n [u] = [(n, u)] := by
  rcases h with rfl | rfl | rfl <;> simp [readFields]

theorem readFields_formatDuration (t : Nat) :
    readFields 0 (formatDuration t) =
      if 3600 ≤ t then [(t / 3600, 'h'), (t % 3600 / 60, 'm'), (t % 3600 % 60, 's')]
      else if 60 ≤ t then [(t / 60, 'm'), (t % 60, 's')]
      else [(t, 's')] := by
  unfold formatDuration
  simp only
  by_cases h : 3600 ≤ t
  · rw [if_pos h, if_pos (by omega)]
    simp only [List.append_assoc, List.cons_append, List.nil_append]
    rw [readFields_natRepr, readFields_unit _ _ _ (by simp), readFields_pad02,
      readFields_unit _ _ _ (by simp), readFields_pad02, readFields_last _ _ (by simp)]
  · rw [if_neg h, if_neg (by omega)]
    have h1 : t % 3600 = t := by omega
    rw [h1]
    by_cases h2 : 60 ≤ t
    · rw [if_pos h2, if_pos (by omega)]
      simp only [List.append_assoc, List.cons_append, List.nil_append]
      rw [readFields_natRepr, readFields_unit _ _ _ (by simp), readFields_pad02, readFields_last _ _ (by simp)]
    · rw [if_neg h2, if_neg (by omega)]
      have h3 : t % 60 = t := by omega
      rw [h3, readFields_natRepr, readFields_last _ _ (by simp)]

/-! ## shell words -/

theorem isWord_plain (c : Char) (h : isWord c = true) : plainChar c = true := by
  have hn : c.val.toNat = c.toNat := rfl
  simp only [isWord, Bool.or_eq_true, Bool.and_eq_true, decide_eq_true_eq, beq_iff_eq] at h
  simp only [plainChar, Bool.or_eq_true, Char.isAlphanum, Char.isAlpha, Char.isUpper, Char.isLower, Char.isDigit,
    Bool.and_eq_true, decide_eq_true_eq, UInt32.le_iff_toNat_le, ge_iff_le, hn]
  rcases h with ((h | h) | h) | h
  · left; right; exact h
  · left; left; right; exact h
  · left; left; left; exact h
  · right
    have : c = '_' := by
      apply Char.ext; apply UInt32.toNat_inj.1; exact h
    subst this; decide

theorem shlexSafe_plain (c : Char) (h : shlexSafe c = true) : plainChar c = true := by
  unfold shlexSafe at h
  rcases Bool.or_eq_true _ _ ▸ h with h | h
  · exact isWord_plain c h
  · simp only [List.contains_eq_mem, decide_eq_true_eq] at h
    unfold plainChar
    simp only [Bool.or_eq_true, decide_eq_true_eq]
    right
    simp at h ⊢
    rcases h with h | h | h | h | h | h | h | h | h <;> simp [h]

theorem plainChar_ne (c : Char) (h : plainChar c = true) : c ≠ ' ' ∧ c ≠ '\'' ∧ c ≠ '"' := by
  refine ⟨?_, ?_, ?_⟩ <;> rintro rfl <;> exact absurd h (by decide)

theorem shellWords_plain (w rest : Str) (cur : Option Str) (hw : w ≠ []) (h : ∀ c ∈ w, plainChar c = true) :
    shellWords .none cur (w ++ rest) = shellWords .none (some (cur.getD [] ++ w)) rest := by
  induction w generalizing cur with
  | nil => exact absurd rfl hw
  | cons c w ih =>
    have hc := h c (by simp)
    obtain ⟨h1, h2, h3⟩ := plainChar_ne c hc
    rw [List.cons_append]
    conv => lhs; unfold shellWords
    simp only [h1, h2, h3, hc, if_false, if_true]
    cases w with
    | nil => rfl
    | cons c' w' =>
      rw [ih _ (by simp) (fun x hx => h x (by simp [hx]))]
      simp

theorem shellWords_quoted (s rest : Str) (w : Str) :
    shellWords .single (some w)
      ((s.flatMap fun c => if c = '\'' then cs!"'\"'\"'" else [c]) ++ '\'' :: rest) =
    shellWords .none (some (w ++ s)) rest := by
  induction s generalizing w with
  | nil => simp [shellWords]
  | cons c s ih =>
    by_cases hc : c = '\''
    · subst hc
      simp only [List.flatMap_cons, if_true, List.cons_append, List.nil_append]
      simp only [shellWords]
      simp
      rw [ih]
      simp
    · simp only [List.flatMap_cons, hc, if_false, List.cons_append, List.nil_append]
      conv => lhs; unfold shellWords
      simp only [hc, if_false]
      rw [ih]
      simp

theorem shellWords_quote (s rest : Str) :
    shellWords .none none (shlexQuote s ++ rest) = shellWords .none (some s) rest := by
  unfold shlexQuote
  by_cases h0 : s.isEmpty
  · have : s = [] := by simpa using h0
    subst this
    simp [shellWords]
  · rw [if_neg h0]
    have hne : s ≠ [] := by simpa using h0
    by_cases hs : s.all shlexSafe
    · rw [if_pos hs]
      rw [shellWords_plain _ _ _ hne]
      · simp
      · intro c hc; exact shlexSafe_plain c (List.all_eq_true.1 hs c hc)
    · rw [if_neg hs]
      rw [List.cons_append, List.cons_append, List.append_assoc]
      conv => lhs; unfold shellWords
      simp only [show ('\'' : Char) ≠ ' ' from by decide, if_false, if_true, Option.getD_none]
      have := shellWords_quoted s rest []
      simpa using this

theorem shellWords_join (l : List Str) : shellWords .none none (shlexJoin l) = some l := by
  unfold shlexJoin
  induction l with
  | nil => simp [joinWith, shellWords]
  | cons w l ih =>
    cases l with
    | nil =>
      simp only [List.map_cons, List.map_nil, joinWith]
      have := shellWords_quote w []
      rw [List.append_nil] at this
      rw [this]; simp [shellWords]
    | cons w2 l =>
      simp only [List.map_cons, joinWith, List.append_assoc] at ih ⊢
      rw [shellWords_quote]
      rw [List.cons_append, List.nil_append]
      rw [shellWords]
      simp only [if_true]
      rw [ih]; simp


/-! ## assembled statements -/
section
variable {κ β : Type} [DecidableEq κ]

theorem lastIn_exists {log : List (VEntry κ β)} {s e : Ver} {k : κ} {y : β} (hy : (s, e, k, y) ∈ log) :
    ∃ z, LastIn log s e k z := by
  induction log using List.reverseRecOn generalizing y with
  | nil => simp at hy
  | append_singleton l a ih =>
    obtain ⟨sa, ea, ka, xa⟩ := a
    by_cases hc : (sa, ea) = (s, e) ∧ ka = k
    · exact ⟨xa, (lastIn_snoc l s e sa ea k ka xa xa).2 (Or.inl ⟨hc.1, hc.2, rfl⟩)⟩
    · rcases List.mem_append.1 hy with hy | hy
      · obtain ⟨z, hz⟩ := ih hy
        exact ⟨z, (lastIn_snoc l s e sa ea k ka z xa).2 (Or.inr ⟨hc, hz⟩)⟩
      · simp at hy
        exact absurd ⟨by rw [hy.1, hy.2.1], hy.2.2.1.symm⟩ hc

theorem answer_exists {log : List (VEntry κ β)} {v : Ver} {k : κ} {s e : Ver} {x : β}
    (hm : (s, e, k, x) ∈ log) (h1 : s ≤ v) (h2 : v < e) : ∃ y, Answer log v k y := by
  have hinv : VInv log (addLog (VDict.empty : VDict κ β) log).versions := by
    simpa using VInv.addLog VInv.empty log
  obtain ⟨z, hz⟩ := lastIn_exists hm
  have hk : (s, e) ∈ (addLog (VDict.empty : VDict κ β) log).versions.map Prod.fst :=
    (hinv.keys (s, e)).2 ⟨k, x, hm⟩
  obtain ⟨⟨r, c⟩, hm', hr⟩ := List.mem_map.1 hk
  simp at hr; subst hr
  have hc := (hinv.vals s e c hm' k z).2 hz
  cases hg : dget k ((addLog (VDict.empty : VDict κ β) log).getVersion v) with
  | some y => exact ⟨y, (getVersion_answer hinv v k y).1 hg⟩
  | none =>
    exfalso
    have : ∀ (vs : Dict (Ver × Ver) (Dict κ β)) (res : Dict κ β), (∀ r d, (r, d) ∈ vs → DNodup d) →
        dget k (vs.foldl (fun res r => if inRange r.1.1 r.1.2 v then dupdate res r.2 else res) res) = none →
        dget k res = none ∧ ∀ r d, (r, d) ∈ vs → inRange r.1 r.2 v = true → dget k d = none := by
      intro vs
      induction vs with
      | nil => intro res _ h; exact ⟨h, by simp⟩
      | cons a vs ih =>
        intro res hin h
        obtain ⟨r, d⟩ := a
        rw [List.foldl_cons] at h
        obtain ⟨h3, h4⟩ := ih _ (fun r d h => hin r d (by simp [h])) h
        by_cases hr : inRange r.1 r.2 v = true
        · simp only [hr, if_true] at h3
          rw [dget_dupdate (hin r d (by simp))] at h3
          cases hd : dget k d with
          | some y => simp [hd] at h3
          | none =>
            simp only [hd] at h3
            refine ⟨h3, ?_⟩
            intro r' d' hm hr'
            rcases List.mem_cons.1 hm with hm | hm
            · cases hm; exact hd
            · exact h4 r' d' hm hr'
        · simp only [hr] at h3
          refine ⟨h3, ?_⟩
          intro r' d' hm hr'
          rcases List.mem_cons.1 hm with hm | hm
          · cases hm; exact absurd hr' hr
          · exact h4 r' d' hm hr'
    have h5 := (this _ [] hinv.inner hg).2 _ _ hm' ((inRange_iff _ _ _).2 ⟨h1, h2⟩)
    rw [hc] at h5; cases h5

theorem history_absent (entries : List (VEntry κ β)) (hist : List (VOp κ β)) (v : Ver) (k : κ) :
    dget k ((runOps (VDict.init entries) hist).getItem v).1 = none ↔
      ∀ s e x, (s, e, k, x) ∈ entries ++ addsOf (beforeFirstGet v hist) → ¬ (s ≤ v ∧ v < e) := by
  constructor
  · rintro hn s e x hm ⟨h1, h2⟩
    obtain ⟨y, hy⟩ := answer_exists hm h1 h2
    rw [← history_answer, hn] at hy
    cases hy
  · intro h
    cases hg : dget k ((runOps (VDict.init entries) hist).getItem v).1 with
    | none => rfl
    | some y =>
      rw [history_answer] at hg
      obtain ⟨s, e, pre, post, hl, h1, h2, -⟩ := hg
      exact absurd ⟨h1, h2⟩ (h s e y (by rw [hl]; simp))

theorem addsOf_append (h1 h2 : List (VOp κ β)) : addsOf (h1 ++ h2) = addsOf h1 ++ addsOf h2 := by
  induction h1 with
  | nil => rfl
  | cons o h1 ih => cases o <;> simp [addsOf, ih]

theorem mem_addsOf {h : List (VOp κ β)} {s e : Ver} {k : κ} {x : β} : (s, e, k, x) ∈ addsOf h ↔ VOp.add s e k x ∈ h := by
  induction h with
  | nil => simp [addsOf]
  | cons o h ih => cases o <;> simp [addsOf, ih]

theorem beforeFirstGet_append {v : Ver} {h1 : List (VOp κ β)} (hg : VOp.get v ∉ h1) (h2 : List (VOp κ β)) :
    beforeFirstGet v (h1 ++ h2) = h1 ++ beforeFirstGet v h2 := by
  induction h1 with
  | nil => rfl
  | cons o h1 ih =>
    cases o with
    | add s e k x => simp [beforeFirstGet, ih (fun h => hg (by simp [h]))]
    | get w =>
      have : w ≠ v := by rintro rfl; exact hg (by simp)
      simp [beforeFirstGet, this, ih (fun h => hg (by simp [h]))]

theorem mem_beforeFirstGet {v : Ver} {h : List (VOp κ β)} {o : VOp κ β} (hm : o ∈ beforeFirstGet v h) : o ∈ h := by
  induction h with
  | nil => simp [beforeFirstGet] at hm
  | cons o' h ih =>
    cases o' with
    | add s e k x =>
      simp only [beforeFirstGet, List.mem_cons] at hm ⊢
      rcases hm with hm | hm
      · exact Or.inl hm
      · exact Or.inr (ih hm)
    | get w =>
      simp only [beforeFirstGet] at hm
      by_cases hw : w = v
      · simp [hw] at hm
      · simp only [hw, if_false, List.mem_cons] at hm ⊢
        rcases hm with hm | hm
        · exact Or.inl hm
        · exact Or.inr (ih hm)

theorem additions_visible (h1 h2 : List (VOp κ β)) (s e v : Ver) (k : κ) (x : β)
    (hs : s ≤ v) (he : v < e) (hget : VOp.get v ∉ h1)
    (honly : ∀ s' e' y, VOp.add s' e' k y ∈ h1 ++ h2 → ¬ (s' ≤ v ∧ v < e')) :
    dget k ((runOps VDict.empty (h1 ++ .add s e k x :: h2)).getItem v).1 = some x := by
  have := history_answer ([] : List (VEntry κ β)) (h1 ++ .add s e k x :: h2) v k x
  rw [show VDict.init ([] : List (VEntry κ β)) = VDict.empty from rfl] at this
  rw [this, beforeFirstGet_append hget, beforeFirstGet, addsOf_append]
  refine ⟨s, e, addsOf h1, addsOf (beforeFirstGet v h2), by simp [addsOf], hs, he, ?_, ?_⟩
  · intro y hy
    have := mem_beforeFirstGet (mem_addsOf.1 hy)
    exact honly s e y (by simp [this]) ⟨hs, he⟩
  · intro s' e' y hy h3 h4 hne
    rw [List.nil_append, addsOf, List.mem_append, List.mem_cons] at hy
    rcases hy with hy | hy | hy
    · exact absurd ⟨h3, h4⟩ (honly s' e' y (by simp [mem_addsOf.1 hy]))
    · cases hy; exact absurd rfl hne
    · have := mem_beforeFirstGet (mem_addsOf.1 hy)
      exact absurd ⟨h3, h4⟩ (honly s' e' y (by simp [this]))
end

theorem VList.init_cache {β : Type} (log : List (Ver × Ver × List β)) : (VList.init log).cache = [] := by
  unfold VList.init
  have : ∀ d : VList β, (log.foldl (fun (d : VList β) e => d.add e.1 e.2.1 e.2.2) d).cache = d.cache := by
    induction log with
    | nil => intro d; rfl
    | cons a l ih => intro d; exact (ih _).trans rfl
  exact this _

theorem vlist_getItem {β : Type} (log : List (Ver × Ver × List β)) (v : Ver) :
    ((VList.init log).getItem v).1 =
      (((log.map fun a => (a.1, a.2.1)).eraseDups.filter fun r => decide (r.1 ≤ v ∧ v < r.2)).flatMap fun r =>
        (log.filter fun a => decide ((a.1, a.2.1) = r)).flatMap fun a => a.2.2) := by
  have hc : dget v (VList.init log).cache = none := by rw [VList.init_cache]; rfl
  unfold VList.getItem
  rw [hc]
  simp only
  rw [VList.getVersion_eq, VList.init_versions, List.filter_map]
  rw [List.flatMap_map]
  congr 1
  apply List.filter_congr
  intro r _
  have := inRange_iff r.1 r.2 v
  simp only [Function.comp]
  by_cases h : r.1 ≤ v ∧ v < r.2
  · rw [this.2 h]; simp [h]
  · have : inRange r.1 r.2 v = false := by
      cases hh : inRange r.1 r.2 v with
      | false => rfl
      | true => exact absurd (this.1 hh) h
    rw [this]; simp only [h, decide_false]

/-- run a history -/
def runLOps {β : Type} (d : VList β) : List (LOp β) → VList β
  | [] => d
  | .add s e xs :: h => runLOps (d.add s e xs) h
  | .get v :: h => runLOps (d.getItem v).2 h

theorem vlist_answer {β : Type} (log : List (Ver × Ver × List β)) (v : Ver) (d : VList β)
    (hd : d.versions = (VList.init log).versions) : d.getVersion v = listAnswer log v := by
  have h := vlist_getItem log v
  have hc : dget v (VList.init log).cache = none := by rw [VList.init_cache]; rfl
  unfold VList.getItem at h
  rw [hc] at h
  simp only at h
  unfold VList.getVersion at h ⊢
  rw [hd, h]
  rfl

theorem runLOps_cached {β : Type} (d : VList β) (h : List (LOp β)) (v : Ver) (r : List β) (hc : dget v d.cache = some r) :
    dget v (runLOps d h).cache = some r := by
  induction h generalizing d with
  | nil => exact hc
  | cons o h ih =>
    cases o with
    | add s e xs => exact ih (d.add s e xs) hc
    | get w =>
      refine ih _ ?_
      unfold VList.getItem
      split
      · exact hc
      · rename_i hw
        have hne : v ≠ w := by rintro rfl; rw [hc] at hw; cases hw
        simp only [dget_dset_ne _ _ hne]
        exact hc

theorem runLOps_getItem {β : Type} (log : List (Ver × Ver × List β)) (d : VList β) (h : List (LOp β)) (v : Ver)
    (hd : d.versions = (VList.init log).versions) (hc : dget v d.cache = none) :
    ((runLOps d h).getItem v).1 = listAnswer (log ++ listAdds (listBefore v h)) v := by
  induction h generalizing d log with
  | nil =>
    simp only [runLOps, listBefore, listAdds, List.append_nil, VList.getItem, hc]
    exact vlist_answer log v d hd
  | cons o h ih =>
    cases o with
    | add s e xs =>
      have := ih (log ++ [(s, e, xs)]) (d.add s e xs) ?_ hc
      · simpa only [runLOps, listBefore, listAdds, List.append_assoc, List.singleton_append] using this
      · have : VList.init (log ++ [(s, e, xs)]) = (VList.init log).add s e xs := by simp [VList.init]
        rw [this]
        unfold VList.add
        rw [hd]
    | get w =>
      by_cases hw : w = v
      · subst hw
        have h1 : (d.getItem w) = (d.getVersion w, { d with cache := dset w (d.getVersion w) d.cache }) := by
          unfold VList.getItem; rw [hc]
        simp only [runLOps, listBefore, if_true, listAdds, List.append_nil, h1]
        unfold VList.getItem
        rw [runLOps_cached _ h w (d.getVersion w) (by simp [dget_dset_self])]
        exact vlist_answer log w d hd
      · simp only [runLOps, listBefore, if_neg hw, listAdds]
        refine ih log _ ?_ ?_
        · unfold VList.getItem
          split <;> exact hd
        · unfold VList.getItem
          split
          · exact hc
          · simp only [dget_dset_ne _ _ (Ne.symm hw)]
            exact hc

theorem vlist_mem {β : Type} (log : List (Ver × Ver × List β)) (v : Ver) (x : β) :
    x ∈ ((VList.init log).getItem v).1 ↔ ∃ s e vals, (s, e, vals) ∈ log ∧ s ≤ v ∧ v < e ∧ x ∈ vals := by
  rw [vlist_getItem]
  simp only [List.mem_flatMap, List.mem_filter, List.mem_eraseDups, List.mem_map, decide_eq_true_eq]
  constructor
  · rintro ⟨r, ⟨-, h1, h2⟩, ⟨s, e, vals⟩, ⟨hm, rfl⟩, hx⟩
    exact ⟨s, e, vals, hm, h1, h2, hx⟩
  · rintro ⟨s, e, vals, hm, h1, h2, hx⟩
    exact ⟨(s, e), ⟨⟨_, hm, rfl⟩, h1, h2⟩, (s, e, vals), ⟨hm, rfl⟩, hx⟩

theorem maybeRel_cases (path root : Path) :
    (∃ r : Path, r.abs = false ∧ path = root.join r ∧ maybeRel path (some root) = .ok r) ∨
    ((∀ r : Path, r.abs = false → path ≠ root.join r) ∧ maybeRel path (some root) = .ok path) := by
  unfold maybeRel
  by_cases h : path.isRelativeTo root = true
  · left
    refine ⟨⟨false, path.parts.drop root.parts.length⟩, rfl, ?_, ?_⟩
    · simp only [Path.isRelativeTo, Bool.and_eq_true, beq_iff_eq, List.isPrefixOf_iff_prefix] at h
      obtain ⟨a, p⟩ := path
      simp [Path.join, append_drop_of_prefix h.2, ← h.1]
    · simp [h, Path.relativeTo]
  · right
    refine ⟨?_, by simp [h]⟩
    rintro r hr rfl
    apply h
    simp [Path.isRelativeTo, Path.join, hr]

theorem formatDuration_spec (t : Nat) :
    let fs := readFields 0 (formatDuration t)
    (fs.map fun f => f.1 * unitSeconds f.2).sum = t ∧
    fs.map Prod.snd <:+ ['h', 'm', 's'] ∧ fs ≠ [] ∧
    (∀ f ∈ fs.tail, f.1 < 60) ∧ (∀ f rest, fs = f :: rest → rest ≠ [] → f.1 ≠ 0) ∧
    (∀ f rest, fs = f :: rest → f.2 ≠ 'h' → f.1 < 60) := by
  simp only [readFields_formatDuration]
  by_cases h : 3600 ≤ t
  · simp only [h, if_true]
    refine ⟨?_, by simp, by simp, ?_, ?_, ?_⟩
    · simp [unitSeconds]; omega
    · simp; omega
    · rintro f rest he -; simp at he; rw [← he.1]; simp; omega
    · rintro f rest he; simp at he; rw [← he.1]; simp
  · simp only [h, if_false]
    by_cases h2 : 60 ≤ t
    · simp only [h2, if_true]
      refine ⟨?_, ?_, by simp, ?_, ?_, ?_⟩
      · simp [unitSeconds]; omega
      · exact ⟨['h'], rfl⟩
      · simp; omega
      · rintro f rest he -; simp at he; rw [← he.1]; simp; omega
      · rintro f rest he; simp at he; rw [← he.1]; simp; omega
    · simp only [h2, if_false]
      refine ⟨?_, ?_, by simp, by simp, ?_, ?_⟩
      · simp [unitSeconds]
      · exact ⟨['h', 'm'], rfl⟩
      · rintro f rest he hr; simp at he; exact absurd he.2 hr
      · rintro f rest he; simp at he; rw [← he.1]; simp; omega

theorem ranges_partition (s m e v : Ver) (h1 : s ≤ m) (h2 : m ≤ e) :
    (inRange s e v = true ↔ (inRange s m v = true ∨ inRange m e v = true)) ∧
    ¬ (inRange s m v = true ∧ inRange m e v = true) := by
  simp only [inRange_iff]
  constructor
  · constructor
    · rintro ⟨ha, hb⟩
      rcases lt_or_ge v m with h | h
      · exact Or.inl ⟨ha, h⟩
      · exact Or.inr ⟨h, hb⟩
    · rintro (⟨ha, hb⟩ | ⟨ha, hb⟩)
      · exact ⟨ha, lt_of_lt_of_le hb h2⟩
      · exact ⟨le_trans h1 ha, hb⟩
  · rintro ⟨⟨_, ha⟩, ⟨hb, _⟩⟩
    exact absurd ha (not_lt.2 hb)

theorem verLt_false_iff (a b : Ver) : verLt a b = false ↔ ¬ a < b := by
  rw [← verLt_iff]; simp

theorem ver_trichotomy (a b : Ver) :
    (verLt a b = true ∧ a ≠ b ∧ verLt b a = false) ∨ (verLt a b = false ∧ a = b ∧ verLt b a = false) ∨
    (verLt a b = false ∧ a ≠ b ∧ verLt b a = true) := by
  simp only [verLt_false_iff, verLt_iff]
  rcases lt_trichotomy a b with h | h | h
  · left; exact ⟨h, ne_of_lt h, not_lt_of_gt h⟩
  · right; left; subst h; exact ⟨lt_irrefl _, rfl, lt_irrefl _⟩
  · right; right; exact ⟨not_lt_of_gt h, (ne_of_lt h).symm, h⟩

theorem ver_prefix_lt (a b : Ver) (hb : b ≠ []) : verLt a (a ++ b) = true := by
  induction a with
  | nil => cases b with
    | nil => exact absurd rfl hb
    | cons => rfl
  | cons x a ih => simp [verLt, ih]

/-! ## Field widths of durations -/

theorem natRepr_head (n : Nat) (h : 0 < n) : (natRepr n).head? ≠ some '0' := by
  induction n using Nat.strongRecOn with
  | _ n ih =>
    by_cases h10 : n < 10
    · rw [natRepr_lt h10]
      have : ∀ k, k < 10 → 0 < k → [digitChar10 k].head? ≠ some '0' := by decide
      exact this n h10 h
    · rw [natRepr_ge (by omega)]
      have := ih (n / 10) (by omega) (by omega)
      cases hn : natRepr (n / 10) with
      | nil => exact absurd hn (natRepr_ne_nil _)
      | cons c cs => rw [hn] at this; simpa using this

theorem pad02_width : ∀ n, n < 60 → (pad02 n).length = 2 ∧ ' ' ∉ pad02 n := by decide

theorem natRepr_noSpace (n : Nat) : ' ' ∉ natRepr n := fun h => absurd (natRepr_all_digits n _ h) (by decide)

theorem formatDuration_widths (t : Nat) : ∃ (first : Str) (rest : List Str),
    formatDuration t = joinWith cs!" " (first :: rest) ∧ (∀ w ∈ first :: rest, ' ' ∉ w) ∧
    (∀ w ∈ rest, w.length = 3) ∧ (first.head? = some '0' → t = 0) := by
  have hm := pad02_width (t % 3600 / 60) (by omega)
  have hs := pad02_width (t % 3600 % 60) (by omega)
  have hh : ∀ n u, 0 < n → ¬ (natRepr n ++ [u]).head? = some '0' := by
    intro n u hn
    have := natRepr_head n hn
    cases hr : natRepr n with
    | nil => exact absurd hr (natRepr_ne_nil _)
    | cons c cs => rw [hr] at this; simpa using this
  unfold formatDuration
  simp only
  have he : t % 3600 % 60 = t % 60 := by omega
  rw [he] at hs ⊢
  by_cases h1 : t / 3600 > 0
  · rw [if_pos h1]
    refine ⟨natRepr (t / 3600) ++ ['h'], [pad02 (t % 3600 / 60) ++ ['m'], pad02 (t % 60) ++ ['s']],
      by simp [joinWith], ?_, ?_, fun h => absurd h (hh _ _ h1)⟩
    · simp [natRepr_noSpace, hm.2, hs.2]
    · simp [hm.1, hs.1]
  · rw [if_neg h1]
    by_cases h2 : t % 3600 / 60 > 0
    · rw [if_pos h2]
      refine ⟨natRepr (t % 3600 / 60) ++ ['m'], [pad02 (t % 60) ++ ['s']], by simp [joinWith], ?_, ?_,
        fun h => absurd h (hh _ _ h2)⟩
      · simp [natRepr_noSpace, hs.2]
      · simp [hs.1]
    · rw [if_neg h2]
      refine ⟨natRepr (t % 60) ++ ['s'], [], by simp [joinWith], ?_, by simp, ?_⟩
      · simp [natRepr_noSpace]
      · intro h
        by_cases h3 : 0 < t % 60
        · exact absurd h (hh _ _ h3)
        · omega

/-! ## Histories of lists, rounding, command lines -/

theorem listAdds_append {β : Type} (h1 h2 : List (LOp β)) : listAdds (h1 ++ h2) = listAdds h1 ++ listAdds h2 := by
  induction h1 with
  | nil => rfl
  | cons o h ih => cases o <;> simp [listAdds, ih]

theorem listBefore_append {β : Type} {v : Ver} {h1 : List (LOp β)} (hg : LOp.get v ∉ h1) (h2 : List (LOp β)) :
    listBefore v (h1 ++ h2) = h1 ++ listBefore v h2 := by
  induction h1 with
  | nil => rfl
  | cons o h ih =>
    rw [List.mem_cons, not_or] at hg
    cases o with
    | add s e xs => simp [listBefore, ih hg.2]
    | get w =>
      have : w ≠ v := by rintro rfl; exact hg.1 rfl
      simp [listBefore, this, ih hg.2]

theorem mem_listAnswer {β : Type} (log : List (Ver × Ver × List β)) (v : Ver) (x : β) :
    x ∈ listAnswer log v ↔ ∃ s e vals, (s, e, vals) ∈ log ∧ s ≤ v ∧ v < e ∧ x ∈ vals := by
  rw [← vlist_mem, vlist_getItem]
  rfl

theorem pyRound_nearest (num den : Nat) (hd : 0 < den) : Nearest num den (pyRound num den) := by
  have h := Nat.div_add_mod num den
  have hr := Nat.mod_lt num hd
  unfold pyRound
  simp only
  generalize hq : num / den = q at *
  generalize hm : num % den = r at *
  have e1 : (2 * q + 1) * den = 2 * (den * q) + den := by rw [Nat.add_mul, Nat.one_mul, Nat.mul_assoc, Nat.mul_comm q den]
  have e2 : 2 * q * den = 2 * (den * q) := by rw [Nat.mul_assoc, Nat.mul_comm q den]
  have e3 : (2 * (q + 1) + 1) * den = 2 * (den * q) + 3 * den := by
    rw [show 2 * (q + 1) + 1 = 2 * q + 3 by omega, Nat.add_mul, Nat.mul_assoc, Nat.mul_comm q den]
  have e4 : 2 * (q + 1) * den = 2 * (den * q) + 2 * den := by
    rw [show 2 * (q + 1) = 2 * q + 2 by omega, Nat.add_mul, Nat.mul_assoc, Nat.mul_comm q den]
  split
  · refine ⟨?_, ?_, ?_⟩ <;> simp only [e1, e2] <;> omega
  · split
    · refine ⟨?_, ?_, ?_⟩ <;> simp only [e3, e4] <;> omega
    · split
      · refine ⟨?_, ?_, ?_⟩ <;> simp only [e1, e2] <;> omega
      · refine ⟨?_, ?_, ?_⟩ <;> simp only [e3, e4] <;> omega

theorem nearest_unique (num den t u : Nat) (hd : 0 < den) (ht : Nearest num den t) (hu : Nearest num den u) : t = u := by
  have key : ∀ t u, Nearest num den t → Nearest num den u → ¬ t < u := by
    rintro t u ⟨a1, -, a3⟩ ⟨-, b2, b3⟩ hlt
    have h1 : 2 * u * den ≤ (2 * t + 2) * den := by
      have : 2 * num + den ≤ (2 * t + 1) * den + den := by omega
      have e : (2 * t + 2) * den = (2 * t + 1) * den + den := by rw [← Nat.succ_mul]
      omega
    have h2 : 2 * u ≤ 2 * t + 2 := Nat.le_of_mul_le_mul_right h1 hd
    have hut : u = t + 1 := by omega
    subst hut
    have e : 2 * (t + 1) * den = (2 * t + 1) * den + den := by rw [← Nat.succ_mul]; rfl
    have h3 : 2 * num = (2 * t + 1) * den := by omega
    have := a3 (.inl h3)
    have := b3 (.inr (by omega))
    omega
  have := key t u ht hu
  have := key u t hu ht
  omega

theorem part_text (p : Part) (t : Str) : p.text = .ok t ↔ TextOf p t := by
  cases p with
  | str s => simp [Part.text, TextOf, eq_comm]
  | path s => simp [Part.text, TextOf, eq_comm]
  | bytes b => exact decodeUtf8_iff b t

theorem part_text_error (p : Part) (h : ¬ ∃ t, TextOf p t) : p.text = .error .unicode := by
  cases p with
  | str s => exact absurd ⟨s, rfl⟩ h
  | path s => exact absurd ⟨s, rfl⟩ h
  | bytes b => exact (decodeUtf8_error_iff b).2 fun s hs => h ⟨s, hs⟩

theorem mapRes_text (argv : List Part) (texts : List Str) :
    mapRes Part.text argv = .ok texts ↔ List.Forall₂ (fun (p : Part) t => TextOf p t) argv texts := by
  induction argv generalizing texts with
  | nil =>
    constructor
    · intro h; cases h; exact .nil
    · intro h; cases h; rfl
  | cons p l ih =>
    constructor
    · intro h
      simp only [mapRes, bind, Except.bind] at h
      split at h
      · cases h
      · rename_i t ht
        split at h
        · cases h
        · rename_i ts hts
          cases h
          exact .cons ((part_text p t).1 ht) ((ih ts).1 hts)
    · intro h
      cases h with
      | cons h1 h2 => simp only [mapRes, bind, Except.bind, (part_text _ _).2 h1, (ih _).2 h2]

theorem mapRes_text_error (argv : List Part) (h : ¬ ∃ texts, List.Forall₂ (fun (p : Part) t => TextOf p t) argv texts) :
    mapRes Part.text argv = .error .unicode := by
  induction argv with
  | nil => exact absurd ⟨[], .nil⟩ h
  | cons p l ih =>
    simp only [mapRes, bind, Except.bind]
    by_cases hp : ∃ t, TextOf p t
    · obtain ⟨t, ht⟩ := hp
      have hl : ¬ ∃ texts, List.Forall₂ (fun (p : Part) t => TextOf p t) l texts :=
        fun ⟨ts, hts⟩ => h ⟨t :: ts, .cons ht hts⟩
      simp only [(part_text p t).2 ht, ih hl]
    · simp only [part_text_error p hp]

end Verif
