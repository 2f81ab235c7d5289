import Verif.Lemmas.Choice
import Verif.Lemmas.Version
import Verif.Props.Signature
/-! # Lemmas on the extraction of syscalls -/
set_option autoImplicit false

namespace Verif
open Spec

/-! ## Lists -/

theorem filterRes_ok {α : Type} (p : α → Res Bool) (l out : List α) (h : filterRes p l = .ok out) :
    (∀ x ∈ l, ∃ b, p x = .ok b) ∧ out = l.filter (fun x => match p x with | .ok b => b | .error _ => false) := by
  induction l generalizing out with
  | nil => simp only [filterRes] at h; cases h; simp
  | cons x l ih =>
    simp only [filterRes, bind, Except.bind] at h
    split at h
    · cases h
    · next b hb =>
      split at h
      · cases h
      · next r hr =>
        simp only [Except.ok.injEq] at h
        obtain ⟨h1, h2⟩ := ih r hr
        refine ⟨?_, ?_⟩
        · intro y hy
          rcases List.mem_cons.1 hy with rfl | hy
          · exact ⟨b, hb⟩
          · exact h1 y hy
        · rw [List.filter_cons]
          simp only [hb]
          rw [← h, ← h2]

theorem filterRes_mem {α : Type} (p : α → Res Bool) (l out : List α) (h : filterRes p l = .ok out) (x : α) :
    x ∈ out ↔ x ∈ l ∧ p x = .ok true := by
  obtain ⟨h1, rfl⟩ := filterRes_ok p l out h
  rw [List.mem_filter]
  constructor
  · rintro ⟨hx, hp⟩
    obtain ⟨b, hb⟩ := h1 x hx
    rw [hb] at hp
    simp only at hp
    exact ⟨hx, by rw [hb, hp]⟩
  · rintro ⟨hx, hp⟩
    exact ⟨hx, by rw [hp]⟩

theorem filterRes_sublist {α : Type} (p : α → Res Bool) (l out : List α) (h : filterRes p l = .ok out) :
    out.Sublist l := by
  obtain ⟨-, rfl⟩ := filterRes_ok p l out h
  exact List.filter_sublist

theorem filterRes_of_ok {α : Type} (p : α → Res Bool) (l : List α) (h : ∀ x ∈ l, ∃ b, p x = .ok b) :
    ∃ out, filterRes p l = .ok out := by
  induction l with
  | nil => exact ⟨[], rfl⟩
  | cons x l ih =>
    obtain ⟨b, hb⟩ := h x (by simp)
    obtain ⟨r, hr⟩ := ih fun y hy => h y (by simp [hy])
    exact ⟨if b then x :: r else r, by simp [filterRes, hb, hr, bind, Except.bind]⟩

theorem pairwise_imp_mem {α : Type} {R S : α → α → Prop} {l : List α} (h : l.Pairwise R)
    (hi : ∀ a ∈ l, ∀ b ∈ l, R a b → S a b) : l.Pairwise S := by
  induction l with
  | nil => exact .nil
  | cons x l ih =>
    rw [List.pairwise_cons] at h ⊢
    exact ⟨fun y hy => hi x (by simp) y (by simp [hy]) (h.1 y hy),
      ih h.2 fun a ha b hb => hi a (by simp [ha]) b (by simp [hb])⟩

/-! ## Indices -/

theorem sortEntries_perm (es : List (Nat × Nat)) : (sortEntries es).Perm es := sortBy_perm _ _

theorem sortEntries_pairwise (es : List (Nat × Nat)) (h : (es.map Prod.fst).Nodup) :
    (sortEntries es).Pairwise fun a b => a.1 < b.1 := by
  have h1 := sortBy_pairwise (fun a b : Nat × Nat => decide (a.1 ≤ b.1)) (by intro a b; simp; omega)
    (by intro a b c; simp; omega) es
  have h2 : ((sortEntries es).map Prod.fst).Nodup := ((sortEntries_perm es).map _).nodup_iff.2 h
  rw [List.Nodup, List.pairwise_map] at h2
  have := List.Pairwise.and h1 h2
  refine this.imp ?_
  rintro a b ⟨h3, h4⟩
  simp at h3
  omega

theorem enumerate_keys {α : Type} (l : List α) : (enumerate l).map Prod.fst = List.range l.length := by
  unfold enumerate
  rw [List.map_map]
  have : (Prod.fst ∘ fun p : α × Nat => (p.2, p.1)) = Prod.snd := rfl
  rw [this, List.zipIdx_map_snd, List.range_eq_range']

theorem enumerate_mem {α : Type} (l : List α) (i : Nat) (x : α) : (i, x) ∈ enumerate l ↔ l[i]? = some x := by
  unfold enumerate
  rw [List.mem_map]
  constructor
  · rintro ⟨⟨y, j⟩, h, he⟩
    simp only [Prod.mk.injEq] at he
    obtain ⟨rfl, rfl⟩ := he
    simpa using List.mem_zipIdx_iff_getElem?.1 h
  · intro h
    exact ⟨(x, i), by simpa [List.mem_zipIdx_iff_getElem?] using h, rfl⟩

/-! ## Numbers -/

theorem slot_strictMono (a : Arch) (i j m n : Nat) (hij : i < j) (hi : a.slot i = some m) (hj : a.slot j = some n) : m < n := by
  simp only [Arch.slot] at hi hj
  split at hi
  · cases hi
  · next hsi =>
    split at hj
    · cases hj
    · next hsj =>
      simp only [Option.some.injEq] at hi hj
      subst hi hj
      cases hk : a.kind <;> simp only [Arch.adjustNumber, Arch.skipSyscall, hk] at hsi hsj ⊢
      case powerpc =>
        split
        · omega
        · next hb =>
          rw [if_neg hb] at hsi hsj
          split at hsi
          · next ha =>
            rw [if_pos ha] at hsj
            simp at hsi hsj
            omega
          · next ha =>
            rw [if_neg ha] at hsj
            simp at hsi hsj
            omega
      all_goals omega

/-! ## Counting ni_syscalls -/

theorem sum_dset_succ (d : Dict Symbol Nat) (s : Symbol) :
    ((dset s (((dget s d).getD 0) + 1) d).map Prod.snd).sum = (d.map Prod.snd).sum + 1 := by
  induction d with
  | nil => simp [dset, dget]
  | cons p d ih =>
    obtain ⟨k, n⟩ := p
    simp only [dset, dget]
    by_cases h : k = s
    · simp [h]; omega
    · simp only [h, if_false, List.map_cons, List.sum_cons, ih]; omega

theorem niCounts_append (ni : List Symbol) (rs : List (Nat × Symbol)) (p : Nat × Symbol) :
    niCounts ni (rs ++ [p]) =
      if ni.contains p.2 then dset p.2 (((dget p.2 (niCounts ni rs)).getD 0) + 1) (niCounts ni rs) else niCounts ni rs := by
  unfold niCounts
  rw [List.foldl_append]
  rfl

theorem niCounts_total (ni : List Symbol) (rs : List (Nat × Symbol)) :
    ((niCounts ni rs).map Prod.snd).sum = (rs.filter fun p => ni.contains p.2).length := by
  induction rs using List.reverseRecOn with
  | nil => rfl
  | append_singleton rs p ih =>
    rw [niCounts_append, List.filter_append]
    split
    · next h =>
      have : List.filter (fun p => ni.contains p.2) [p] = [p] := by rw [List.filter_cons, h]; rfl
      rw [sum_dset_succ, ih, this]
      simp
    · next h =>
      have : List.filter (fun p => ni.contains p.2) [p] = [] := by
        rw [List.filter_cons]; simp [Bool.not_eq_true] at h; simp [h]
      rw [ih, this]
      simp

theorem niCounts_nodup (ni : List Symbol) (rs : List (Nat × Symbol)) : DNodup (niCounts ni rs) := by
  induction rs using List.reverseRecOn with
  | nil => exact List.nodup_nil
  | append_singleton rs p ih =>
    rw [niCounts_append]
    split
    · exact ih.dset _ _
    · exact ih

theorem niCounts_get (ni : List Symbol) (rs : List (Nat × Symbol)) (s : Symbol) :
    (dget s (niCounts ni rs)).getD 0 = (if ni.contains s then rs.countP (fun p => p.2 == s) else 0) ∧
    ((dget s (niCounts ni rs)).isSome = true ↔ s ∈ ni ∧ ∃ p ∈ rs, p.2 = s) := by
  induction rs using List.reverseRecOn with
  | nil => simp [niCounts, dget]
  | append_singleton rs p ih =>
    rw [niCounts_append]
    by_cases hp : ni.contains p.2 = true
    · simp only [hp, if_true, dget_dset]
      by_cases hs : s = p.2
      · subst hs
        rw [ih.1]
        have hp' : p.2 ∈ ni := by simpa using hp
        simp only [if_true, hp, Option.getD_some, List.countP_append, List.countP_singleton, beq_self_eq_true,
          Option.isSome_some, hp', true_and, true_iff]
        exact ⟨p, by simp, rfl⟩
      · have hb : (p.2 == s) = false := by simpa using fun e => hs (Eq.symm e)
        simp only [hs, if_false, List.countP_append, List.countP_singleton, hb, Bool.false_eq_true, Nat.add_zero]
        refine ⟨ih.1, ih.2.trans ?_⟩
        simp only [List.mem_append, List.mem_singleton]
        constructor
        · rintro ⟨h1, q, h2, h3⟩; exact ⟨h1, q, .inl h2, h3⟩
        · rintro ⟨h1, q, h2 | h2, h3⟩
          · exact ⟨h1, q, h2, h3⟩
          · rw [h2] at h3; exact absurd h3.symm hs
    · simp only [hp, Bool.false_eq_true, if_false]
      have hp' : p.2 ∉ ni := by simpa using hp
      refine ⟨?_, ih.2.trans ?_⟩
      · rw [ih.1]
        split
        · next hs =>
          have hb : (p.2 == s) = false := by
            simp only [beq_eq_false_iff_ne, ne_eq]
            rintro rfl
            exact hp hs
          simp [List.countP_append, hb]
        · rfl
      · simp only [List.mem_append, List.mem_singleton]
        constructor
        · rintro ⟨h1, q, h2, h3⟩; exact ⟨h1, q, .inl h2, h3⟩
        · rintro ⟨h1, q, h2 | h2, h3⟩
          · exact ⟨h1, q, h2, h3⟩
          · subst h2; subst h3; exact absurd h1 hp'

theorem maxFold_spec (xs : Dict Symbol Nat) (x : Symbol × Nat) :
    let m := xs.foldl (fun best y => if y.2 > best.2 then y else best) x
    m ∈ x :: xs ∧ ∀ p ∈ x :: xs, p.2 ≤ m.2 := by
  induction xs generalizing x with
  | nil => simp
  | cons y ys ih =>
    simp only [List.foldl_cons]
    have := ih (if y.2 > x.2 then y else x)
    simp only at this
    obtain ⟨h1, h2⟩ := this
    constructor
    · rcases List.mem_cons.1 h1 with h1 | h1
      · rw [h1]; split <;> simp
      · simp [h1]
    · have h3 := h2 (if y.2 > x.2 then y else x) (by simp)
      intro p hp
      rcases List.mem_cons.1 hp with rfl | hp
      · refine Nat.le_trans ?_ h3
        split <;> omega
      · rcases List.mem_cons.1 hp with rfl | hp
        · refine Nat.le_trans ?_ h3
          split <;> omega
        · exact h2 p (by simp [hp])

theorem maxKey_spec (d : Dict Symbol Nat) (hd : DNodup d) (s : Symbol) (h : maxKey d = some s) :
    ∃ n, dget s d = some n ∧ ∀ t m, dget t d = some m → m ≤ n := by
  cases d with
  | nil => simp [maxKey] at h
  | cons x xs =>
    simp only [maxKey, Option.some.injEq] at h
    have := maxFold_spec xs x
    simp only at this
    obtain ⟨h1, h2⟩ := this
    refine ⟨_, dget_of_mem hd (k := s) (by rw [← h]; exact h1), ?_⟩
    intro t m ht
    exact h2 _ (dget_mem ht)

theorem maxKey_none (d : Dict Symbol Nat) : maxKey d = none ↔ d = [] := by
  cases d <;> simp [maxKey]

/-! ## Steps of the extraction -/

/-- entries that resolve to implemented symbols, in index order -/
def implSyms (a : Arch) (e : Elf) (niOrder : List Symbol) (entries : List (Nat × Nat)) : List (Nat × Symbol) :=
  (resolved (symbolsByVaddr a e niOrder (entries.map Prod.snd)) (sortEntries entries)).filter
    fun p => !e.niSyscalls.contains p.2

theorem resolved_length_le (d : Dict Nat Symbol) (es : List (Nat × Nat)) : (resolved d es).length ≤ es.length :=
  List.length_filterMap_le _ _

theorem resolved_length_eq (d : Dict Nat Symbol) (es : List (Nat × Nat)) :
    (resolved d es).length = es.length ↔ ∀ p ∈ es, (dget p.2 d).isSome = true := by
  unfold resolved
  induction es with
  | nil => simp
  | cons p es ih =>
    have hle := resolved_length_le d es
    unfold resolved at hle
    simp only [List.filterMap_cons, List.mem_cons, forall_eq_or_imp]
    cases hp : dget p.2 d with
    | none => simp; omega
    | some s => simpa using ih

theorem mem_resolved (d : Dict Nat Symbol) (es : List (Nat × Nat)) (i : Nat) (s : Symbol) :
    (i, s) ∈ resolved d es ↔ ∃ va, (i, va) ∈ es ∧ dget va d = some s := by
  unfold resolved
  rw [List.mem_filterMap]
  constructor
  · rintro ⟨⟨j, va⟩, h1, h2⟩
    cases hd : dget va d with
    | none => simp [hd] at h2
    | some t =>
      simp [hd] at h2
      obtain ⟨rfl, rfl⟩ := h2
      exact ⟨va, h1, hd⟩
  · rintro ⟨va, h1, h2⟩
    exact ⟨(i, va), h1, by simp [h2]⟩

theorem resolved_pairwise (d : Dict Nat Symbol) (es : List (Nat × Nat)) (h : es.Pairwise fun a b => a.1 < b.1) :
    (resolved d es).Pairwise fun a b => a.1 < b.1 := by
  unfold resolved
  rw [List.pairwise_filterMap]
  refine h.imp ?_
  intro p q hpq s hs t ht
  cases hp : dget p.2 d with
  | none => simp [hp] at hs
  | some x =>
    cases hq : dget q.2 d with
    | none => simp [hq] at ht
    | some y =>
      simp [hp] at hs
      simp [hq] at ht
      subst hs ht
      exact hpq

theorem mem_implSyms (a : Arch) (e : Elf) (niOrder : List Symbol) (entries : List (Nat × Nat)) (i : Nat) (s : Symbol) :
    (i, s) ∈ implSyms a e niOrder entries ↔
      ∃ va, (i, va) ∈ entries ∧ dget va (symbolsByVaddr a e niOrder (entries.map Prod.snd)) = some s ∧ s ∉ e.niSyscalls := by
  unfold implSyms
  rw [List.mem_filter, mem_resolved]
  simp only [(sortEntries_perm entries).mem_iff]
  constructor
  · rintro ⟨⟨va, h1, h2⟩, h3⟩; exact ⟨va, h1, h2, by simpa using h3⟩
  · rintro ⟨va, h1, h2, h3⟩; exact ⟨⟨va, h1, h2⟩, by simpa using h3⟩

theorem buildSyscalls_mem (a : Arch) (v : Ver) (ps : List Str) (l : List (Nat × Symbol)) (sc : Syscall) :
    sc ∈ buildSyscalls a v ps l ↔ ∃ i s, (i, s) ∈ l ∧ sc = makeSyscall a v ps i s ∧ a.slot i = some sc.number := by
  unfold buildSyscalls
  rw [List.mem_filter, List.mem_map]
  constructor
  · rintro ⟨⟨⟨i, s⟩, h1, rfl⟩, h2⟩
    refine ⟨i, s, h1, rfl, ?_⟩
    simp only [makeSyscall, Syscall.new, Option.getD_some, Bool.not_eq_true'] at h2 ⊢
    simp only [Arch.slot, h2]
    rfl
  · rintro ⟨i, s, h1, rfl, h2⟩
    refine ⟨⟨(i, s), h1, rfl⟩, ?_⟩
    simp only [Arch.slot] at h2
    split at h2
    · cases h2
    · next h => simpa [makeSyscall, Syscall.new] using h

theorem buildSyscalls_pairwise (a : Arch) (v : Ver) (ps : List Str) (l : List (Nat × Symbol))
    (h : l.Pairwise fun x y => x.1 < y.1) :
    (buildSyscalls a v ps l).Pairwise fun x y => x.number < y.number := by
  have h1 : (buildSyscalls a v ps l).Pairwise fun x y => x.index.getD 0 < y.index.getD 0 := by
    unfold buildSyscalls
    apply List.Pairwise.sublist List.filter_sublist
    rw [List.pairwise_map]
    exact h
  refine pairwise_imp_mem h1 ?_
  intro x hx y hy hlt
  obtain ⟨i, s, -, rfl, hi⟩ := (buildSyscalls_mem a v ps l x).1 hx
  obtain ⟨j, t, -, rfl, hj⟩ := (buildSyscalls_mem a v ps l y).1 hy
  exact slot_strictMono a i j _ _ hlt hi hj

theorem buildSyscalls_length_le (a : Arch) (v : Ver) (ps : List Str) (l : List (Nat × Symbol)) :
    (buildSyscalls a v ps l).length ≤ l.length := by
  unfold buildSyscalls
  exact Nat.le_trans (List.length_filter_le _ _) (by simp)

theorem mapRes_length {α β : Type} (f : α → Res β) (l : List α) (out : List β) (h : mapRes f l = .ok out) :
    out.length = l.length := by
  have := mapRes_get f l out h
  clear h
  induction this with
  | nil => rfl
  | cons _ _ ih => simp [ih]

theorem esoteric_flags (e : Elf) (l : List Esoteric) (out : List Syscall) (h : esotericSyscalls e l = .ok out) :
    ∀ sc ∈ out, sc.esoteric = true ∧ sc.index = none := by
  have := mapRes_get _ l out h
  clear h
  induction this with
  | nil => simp
  | cons hab _ ih =>
    intro sc hsc
    rcases List.mem_cons.1 hsc with rfl | hsc
    · split at hab
      · cases hab
      · cases hab; exact ⟨rfl, rfl⟩
    · exact ih sc hsc

theorem esoteric_unlocated (e : Elf) (l : List Esoteric) (out : List Syscall) (h : esotericSyscalls e l = .ok out) :
    ∀ sc ∈ out, Unlocated sc := by
  have := mapRes_get _ l out h
  clear h
  induction this with
  | nil => simp
  | cons hab _ ih =>
    intro sc hsc
    rcases List.mem_cons.1 hsc with rfl | hsc
    · split at hab
      · cases hab
      · cases hab; exact ⟨rfl, rfl, rfl, rfl⟩
    · exact ih sc hsc

/-- what a successful `candidateSyscalls` went through -/
structure Candidates (a : Arch) (e : Elf) (v : Ver) (niOrder : List Symbol) (entries : List (Nat × Nat))
    (out : List Syscall) (prefixes : List Str) (eso : List Esoteric) (esoScs : List Syscall)
    (niRef : Option Symbol) (niCode : Option Bytes) : Prop where
  prefixes_ok : commonPrefixes ((implSyms a e niOrder entries).map fun p => p.2.name) 20 = .ok prefixes
  eso_ok : a.extractEsoteric e = .ok eso
  esoScs_ok : esotericSyscalls e eso = .ok esoScs
  count : (resolved (symbolsByVaddr a e niOrder (entries.map Prod.snd)) (sortEntries entries)).length = entries.length
  ref : niRef = maxKey (niCounts e.niSyscalls
    (resolved (symbolsByVaddr a e niOrder (entries.map Prod.snd)) (sortEntries entries)))
  code : (niRef = none → niCode = none) ∧ ∀ s, niRef = some s → ∃ c, e.readSymbol s = .ok c ∧ niCode = some c
  filtered : filterRes (fun sc => do let d ← a.isDummy sc.symbol e niRef niCode; .ok (!d))
    (buildSyscalls a v prefixes (implSyms a e niOrder entries) ++ esoScs) = .ok out

/-- the number of entries accounted for -/
theorem count_identity (a : Arch) (e : Elf) (v : Ver) (niOrder : List Symbol) (entries : List (Nat × Nat))
    (ps : List Str) :
    let rs := resolved (symbolsByVaddr a e niOrder (entries.map Prod.snd)) (sortEntries entries)
    let impl := implSyms a e niOrder entries
    let scs := buildSyscalls a v ps impl
    scs.length + ((niCounts e.niSyscalls rs).map Prod.snd).sum + (impl.length - scs.length) = rs.length := by
  intro rs impl scs
  rw [niCounts_total]
  have h1 := buildSyscalls_length_le a v ps impl
  have h2 : impl.length + (rs.filter fun p => e.niSyscalls.contains p.2).length = rs.length := by
    have := List.length_eq_length_filter_add (l := rs) (fun p => e.niSyscalls.contains p.2)
    have h3 : impl = rs.filter fun p => !e.niSyscalls.contains p.2 := rfl
    rw [h3]
    omega
  have h3 : scs.length ≤ impl.length := h1
  omega

theorem candidates_of_ok (a : Arch) (e : Elf) (v : Ver) (niOrder : List Symbol) (entries : List (Nat × Nat))
    (out : List Syscall) (h : candidateSyscalls a e v niOrder entries = .ok out) :
    ∃ ps eso esoScs niRef niCode, Candidates a e v niOrder entries out ps eso esoScs niRef niCode := by
  have himpl : (resolved (symbolsByVaddr a e niOrder (entries.map Prod.snd)) (sortEntries entries)).filter
    (fun p => !e.niSyscalls.contains p.2) = implSyms a e niOrder entries := rfl
  simp only [candidateSyscalls, bind, Except.bind, himpl] at h
  split at h
  · cases h
  next ps hps =>
  split at h
  · cases h
  next eso heso =>
  split at h
  · cases h
  next esoScs hes =>
  split at h
  · cases h
  next u hu =>
  split at h
  · cases h
  next niCode hc =>
  refine ⟨ps, eso, esoScs, _, niCode, hps, heso, hes, ?_, rfl, ?_, h⟩
  · have hlen := mapRes_length _ _ _ hes
    have hid := count_identity a e v niOrder entries ps
    simp only at hid
    unfold pyAssert at hu
    split at hu
    · next hd =>
      simp only [decide_eq_true_eq, List.length_append] at hd
      omega
    · cases hu
  · clear h
    generalize maxKey _ = k at hc
    cases k with
    | none => simp only at hc; cases hc; exact ⟨fun _ => rfl, fun s hs => by cases hs⟩
    | some s =>
      simp only at hc
      split at hc
      · cases hc
      · next c hcc =>
        cases hc
        refine ⟨fun h => (by cases h), ?_⟩
        intro t ht
        cases ht
        exact ⟨c, hcc, rfl⟩

end Verif
