import Verif.Spec.Repro
import Verif.Lemmas.Main3
import Verif.Props.Extract
import Verif.Props.X86Emu
import Mathlib.Data.List.Forall2
/-! # Lemmas about the iteration order of sets -/
set_option autoImplicit false

namespace Verif
open Spec

/-! ## The choice of symbols -/

/-- the same entry, or two entries for ni_syscalls at the same address -/
def NiPair (ni : List Symbol) (p q : Nat × Symbol) : Prop :=
  p.1 = q.1 ∧ p.2.vaddr = q.2.vaddr ∧ ((p.2 = q.2 ∧ ni.contains p.2 = false) ∨ (ni.contains p.2 = true ∧ ni.contains q.2 = true))

theorem NiPair.contains {ni : List Symbol} {p q : Nat × Symbol} (h : NiPair ni p q) : ni.contains p.2 = ni.contains q.2 := by
  rcases h with ⟨_, _, ⟨h1, h2⟩ | ⟨h1, h2⟩⟩
  · rw [h1]
  · rw [h1, h2]

theorem chosen_pair (a : Arch) (e : Elf) (o o' : List Symbol) (ho : o.Perm e.niSyscalls) (ho' : o'.Perm e.niSyscalls)
    (seen seen' : List Nat) (va : Nat) (h : va ∈ seen) (h' : va ∈ seen') :
    (dget va (symbolsByVaddr a e o seen) = none ∧ dget va (symbolsByVaddr a e o' seen') = none) ∨
    ∃ s t, dget va (symbolsByVaddr a e o seen) = some s ∧ dget va (symbolsByVaddr a e o' seen') = some t ∧
      s.vaddr = va ∧ t.vaddr = va ∧
      ((s = t ∧ e.niSyscalls.contains s = false) ∨ (e.niSyscalls.contains s = true ∧ e.niSyscalls.contains t = true)) := by
  have hc := C32_choice a e o ho seen va h
  have hc' := C32_choice a e o' ho' seen' va h'
  have hmem : ∀ s, e.niSyscalls.contains s = true ↔ IsNi e s := fun s => by
    exact List.contains_iff_mem.trans (mem_niSyscalls e s)
  by_cases hni : ∃ t, IsNi e t ∧ t.vaddr = va
  · obtain ⟨t, ht, hv⟩ := hni
    obtain ⟨s1, h1⟩ := hc.1.1 ⟨t, hv, .inr ht⟩
    obtain ⟨s2, h2⟩ := hc'.1.1 ⟨t, hv, .inr ht⟩
    have g1 := hc.2 s1 h1
    have g2 := hc'.2 s2 h2
    exact .inr ⟨s1, s2, h1, h2, g1.1, g2.1, .inr ⟨(hmem s1).2 (g1.2.2.2 ⟨t, ht, hv⟩), (hmem s2).2 (g2.2.2.2 ⟨t, ht, hv⟩)⟩⟩
  · have hinit : ∀ l : List Symbol, l.Perm e.niSyscalls → dget va (initialByVaddr l) = none := by
      intro l hl
      have := (initialByVaddr_get l va).2
      cases hg : dget va (initialByVaddr l) with
      | none => rfl
      | some x =>
        rw [hg] at this
        obtain ⟨s, hs, hv⟩ := this.1 rfl
        exact absurd ⟨s, (mem_niSyscalls e s).1 (hl.mem_iff.1 hs), hv⟩ hni
    have heq : dget va (symbolsByVaddr a e o seen) = dget va (symbolsByVaddr a e o' seen') := by
      rw [symbolsByVaddr_get a e o seen va h, symbolsByVaddr_get a e o' seen' va h', hinit o ho, hinit o' ho']
    rw [← heq]
    cases hg : dget va (symbolsByVaddr a e o seen) with
    | none => exact .inl ⟨rfl, rfl⟩
    | some s =>
      have g1 := hc.2 s hg
      refine .inr ⟨s, s, rfl, rfl, g1.1, g1.1, .inl ⟨rfl, ?_⟩⟩
      rw [Bool.eq_false_iff]
      intro hs
      exact hni (g1.2.2.1 ((hmem s).1 hs))

theorem resolved_pair (a : Arch) (e : Elf) (o o' : List Symbol) (ho : o.Perm e.niSyscalls) (ho' : o'.Perm e.niSyscalls)
    (seen seen' : List Nat) (es : List (Nat × Nat)) (h : ∀ p ∈ es, p.2 ∈ seen) (h' : ∀ p ∈ es, p.2 ∈ seen') :
    List.Forall₂ (NiPair e.niSyscalls) (resolved (symbolsByVaddr a e o seen) es) (resolved (symbolsByVaddr a e o' seen') es) := by
  unfold resolved
  induction es with
  | nil => exact .nil
  | cons p es ih =>
    have ih := ih (fun q hq => h q (List.mem_cons_of_mem _ hq)) (fun q hq => h' q (List.mem_cons_of_mem _ hq))
    rcases chosen_pair a e o o' ho ho' seen seen' p.2 (h p (by simp)) (h' p (by simp)) with ⟨h1, h2⟩ | ⟨s, t, h1, h2, v1, v2, hst⟩
    · rw [List.filterMap_cons_none (by rw [h1]; rfl), List.filterMap_cons_none (by rw [h2]; rfl)]
      exact ih
    · rw [List.filterMap_cons_some (b := (p.1, s)) (by rw [h1]; rfl), List.filterMap_cons_some (b := (p.1, t)) (by rw [h2]; rfl)]
      exact .cons ⟨rfl, v1.trans v2.symm, hst⟩ ih

theorem pair_filter (ni : List Symbol) (rs rs' : List (Nat × Symbol)) (h : List.Forall₂ (NiPair ni) rs rs') :
    rs.filter (fun p => !ni.contains p.2) = rs'.filter (fun p => !ni.contains p.2) := by
  induction h with
  | nil => rfl
  | cons hd _ ih =>
    rename_i p q _ _ 
    rw [List.filter_cons, List.filter_cons, ih, hd.contains]
    split
    · rename_i hq
      rcases hd with ⟨h1, _, ⟨h2, _⟩ | ⟨_, h2⟩⟩
      · rw [Prod.ext h1 h2]
      · rw [h2] at hq; exact absurd hq (by simp)
    · rfl

theorem pair_total (ni : List Symbol) (rs rs' : List (Nat × Symbol)) (h : List.Forall₂ (NiPair ni) rs rs') :
    (rs.filter (fun p => ni.contains p.2)).length = (rs'.filter (fun p => ni.contains p.2)).length := by
  induction h with
  | nil => rfl
  | cons hd _ ih =>
    rw [List.filter_cons, List.filter_cons, hd.contains]
    split
    · simp only [List.length_cons, ih]
    · exact ih

/-! ## The reference -/

/-- the entries that are ni_syscalls, counted by address -/
def niVaddrs (ni : List Symbol) (rs : List (Nat × Symbol)) : Dict Nat Nat :=
  rs.foldl (fun d p => if ni.contains p.2 then dset p.2.vaddr (((dget p.2.vaddr d).getD 0) + 1) d else d) []

theorem niVaddrs_pair (ni : List Symbol) (rs rs' : List (Nat × Symbol)) (h : List.Forall₂ (NiPair ni) rs rs') :
    niVaddrs ni rs = niVaddrs ni rs' := by
  unfold niVaddrs
  generalize ([] : Dict Nat Nat) = d
  induction h generalizing d with
  | nil => rfl
  | cons hd _ ih => rw [List.foldl_cons, List.foldl_cons, hd.contains, hd.2.1, ih]

theorem dget_rekey {f : Symbol → Nat} (d : Dict Symbol Nat) (s : Symbol) (h : ∀ p ∈ d, f p.1 = f s → p.1 = s) :
    dget (f s) (d.map fun p => (f p.1, p.2)) = dget s d := by
  induction d with
  | nil => rfl
  | cons p d ih =>
    have ih := ih fun q hq => h q (List.mem_cons_of_mem _ hq)
    obtain ⟨k, v⟩ := p
    by_cases hk : k = s
    · subst hk; simp [dget]
    · have : f k ≠ f s := fun hf => hk (h (k, v) (by simp) hf)
      simp only [List.map_cons, dget]
      rw [if_neg this, if_neg hk]
      exact ih

theorem dset_rekey {f : Symbol → Nat} (d : Dict Symbol Nat) (s : Symbol) (n : Nat) (h : ∀ p ∈ d, f p.1 = f s → p.1 = s) :
    dset (f s) n (d.map fun p => (f p.1, p.2)) = (dset s n d).map fun p => (f p.1, p.2) := by
  induction d with
  | nil => rfl
  | cons p d ih =>
    have ih := ih fun q hq => h q (List.mem_cons_of_mem _ hq)
    obtain ⟨k, v⟩ := p
    by_cases hk : k = s
    · subst hk; simp [dset]
    · have : f k ≠ f s := fun hf => hk (h (k, v) (by simp) hf)
      simp only [List.map_cons, dset]
      rw [if_neg this, if_neg hk, List.map_cons, ih]

theorem niCounts_keys (ni : List Symbol) (rs : List (Nat × Symbol)) (p : Symbol × Nat) (h : p ∈ niCounts ni rs) :
    p.1 ∈ ni ∧ ∃ q ∈ rs, q.2 = p.1 := by
  have hg : dget p.1 (niCounts ni rs) = some p.2 := dget_of_mem (niCounts_nodup ni rs) h
  exact ((niCounts_get ni rs p.1).2).1 (by rw [hg]; rfl)

theorem niCounts_rekey (ni : List Symbol) (rs : List (Nat × Symbol))
    (h : ∀ p ∈ rs, ∀ q ∈ rs, p.2.vaddr = q.2.vaddr → p.2 = q.2) :
    (niCounts ni rs).map (fun p => (p.1.vaddr, p.2)) = niVaddrs ni rs := by
  induction rs using List.reverseRecOn with
  | nil => rfl
  | append_singleton rs p ih =>
    have ih := ih fun x hx y hy => h x (by simp [hx]) y (by simp [hy])
    have hv : niVaddrs ni (rs ++ [p]) =
        if ni.contains p.2 then dset p.2.vaddr (((dget p.2.vaddr (niVaddrs ni rs)).getD 0) + 1) (niVaddrs ni rs) else niVaddrs ni rs := by
      unfold niVaddrs; rw [List.foldl_append]; rfl
    rw [hv, niCounts_append]
    split
    · have hk : ∀ q ∈ niCounts ni rs, q.1.vaddr = p.2.vaddr → q.1 = p.2 := by
        intro q hq hqv
        obtain ⟨_, r, hr, hrq⟩ := niCounts_keys ni rs q hq
        rw [← hrq]
        exact h r (by simp [hr]) p (by simp) (by rw [hrq]; exact hqv)
      rw [← ih, dset_rekey (f := Symbol.vaddr) _ _ _ hk, dget_rekey (f := Symbol.vaddr) _ _ hk]
    · exact ih

/-- `max(d, key=d.get)` for addresses -/
def maxAddr (d : Dict Nat Nat) : Option Nat :=
  match d with
  | [] => none
  | x :: xs => some (xs.foldl (fun best y => if y.2 > best.2 then y else best) x).1

theorem maxKey_rekey (d : Dict Symbol Nat) : (maxKey d).map Symbol.vaddr = maxAddr (d.map fun p => (p.1.vaddr, p.2)) := by
  cases d with
  | nil => rfl
  | cons x xs =>
    simp only [maxKey, maxAddr, List.map_cons, Option.map_some, Option.some.injEq]
    have : ∀ (x : Symbol × Nat), ((xs.map fun p => (p.1.vaddr, p.2)).foldl (fun best y => if y.2 > best.2 then y else best)
        (x.1.vaddr, x.2)) = ((xs.foldl (fun best y => if y.2 > best.2 then y else best) x).1.vaddr,
          (xs.foldl (fun best y => if y.2 > best.2 then y else best) x).2) := by
      induction xs with
      | nil => intro x; rfl
      | cons y ys ih =>
        intro x
        simp only [List.map_cons, List.foldl_cons]
        rw [← ih]
        congr 1
        split <;> rfl
    rw [this]

theorem maxKey_mem (d : Dict Symbol Nat) (s : Symbol) (h : maxKey d = some s) : ∃ n, (s, n) ∈ d := by
  cases d with
  | nil => exact absurd h (by simp [maxKey])
  | cons x xs =>
    simp only [maxKey, Option.some.injEq] at h
    have : ∀ x : Symbol × Nat, (xs.foldl (fun best y => if y.2 > best.2 then y else best) x) ∈ x :: xs := by
      clear h
      induction xs with
      | nil => intro x; simp
      | cons y ys ih =>
        intro x
        rw [List.foldl_cons]
        have := ih (if y.2 > x.2 then y else x)
        split at this
        · rename_i hc
          rw [if_pos hc]
          exact List.mem_cons_of_mem _ this
        · rename_i hc
          rw [if_neg hc]
          rcases List.mem_cons.1 this with h | h
          · rw [h]; simp
          · exact List.mem_cons_of_mem _ (List.mem_cons_of_mem _ h)
    have := this x
    exact ⟨_, by rw [← h]; exact this⟩

theorem resolved_inj (a : Arch) (e : Elf) (o : List Symbol) (ho : o.Perm e.niSyscalls) (seen : List Nat)
    (es : List (Nat × Nat)) (h : ∀ p ∈ es, p.2 ∈ seen) :
    ∀ p ∈ resolved (symbolsByVaddr a e o seen) es, ∀ q ∈ resolved (symbolsByVaddr a e o seen) es, p.2.vaddr = q.2.vaddr → p.2 = q.2 := by
  have key : ∀ p ∈ resolved (symbolsByVaddr a e o seen) es, dget p.2.vaddr (symbolsByVaddr a e o seen) = some p.2 := by
    intro p hp
    unfold resolved at hp
    obtain ⟨x, hx, hm⟩ := List.mem_filterMap.1 hp
    cases hg : dget x.2 (symbolsByVaddr a e o seen) with
    | none => rw [hg] at hm; exact absurd hm (by simp)
    | some s =>
      rw [hg] at hm
      have := (C32_choice a e o ho seen x.2 (h x hx)).2 s hg
      simp only [Option.map_some, Option.some.injEq] at hm
      rw [← hm]
      show dget s.vaddr _ = some s
      rw [this.1, hg]
  intro p hp q hq hv
  have h1 := key p hp
  have h2 := key q hq
  rw [hv, h2] at h1
  exact (Option.some.inj h1).symm

/-! ## The syscalls found -/

/-- two references that do the same -/
def RefAlike (r r' : Option Symbol) : Prop :=
  (r = none ∧ r' = none) ∨ ∃ s t, r = some s ∧ r' = some t ∧ s.realVaddr = t.realVaddr ∧ s.size = t.size

theorem isDummy_alike (a : Arch) (sym : Symbol) (e : Elf) (r r' : Option Symbol) (code : Option Bytes) (h : RefAlike r r') :
    a.isDummy sym e r code = a.isDummy sym e r' code := by
  rcases h with ⟨rfl, rfl⟩ | ⟨s, t, rfl, rfl, h1, h2⟩
  · rfl
  · unfold Arch.isDummy
    simp only [Option.any_some, h1, Option.isSome_some]

theorem sortEntries_perm_eq (es es' : List (Nat × Nat)) (hp : es.Perm es') (hn : (es.map Prod.fst).Nodup) :
    sortEntries es = sortEntries es' := by
  have hn' : (es'.map Prod.fst).Nodup := (hp.map _).nodup_iff.1 hn
  have h1 := sortEntries_pairwise es hn
  have h2 := sortEntries_pairwise es' hn'
  refine List.Perm.eq_of_pairwise (le := fun a b => a.1 < b.1) ?_ h1 h2
    ((sortEntries_perm es).trans (hp.trans (sortEntries_perm es').symm))
  intro x y _ _ hx hy
  omega

theorem ref_pair (e : Elf) (rs rs' : List (Nat × Symbol)) (hpair : List.Forall₂ (NiPair e.niSyscalls) rs rs')
    (hi : ∀ p ∈ rs, ∀ q ∈ rs, p.2.vaddr = q.2.vaddr → p.2 = q.2) (hi' : ∀ p ∈ rs', ∀ q ∈ rs', p.2.vaddr = q.2.vaddr → p.2 = q.2)
    (hsize : ∀ s t, IsNi e s → IsNi e t → s.vaddr = t.vaddr → s.size = t.size ∧ s.realVaddr = t.realVaddr) :
    RefAlike (maxKey (niCounts e.niSyscalls rs)) (maxKey (niCounts e.niSyscalls rs')) := by
  have hm : (maxKey (niCounts e.niSyscalls rs)).map Symbol.vaddr = (maxKey (niCounts e.niSyscalls rs')).map Symbol.vaddr := by
    rw [maxKey_rekey, maxKey_rekey, niCounts_rekey _ _ hi, niCounts_rekey _ _ hi', niVaddrs_pair _ _ _ hpair]
  cases h1 : maxKey (niCounts e.niSyscalls rs) with
  | none =>
    cases h2 : maxKey (niCounts e.niSyscalls rs') with
    | none => exact .inl ⟨rfl, rfl⟩
    | some t => rw [h1, h2] at hm; exact absurd hm (by simp)
  | some s =>
    cases h2 : maxKey (niCounts e.niSyscalls rs') with
    | none => rw [h1, h2] at hm; exact absurd hm (by simp)
    | some t =>
      rw [h1, h2] at hm
      obtain ⟨n, hn1⟩ := maxKey_mem _ _ h1
      obtain ⟨m, hm1⟩ := maxKey_mem _ _ h2
      have := hsize s t ((mem_niSyscalls e s).1 (niCounts_keys _ _ _ hn1).1) ((mem_niSyscalls e t).1 (niCounts_keys _ _ _ hm1).1)
        (by simpa using hm)
      exact .inr ⟨s, t, rfl, rfl, this.2, this.1⟩

theorem candidates_rehash (a : Arch) (e : Elf) (v : Ver) (o o' : List Symbol) (ho : o.Perm e.niSyscalls) (ho' : o'.Perm e.niSyscalls)
    (es es' : List (Nat × Nat)) (hp : es.Perm es') (hn : (es.map Prod.fst).Nodup)
    (hsize : ∀ s t, IsNi e s → IsNi e t → s.vaddr = t.vaddr → s.size = t.size ∧ s.realVaddr = t.realVaddr) :
    candidateSyscalls a e v o es = candidateSyscalls a e v o' es' := by
  have hse := sortEntries_perm_eq es es' hp hn
  have hin : ∀ p ∈ sortEntries es, p.2 ∈ es.map Prod.snd := fun p hx => List.mem_map_of_mem ((sortEntries_perm es).mem_iff.1 hx)
  have hin' : ∀ p ∈ sortEntries es, p.2 ∈ es'.map Prod.snd := fun p hx =>
    List.mem_map_of_mem (hp.mem_iff.1 ((sortEntries_perm es).mem_iff.1 hx))
  have hpair := resolved_pair a e o o' ho ho' (es.map Prod.snd) (es'.map Prod.snd) (sortEntries es) hin hin'
  have hi := resolved_inj a e o ho (es.map Prod.snd) (sortEntries es) hin
  have hi' := resolved_inj a e o' ho' (es'.map Prod.snd) (sortEntries es) hin'
  unfold candidateSyscalls
  rw [← hse, ← hp.length_eq]
  dsimp only
  generalize resolved (symbolsByVaddr a e o (es.map Prod.snd)) (sortEntries es) = rs at *
  generalize resolved (symbolsByVaddr a e o' (es'.map Prod.snd)) (sortEntries es) = rs' at *
  have href := ref_pair e rs rs' hpair hi hi' hsize
  rw [niCounts_total, niCounts_total, pair_total _ _ _ hpair, pair_filter _ _ _ hpair]
  rcases href with ⟨h1, h2⟩ | ⟨s, t, h1, h2, h3, h4⟩
  · rw [h1, h2]
  · rw [h1, h2]
    simp only [Elf.readSymbol, h3, h4, isDummy_alike a _ e (some s) (some t) _ (.inr ⟨s, t, rfl, rfl, h3, h4⟩)]

/-- the addresses of ni_syscalls in a kernel image that was read -/
theorem ni_real (data : Bytes) (o : Str) (ls : List Str) (e : Elf) (h : Elf.load data o ls = .ok e) (s t : Symbol)
    (hs : IsNi e s) (ht : IsNi e t) (hv : s.vaddr = t.vaddr) : s.realVaddr = t.realVaddr := by
  unfold Elf.load at h
  cases hh : parseElfHeader data with
  | error x => rw [hh] at h; exact absurd h (by simp [bind, Except.bind])
  | ok hd =>
    rw [hh] at h
    obtain rfl := Except.ok.inj h
    have key : ∀ s, s ∈ ((extractSymbols hd.machine ls).2.map Prod.snd) →
        s.realVaddr = if hd.machine = EM_ARM ∧ s.vaddr % 2 = 1 then s.vaddr &&& 0xfffffffe else s.vaddr := by
      intro s hs
      obtain ⟨p, hp, rfl⟩ := List.mem_map.1 hs
      obtain ⟨l, _, hl, _, hty⟩ := (extractSymbols_mem hd.machine ls).2 p hp
      unfold parseSymbolLine at hl
      split at hl
      · exact absurd hl (by simp)
      · split at hl
        · dsimp only at hl
          have hl := Option.some.inj hl
          rw [← hl] at hty ⊢
          dsimp only at hty ⊢
          simp only [hty, true_and]
        · exact absurd hl (by simp)
    rw [key s hs.1, key t ht.1, hv]

/-- the two sets of entries are the same -/
theorem entries_rehash (w : MWorld) (ni : List Symbol → List Symbol) (cands : List Insn → List Insn)
    (numbers : List Nat → List Nat) (hw : Pythonic w) (hw' : Pythonic (rehash w ni cands numbers)) (hist : List Run) (a0 : Arch)
    (e : Elf) (p : Path) (kdir rdir : Option Path) :
    (∃ x, tableEntries (a0.adjustAbi e) e (kenvOf (rehash w ni cands numbers) hist a0 e p kdir rdir) = .error x ∧
      tableEntries (a0.adjustAbi e) e (kenvOf w hist a0 e p kdir rdir) = .error x) ∨
    ∃ es es', tableEntries (a0.adjustAbi e) e (kenvOf (rehash w ni cands numbers) hist a0 e p kdir rdir) = .ok es ∧
      tableEntries (a0.adjustAbi e) e (kenvOf w hist a0 e p kdir rdir) = .ok es' ∧ es.Perm es' ∧ (es.map Prod.fst).Nodup := by
  unfold tableEntries
  cases (a0.adjustAbi e).tableName with
  | some t =>
    dsimp only
    cases vaddrsFromTable (a0.adjustAbi e) e t with
    | error x => exact .inl ⟨x, rfl, rfl⟩
    | ok vs => exact .inr ⟨_, _, rfl, rfl, .refl _, by rw [enumerate_keys]; exact List.nodup_range⟩
  | none =>
    show (∃ x, extractVaddrs (rehash w ni cands numbers).x86 (a0.adjustAbi e) e = .error x ∧ extractVaddrs w.x86 (a0.adjustAbi e) e = .error x) ∨
      ∃ es es', extractVaddrs (rehash w ni cands numbers).x86 (a0.adjustAbi e) e = .ok es ∧
        extractVaddrs w.x86 (a0.adjustAbi e) e = .ok es' ∧ es.Perm es' ∧ (es.map Prod.fst).Nodup
    have ho := C46_order (rehash w ni cands numbers).x86 w.x86 rfl hw'.orders hw.orders (a0.adjustAbi e) e
    cases h1 : extractVaddrs (rehash w ni cands numbers).x86 (a0.adjustAbi e) e with
    | error x => exact .inl ⟨x, rfl, (ho.1 x).1 h1⟩
    | ok d =>
      cases h2 : extractVaddrs w.x86 (a0.adjustAbi e) e with
      | error x => rw [(ho.1 x).2 h2] at h1; exact absurd h1 (by simp)
      | ok d' =>
        have n1 := C46_keys _ hw'.orders _ _ _ h1
        have n2 := C46_keys _ hw.orders _ _ _ h2
        refine .inr ⟨d, d', rfl, rfl, ?_, n1⟩
        rw [List.perm_ext_iff_of_nodup (List.Pairwise.of_map _ (fun _ _ hne he => hne (by rw [he])) n1) (List.Pairwise.of_map _ (fun _ _ hne he => hne (by rw [he])) n2)]
        rintro ⟨k, x⟩
        rw [← dget_eq_some_iff n1, ← dget_eq_some_iff n2, ho.2 d d' h1 h2 k]

theorem extract_rehash (w : MWorld) (ni : List Symbol → List Symbol) (cands : List Insn → List Insn)
    (numbers : List Nat → List Nat) (hw : Pythonic w) (hw' : Pythonic (rehash w ni cands numbers)) (hist h : List Run) (a : Arch)
    (e : Elf) (v : Ver) (p : Path) (kdir rdir : Option Path) (hl : LoadedFrom w h p e) (hni : NiAlike e) :
    extractSyscalls a e v (kenvOf (rehash w ni cands numbers) hist a e p kdir rdir) =
      extractSyscalls a e v (kenvOf w hist a e p kdir rdir) := by
  obtain ⟨data, r1, r2, _, _, _, _, _, hload, _⟩ := hl
  have hc : ∀ es es' : List (Nat × Nat), es.Perm es' → (es.map Prod.fst).Nodup →
      candidateSyscalls (a.adjustAbi e) e v (ni e.niSyscalls) es = candidateSyscalls (a.adjustAbi e) e v (w.niOrder e.niSyscalls) es' :=
    fun es es' hp hn => candidates_rehash _ _ _ _ _ (hw'.set _) (hw.set _) es es' hp hn
      fun s t hs ht hv => ⟨hni s t hs ht hv, ni_real data _ _ e hload s t hs ht hv⟩
  unfold extractSyscalls
  split
  · rfl
  dsimp only
  rcases entries_rehash w ni cands numbers hw hw' hist a e p kdir rdir with ⟨x, h1, h2⟩ | ⟨es, es', h1, h2, hp, hn⟩
  · rw [h1, h2]; rfl
  · rw [h1, h2]
    simp only [bind, Except.bind]
    have hemp : es.isEmpty = es'.isEmpty := by
      cases es with
      | nil => rw [List.nil_perm.1 hp]
      | cons x xs =>
        cases es' with
        | nil => exact absurd hp (by simp)
        | cons y ys => rfl
    rw [hemp]
    split
    · rfl
    · split
      · rfl
      · rw [show (kenvOf (rehash w ni cands numbers) hist a e p kdir rdir).niOrder = ni from rfl,
          show (kenvOf w hist a e p kdir rdir).niOrder = w.niOrder from rfl, hc es es' hp hn]
        rfl

/-! ## The program -/

theorem mainReport_rehash (w : MWorld) (ni : List Symbol → List Symbol) (cands : List Insn → List Insn)
    (numbers : List Nat → List Nat) (hw : Pythonic w) (hw' : Pythonic (rehash w ni cands numbers)) (h : List Run)
    (v : Verbosity) (args : Args) (k : Analysis) (p : Path) (s : MState) (hl : LoadedFrom w h p k.elf) (hni : NiAlike k.elf) :
    mainReport (rehash w ni cands numbers) v args k p s = mainReport w v args k p s := by
  unfold mainReport
  rw [mm_bind, mm_bind]
  show (do let scs ← MM.lift _; _ : MM Nat) s = (do let scs ← MM.lift _; _ : MM Nat) s
  rw [extract_rehash w ni cands numbers hw hw' s.b.hist h k.arch k.elf k.version p _ _ hl hni]
  rfl

theorem mainAnalyze_rehash (w : MWorld) (ni : List Symbol → List Symbol) (cands : List Insn → List Insn)
    (numbers : List Nat → List Nat) (hw : Pythonic w) (hw' : Pythonic (rehash w ni cands numbers))
    (v : Verbosity) (args : Args) (n : Option Str) (s : MState)
    (hni : ∀ h p e, vmlinuxPath args = some p → LoadedFrom w h p e → NiAlike e) :
    mainAnalyze (rehash w ni cands numbers) v args n s = mainAnalyze w v args n s := by
  unfold mainAnalyze
  dsimp only
  split
  · rfl
  cases hp : vmlinuxPath args with
  | none => rfl
  | some p =>
    dsimp only
    rw [mm_bind, mm_bind, mm_get]
    dsimp only
    rw [show (rehash w ni cands numbers).isFile = w.isFile from rfl, show (rehash w ni cands numbers).available = w.available from rfl]
    split
    · rfl
    · split
      · rfl
      · rw [mm_bind, mm_bind]
        rw [show catchInit (rehash w ni cands numbers) v n (detectedArch (rehash w ni cands numbers) p s)
          (newAnalysis (rehash w ni cands numbers) n p (pathOf args.kdir)) =
          catchInit w v n (detectedArch w p s) (newAnalysis w n p (pathOf args.kdir)) from rfl]
        cases hk : catchInit w v n (detectedArch w p s) (newAnalysis w n p (pathOf args.kdir)) s with
        | mk r1 s1 =>
          cases r1 with
          | error x => rfl
          | ok k =>
            obtain ⟨hload, _⟩ := newAnalysis_ok w n p _ s s1 k (catch_ok w v n _ hk)
            simp only [mm_bind, eprint_eq]
            rw [show autoCheckout (rehash w ni cands numbers) v args k = autoCheckout w v args k from rfl]
            cases autoCheckout w v args k _ with
            | mk r2 s2 =>
              cases r2 with
              | error x => rfl
              | ok u => exact mainReport_rehash w ni cands numbers hw hw' _ v args k p s2 hload (hni _ _ _ hp hload)

theorem main_rehash (w : MWorld) (ni : List Symbol → List Symbol) (cands : List Insn → List Insn)
    (numbers : List Nat → List Nat) (hw : Pythonic w) (hw' : Pythonic (rehash w ni cands numbers))
    (help : Str) (args : Args) (s : MState)
    (hni : ∀ h p e, vmlinuxPath args = some p → LoadedFrom w h p e → NiAlike e) :
    main (rehash w ni cands numbers) help args s = main w help args s := by
  unfold main
  dsimp only
  split
  · rfl
  split
  · rfl
  split
  · rfl
  split
  · rfl
  unfold mainRun
  rw [show gitCheckout (rehash w ni cands numbers) = gitCheckout w from rfl,
    show mainBuild (rehash w ni cands numbers) = mainBuild w from rfl,
    funext fun s => mainAnalyze_rehash w ni cands numbers hw hw' (setupLogging args.quiet args.verbose) args (args.arch.map lower) s hni]

end Verif
