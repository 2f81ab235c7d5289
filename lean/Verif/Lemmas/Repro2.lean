import Verif.Lemmas.Repro
import Verif.Lemmas.Stderr4
import Verif.Props.EmuDiag
/-! # Messages and the iteration order of sets -/
set_option autoImplicit false

namespace Verif
open Spec

/-! ## The messages of an extraction -/

/-- the part of `candidatesL` after the messages about entries -/
def candidatesTailL (a : Arch) (e : Elf) (v : Ver) (ni : List Symbol) (rs : List (Nat × Symbol)) (n : Nat) : LM (List Syscall) := do
  let symbols := rs.filter fun p => !ni.contains p.2
  let niCount := niCounts ni rs
  let prefixes ← LM.lift (commonPrefixes (symbols.map fun p => p.2.name) 20)
  LM.log (if prefixes.isEmpty then [noPrefixCall] else [])
  let syscalls := buildSyscalls a v prefixes symbols
  let nSkipped := symbols.length - syscalls.length
  let niTotal := (niCount.map Prod.snd).sum
  let eso ← LM.lift (a.extractEsoteric e)
  let esoScs ← LM.lift (esotericSyscalls e eso)
  let all := syscalls ++ esoScs
  LM.lift (pyAssert (decide (all.length + niTotal + nSkipped = n + eso.length)))
  let niRef := maxKey niCount
  let niCode ← LM.lift (match niRef with
    | none => .ok none
    | some s => do let c ← e.readSymbol s; .ok (some c) : Res (Option Bytes))
  LM.lift (filterRes (fun sc => do let d ← a.isDummy sc.symbol e niRef niCode; .ok (!d)) all)

/-- kernel.py:406-425 the messages about entries -/
def entryCalls (sh : Symbol → Str) (a : Arch) (ni : List Symbol) (by_ : Dict Nat Symbol) (es : List (Nat × Nat)) : List LogCall :=
  (((counts (es.map Prod.snd)).filter fun c => !(dget c.1 by_).any ni.contains).map fun c => repeatedCall c.2 (symbolText sh by_ c.1)) ++
  (((sortEntries es).filter fun p => (dget p.2 by_).isNone).map fun p => unresolvedCall a.tableName p.1 p.2)

theorem candidatesL_parts (sh : Symbol → Str) (a : Arch) (e : Elf) (v : Ver) (o : List Symbol) (es : List (Nat × Nat)) :
    candidatesL sh a e v o es =
      let by_ := symbolsByVaddr a e o (es.map Prod.snd)
      let r := candidatesTailL a e v e.niSyscalls (resolved by_ (sortEntries es)) es.length
      (entryCalls sh a e.niSyscalls by_ es ++ r.1, r.2) := by
  unfold candidatesL entryCalls repeatedL
  dsimp only
  rw [mostFrequentL_eq, lm_quiet (LM.pure ()) _ () rfl rfl, lm_bind_at _ _ () rfl, lm_bind_at _ _ () rfl]
  simp only [LM.log, List.append_assoc]
  rfl

theorem candidatesTail_pair (a : Arch) (e : Elf) (v : Ver) (rs rs' : List (Nat × Symbol)) (n : Nat)
    (hpair : List.Forall₂ (NiPair e.niSyscalls) rs rs')
    (hi : ∀ p ∈ rs, ∀ q ∈ rs, p.2.vaddr = q.2.vaddr → p.2 = q.2) (hi' : ∀ p ∈ rs', ∀ q ∈ rs', p.2.vaddr = q.2.vaddr → p.2 = q.2)
    (hsize : ∀ s t, IsNi e s → IsNi e t → s.vaddr = t.vaddr → s.size = t.size ∧ s.realVaddr = t.realVaddr) :
    candidatesTailL a e v e.niSyscalls rs n = candidatesTailL a e v e.niSyscalls rs' n := by
  have href := ref_pair e rs rs' hpair hi hi' hsize
  unfold candidatesTailL
  dsimp only
  rw [niCounts_total, niCounts_total, pair_total _ _ _ hpair, pair_filter _ _ _ hpair]
  rcases href with ⟨h1, h2⟩ | ⟨s, t, h1, h2, h3, h4⟩
  · rw [h1, h2]
  · rw [h1, h2]
    simp only [Elf.readSymbol, h3, h4, isDummy_alike a _ e (some s) (some t) _ (.inr ⟨s, t, rfl, rfl, h3, h4⟩)]

theorem counts_mem (vs : List Nat) (c : Nat × Nat) (h : c ∈ counts vs) : c.1 ∈ vs := by
  unfold counts at h
  have h := (sortBy_perm _ _).mem_iff.1 h
  obtain ⟨h, _⟩ := List.mem_filter.1 h
  obtain ⟨x, hx, rfl⟩ := List.mem_map.1 h
  exact List.mem_eraseDups.1 hx

theorem counts_perm (vs vs' : List Nat) (h : vs.Perm vs') : (counts vs).Perm (counts vs') := by
  unfold counts
  refine (sortBy_perm _ _).trans (.trans ?_ (sortBy_perm _ _).symm)
  refine List.Perm.filter _ ?_
  have : vs.eraseDups.Perm vs'.eraseDups := by
    rw [List.perm_ext_iff_of_nodup (nodup_eraseDups' _) (nodup_eraseDups' _)]
    intro x
    rw [List.mem_eraseDups, List.mem_eraseDups, h.mem_iff]
  have h2 : (vs.eraseDups.map fun va => (va, vs.count va)) = vs.eraseDups.map fun va => (va, vs'.count va) := by
    refine List.map_congr_left fun x _ => ?_
    rw [h.count_eq]
  rw [h2]
  exact this.map _

theorem entryCalls_same (sh : Symbol → Str) (a : Arch) (e : Elf) (o o' : List Symbol) (ho : o.Perm e.niSyscalls)
    (ho' : o'.Perm e.niSyscalls) (es es' : List (Nat × Nat)) (hp : es.Perm es') (hn : (es.map Prod.fst).Nodup) :
    (entryCalls sh a e.niSyscalls (symbolsByVaddr a e o (es.map Prod.snd)) es).Perm
      (entryCalls sh a e.niSyscalls (symbolsByVaddr a e o' (es'.map Prod.snd)) es') ∧
    (es = es' → entryCalls sh a e.niSyscalls (symbolsByVaddr a e o (es.map Prod.snd)) es =
      entryCalls sh a e.niSyscalls (symbolsByVaddr a e o' (es'.map Prod.snd)) es') := by
  have key : ∀ va ∈ es.map Prod.snd, _ := fun va h =>
    chosen_pair a e o o' ho ho' (es.map Prod.snd) (es'.map Prod.snd) va h ((hp.map _).mem_iff.1 h)
  generalize symbolsByVaddr a e o (es.map Prod.snd) = b at key ⊢
  generalize symbolsByVaddr a e o' (es'.map Prod.snd) = b' at key ⊢
  have hA : ∀ cs : List (Nat × Nat), (∀ c ∈ cs, c.1 ∈ es.map Prod.snd) →
      ((cs.filter fun c => !(dget c.1 b).any e.niSyscalls.contains).map fun c => repeatedCall c.2 (symbolText sh b c.1)) =
      ((cs.filter fun c => !(dget c.1 b').any e.niSyscalls.contains).map fun c => repeatedCall c.2 (symbolText sh b' c.1)) := by
    intro cs hcs
    induction cs with
    | nil => rfl
    | cons c cs ih =>
      have ih := ih fun x hx => hcs x (List.mem_cons_of_mem _ hx)
      rw [List.filter_cons, List.filter_cons]
      rcases key c.1 (hcs c (by simp)) with ⟨h1, h2⟩ | ⟨s, t, h1, h2, _, _, ⟨rfl, h3⟩ | ⟨h3, h4⟩⟩
      · have hst : symbolText sh b c.1 = symbolText sh b' c.1 := by unfold symbolText; rw [h1, h2]
        simp only [h1, h2, Option.any_none, Bool.not_false, if_true, List.map_cons, hst, ih]
      · have hst : symbolText sh b c.1 = symbolText sh b' c.1 := by unfold symbolText; rw [h1, h2]
        simp only [h1, h2, Option.any_some, h3, Bool.not_false, if_true, List.map_cons, hst, ih]
      · simp only [h1, h2, Option.any_some, h3, h4, Bool.not_true, Bool.false_eq_true, if_false, ih]
  have hB : ∀ qs : List (Nat × Nat), (∀ q ∈ qs, q.2 ∈ es.map Prod.snd) →
      (qs.filter fun p => (dget p.2 b).isNone) = qs.filter fun p => (dget p.2 b').isNone := by
    intro qs hqs
    refine List.filter_congr fun q hq => ?_
    rcases key q.2 (hqs q hq) with ⟨h1, h2⟩ | ⟨s, t, h1, h2, _⟩
    · rw [h1, h2]
    · rw [h1, h2]; rfl
  have hse := sortEntries_perm_eq es es' hp hn
  have hin : ∀ q ∈ sortEntries es, q.2 ∈ es.map Prod.snd := fun q hq => List.mem_map_of_mem ((sortEntries_perm es).mem_iff.1 hq)
  unfold entryCalls
  rw [← hse, hB _ hin, hA _ (fun c hc => counts_mem _ c hc)]
  constructor
  · refine List.Perm.append_right _ ?_
    exact ((counts_perm _ _ (hp.map _)).filter _).map _
  · rintro rfl
    rfl

theorem candidatesL_rehash (sh : Symbol → Str) (a : Arch) (e : Elf) (v : Ver) (o o' : List Symbol) (ho : o.Perm e.niSyscalls)
    (ho' : o'.Perm e.niSyscalls) (es es' : List (Nat × Nat)) (hp : es.Perm es') (hn : (es.map Prod.fst).Nodup)
    (hsize : ∀ s t, IsNi e s → IsNi e t → s.vaddr = t.vaddr → s.size = t.size ∧ s.realVaddr = t.realVaddr) :
    (candidatesL sh a e v o es).2 = (candidatesL sh a e v o' es').2 ∧
    (candidatesL sh a e v o es).1.Perm (candidatesL sh a e v o' es').1 ∧
    (es = es' → candidatesL sh a e v o es = candidatesL sh a e v o' es') := by
  have hse := sortEntries_perm_eq es es' hp hn
  have hin : ∀ p ∈ sortEntries es, p.2 ∈ es.map Prod.snd := fun p hx => List.mem_map_of_mem ((sortEntries_perm es).mem_iff.1 hx)
  have hin' : ∀ p ∈ sortEntries es, p.2 ∈ es'.map Prod.snd := fun p hx =>
    List.mem_map_of_mem (hp.mem_iff.1 ((sortEntries_perm es).mem_iff.1 hx))
  have ht := candidatesTail_pair a e v _ _ es.length (resolved_pair a e o o' ho ho' (es.map Prod.snd) (es'.map Prod.snd) (sortEntries es) hin hin')
    (resolved_inj a e o ho (es.map Prod.snd) (sortEntries es) hin) (resolved_inj a e o' ho' (es'.map Prod.snd) (sortEntries es) hin') hsize
  obtain ⟨h1, h2⟩ := entryCalls_same sh a e o o' ho ho' es es' hp hn
  rw [candidatesL_parts, candidatesL_parts, ← hse, ← hp.length_eq]
  dsimp only
  rw [ht]
  exact ⟨rfl, h1.append_right _, fun h => by rw [h2 h]⟩

/-- the entries, with the messages about them -/
theorem wholeEntries_rehash (text : Insn → Str) (w w' : Surroundings) (a : Arch) (e : Elf)
    (hdec : w'.x86.decode = w.x86.decode) (hx : OrdersOk w.x86) (hx' : OrdersOk w'.x86) :
    ((∃ x, (wholeEntriesL text w' a e).2 = .error x ∧ (wholeEntriesL text w a e).2 = .error x) ∨
      ∃ es es', (wholeEntriesL text w' a e).2 = .ok es ∧ (wholeEntriesL text w a e).2 = .ok es' ∧ es.Perm es' ∧ (es.map Prod.fst).Nodup) ∧
    (a.tableName ≠ none ∨ a.kind ≠ .x86 → wholeEntriesL text w' a e = wholeEntriesL text w a e) ∧
    (∀ es, es ≠ [] → (wholeEntriesL text w a e).2 = .ok es → (wholeEntriesL text w' a e).1 = (wholeEntriesL text w a e).1) := by
  unfold wholeEntriesL
  cases ht : a.tableName with
  | some t =>
    dsimp only
    refine ⟨?_, fun _ => rfl, fun _ _ _ => rfl⟩
    rw [lm_bind_snd]
    cases (vaddrsFromTableL a e t).2 with
    | error x => exact .inl ⟨x, rfl, rfl⟩
    | ok vs => exact .inr ⟨_, _, rfl, rfl, .refl _, by rw [enumerate_keys]; exact List.nodup_range⟩
  | none =>
    dsimp only
    have e1 : ∀ x : X86Env, (LM.log [noTableCall] >>= fun _ => extractVaddrsL text x a e) =
        ([noTableCall] ++ (extractVaddrsL text x a e).1, (extractVaddrsL text x a e).2) := fun x => lm_bind_at _ _ () rfl
    rw [e1, e1]
    dsimp only
    have ho := C46_order w'.x86 w.x86 hdec hx' hx a e
    rw [C116_same, C116_same]
    refine ⟨?_, ?_, ?_⟩
    · cases h1 : extractVaddrs w'.x86 a e with
      | error x => exact .inl ⟨x, rfl, (ho.1 x).1 h1⟩
      | ok d =>
        cases h2 : extractVaddrs w.x86 a e with
        | error x => rw [(ho.1 x).2 h2] at h1; exact absurd h1 (by simp)
        | ok d' =>
          have n1 := C46_keys _ hx' _ _ _ h1
          have n2 := C46_keys _ hx _ _ _ h2
          refine .inr ⟨d, d', rfl, rfl, ?_, n1⟩
          rw [List.perm_ext_iff_of_nodup (List.Pairwise.of_map _ (fun _ _ hne he => hne (by rw [he])) n1) (List.Pairwise.of_map _ (fun _ _ hne he => hne (by rw [he])) n2)]
          rintro ⟨k, x⟩
          rw [← dget_eq_some_iff n1, ← dget_eq_some_iff n2, ho.2 d d' h1 h2 k]
    · rintro (h | h)
      · exact absurd rfl h
      · have : ∀ x : X86Env, extractVaddrsL text x a e = extractVaddrsL text w.x86 a e := by
          intro x
          unfold extractVaddrsL
          rw [if_pos h, if_pos h]
        rw [this w'.x86, ← C116_same text w'.x86, this w'.x86, C116_same]
    · intro es hne hes
      have quiet : ∀ x, OrdersOk x → (∃ d, d ≠ [] ∧ extractVaddrs x a e = .ok d) → (extractVaddrsL text x a e).1 = [] := by
        rintro x hox ⟨d, hd, hde⟩
        rcases C116_one_error text x hox a e with h | ⟨t, _, h⟩
        · exact List.map_eq_nil_iff.1 h
        · rw [C116_same, hde] at h
          exact absurd (Except.ok.inj h) hd
      rw [quiet w.x86 hx ⟨es, hne, hes⟩]
      cases h1 : extractVaddrs w'.x86 a e with
      | error x => rw [(ho.1 x).1 h1] at hes; exact absurd hes (by simp)
      | ok d =>
        rw [quiet w'.x86 hx' ⟨d, ?_, h1⟩]
        rintro rfl
        have := ho.2 _ _ h1 hes
        cases es with
        | nil => exact hne rfl
        | cons p es =>
          have := this p.1
          simp [dget] at this

theorem lm_bind_error {α β : Type} (m : LM α) (f : α → LM β) (x : Exc) (h : m.2 = .error x) : (m >>= f) = (m.1, .error x) := by
  show LM.bind m f = _
  unfold LM.bind
  rw [h]

/-- what follows the entries -/
theorem after_entries (e : Elf) (es es' : List (Nat × Nat)) (hp : es.Perm es') (c c' : LM (List Syscall)) (f : List Syscall → LM (List Syscall))
    (g g' : LM (List Syscall))
    (hg : g = (if es.isEmpty then do LM.log [noVaddrCall]; LM.pure []
      else if e.niSyscalls.isEmpty then do LM.log [noNiCall]; LM.pure []
      else c >>= f))
    (hg' : g' = (if es'.isEmpty then do LM.log [noVaddrCall]; LM.pure []
      else if e.niSyscalls.isEmpty then do LM.log [noNiCall]; LM.pure []
      else c' >>= f))
    (c1 : c.2 = c'.2) (c2 : c.1.Perm c'.1) (c3 : es = es' → c = c') :
    g.2 = g'.2 ∧ (es = es' → g = g') ∧ (∀ scs, scs ≠ [] → g'.2 = .ok scs → g.1.Perm g'.1) ∧ (∀ scs, scs ≠ [] → g'.2 = .ok scs → es' ≠ []) := by
  have hemp : es.isEmpty = es'.isEmpty := by
    cases es with
    | nil => rw [List.nil_perm.1 hp]
    | cons x xs =>
      cases es' with
      | nil => exact absurd hp (by simp)
      | cons y ys => rfl
  rw [hemp] at hg
  by_cases he : es'.isEmpty = true
  · rw [if_pos he] at hg hg'
    subst hg hg'
    refine ⟨rfl, fun _ => rfl, fun _ _ _ => .refl _, fun scs hne h => ?_⟩
    exact absurd (Except.ok.inj h).symm hne
  · rw [if_neg he] at hg hg'
    have hes : es' ≠ [] := by rintro rfl; exact he rfl
    by_cases hz : e.niSyscalls.isEmpty = true
    · rw [if_pos hz] at hg hg'
      subst hg hg'
      exact ⟨rfl, fun _ => rfl, fun _ _ _ => .refl _, fun scs hne h => hes⟩
    · rw [if_neg hz] at hg hg'
      subst hg hg'
      refine ⟨by rw [lm_bind_snd, lm_bind_snd, c1], fun h => by rw [c3 h], fun scs hne h => ?_, fun scs hne h => hes⟩
      cases hcc : c'.2 with
      | error x =>
        rw [lm_bind_error _ _ x hcc] at h
        exact absurd h (by simp)
      | ok cands =>
        rw [lm_bind_fst _ _ cands hcc, lm_bind_fst _ _ cands (c1.trans hcc)]
        exact c2.append_right _

theorem whole_rehash (text : Insn → Str) (sh : Symbol → Str) (w w' : Surroundings) (a0 : Arch) (e : Elf) (v : Ver)
    (hdec : w'.x86.decode = w.x86.decode) (hx : OrdersOk w.x86) (hx' : OrdersOk w'.x86)
    (hni : ∀ l, (w.niOrder l).Perm l) (hni' : ∀ l, (w'.niOrder l).Perm l) (hloc : w'.loc = w.loc) (hk : w'.kdir = w.kdir)
    (hr : w'.rdir = w.rdir)
    (hsize : ∀ s t, IsNi e s → IsNi e t → s.vaddr = t.vaddr → s.size = t.size ∧ s.realVaddr = t.realVaddr) :
    (wholeL text sh w' a0 e v).2 = (wholeL text sh w a0 e v).2 ∧
    ((a0.adjustAbi e).tableName ≠ none ∨ (a0.adjustAbi e).kind ≠ .x86 → wholeL text sh w' a0 e v = wholeL text sh w a0 e v) ∧
    (∀ scs, scs ≠ [] → (wholeL text sh w a0 e v).2 = .ok scs → (wholeL text sh w' a0 e v).1.Perm (wholeL text sh w a0 e v).1) := by
  obtain ⟨h1, h2, h3⟩ := wholeEntries_rehash text w w' (a0.adjustAbi e) e hdec hx hx'
  unfold wholeL
  split
  · exact ⟨rfl, fun _ => rfl, fun _ _ _ => .refl _⟩
  dsimp only
  rw [hloc, hk, hr]
  have hc : ∀ es es' : List (Nat × Nat), es.Perm es' → (es.map Prod.fst).Nodup → _ := fun es es' hp hn =>
    candidatesL_rehash sh (a0.adjustAbi e) e v _ _ (hni' e.niSyscalls) (hni e.niSyscalls) es es' hp hn hsize
  generalize wholeEntriesL text w' (a0.adjustAbi e) e = m' at h1 h2 h3 ⊢
  generalize wholeEntriesL text w (a0.adjustAbi e) e = m at h1 h2 h3 ⊢
  rcases h1 with ⟨x, g1, g2⟩ | ⟨es, es', g1, g2, hp, hn⟩
  · rw [lm_bind_error _ _ x g1, lm_bind_error _ _ x g2]
    exact ⟨rfl, fun ht => by rw [h2 ht], fun scs _ h => absurd h (by simp)⟩
  · rw [lm_bind_at _ _ es g1, lm_bind_at _ _ es' g2]
    obtain ⟨c1, c2, c3⟩ := hc es es' hp hn
    obtain ⟨k1, k2, k3, k4⟩ := after_entries e es es' hp _ _ _ _ _ rfl rfl c1 c2 c3
    refine ⟨k1, ?_, ?_⟩
    · intro ht
      have : es = es' := by
        rw [h2 ht, g2] at g1
        exact (Except.ok.inj g1).symm
      rw [h2 ht, k2 this]
    · intro scs hne h
      rw [h3 es' (k4 scs hne h) g2]
      exact (k3 scs hne h).append_left _

end Verif
