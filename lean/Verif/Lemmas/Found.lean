import Verif.Spec.Found
import Verif.Lemmas.Origin
import Verif.Props.Location
/-! # Lemmas: which locations are found -/
set_option autoImplicit false

namespace Verif
open Spec

/-! ## From the specification to the model -/

theorem splitChar_pair (a b : Str) (ha : ':' ∉ a) (hb : ':' ∉ b) : splitChar ':' (a ++ cs!":" ++ b) = [a, b] := by
  rw [List.append_assoc, List.singleton_append, splitChar_append _ _ _ ha, splitChar_none _ _ hb]

theorem parseLocRow_of_says (row : Str) (p : Path) (n : Option Nat) (h : RowSays row (some p) n) :
    parseLocRow row = .ok (some p, n) := by
  obtain ⟨f, l, hf, hl, rfl, h | ⟨hne, hp, hn⟩⟩ := h
  · cases h.2.1
  · unfold parseLocRow
    rw [splitChar_pair _ _ hf hl]
    simp only [hne, if_false]
    cases hp
    rcases hn with ⟨hd, rfl⟩ | ⟨hd, rfl⟩
    · rw [if_pos ((digits_bool l).2 hd)]; rfl
    · rw [if_neg fun e => hd ((digits_bool l).1 e)]

theorem below_join (kdir q : Path) (rest : List Str) (h : Below kdir q rest) (r : Path) (hr : r = ⟨false, rest⟩) :
    kdir.join r = q := by
  subst hr
  rw [h]
  simp [Path.join]

theorem below_rest (dir p : Path) (rest : List Str) (h : Below dir p rest) : p.parts.drop dir.parts.length = rest := by
  rw [h]; simp

theorem item_of_source (elf kdir : Path) (rdir : Option Path) (row : Str) (p q : Path) (n : Option Nat)
    (hs : RowSays row (some p) n) (hq : SourceOf elf kdir rdir p q) :
    ∃ loc, itemOf elf (some kdir) row = .ok loc ∧ remapPath kdir rdir loc.1 = .ok (some q) ∧ loc.2 = n := by
  obtain ⟨p1, h1, h2⟩ := hq
  have hitem : itemOf elf (some kdir) row = .ok (some p1, n) := by
    unfold itemOf
    rw [parseLocRow_of_says _ _ _ hs]
    simp only [bind, Except.bind, smartLoc]
    rcases h1 with ⟨rest, hb, hb1⟩ | ⟨hno, rfl⟩
    · have hin := (below_iff _ _).2 ⟨rest, hb⟩
      simp only [Path.relativeTo, hin, if_true]
      rw [below_rest _ _ _ hb, below_join _ _ _ hb1 _ rfl]
    · rw [if_neg fun e => hno ((below_iff _ _).1 e)]
  refine ⟨_, hitem, ?_, rfl⟩
  simp only [remapPath]
  have hjoin : ((p1.abs = true ∧ q = p1) ∨ (p1.abs = false ∧ Below kdir q p1.parts)) → kdir.join p1 = q := by
    rintro (⟨ha, rfl⟩ | ⟨ha, hb⟩)
    · simp [Path.join, ha]
    · exact below_join _ _ _ hb _ (by cases p1; simp only at ha; subst ha; rfl)
  cases rdir with
  | none =>
    rcases h2 with ⟨r, rest, hr, -⟩ | ⟨-, h⟩
    · cases hr
    · simp only; rw [hjoin h]
  | some r =>
    obtain ⟨q', hq', hsh⟩ := maybeRel_shown p1 r
    simp only [bind, Except.bind, hq']
    rcases hsh with ⟨rest, hb, rfl⟩ | ⟨hno, rfl⟩
    · rcases h2 with ⟨r', rest', hr, hb', hq⟩ | ⟨hno, -⟩
      · cases hr
        have e := (below_rest _ _ _ hb').symm.trans (below_rest r p1 rest hb)
        subst e
        rw [below_join _ _ _ hq _ rfl]
      · exact absurd ⟨r, rest, rfl, hb⟩ hno
    · rcases h2 with ⟨r', rest', hr, hb', -⟩ | ⟨-, h⟩
      · cases hr
        exact absurd ⟨rest', hb'⟩ hno
      · rw [hjoin h]

/-- what the model finds out about an address that leads somewhere -/
theorem leads_item (x : Sources) (addr : Nat) (f : Path) (l : Nat) (h : x.Leads addr f l) :
    ∃ loc l0, itemOf x.w.elfPath (some x.kdir) (x.row addr) = .ok loc ∧ remapPath x.kdir x.rdir loc.1 = .ok (some f) ∧
      validLoc x.w.files (some f) loc.2 = some (f, l0) ∧ adjustLine x.w.files f l0 = .ok l := by
  obtain ⟨p, n, h1, h2, h3⟩ := h
  obtain ⟨loc, e1, e2, e3⟩ := item_of_source _ _ _ _ _ _ _ h1 h2
  rcases h3 with ⟨-, h⟩ | ⟨lines, l0, l', hf, hn, hl, ha⟩
  · cases h
  · cases hl
    refine ⟨loc, l0, e1, e2, ?_, ha⟩
    rw [e3, hn]
    simp [validLoc, hf]

/-- the address leads to the line the model computes, and to no other -/
theorem leads_iff (x : Sources) (addr : Nat) (loc : Loc) (file : Option Path)
    (hi : itemOf x.w.elfPath (some x.kdir) (x.row addr) = .ok loc) (hm : remapPath x.kdir x.rdir loc.1 = .ok file) (f : Path) (l : Nat) :
    x.Leads addr f l ↔ ∃ l0, validLoc x.w.files file loc.2 = some (f, l0) ∧ adjustLine x.w.files f l0 = .ok l := by
  constructor
  · intro h
    obtain ⟨loc', l0, e1, e2, e3, e4⟩ := leads_item x addr f l h
    rw [hi] at e1
    cases e1
    rw [hm] at e2
    cases e2
    exact ⟨l0, e3, e4⟩
  · rintro ⟨l0, h1, h2⟩
    exact from_debug x.w x.row x.kdir x.rdir addr loc file hi hm f l0 l h1 h2

theorem goodLocationAt_iff (fs : Files) (f : Path) (l : Nat) (a : Arch) (sc sc0 : Syscall) (hn : Ident sc0.origname ∧ Ident sc0.name)
    (hr : Relocated sc0 sc) (g : Bool) (h : goodLocationAt fs f l a sc = .ok g) : g = true ↔ DefinedAt fs a sc0 f l := by
  obtain ⟨e1, e2⟩ := relocated_names hr
  constructor
  · rintro rfl
    obtain ⟨lines, text, h1, h2, h3⟩ := goodLocationAt_true _ _ _ _ _ h
    rw [e1, e2] at h3
    exact ⟨lines, text, h1, h2, by rwa [goodDefinition_iff a text _ hn.1, goodDefinition_iff a text _ hn.2] at h3⟩
  · rintro ⟨lines, text, h1, h2, h3⟩
    unfold goodLocationAt at h
    rw [h1] at h
    simp only at h
    split at h
    · cases h
    · have hd : lines.drop (l - 1) = text :: lines.drop (l - 1 + 1) := by
        obtain ⟨hlt, he⟩ := List.getElem?_eq_some_iff.1 h2
        rw [List.drop_eq_getElem_cons hlt, he]
      rw [hd] at h
      simp only [Except.ok.injEq] at h
      rw [← h, e1, e2, Bool.or_eq_true, goodDefinition_iff a text _ hn.1, goodDefinition_iff a text _ hn.2]
      exact h3

/-! ## The state of the work -/

/-- the state of a syscall whose work is done before grepping -/
def Spec.Sources.Settled (x : Sources) (sc0 sc1 : Syscall) : Prop :=
  (x.Enough sc0 ∧ sc1.goodLocation = false) ∨
  (¬ x.Enough sc0 ∧ ∃ f l, x.First sc0 f l ∧ sc1.file = some f ∧ sc1.line = some l ∧ sc1.goodLocation = true)

/-- the first address is of no use -/
def Spec.Sources.Open1 (x : Sources) (sc0 : Syscall) : Prop :=
  ¬ x.Enough sc0 ∧ ∀ f l, ¬ x.Confirms sc0 sc0.symbol.realVaddr f l

/-- ... nor is the last one -/
def Spec.Sources.Open2 (x : Sources) (sc0 : Syscall) : Prop :=
  x.Open1 sc0 ∧ 1 < sc0.symbol.size ∧ ∀ f l, ¬ x.Confirms sc0 (sc0.symbol.realVaddr + sc0.symbol.size - 1) f l

/-- the state of the syscall at a position; `P` holds of what is still to do in this step, `Q` of what is left for the next -/
def Spec.Sources.Pos (x : Sources) (P Q : Syscall → Prop) (pend : List Ref) (k : Work) (i : Nat) (sc0 sc1 : Syscall) : Prop :=
  Relocated sc0 sc1 ∧ sc1.greppedLocation = false ∧
  ((x.Settled sc0 sc1 ∧ i ∉ (pend ++ k.adjust ++ k.grep).map Prod.fst) ∨
    (sc1.goodLocation = false ∧
      (((i, sc1) ∈ pend ∧ P sc0) ∨ ((i, sc1) ∈ k.adjust ∧ Q sc0) ∨ ((i, sc1) ∈ k.grep ∧ x.Wanted sc0))))

structure Spec.Sources.FWork (x : Sources) (P Q : Syscall → Prop) (orig : List Syscall) (pend : List Ref) (k : Work) : Prop where
  len : k.scs.length = orig.length
  nodup : ((pend ++ k.adjust ++ k.grep).map Prod.fst).Nodup
  bound : ∀ r ∈ pend ++ k.adjust ++ k.grep, r.1 < orig.length
  pos : ∀ i sc0, orig[i]? = some sc0 → ∃ sc1, k.scs[i]? = some sc1 ∧ x.Pos P Q pend k i sc0 sc1

theorem wanted_small (x : Sources) (sc : Syscall) (h : x.Open1 sc) (hs : ¬ 1 < sc.symbol.size) : x.Wanted sc := by
  refine ⟨h.1, ?_⟩
  intro addr ha
  have h3 : sc.symbol.size - 3 = 0 := by omega
  simp only [askedAddrs, hs, if_false, h3, List.range_zero, List.map_nil, List.append_nil, List.mem_singleton] at ha
  subst ha
  exact h.2

theorem wanted_medium (x : Sources) (sc : Syscall) (h : x.Open2 sc) (hs : ¬ 2 < sc.symbol.size) : x.Wanted sc := by
  refine ⟨h.1.1, ?_⟩
  intro addr ha
  have h3 : sc.symbol.size - 3 = 0 := by omega
  simp only [askedAddrs, h.2.1, if_true, h3, List.range_zero, List.map_nil, List.append_nil, List.mem_cons, List.mem_singleton,
    List.not_mem_nil, or_false] at ha
  rcases ha with rfl | rfl
  · exact h.1.2
  · exact h.2.2

/-! ## The first loop -/

theorem firstStep_found (x : Sources) (sc : Syscall) (loc : Loc) (hn : Ident sc.origname ∧ Ident sc.name)
    (hi : itemOf x.w.elfPath (some x.kdir) (x.row sc.symbol.realVaddr) = .ok loc) (hg : sc.greppedLocation = false)
    (sc' : Syscall) (bad : Bool) (n : Next) (h : firstStep x.w x.a x.kdir x.rdir sc loc = .ok (sc', bad, n)) :
    Relocated sc sc' ∧ sc'.greppedLocation = false ∧
    (bad = true ↔ ∃ f l, x.Leads sc.symbol.realVaddr f l ∧ ¬ ∃ rest, Below (x.w.resolve x.kdir) f rest) ∧
    ((n = .done ∧ x.Settled sc sc' ∧ ¬ x.Open1 sc) ∨ (x.Open1 sc ∧ sc'.goodLocation = false ∧ n = nextBySize 1 sc)) := by
  unfold firstStep at h
  simp only [bind, Except.bind] at h
  split at h
  · cases h
  next file hfile =>
  have hleads := leads_iff x _ loc file hi hfile
  split at h
  · next hv =>
    cases h
    have hno : ∀ f l, ¬ x.Leads sc.symbol.realVaddr f l := by
      intro f l hl
      obtain ⟨l0, e, -⟩ := (hleads f l).1 hl
      rw [hv] at e; cases e
    refine ⟨rfl, hg, ⟨by simp, fun ⟨f, l, hl, _⟩ => absurd hl (hno f l)⟩, .inr ⟨⟨?_, ?_⟩, rfl, rfl⟩⟩
    · rintro ⟨-, f, l, hl⟩; exact hno f l hl
    · intro f l hl; exact hno f l hl.1
  next f l0 hv =>
  split at h
  · cases h
  next line hadj =>
  have hl : x.Leads sc.symbol.realVaddr f line := (hleads f line).2 ⟨l0, hv, hadj⟩
  have huniq : ∀ f' l', x.Leads sc.symbol.realVaddr f' l' → f' = f ∧ l' = line := by
    intro f' l' h'
    obtain ⟨l1, e1, e2⟩ := (hleads f' l').1 h'
    rw [hv] at e1; cases e1
    rw [hadj] at e2; cases e2
    exact ⟨rfl, rfl⟩
  have hfile' := (validLoc_some _ _ _ _ _ hv).1
  have hbad : (!f.isRelativeTo (x.w.resolve x.kdir)) = true ↔
      ∃ f l, x.Leads sc.symbol.realVaddr f l ∧ ¬ ∃ rest, Below (x.w.resolve x.kdir) f rest := by
    rw [Bool.not_eq_true', ← Bool.not_eq_true, below_iff]
    constructor
    · intro h; exact ⟨f, line, hl, h⟩
    · rintro ⟨f', l', h1, h2⟩
      rw [(huniq f' l' h1).1] at h2
      exact h2
  split at h
  · next heso =>
    cases h
    have he : x.Enough sc := ⟨heso, f, line, hl⟩
    exact ⟨rfl, hg, hbad, .inl ⟨rfl, .inl ⟨he, rfl⟩, fun ho => ho.1 he⟩⟩
  · next heso =>
    have hne : ¬ x.Enough sc := fun e => heso e.1
    split at h
    · cases h
    · next good hgood =>
      have hd := goodLocationAt_iff x.w.files f line x.a _ sc hn (by rfl) good hgood
      split at h
      · next hgt =>
        cases h
        have hc : x.Confirms sc sc.symbol.realVaddr f line := ⟨hl, hd.1 hgt⟩
        refine ⟨rfl, hg, hbad, .inl ⟨rfl, .inr ⟨hne, f, line, ⟨[], _, _, rfl, hc, by simp⟩, hfile', rfl, rfl⟩, ?_⟩⟩
        intro ho; exact ho.2 _ _ hc
      · next hgt =>
        cases h
        refine ⟨rfl, hg, hbad, .inr ⟨⟨hne, ?_⟩, rfl, rfl⟩⟩
        intro f' l' hc
        obtain ⟨rfl, rfl⟩ := huniq _ _ hc.1
        exact hgt (hd.2 hc.2)

theorem push_bad (k : Work) (n : Next) (r : Ref) : (k.push n r).bad = k.bad := by cases n <;> rfl

theorem mem_fst_lt {l : List Ref} {n i : Nat} (h : ∀ r ∈ l, r.1 < n) (hi : n ≤ i) : i ∉ l.map Prod.fst := by
  intro hm
  obtain ⟨r, hr, rfl⟩ := List.mem_map.1 hm
  exact absurd (h r hr) (by omega)

/-- the conditions under which the first step leaves a syscall to the second one -/
def Spec.Sources.Adj (x : Sources) (sc : Syscall) : Prop := x.Open1 sc ∧ 1 < sc.symbol.size

/-- one round of the first loop -/
theorem first_push (x : Sources) (pre : List Syscall) (sc sc' : Syscall) (k : Work) (bad : Bool) (n : Next)
    (hk : x.FWork (fun _ => False) x.Adj pre [] k) (hrel : Relocated sc sc') (hgr : sc'.greppedLocation = false)
    (hcase : (n = .done ∧ x.Settled sc sc' ∧ ¬ x.Open1 sc) ∨ (x.Open1 sc ∧ sc'.goodLocation = false ∧ n = nextBySize 1 sc)) :
    x.FWork (fun _ => False) x.Adj (pre ++ [sc]) []
      (Work.push { k with scs := k.scs ++ [sc'], bad := bad } n (pre.length, sc')) := by
  have hb' : ∀ r ∈ k.adjust ++ k.grep, r.1 < pre.length := by
    intro r hr; exact hk.bound r (by simpa using hr)
  have hnot : pre.length ∉ (k.adjust ++ k.grep).map Prod.fst := mem_fst_lt hb' (Nat.le_refl _)
  have hnd : ((k.adjust ++ k.grep).map Prod.fst).Nodup := by simpa using hk.nodup
  -- the old positions
  have hold : ∀ (k2 : Work), k2.scs = k.scs ++ [sc'] →
      (∀ r, r ∈ k.adjust → r ∈ k2.adjust) → (∀ r, r ∈ k.grep → r ∈ k2.grep) →
      (∀ r ∈ k2.adjust ++ k2.grep, r ∈ k.adjust ++ k.grep ∨ r.1 = pre.length) →
      ∀ i sc0, i < pre.length → pre[i]? = some sc0 →
        ∃ sc1, k2.scs[i]? = some sc1 ∧ x.Pos (fun _ => False) x.Adj [] k2 i sc0 sc1 := by
    intro k2 e1 e2 e3 e4 i sc0 hi h0
    obtain ⟨sc1, h1, h2, h3, h4⟩ := hk.pos i sc0 h0
    refine ⟨sc1, ?_, h2, h3, ?_⟩
    · rw [e1, List.getElem?_append_left (by rw [hk.len]; exact hi)]; exact h1
    · rcases h4 with ⟨hs, hno⟩ | ⟨hgd, hp⟩
      · refine .inl ⟨hs, ?_⟩
        intro hm
        obtain ⟨r, hr, rfl⟩ := List.mem_map.1 hm
        simp only [List.nil_append] at hr hno
        rcases e4 r hr with hr | hr
        · exact hno (List.mem_map.2 ⟨r, hr, rfl⟩)
        · omega
      · refine .inr ⟨hgd, ?_⟩
        rcases hp with hp | ⟨hp, hq⟩ | ⟨hp, hq⟩
        · cases hp.1
        · exact .inr (.inl ⟨e2 _ hp, hq⟩)
        · exact .inr (.inr ⟨e3 _ hp, hq⟩)
  have hlast : ∀ k2 : Work, k2.scs = k.scs ++ [sc'] → k2.scs[pre.length]? = some sc' := by
    intro k2 e; rw [e, ← hk.len]; simp
  have mk : ∀ k2 : Work, k2.scs = k.scs ++ [sc'] → (∀ r, r ∈ k.adjust → r ∈ k2.adjust) → (∀ r, r ∈ k.grep → r ∈ k2.grep) →
      (∀ r ∈ k2.adjust ++ k2.grep, r ∈ k.adjust ++ k.grep ∨ r.1 = pre.length) →
      ((k2.adjust ++ k2.grep).map Prod.fst).Nodup →
      x.Pos (fun _ => False) x.Adj [] k2 pre.length sc sc' → x.FWork (fun _ => False) x.Adj (pre ++ [sc]) [] k2 := by
    intro k2 e1 e2 e3 e4 e5 e6
    refine ⟨by simp [e1, hk.len], by simpa using e5, ?_, ?_⟩
    · intro r hr
      rw [List.nil_append] at hr
      simp only [List.length_append, List.length_singleton]
      rcases e4 r hr with hr | hr
      · have := hb' r hr; omega
      · omega
    · intro i sc0 h0
      by_cases hi : i < pre.length
      · rw [List.getElem?_append_left hi] at h0
        exact hold k2 e1 e2 e3 e4 i sc0 hi h0
      · have hi2 : i < (pre ++ [sc]).length := (List.getElem?_eq_some_iff.1 h0).1
        obtain rfl : i = pre.length := by simp at hi2; omega
        simp at h0
        subst h0
        exact ⟨sc', hlast k2 e1, e6⟩
  rcases hcase with ⟨rfl, hset, -⟩ | ⟨hopen, hgood, hnext⟩
  · refine mk _ rfl (fun _ h => h) (fun _ h => h) (fun r hr => .inl hr) hnd ⟨hrel, hgr, .inl ⟨hset, ?_⟩⟩
    simpa [Work.push] using hnot
  · unfold nextBySize at hnext
    split at hnext
    · next hs =>
      subst hnext
      refine mk _ rfl (fun r h => by simp [Work.push, h]) (fun r h => by simp [Work.push, h]) ?_ ?_
        ⟨hrel, hgr, .inr ⟨hgood, .inr (.inl ⟨by simp [Work.push], hopen, hs⟩)⟩⟩
      · intro r hr
        simp only [Work.push, List.append_assoc, List.mem_append, List.mem_singleton] at hr ⊢
        rcases hr with hr | rfl | hr
        · exact .inl (.inl hr)
        · exact .inr rfl
        · exact .inl (.inr hr)
      · simp only [Work.push, List.map_append, List.map_cons, List.append_assoc, List.singleton_append]
        simp only [List.map_append] at hnd hnot
        exact List.perm_middle.nodup_iff.2 (List.nodup_cons.2 ⟨hnot, hnd⟩)
    · next hs =>
      subst hnext
      refine mk _ rfl (fun r h => by simp [Work.push, h]) (fun r h => by simp [Work.push, h]) ?_ ?_
        ⟨hrel, hgr, .inr ⟨hgood, .inr (.inr ⟨by simp [Work.push], wanted_small x sc hopen hs⟩)⟩⟩
      · intro r hr
        simp only [Work.push, List.mem_append, List.mem_singleton] at hr ⊢
        rcases hr with hr | hr | rfl
        · exact .inl (.inl hr)
        · exact .inl (.inr hr)
        · exact .inr rfl
      · simp only [Work.push, ← List.append_assoc, List.map_append, List.map_cons, List.map_nil]
        simp only [List.map_append] at hnd hnot
        rw [List.nodup_append]
        refine ⟨hnd, by simp, ?_⟩
        intro a ha b hb
        simp only [List.mem_singleton] at hb
        subst hb
        rintro rfl
        exact hnot ha

theorem first_count (x : Sources) (i : Nat) (sc sc' : Syscall) (k : Work) (n : Next)
    (hcase : (n = .done ∧ x.Settled sc sc' ∧ ¬ x.Open1 sc) ∨ (x.Open1 sc ∧ sc'.goodLocation = false ∧ n = nextBySize 1 sc)) :
    (Work.push k n (i, sc')).adjust.length ≤ k.adjust.length + 1 ∧
      ((Work.push k n (i, sc')).adjust.length = k.adjust.length + 1 ↔ x.Adj sc) := by
  rcases hcase with ⟨rfl, -, hno⟩ | ⟨hopen, -, hnext⟩
  · refine ⟨by simp [Work.push], ?_⟩
    simp only [Work.push]
    constructor
    · intro h; omega
    · intro h; exact absurd h.1 hno
  · unfold nextBySize at hnext
    split at hnext
    · next hs => subst hnext; exact ⟨by simp [Work.push], by simp [Work.push, Sources.Adj, hopen, hs]⟩
    · next hs =>
      subst hnext
      refine ⟨by simp [Work.push], ?_⟩
      simp only [Work.push]
      constructor
      · intro h; omega
      · intro h; exact absurd h.2 hs

theorem firstLoop_found (x : Sources) (scs : List Syscall) :
    ∀ (pre : List Syscall) (locs : List Loc) (k k' : Work),
      (∀ sc ∈ scs, (Ident sc.origname ∧ Ident sc.name) ∧ sc.greppedLocation = false) →
      List.Forall₂ (fun sc loc => itemOf x.w.elfPath (some x.kdir) (x.row sc.symbol.realVaddr) = .ok loc) scs locs →
      x.FWork (fun _ => False) x.Adj pre [] k →
      firstLoop x.w x.a x.kdir x.rdir pre.length scs locs k = .ok k' →
      x.FWork (fun _ => False) x.Adj (pre ++ scs) [] k' ∧
      (k'.bad = true ↔ k.bad = true ∨ x.Outside scs) ∧
      k'.adjust.length ≤ k.adjust.length + scs.length ∧
      (k'.adjust.length = k.adjust.length + scs.length ↔ ∀ sc ∈ scs, x.Adj sc) := by
  induction scs with
  | nil =>
    intro pre locs k k' _ _ hk h
    simp only [firstLoop, Except.ok.injEq] at h
    subst h
    refine ⟨?_, ?_, by simp, by simp⟩
    · simpa using hk
    · simp [Sources.Outside]
  | cons sc scs ih =>
    intro pre locs k k' hfresh hlocs hk h
    cases hlocs with
    | cons hloc hlocs =>
      next loc locs =>
      simp only [firstLoop, bind, Except.bind] at h
      split at h
      · cases h
      next v hv =>
      obtain ⟨sc', bad, n⟩ := v
      obtain ⟨f1, f2⟩ := hfresh sc (by simp)
      obtain ⟨hrel, hgr, hbad, hcase⟩ := firstStep_found x sc loc f1 hloc f2 _ _ _ hv
      have hpre : pre ++ sc :: scs = (pre ++ [sc]) ++ scs := by simp
      rw [hpre]
      have hlen : pre.length + 1 = (pre ++ [sc]).length := by simp
      simp only at h
      rw [hlen] at h
      have hnew := first_push x pre sc sc' k (k.bad || bad) n hk hrel hgr hcase
      have hcount := first_count x pre.length sc sc' { k with scs := k.scs ++ [sc'], bad := k.bad || bad } n hcase
      generalize hk2 : Work.push { k with scs := k.scs ++ [sc'], bad := k.bad || bad } n (pre.length, sc') = k2 at *
      have hb2 : k2.bad = (k.bad || bad) := by rw [← hk2, push_bad]
      obtain ⟨r1, r2, r3, r4⟩ := ih _ _ _ _ (fun y hy => hfresh y (by simp [hy])) hlocs hnew h
      refine ⟨r1, ?_, ?_⟩
      · rw [r2, hb2]
        simp only [Bool.or_eq_true, Sources.Outside, List.mem_cons, exists_eq_or_imp, hbad]
        exact or_assoc
      · simp only at hcount
        obtain ⟨c1, c2⟩ := hcount
        refine ⟨by simp only [List.length_cons]; omega, ?_⟩
        simp only [List.length_cons, List.mem_cons, forall_eq_or_imp]
        rw [← c2, ← r4]
        omega

end Verif
