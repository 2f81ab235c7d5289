import Verif.Spec.Origin
import Verif.Lemmas.Locate3
import Verif.Lemmas.Main3
/-! # Lemmas: where a location comes from (C89, C90) -/
set_option autoImplicit false

namespace Verif
open Spec

/-- one item of `smart_addr2line` -/
def itemOf (elf : Path) (srcdir : Option Path) (row : Str) : Res Loc := do
  let loc ← parseLocRow row
  smartLoc elf srcdir loc

theorem splitChar_two (s a b : Str) (h : splitChar ':' s = [a, b]) : s = a ++ cs!":" ++ b ∧ ':' ∉ a ∧ ':' ∉ b := by
  by_cases hs : ':' ∈ s
  · obtain ⟨p, q, rfl, hp⟩ := List.append_of_mem hs |> fun _ => List.eq_append_cons_of_mem hs
    rw [splitChar_append _ _ _ hp] at h
    simp only [List.cons.injEq] at h
    obtain ⟨rfl, h⟩ := h
    by_cases hq : ':' ∈ q
    · obtain ⟨p', q', rfl, hp'⟩ := List.eq_append_cons_of_mem hq
      rw [splitChar_append _ _ _ hp'] at h
      simp [splitChar_ne_nil] at h
    · rw [splitChar_none _ _ hq] at h
      simp only [List.cons.injEq, and_true] at h
      subst h
      exact ⟨by simp, hp, hq⟩
  · rw [splitChar_none _ _ hs] at h
    simp at h

theorem splitChar_more (s a b : Str) (t : List Str) (h : splitChar ':' s = a :: b :: t) :
    ∃ rest, s = a ++ cs!":" ++ b ++ rest ∧ ':' ∉ a ∧ ':' ∉ b ∧ (rest = [] ∨ ∃ text, rest = ':' :: text) := by
  by_cases hs : ':' ∈ s
  · obtain ⟨p, q, rfl, hp⟩ := List.eq_append_cons_of_mem hs
    rw [splitChar_append _ _ _ hp] at h
    simp only [List.cons.injEq] at h
    obtain ⟨rfl, h⟩ := h
    by_cases hq : ':' ∈ q
    · obtain ⟨p', q', rfl, hp'⟩ := List.eq_append_cons_of_mem hq
      rw [splitChar_append _ _ _ hp'] at h
      simp only [List.cons.injEq] at h
      obtain ⟨rfl, h⟩ := h
      exact ⟨':' :: q', by simp, hp, hp', .inr ⟨q', rfl⟩⟩
    · rw [splitChar_none _ _ hq] at h
      simp only [List.cons.injEq] at h
      obtain ⟨rfl, -⟩ := h
      exact ⟨[], by simp, hp, hq, .inl rfl⟩
  · rw [splitChar_none _ _ hs] at h
    simp at h

theorem digits_bool (l : Str) : (!l.isEmpty && l.all isDigit) = true ↔ Digits l := by
  rw [digits_iff]
  cases l <;> simp

theorem parseLocRow_says (row : Str) (loc : Loc) (h : parseLocRow row = .ok loc) : RowSays row loc.1 loc.2 := by
  unfold parseLocRow at h
  split at h
  · next f l hs =>
    obtain ⟨e, hf, hl⟩ := splitChar_two _ _ _ hs
    refine ⟨f, l, hf, hl, e, ?_⟩
    split at h
    · next h' => cases h; exact .inl ⟨h', rfl, rfl⟩
    · next h' =>
      cases h
      refine .inr ⟨h', rfl, ?_⟩
      by_cases hd : (!l.isEmpty && l.all isDigit) = true
      · exact .inl ⟨(digits_bool l).1 hd, by simp only [hd, if_true]; rfl⟩
      · exact .inr ⟨fun h => hd ((digits_bool l).2 h), by simp only [hd]; simp⟩
  · cases h

theorem below_iff (dir p : Path) : p.isRelativeTo dir = true ↔ ∃ rest, Below dir p rest := by
  unfold Path.isRelativeTo Below
  rw [Bool.and_eq_true, beq_iff_eq, List.isPrefixOf_iff_prefix]
  constructor
  · rintro ⟨h1, t, h2⟩
    exact ⟨t, by cases p; simp only [Path.mk.injEq] at *; exact ⟨h1, h2.symm⟩⟩
  · rintro ⟨rest, rfl⟩
    exact ⟨rfl, rest, rfl⟩

theorem below_drop (dir p : Path) (h : p.isRelativeTo dir = true) : Below dir p (p.parts.drop dir.parts.length) := by
  obtain ⟨rest, rfl⟩ := (below_iff dir p).1 h
  simp [Below]

/-- what an item says, once remapped -/
theorem item_says (elf kdir : Path) (rdir : Option Path) (row : Str) (loc : Loc) (file : Option Path)
    (h : itemOf elf (some kdir) row = .ok loc) (hm : remapPath kdir rdir loc.1 = .ok file) :
    (file = none ∧ loc.2 = none ∧ RowSays row none none) ∨
    ∃ p f, file = some f ∧ RowSays row (some p) loc.2 ∧ SourceOf elf kdir rdir p f := by
  unfold itemOf at h
  simp only [bind, Except.bind] at h
  split at h
  · cases h
  · next loc0 h0 =>
    have hsays := parseLocRow_says _ _ h0
    obtain ⟨f0, n⟩ := loc0
    cases f0 with
    | none =>
      simp only [smartLoc] at h
      cases h
      simp only [remapPath] at hm
      cases hm
      left
      have : n = none := by
        obtain ⟨f, l, -, -, -, h | h⟩ := hsays
        · exact h.2.2
        · cases h.2.1
      subst this
      exact ⟨rfl, rfl, hsays⟩
    | some p =>
      right
      -- the first step
      have hstep : ∃ p1, loc = (some p1, n) ∧
          ((∃ rest, Below elf.parent p rest ∧ Below kdir p1 rest) ∨ ((¬ ∃ rest, Below elf.parent p rest) ∧ p1 = p)) := by
        simp only [smartLoc] at h
        split at h
        · next hin =>
          simp only [Path.relativeTo, hin, if_true, bind, Except.bind] at h
          cases h
          exact ⟨_, rfl, .inl ⟨_, below_drop _ _ hin, rfl⟩⟩
        · next hin =>
          cases h
          exact ⟨_, rfl, .inr ⟨fun hb => hin ((below_iff _ _).2 hb), rfl⟩⟩
      obtain ⟨p1, rfl, hp1⟩ := hstep
      simp only [remapPath] at hm
      have hjoin : ∀ q, q = kdir.join p1 → (p1.abs = true ∧ q = p1) ∨ (p1.abs = false ∧ Below kdir q p1.parts) := by
        rintro q rfl
        unfold Path.join Below
        cases p1.abs <;> simp
      cases rdir with
      | none =>
        cases hm
        exact ⟨p, _, rfl, hsays, p1, hp1, .inr ⟨by simp, hjoin _ rfl⟩⟩
      | some r =>
        simp only [bind, Except.bind] at hm
        obtain ⟨q, hq, hs⟩ := maybeRel_shown p1 r
        rw [hq] at hm
        cases hm
        rcases hs with ⟨rest, h1, rfl⟩ | ⟨hno, rfl⟩
        · exact ⟨p, _, rfl, hsays, p1, hp1, .inl ⟨r, rest, rfl, h1, by simp [Below, Path.join]⟩⟩
        · refine ⟨p, _, rfl, hsays, q, hp1, .inr ⟨?_, hjoin _ rfl⟩⟩
          rintro ⟨r', rest, hr, hb⟩
          cases hr
          exact hno ⟨rest, hb⟩

theorem forceAll_forall2 {α : Type} (l : List (Res α)) (ys : List α) (h : forceAll l = .ok ys) :
    List.Forall₂ (fun x y => x = .ok y) l ys := by
  induction l generalizing ys with
  | nil => cases h; exact .nil
  | cons x xs ih =>
    simp only [forceAll, bind, Except.bind] at h
    split at h
    · cases h
    · next y hy =>
      split at h
      · cases h
      · next ys' hys =>
        cases h
        exact .cons rfl (ih _ hys)

theorem smart_items (w : LEnv) (row : Nat → Str) (hrow : RowPerAddress w row) (addrs : List Nat) (dir : Option Path)
    (items : List (Res Loc)) (h : smartAddr2line w addrs dir = .ok items) :
    items = addrs.map fun x => itemOf w.elfPath dir (row x) := by
  unfold smartAddr2line at h
  simp only [bind, Except.bind] at h
  split at h
  · cases h
  · next rows hr =>
    cases h
    rw [hrow _ _ hr, List.map_map]
    rfl

/-! ## The loops -/

theorem forall2_weaken {α β : Type} {R S : α → β → Prop} (hi : ∀ a b, R a b → S a b) {l : List α} {m : List β}
    (h : List.Forall₂ R l m) : List.Forall₂ S l m := by
  induction h with
  | nil => exact .nil
  | cons h _ ih => exact .cons (hi _ _ h) ih

theorem forall2_of_map {α β γ : Type} {R : β → γ → Prop} (f : α → β) (l : List α) :
    ∀ m : List γ, List.Forall₂ R (l.map f) m → List.Forall₂ (fun a c => R (f a) c) l m := by
  induction l with
  | nil => intro m h; cases h; exact .nil
  | cons a l ih =>
    intro m h
    cases h with
    | cons h1 h2 => exact .cons h1 (ih _ h2)

/-- the state of a syscall before grepping -/
def Early (w : LEnv) (row : Nat → Str) (a : Arch) (kdir : Path) (rdir : Option Path) (sc sc' : Syscall) : Prop :=
  Relocated sc sc' ∧ sc'.greppedLocation = false ∧ Origin w row a kdir rdir sc'

/-- the invariant of the loops -/
structure OWork (w : LEnv) (row : Nat → Str) (a : Arch) (kdir : Path) (rdir : Option Path) (orig : List Syscall) (k : Work) : Prop where
  scs : List.Forall₂ (Early w row a kdir rdir) orig k.scs
  refs : ∀ r ∈ k.adjust ++ k.grep, RefOk orig r
  sizes : ∀ r ∈ k.adjust, 1 < r.2.symbol.size

theorem nextBySize_adjust (n : Nat) (sc : Syscall) (h : nextBySize n sc = .adjust) : n < sc.symbol.size := by
  unfold nextBySize at h
  split at h
  · assumption
  · cases h

theorem push_adjust (k : Work) (n : Next) (r x : Ref) (h : x ∈ (k.push n r).adjust) : (n = .adjust ∧ x = r) ∨ x ∈ k.adjust := by
  cases n with
  | done => exact .inr h
  | adjust => simp [Work.push] at h; tauto
  | grep => exact .inr h

theorem OWork.push {w : LEnv} {row : Nat → Str} {a : Arch} {kdir : Path} {rdir : Option Path} {orig : List Syscall} {k : Work}
    (h : OWork w row a kdir rdir orig k) (n : Next) (r : Ref) (hr : RefOk orig r) (hn : n = .adjust → 1 < r.2.symbol.size) :
    OWork w row a kdir rdir orig (k.push n r) := by
  refine ⟨by rw [push_scs]; exact h.scs, ?_, ?_⟩
  · intro x hx
    rcases push_refs _ _ _ _ hx with rfl | hx
    · exact hr
    · exact h.refs x hx
  · intro x hx
    rcases push_adjust _ _ _ _ hx with ⟨e, rfl⟩ | hx
    · exact hn e
    · exact h.sizes x hx

theorem validLoc_some (fs : Files) (file : Option Path) (line : Option Nat) (f : Path) (l : Nat)
    (h : validLoc fs file line = some (f, l)) : file = some f ∧ line = some l ∧ ∃ lines, fs f = some lines := by
  unfold validLoc at h
  split at h
  · split at h
    · next hs => cases h; exact ⟨rfl, rfl, Option.isSome_iff_exists.1 hs⟩
    · cases h
  · cases h

theorem validLoc_none (fs : Files) (file : Option Path) (line : Option Nat) (h : validLoc fs file line = none) (f : Path)
    (hf : file = some f) : fs f = none ∨ line = none := by
  subst hf
  cases line with
  | none => exact .inr rfl
  | some l =>
    simp only [validLoc] at h
    split at h
    · cases h
    · next hs => exact .inl (by simpa using hs)

/-- a valid location, adjusted, is one from the debug information -/
theorem from_debug (w : LEnv) (row : Nat → Str) (kdir : Path) (rdir : Option Path) (addr : Nat) (loc : Loc) (file : Option Path)
    (h : itemOf w.elfPath (some kdir) (row addr) = .ok loc) (hm : remapPath kdir rdir loc.1 = .ok file) (f : Path) (l line : Nat)
    (hv : validLoc w.files file loc.2 = some (f, l)) (ha : adjustLine w.files f l = .ok line) :
    FromDebugInfo w row kdir rdir addr f (some line) := by
  obtain ⟨rfl, hl, lines, hlines⟩ := validLoc_some _ _ _ _ _ hv
  rcases item_says _ _ _ _ _ _ h hm with ⟨h1, -⟩ | ⟨p, f', h1, h2, h3⟩
  · cases h1
  · cases h1
    exact ⟨p, loc.2, h2, h3, .inr ⟨lines, l, line, hlines, hl, rfl, ha⟩⟩

theorem firstStep_origin (w : LEnv) (row : Nat → Str) (a : Arch) (kdir : Path) (rdir : Option Path) (sc : Syscall) (loc : Loc)
    (hi : itemOf w.elfPath (some kdir) (row sc.symbol.realVaddr) = .ok loc) (hline : sc.line = none)
    (hg : sc.greppedLocation = false) (sc' : Syscall) (bad : Bool) (n : Next)
    (h : firstStep w a kdir rdir sc loc = .ok (sc', bad, n)) :
    Early w row a kdir rdir sc sc' ∧ (n = .adjust → 1 < sc'.symbol.size) := by
  unfold firstStep at h
  simp only [bind, Except.bind] at h
  split at h
  · cases h
  · next file hfile =>
    have hsays := item_says _ _ _ _ _ _ hi hfile
    split at h
    · next hv =>
      cases h
      refine ⟨⟨rfl, hg, ?_, ?_, by simp, by simp [hg]⟩, fun e => nextBySize_adjust 1 _ e⟩
      · intro hf
        simp only at hf
        rcases hsays with ⟨-, -, h3⟩ | ⟨p, f, h1, -⟩
        · exact ⟨hline, rfl, h3⟩
        · rw [hf] at h1; cases h1
      · intro f hf _
        simp only at hf
        rcases hsays with ⟨h1, -⟩ | ⟨p, f', h1, h2, h3⟩
        · rw [hf] at h1; cases h1
        · rw [hf] at h1
          cases h1
          exact ⟨p, loc.2, h2, h3, .inl ⟨validLoc_none _ _ _ hv f hf, hline⟩⟩
    · next f l hv =>
      have hfs := (validLoc_some _ _ _ _ _ hv).1
      split at h
      · cases h
      · next line hadj =>
        have hd := from_debug w row kdir rdir _ loc file hi hfile f l line hv hadj
        have base : ∀ g : Bool, Early w row a kdir rdir sc { sc with file := file, goodLocation := g, line := some line } := by
          intro g
          refine ⟨rfl, hg, ?_, ?_, ?_, by simp [hg]⟩
          · intro hf; simp only [hfs] at hf; cases hf
          · intro f' hf _; simp only [hfs, Option.some.injEq] at hf; subst hf; exact hd
          · intro f' hf _ _; simp only [hfs, Option.some.injEq] at hf; subst hf; exact ⟨_, .inl rfl, hd⟩
        split at h
        · cases h
          exact ⟨base false, by simp⟩
        · split at h
          · cases h
          · next good hgood =>
            split at h
            · cases h
              exact ⟨base true, by simp⟩
            · cases h
              exact ⟨base false, fun e => nextBySize_adjust 1 _ e⟩

theorem early_setLoc (w : LEnv) (row : Nat → Str) (a : Arch) (kdir : Path) (rdir : Option Path) (orig scs : List Syscall)
    (h : List.Forall₂ (Early w row a kdir rdir) orig scs) (r : Ref) (hr : RefOk orig r) (f : Path) (line addr : Nat)
    (hc : InCode r.2.symbol addr) (hd : FromDebugInfo w row kdir rdir addr f (some line)) :
    List.Forall₂ (Early w row a kdir rdir) orig (setLoc r.1 f line scs) := by
  obtain ⟨sc0, h4, h5⟩ := hr
  apply forall2_modify _ _ _ _ _ h
  intro x y hx hxy
  rw [h4] at hx
  cases hx
  obtain ⟨h1, h2, h3⟩ := hxy
  have e1 : r.2.symbol = sc0.symbol := by rw [h5]
  have e2 : y.symbol = sc0.symbol := by rw [h1]
  refine ⟨?_, h2, ?_, ?_, ?_, ?_⟩
  · unfold Relocated at h1 ⊢; rw [h1]
  · intro hf; cases hf
  · intro f' _ hg; cases hg
  · intro f' hf _ _
    simp only [Option.some.injEq] at hf
    subst hf
    exact ⟨addr, by simp only [e2, ← e1]; exact hc, hd⟩
  · intro hg
    simp only at hg
    rw [h2] at hg; cases hg

theorem firstLoop_origin (w : LEnv) (row : Nat → Str) (a : Arch) (kdir : Path) (rdir : Option Path) (scs : List Syscall) :
    ∀ (pre : List Syscall) (locs : List Loc) (k k' : Work),
      (∀ sc ∈ scs, sc.line = none ∧ sc.greppedLocation = false) →
      List.Forall₂ (fun sc loc => itemOf w.elfPath (some kdir) (row sc.symbol.realVaddr) = .ok loc) scs locs →
      List.Forall₂ (Early w row a kdir rdir) pre k.scs → (∀ r ∈ k.adjust ++ k.grep, RefOk (pre ++ scs) r) →
      (∀ r ∈ k.adjust, 1 < r.2.symbol.size) →
      firstLoop w a kdir rdir pre.length scs locs k = .ok k' → OWork w row a kdir rdir (pre ++ scs) k' := by
  induction scs with
  | nil =>
    intro pre locs k k' _ _ h1 h2 h3 h
    simp only [firstLoop, Except.ok.injEq] at h
    subst h
    exact ⟨by simpa using h1, h2, h3⟩
  | cons sc scs ih =>
    intro pre locs k k' hfresh hlocs h1 h2 h3 h
    cases hlocs with
    | cons hloc hlocs =>
      next loc locs =>
      simp only [firstLoop, bind, Except.bind] at h
      split at h
      · cases h
      · next v hv =>
        obtain ⟨sc', bad, n⟩ := v
        obtain ⟨f1, f2⟩ := hfresh sc (by simp)
        obtain ⟨ht, hsz⟩ := firstStep_origin _ _ _ _ _ _ _ hloc f1 f2 _ _ _ hv
        have hpre : pre ++ sc :: scs = (pre ++ [sc]) ++ scs := by simp
        rw [hpre]
        have hlen : pre.length + 1 = (pre ++ [sc]).length := by simp
        simp only at h
        rw [hlen] at h
        refine ih _ _ _ _ (fun x hx => hfresh x (by simp [hx])) hlocs ?_ ?_ ?_ h
        · rw [push_scs]
          exact forall2_append _ _ _ _ _ h1 (.cons ht .nil)
        · intro r hr
          rcases push_refs _ _ _ _ hr with rfl | hr
          · exact ⟨sc, by simp, ht.1⟩
          · rw [← hpre]; exact h2 r hr
        · intro r hr
          rcases push_adjust _ _ _ _ hr with ⟨e, rfl⟩ | hr
          · exact hsz e
          · exact h3 r hr

theorem secondLoop_origin (w : LEnv) (row : Nat → Str) (a : Arch) (kdir : Path) (rdir : Option Path) (orig : List Syscall) (refs : List Ref) :
    ∀ (k k' : Work), (∀ r ∈ refs, RefOk orig r ∧ 1 < r.2.symbol.size) → OWork w row a kdir rdir orig k →
      secondLoop w a kdir rdir refs
        (refs.map fun r => itemOf w.elfPath (some kdir) (row (r.2.symbol.realVaddr + r.2.symbol.size - 1))) k = .ok k' →
      OWork w row a kdir rdir orig k' := by
  induction refs with
  | nil => intro k k' _ hk h; cases h; exact hk
  | cons r rs ih =>
    intro k k' hr hk h
    have hr' := fun x hx => hr x (List.mem_cons_of_mem _ hx)
    obtain ⟨hr1, hr2⟩ := hr r (by simp)
    have hpush : ∀ k, OWork w row a kdir rdir orig k → OWork w row a kdir rdir orig (k.push (nextBySize 2 r.2) r) :=
      fun k hk => hk.push _ r hr1 fun _ => hr2
    simp only [List.map_cons, secondLoop, bind, Except.bind] at h
    split at h
    · cases h
    next loc hloc =>
    split at h
    · cases h
    next file hfile =>
    split at h
    · exact ih _ _ hr' (hpush _ hk) h
    next f l hv =>
    split at h
    · cases h
    next line hadj =>
    split at h
    · cases h
    · next good hgood =>
      split at h
      · refine ih _ _ hr' ?_ h
        have hd := from_debug w row kdir rdir _ loc file hloc hfile f l line hv hadj
        refine ⟨early_setLoc _ _ _ _ _ _ _ hk.scs r hr1 f line _ (.inr ⟨?_, ?_⟩) hd, hk.refs, hk.sizes⟩ <;> omega
      · exact ih _ _ hr' (hpush _ hk) h

theorem retryLoop_origin (w : LEnv) (row : Nat → Str) (a : Arch) (kdir : Path) (rdir : Option Path) (sc : Syscall) (addrs : List Nat) :
    ∀ (i n : Bool) (f : Path) (line : Nat),
      retryLoop w a kdir rdir sc (addrs.map fun x => itemOf w.elfPath (some kdir) (row x)) i n = .ok (.found f line) →
      ∃ x ∈ addrs, FromDebugInfo w row kdir rdir x f (some line) := by
  induction addrs with
  | nil => intro i n f line h; cases h
  | cons x xs ih =>
    intro i n f line h
    have up : ∀ i n, retryLoop w a kdir rdir sc (xs.map fun x => itemOf w.elfPath (some kdir) (row x)) i n = .ok (.found f line) →
        ∃ y ∈ x :: xs, FromDebugInfo w row kdir rdir y f (some line) := by
      intro i n h
      obtain ⟨y, hy, hd⟩ := ih i n f line h
      exact ⟨y, by simp [hy], hd⟩
    simp only [List.map_cons, retryLoop, bind, Except.bind] at h
    split at h
    · cases h
    next loc hloc =>
    split at h
    · cases h
    next file hfile =>
    split at h
    · exact up _ _ h
    next f' l hv =>
    split at h
    · cases h
    next line' hadj =>
    split at h
    · cases h
    · next good hgood =>
      split at h
      · cases h
        exact ⟨x, by simp, from_debug w row kdir rdir _ loc file hloc hfile _ l _ hv hadj⟩
      · exact up _ _ h

theorem retryAddrs_inCode (sc : Syscall) (x : Nat) (h : x ∈ retryAddrs sc) : InCode sc.symbol x := by
  unfold retryAddrs at h
  obtain ⟨i, hi, rfl⟩ := List.mem_map.1 h
  rw [List.mem_range] at hi
  exact .inr ⟨by omega, by omega⟩

theorem thirdLoop_origin (w : LEnv) (row : Nat → Str) (hrow : RowPerAddress w row) (a : Arch) (kdir : Path) (rdir : Option Path)
    (orig : List Syscall) (refs : List Ref) :
    ∀ (k k' : Work), (∀ r ∈ refs, RefOk orig r) → OWork w row a kdir rdir orig k →
      thirdLoop w a kdir rdir refs k = .ok k' → OWork w row a kdir rdir orig k' := by
  induction refs with
  | nil => intro k k' _ hk h; cases h; exact hk
  | cons r rs ih =>
    intro k k' hr hk h
    have hr' := fun x hx => hr x (List.mem_cons_of_mem _ hx)
    simp only [thirdLoop, bind, Except.bind] at h
    split at h
    · cases h
    next items hitems =>
    rw [smart_items w row hrow _ _ _ hitems] at h
    split at h
    · cases h
    · next res hres =>
      split at h
      · next f line =>
        obtain ⟨x, hx, hd⟩ := retryLoop_origin _ _ _ _ _ _ _ _ _ _ _ hres
        refine ih _ _ hr' ?_ h
        exact ⟨early_setLoc _ _ _ _ _ _ _ hk.scs r (hr r (by simp)) f line _ (retryAddrs_inCode _ _ hx) hd, hk.refs, hk.sizes⟩
      · split at h
        · cases h
        · exact ih _ _ hr' (hk.push _ r (hr r (by simp)) (by simp)) h

theorem rowLocation_fields (kdir : Path) (row : Str) (loc : Path × Nat) (h : rowLocation kdir row = .ok loc) :
    ∃ file l rest, row = file ++ cs!":" ++ l ++ rest ∧ ':' ∉ file ∧ Digits l ∧ (rest = [] ∨ ∃ text, rest = ':' :: text) ∧
      loc.1 = kdir.join (parsePath file) ∧ loc.2 = decimal l := by
  unfold rowLocation at h
  split at h
  · next file l t hs =>
    obtain ⟨rest, h1, h2, -, h4⟩ := splitChar_more _ _ _ _ hs
    split at h
    · next hd =>
      cases h
      exact ⟨file, l, rest, h1, h2, (digits_bool l).1 hd, h4, rfl, rfl⟩
    · cases h
  · cases h

theorem grepMatch_found (a : Arch) (kdir : Path) (rows : List Str) :
    ∀ (todo : List Ref) (out : List (Ref × Option (Path × Nat))), grepMatch a kdir rows todo = .ok out →
      ∀ r loc, (r, some loc) ∈ out → ∃ row ∈ rows, ((syscallGrepRe a r.2.origname).search row).isSome = true ∧
        rowLocation kdir row = .ok loc := by
  induction rows with
  | nil => intro todo out h r loc hm; cases h; simp at hm
  | cons row rows ih =>
    intro todo out h r loc hm
    simp only [grepMatch] at h
    split at h
    · obtain ⟨x, hx, h1⟩ := ih _ _ h r loc hm
      exact ⟨x, by simp [hx], h1⟩
    · next r0 rest ht =>
      simp only [bind, Except.bind] at h
      split at h
      · cases h
      next loc0 hloc =>
      split at h
      · cases h
      next out' hout =>
      cases h
      rcases List.mem_cons.1 hm with e | hm
      · cases e
        exact ⟨row, by simp, takeMatch_some _ _ _ _ _ ht, hloc⟩
      · obtain ⟨x, hx, h1⟩ := ih _ _ hout r loc hm
        exact ⟨x, by simp [hx], h1⟩

/-- the state of a syscall at the end -/
def Late (w : LEnv) (row : Nat → Str) (a : Arch) (kdir : Path) (rdir : Option Path) (sc sc' : Syscall) : Prop :=
  Relocated sc sc' ∧ Origin w row a kdir rdir sc'

theorem fourthLoop_origin (w : LEnv) (row : Nat → Str) (a : Arch) (kdir : Path) (rdir : Option Path) (orig : List Syscall)
    (gs : List (Ref × Option (Path × Nat))) :
    ∀ (scs out : List Syscall), (∀ g ∈ gs, RefOk orig g.1 ∧ ∀ loc, g.2 = some loc → FromGrep w a kdir g.1.2.origname loc.1 (some loc.2)) →
      List.Forall₂ (Late w row a kdir rdir) orig scs →
      fourthLoop w a gs scs = .ok out → List.Forall₂ (Late w row a kdir rdir) orig out := by
  induction gs with
  | nil => intro scs out _ hs h; cases h; exact hs
  | cons g gs ih =>
    intro scs out hr hs h
    have hr' := fun x hx => hr x (List.mem_cons_of_mem _ hx)
    obtain ⟨r, loc⟩ := g
    obtain ⟨hr0, hr1⟩ := hr (r, loc) (by simp)
    cases loc with
    | none => exact ih _ _ hr' hs h
    | some fl =>
      obtain ⟨f, line⟩ := fl
      simp only [fourthLoop, bind, Except.bind] at h
      split at h
      · cases h
      · split at h
        · refine ih _ _ hr' ?_ h
          unfold setLoc
          rw [List.modify_modify_eq]
          obtain ⟨sc0, h5, h6⟩ := hr0
          apply forall2_modify _ _ _ _ _ hs
          intro x y hx hxy
          rw [h5] at hx
          cases hx
          have e1 := relocated_names h6
          have e2 := relocated_names hxy.1
          refine ⟨?_, ?_, ?_, ?_, ?_⟩
          · have := hxy.1; unfold Relocated at this ⊢; simp only [Function.comp_apply]; rw [this]
          · intro hf; cases hf
          · intro f' _ hg; cases hg
          · intro f' _ _ hg; cases hg
          · intro _
            refine ⟨f, rfl, ?_⟩
            simp only [Function.comp_apply, e2.1, ← e1.1]
            exact hr1 _ rfl
        · exact ih _ _ hr' hs h

/-- the whole pipeline, with sources -/
theorem extractLocations_origin (w : LEnv) (row : Nat → Str) (hrow : RowPerAddress w row) (a : Arch) (kdir : Path) (rdir : Option Path)
    (scs out : List Syscall) (hw : w.haveAddr2line = true) (hfresh : ∀ sc ∈ scs, sc.line = none ∧ sc.greppedLocation = false)
    (h : extractLocations w a (some kdir) rdir scs = .ok out) : List.Forall₂ (Late w row a kdir rdir) scs out := by
  have late : ∀ l, List.Forall₂ (Early w row a kdir rdir) scs l → List.Forall₂ (Late w row a kdir rdir) scs l := by
    intro l hl
    exact forall2_weaken (fun _ _ h => ⟨h.1, h.2.2⟩) hl
  unfold extractLocations at h
  simp only [hw, Bool.not_true, if_false, bind, Except.bind, Bool.false_eq_true] at h
  split at h
  · cases h
  next items hitems =>
  split at h
  · cases h
  · next locs hlocs =>
    have hl := forceAll_forall2 _ _ hlocs
    rw [smart_items w row hrow _ _ _ hitems, List.map_map] at hl
    have hl' := forall2_of_map _ _ _ hl
    simp only [Function.comp_apply] at hl'
    split at h
    · cases h
    · next k1 hk1 =>
      have h1 : OWork w row a kdir rdir ([] ++ scs) k1 :=
        firstLoop_origin w row a kdir rdir scs [] locs _ k1 hfresh hl' .nil (by simp) (by simp) hk1
      rw [List.nil_append] at h1
      have hrefs1 : ∀ r ∈ sortRefs k1.adjust, RefOk scs r ∧ 1 < r.2.symbol.size := fun r hr =>
        have := (sortBy_perm _ _).mem_iff.1 hr
        ⟨h1.refs r (List.mem_append.2 (.inl this)), h1.sizes r this⟩
      split at h
      · cases h; exact late _ h1.scs
      · have h1' : OWork w row a kdir rdir scs { k1 with adjust := [] } :=
          ⟨h1.scs, fun r hr => h1.refs r (List.mem_append.2 (.inr (by simpa using hr))), by simp⟩
        split at h
        · cases h
        · next k2 hk2 =>
          have h2 : OWork w row a kdir rdir scs k2 := by
            split at hk2
            · cases hk2; exact h1'
            · split at hk2
              · cases hk2
              · next items2 hitems2 =>
                rw [smart_items w row hrow _ _ _ hitems2, List.map_map] at hk2
                exact secondLoop_origin w row a kdir rdir scs _ _ _ hrefs1 h1' hk2
          split at h
          · cases h
          · next k3 hk3 =>
            have h3 : OWork w row a kdir rdir scs k3 := thirdLoop_origin w row hrow a kdir rdir scs _ _ _
              (fun r hr => h2.refs r (List.mem_append.2 (.inl ((sortBy_perm _ _).mem_iff.1 hr)))) h2 hk3
            split at h
            · cases h; exact late _ h3.scs
            · split at h
              · cases h
              · next gs hgs =>
                refine fourthLoop_origin w row a kdir rdir scs _ _ _ ?_ (late _ h3.scs) h
                intro g hg
                have hg' := (sortBy_perm _ _).mem_iff.1 hg
                unfold grepSources at hgs
                simp only [bind, Except.bind] at hgs
                split at hgs
                · cases hgs
                · next rows hrows =>
                  have := (grepMatch_perm _ _ _ _ _ hgs).mem_iff.1 (List.mem_map.2 ⟨g, hg', rfl⟩)
                  refine ⟨h3.refs _ (List.mem_append.2 (.inr this)), ?_⟩
                  intro loc hloc
                  obtain ⟨r, l⟩ := g
                  simp only at hloc
                  subst hloc
                  obtain ⟨x, hx, hm, hlx⟩ := grepMatch_found _ _ _ _ _ hgs r loc hg'
                  have hx' : x ∈ rows := (sortBy_perm _ _).mem_iff.1 hx
                  obtain ⟨file, l, rest, rfl, e2, e3, e4, e5, e6⟩ := rowLocation_fields _ _ _ hlx
                  exact ⟨rows, file, l, rest, hrows, hx', e2, e3, e4, e5, by rw [e6],
                    fun hid => (syscallGrepRe_search a _ _ hid.2).1 hm⟩

theorem trustLocs_origin (w : LEnv) (row : Nat → Str) (scs : List Syscall) :
    ∀ locs : List Loc, List.Forall₂ (fun sc loc => itemOf w.elfPath none (row sc.symbol.realVaddr) = .ok loc) scs locs →
      ∀ sc ∈ trustLocs scs locs, RowSays (row sc.symbol.realVaddr) sc.file sc.line ∧ sc.goodLocation = false := by
  induction scs with
  | nil => intro locs h; cases h; simp [trustLocs]
  | cons sc scs ih =>
    intro locs h
    cases h with
    | cons hloc hlocs =>
      next loc locs =>
      intro x hx
      simp only [trustLocs] at hx
      rcases List.mem_cons.1 hx with rfl | hx
      · refine ⟨?_, rfl⟩
        unfold itemOf at hloc
        simp only [bind, Except.bind] at hloc
        split at hloc
        · cases hloc
        · next loc0 h0 =>
          simp only [smartLoc] at hloc
          cases hloc
          exact parseLocRow_says _ _ h0
      · exact ih _ hlocs x hx

end Verif
