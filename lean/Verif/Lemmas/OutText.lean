import Verif.Spec.Output
import Verif.Lemmas.Elf
import Verif.Lemmas.Str
/-! # Lemmas about the text output (C70) -/
set_option autoImplicit false

namespace Verif
open Spec

theorem blank_spaces (n : Nat) : AllSpaces (spaces n) := fun _ hc => List.eq_of_mem_replicate hc

theorem spaces_length (n : Nat) : (spaces n).length = n := List.length_replicate

theorem blank_append {a b : Str} (ha : AllSpaces a) (hb : AllSpaces b) : AllSpaces (a ++ b) := by
  intro c hc
  rcases List.mem_append.1 hc with h | h
  · exact ha c h
  · exact hb c h

theorem ljust_length {s : Str} {w : Nat} (h : s.length ≤ w) : (ljust s w).length = w := by
  simp [ljust, spaces_length]; omega

/-! ## Offsets -/

/-- start of each column of the given widths, with two spaces between columns -/
def offsFrom : Nat → List Nat → List Nat
  | _, [] => []
  | b, w :: ws => b :: offsFrom (b + w + 2) ws

theorem offsFrom_length (b : Nat) (ws : List Nat) : (offsFrom b ws).length = ws.length := by
  induction ws generalizing b with
  | nil => rfl
  | cons w ws ih => simp [offsFrom, ih]

/-- every cell fits its column -/
def CellsFit (cells : List Str) (ws : List Nat) : Prop :=
  cells.length = ws.length ∧ ∀ (k : Nat) (c : Str) (w : Nat), cells[k]? = some c → ws[k]? = some w → c.length ≤ w

theorem CellsFit.tail {c : Str} {cs : List Str} {w : Nat} {ws : List Nat} (h : CellsFit (c :: cs) (w :: ws)) : CellsFit cs ws := by
  refine ⟨by simpa using h.1, fun k c' w' hc hw => h.2 (k + 1) c' w' ?_ ?_⟩ <;> simpa

theorem aligned_go (cells : List Str) (ws : List Nat) (hf : CellsFit cells ws) (pre : Str) :
    ∀ (k o : Nat) (c : Str), (offsFrom pre.length ws)[k]? = some o → cells[k]? = some c →
    (∀ o', (offsFrom pre.length ws)[k + 1]? = some o' →
      o' ≤ (pre ++ joinWith (spaces 2) (List.zipWith ljust cells ws)).length ∧ ∃ pad, AllSpaces pad ∧ 2 ≤ pad.length ∧
        ((pre ++ joinWith (spaces 2) (List.zipWith ljust cells ws)).take o').drop o = c ++ pad) ∧
    ((offsFrom pre.length ws)[k + 1]? = none →
      o ≤ (pre ++ joinWith (spaces 2) (List.zipWith ljust cells ws)).length ∧
      ∃ pad, AllSpaces pad ∧ (pre ++ joinWith (spaces 2) (List.zipWith ljust cells ws)).drop o = c ++ pad) := by
  induction cells generalizing ws pre with
  | nil => intro k o c _ hc; simp at hc
  | cons c0 cs ih =>
    cases ws with
    | nil => have := hf.1; simp at this
    | cons w ws =>
      have hc0 : c0.length ≤ w := hf.2 0 c0 w rfl rfl
      have ht := hf.tail
      cases cs with
      | nil =>
        have hws : ws = [] := by have := ht.1; simp at this; exact List.eq_nil_of_length_eq_zero this.symm
        subst hws
        intro k o c ho hc
        cases k with
        | succ k => simp at hc
        | zero =>
          simp [offsFrom] at ho hc
          subst ho hc
          refine ⟨fun o' h => by simp [offsFrom] at h, fun _ => ⟨by simp, spaces (w - c0.length), blank_spaces _, ?_⟩⟩
          simp [joinWith, ljust]
      | cons c1 cs =>
        cases ws with
        | nil => have := ht.1; simp at this
        | cons w1 ws =>
          have hpre : (pre ++ ljust c0 w ++ spaces 2).length = pre.length + w + 2 := by
            simp [ljust_length hc0, spaces_length]; omega
          have hbody : pre ++ joinWith (spaces 2) (List.zipWith ljust (c0 :: c1 :: cs) (w :: w1 :: ws))
              = (pre ++ ljust c0 w ++ spaces 2) ++ joinWith (spaces 2) (List.zipWith ljust (c1 :: cs) (w1 :: ws)) := by
            simp [joinWith]
          have ih' := ih (w1 :: ws) ht (pre ++ ljust c0 w ++ spaces 2)
          rw [hpre] at ih'
          intro k o c ho hc
          cases k with
          | succ k =>
            rw [hbody]
            exact ih' k o c (by simpa [offsFrom] using ho) (by simpa using hc)
          | zero =>
            simp [offsFrom] at ho hc
            subst ho hc
            refine ⟨fun o' h => ?_, fun h => by simp [offsFrom] at h⟩
            simp [offsFrom] at h
            subst h
            rw [hbody]
            refine ⟨by rw [List.length_append, hpre]; omega, spaces (w - c0.length) ++ spaces 2,
              blank_append (blank_spaces _) (blank_spaces _), by simp [spaces_length], ?_⟩
            rw [← hpre, List.take_left]
            simp [ljust]

theorem aligned_line (cells : List Str) (ws : List Nat) (hne : cells ≠ []) (hf : CellsFit cells ws) :
    Aligned (offsFrom 0 ws) cells (textLine 2 ws (some cells)) := by
  refine ⟨?_, by rw [offsFrom_length, hf.1], ?_⟩
  · cases ws with
    | nil => exact absurd (List.eq_nil_of_length_eq_zero hf.1) hne
    | cons w ws => rfl
  · have := aligned_go cells ws hf []
    simpa [textLine] using this

/-! ## Widths -/

theorem le_foldl_max (l : List Nat) (b x : Nat) : (x ≤ b ∨ x ∈ l) → x ≤ l.foldl max b := by
  induction l generalizing b with
  | nil => intro h; simpa using h
  | cons y l ih =>
    intro h
    simp only [List.foldl_cons]
    apply ih
    rcases h with h | h
    · left; omega
    · rcases List.mem_cons.1 h with rfl | h
      · left; omega
      · right; exact h

theorem cellsFit_of_mem (table : List (Option (List Str))) (row : List Str) (hm : some row ∈ table) (hlen : row.length = 8) :
    CellsFit row (textWidths table) := by
  refine ⟨by simp [textWidths, hlen, textHeader], ?_⟩
  intro k c w hc hw
  simp only [textWidths, List.getElem?_map] at hw
  have hk : k < 8 := by
    rw [← hlen]
    exact (List.getElem?_eq_some_iff.1 hc).1
  have hr : (List.range textHeader.length)[k]? = some k := by simp [textHeader, hk]
  rw [hr] at hw
  simp only [Option.map_some, Option.some.injEq] at hw
  subst hw
  apply le_foldl_max
  right
  refine List.mem_map.2 ⟨some row, hm, ?_⟩
  simp [cellLen, hc]

theorem textRow_length (sc : Syscall) : (textRow sc).length = 8 := rfl

theorem textRow_ne (sc : Syscall) : textRow sc ≠ [] := by simp [textRow]

theorem mem_textRows {sc : Syscall} {scs : List Syscall} (h : sc ∈ scs) (prev : Nat) :
    some (textRow sc) ∈ textRows prev scs := by
  induction scs generalizing prev with
  | nil => simp at h
  | cons x xs ih =>
    simp only [textRows, List.mem_append, List.mem_cons]
    rcases List.mem_cons.1 h with rfl | h
    · right; left; rfl
    · right; right; exact ih h _

/-! ## Cells -/

theorem toDigits16_ne (n : Nat) : Nat.toDigits 16 n ≠ [] := by
  by_cases h : n < 16
  · rw [Nat.toDigits_of_lt_base h]; simp
  · have := Nat.toDigits_append_toDigits (b := 16) (n := n / 16) (d := n % 16) (by omega) (by omega) (by omega)
    rw [Nat.div_add_mod] at this
    rw [← this, Nat.toDigits_of_lt_base (by omega : n % 16 < 16)]
    simp

theorem hexStr_cell (n : Nat) : HexCell n (hexStr n) :=
  ⟨_, rfl, toDigits16_ne n, toDigits16_hex n, natOfHex_toDigits n⟩

theorem fmt3d_cell (i : Nat) : IndexCell (some i) (fmt3d i) := by
  refine ⟨by simp [fmt3d, spaces_length]; omega, spaces (3 - (natRepr i).length), natRepr i, rfl, blank_spaces _, ?_,
    natRepr_ne_nil i, natRepr_all_digits i, natOfDigits_natRepr i⟩
  intro h
  simp [fmt3d, spaces_length] at h
  have : 3 - (natRepr i).length = 0 := by omega
  rw [this]; rfl

theorem Path.str_ne_nil (p : Path) (h2 : ∀ x ∈ p.parts, x ≠ []) : p.str ≠ [] := by
  unfold Path.str
  split
  · simp
  · split
    · simp
    · cases hp : p.parts with
      | nil => contradiction
      | cons x xs =>
        have hx : x ≠ [] := h2 x (by simp [hp])
        cases xs with
        | nil => simpa [joinWith] using hx
        | cons y ys => simp [joinWith, hx]

theorem textLoc_cell (sc : Syscall) (hp : ∀ f, sc.file = some f → ∀ x ∈ f.parts, x ≠ []) : LocationCell sc (textLoc sc) := by
  cases hfile : sc.file with
  | none => left; exact ⟨hfile, by simp [textLoc, textLocBase, hfile]⟩
  | some f =>
    right
    have hne := f.str_ne_nil (hp f hfile)
    have key : ∀ place, textLocBase sc = place → place ≠ [] →
        textLoc sc = if sc.goodLocation then place else cs!"(?) " ++ place := by
      intro place h1 h2
      simp only [textLoc, h1]
      cases sc.goodLocation <;> simp [h2]
    cases hline : sc.line with
    | none =>
      exact ⟨f, f.str, hfile, Or.inl ⟨rfl, rfl⟩, key _ (by simp [textLocBase, hfile, hline]) hne⟩
    | some l =>
      cases l with
      | zero => exact ⟨f, f.str, hfile, Or.inr (Or.inl ⟨rfl, rfl⟩), key _ (by simp [textLocBase, hfile, hline]) hne⟩
      | succ l =>
        exact ⟨f, _, hfile, Or.inr (Or.inr ⟨l + 1, rfl, by omega, rfl⟩), key _ (by simp [textLocBase, hfile, hline]) (by simp)⟩

theorem textKconfig_cell (sc : Syscall) : KconfigCell sc (textKconfig sc) := by
  refine ⟨fun h => by simp [textKconfig, h], fun opt h hn => ?_⟩
  have hne : cs!"CONFIG_" ++ opt ≠ [] := by simp
  simp only [textKconfig, h, if_neg hne]
  rw [replaceAll_match _ _ _ (by simp), replaceAll_none _ _ _ (by simp) hn]
  rfl

theorem textSignature_cell (sc : Syscall) : SignatureCell sc (textSignature sc) := by
  refine ⟨fun h => by simp [textSignature, h], fun h => by simp [textSignature, h], fun sig h hne => ?_⟩
  cases sig with
  | nil => exact absurd rfl hne
  | cons a as => simp [textSignature, h]

theorem textRow_cells (sc : Syscall) (hp : ∀ f, sc.file = some f → ∀ x ∈ f.parts, x ≠ []) : CellsOf sc (textRow sc) := by
  refine ⟨_, _, _, _, _, _, rfl, ?_, hexStr_cell _, ?_, ?_, textLoc_cell sc hp, textKconfig_cell sc, textSignature_cell sc⟩
  · cases sc.index with
    | none => rfl
    | some i => exact fmt3d_cell i
  · intro h; simp [h]
  · intro h; simp [h]

theorem listing_rows (ws : List Nat) (scs : List Syscall) (prev : Nat) (first : Bool)
    (hp : ∀ sc ∈ scs, ∀ f, sc.file = some f → ∀ x ∈ f.parts, x ≠ [])
    (hf : ∀ sc ∈ scs, CellsFit (textRow sc) ws) (hfirst : first = true → ∀ sc ∈ scs.head?, sc.number = prev) :
    Listing (offsFrom 0 ws) (if first then none else some prev) scs ((textRows prev scs).map (textLine 2 ws)) := by
  induction scs generalizing prev first with
  | nil => exact .nil _
  | cons sc scs ih =>
    have ih' := ih sc.number false (fun s hs => hp s (List.mem_cons_of_mem _ hs)) (fun s hs => hf s (List.mem_cons_of_mem _ hs))
      (by simp)
    have hc := textRow_cells sc (hp sc List.mem_cons_self)
    have ha := aligned_line _ ws (textRow_ne sc) (hf sc List.mem_cons_self)
    simp only [Bool.false_eq_true, if_false] at ih'
    by_cases hg : prev + 1 < sc.number
    · have : first = false := by
        cases first with
        | false => rfl
        | true => have := hfirst rfl sc (by simp); omega
      subst this
      simp only [textRows, if_pos hg, List.map_cons, List.singleton_append, Bool.false_eq_true, if_false]
      exact .gap hg hc ha ih'
    · simp only [textRows, if_neg hg, List.nil_append, List.map_cons]
      refine .next ?_ hc ha ih'
      intro p h
      cases first with
      | true => simp at h
      | false => simp at h; subst h; omega

end Verif
