import Verif.Lemmas.Signature2
/-! Lemmas on ftrace metadata. -/
set_option autoImplicit false

namespace Verif
open Spec

theorem Holds.read {e : Elf} {va : Nat} {bs : Bytes} (h : Holds e va bs) (n : Nat) (hn : n = bs.length) :
    e.vaddrRead va n = .ok bs := by
  obtain ⟨off, ho, t, ht⟩ := h
  subst hn
  unfold Elf.vaddrRead
  rw [ho]
  simp only [bind, Except.bind, readAt]
  rw [← ht]; simp

theorem HoldsStr.read {e : Elf} {va : Nat} {s : Str} (h : HoldsStr e va s) : e.vaddrReadString va = .ok s := by
  obtain ⟨ha, off, ho, t, ht⟩ := h
  exact C14_read_string e va off s t ho ha (by rw [← ht]; simp)

theorem readPtr_holds {e : Elf} {va p : Nat} (hp : p < 256 ^ (if e.bits32 then 4 else 8))
    (h : Holds e va (encUint e.bigEndian (if e.bits32 then 4 else 8) p)) : e.readPtr va = .ok p := by
  unfold Elf.readPtr
  have hr := Holds.read h e.ptrSize (by simp [Elf.ptrSize])
  rw [hr]
  simp only [bind, Except.bind]
  exact unpackUint_encUint _ _ _ hp

theorem joinWith_trimmed (ws : List Str) (hw : ∀ w ∈ ws, w ≠ [] ∧ ∀ c ∈ w, isSpace c = false) :
    Trimmed (joinWith cs!" " ws) := by
  cases ws with
  | nil => exact trimmed_nil
  | cons w ws =>
    obtain ⟨hne, hsp⟩ := hw w (by simp)
    constructor
    · intro c hc
      rw [join_head w ws hne] at hc
      exact hsp c (List.mem_of_mem_head? hc)
    · clear hne hsp
      induction ws generalizing w with
      | nil => intro c hc; exact (hw w (by simp)).2 c (List.mem_of_getLast? hc)
      | cons v ws ih =>
        intro c hc
        have hv := (hw v (by simp)).1
        have hne : joinWith cs!" " (v :: ws) ≠ [] := by
          intro h
          have := join_head v ws hv
          rw [h] at this
          cases v with
          | nil => exact hv rfl
          | cons => simp at this
        have e : joinWith cs!" " (w :: v :: ws) = (w ++ cs!" ") ++ joinWith cs!" " (v :: ws) := rfl
        rw [e, List.getLast?_append] at hc
        cases hl : (joinWith cs!" " (v :: ws)).getLast? with
        | none => simp at hl; exact absurd hl hne
        | some d =>
          rw [hl] at hc
          simp at hc
          subst hc
          exact ih v (fun x hx => hw x (by simp at hx ⊢; tauto)) _ hl

theorem readMetaArgs_holds (e : Elf) (m : MetaSpec) (hw : m.WF) (typesp argsp : Nat) (tps aps : List Nat)
    (ht : HoldsPtrs e typesp tps) (ha : HoldsPtrs e argsp aps)
    (hs : ∀ (i : Nat) (t : List Str) (a : Str), m.args[i]? = some (t, a) →
      ∃ tp ap, tps[i]? = some tp ∧ aps[i]? = some ap ∧ HoldsStr e tp (joinWith cs!" " t) ∧ HoldsStr e ap a) :
    ∀ n i, i + n = m.args.length →
      e.readMetaArgs typesp argsp i n = .ok ((m.args.drop i).map fun a => argText (glue a.1) a.2) := by
  intro n
  induction n with
  | zero => intro i hi; simp [Elf.readMetaArgs, List.drop_eq_nil_of_le (by omega : m.args.length ≤ i)]
  | succ n ih =>
    intro i hi
    have hlt : i < m.args.length := by omega
    rw [List.drop_eq_getElem_cons hlt, List.map_cons]
    obtain ⟨tp, ap, h1, h2, h3, h4⟩ := hs i (m.args[i]).1 (m.args[i]).2 (by rw [List.getElem?_eq_getElem hlt])
    obtain ⟨t1, t2⟩ := ht i tp h1
    obtain ⟨a1, a2⟩ := ha i ap h2
    have hwf := hw.2 (m.args[i]) (List.getElem_mem hlt)
    have r1 := readPtr_holds t1 t2
    have r2 := readPtr_holds a1 a2
    have s1 := HoldsStr.read h3
    have s2 := HoldsStr.read h4
    have g : replaceAll (strip (joinWith cs!" " (m.args[i]).1)) cs!"* *" cs!"**" = glue (m.args[i]).1 := by
      rw [strip_trimmed_core (joinWith_trimmed _ hwf.2.2.1), replaceStars_join _ hwf.2.2.1 hwf.2.1]
    have g2 : strip (m.args[i]).2 = (m.args[i]).2 := strip_trimmed_core hwf.2.2.2
    have g3 := fmtArg_ok (glue (m.args[i]).1) (m.args[i]).2 (glue_ne_nil _ hwf.1 fun w hm => (hwf.2.2.1 w hm).1)
    simp only [Elf.readMetaArgs]
    change (do
      let typ ← e.readPtr (typesp + i * (if e.bits32 then 4 else 8))
      let arg ← e.readPtr (argsp + i * (if e.bits32 then 4 else 8))
      let typ ← e.vaddrReadString typ
      let arg ← e.vaddrReadString arg
      let a ← fmtArg (replaceAll (strip typ) cs!"* *" cs!"**") (strip arg)
      let rest ← e.readMetaArgs typesp argsp (i + 1) n
      (.ok (a :: rest) : Res (List Str))) = _
    rw [r1, r2]
    simp only [bind, Except.bind, s1, s2, g, g2, g3]
    rw [ih (i + 1) (by omega)]

theorem readMetaEntry_holds (e : Elf) (ptr : Nat) (m : MetaSpec) (hw : m.WF) (h : HoldsMeta e ptr m) :
    e.readMetaEntry ptr = .ok (m.name, m.sig) := by
  obtain ⟨namep, nr, typesp, argsp, tps, aps, h1, h2, h3, h4, h5, h6, h7, -, -, h10, h11, h12⟩ := h
  have hps : e.ptrSize = if e.bits32 then 4 else 8 := rfl
  rw [← hps] at h1 h2 h3 h5
  generalize hpz : e.ptrSize = p at h1 h2 h3 h5
  have hread := Holds.read h5 (8 + 3 * p) (by simp; omega)
  have hmeta : e.readMeta ptr = .ok ⟨namep, (m.args.length : Int), typesp, argsp⟩ := by
    unfold Elf.readMeta
    rw [hpz]
    simp only [hread, bind, Except.bind]
    rw [if_pos (by simp; omega)]
    have f1 := readAt_append [] (encUint e.bigEndian p namep) (encUint e.bigEndian 4 nr ++ encUint e.bigEndian 4 m.args.length ++
      encUint e.bigEndian p typesp ++ encUint e.bigEndian p argsp) 0 p rfl (by simp)
    have f2 := readAt_append (encUint e.bigEndian p namep ++ encUint e.bigEndian 4 nr) (encUint e.bigEndian 4 m.args.length)
      (encUint e.bigEndian p typesp ++ encUint e.bigEndian p argsp) (p + 4) 4 (by simp) (by simp)
    have f3 := readAt_append (encUint e.bigEndian p namep ++ encUint e.bigEndian 4 nr ++ encUint e.bigEndian 4 m.args.length)
      (encUint e.bigEndian p typesp) (encUint e.bigEndian p argsp) (p + 8) p (by simp) (by simp)
    have f4 := readAt_append (encUint e.bigEndian p namep ++ encUint e.bigEndian 4 nr ++ encUint e.bigEndian 4 m.args.length ++
      encUint e.bigEndian p typesp) (encUint e.bigEndian p argsp) [] (2 * p + 8) p (by simp; omega) (by simp)
    simp only [List.append_assoc, List.nil_append, List.append_nil] at f1 f2 f3 f4
    simp only [List.append_assoc, f1, f2, f3, f4, uintOf_encUint, Nat.mod_eq_of_lt h1, Nat.mod_eq_of_lt h2, Nat.mod_eq_of_lt h3]
    have hlen : m.args.length % 256 ^ 4 = m.args.length := Nat.mod_eq_of_lt (by omega)
    rw [hlen]
    simp only [signed32, h4, if_true]
  unfold Elf.readMetaEntry
  rw [hmeta]
  simp only [bind, Except.bind]
  have hassert : decide (0 ≤ (m.args.length : Int) ∧ ((m.args.length : Int) = 0 ∨ (typesp ≠ 0 ∧ argsp ≠ 0))) = true := by
    rw [decide_eq_true_eq]
    refine ⟨by omega, ?_⟩
    by_cases ha : m.args = []
    · left; simp [ha]
    · right; exact h7 ha
  rw [hassert]
  simp only [pyAssert, if_true, HoldsStr.read h6, Int.toNat_natCast]
  rw [readMetaArgs_holds e m hw typesp argsp tps aps h10 h11 h12 _ 0 (by omega)]
  have hname : noprefix (strip (cs!"sys_" ++ m.name)) [cs!"sys_"] = m.name := by
    have : Trimmed (cs!"sys_" ++ m.name) := by
      constructor
      · intro c hc; simp at hc; subst hc; decide
      · intro c hc
        rw [List.getLast?_append] at hc
        cases hl : m.name.getLast? with
        | none => rw [hl] at hc; simp at hc; subst hc; decide
        | some d => rw [hl] at hc; simp at hc; subst hc; exact hw.1 _ hl
    rw [strip_trimmed_core this]
    simp [noprefix, startsWith]
  rw [hname]
  rfl

/-- last value stored for a key by a sequence of assignments -/
theorem readMetaLoop_holds (e : Elf) (ptrs : List Nat) (ms : List MetaSpec) (h : List.Forall₂ (HoldsMeta e) ptrs ms)
    (hw : ∀ m ∈ ms, m.WF) : ∀ d, ∃ d', e.readMetaLoop ptrs d = .ok d' ∧
      ∀ n, dget n d' = match ms.reverse.find? (fun m => decide (m.name = n)) with
        | some m => some m.sig
        | none => dget n d := by
  induction h with
  | nil => intro d; exact ⟨d, rfl, fun n => rfl⟩
  | @cons p m ptrs ms hpm _ ih =>
    intro d
    have he := readMetaEntry_holds e p m (hw m (by simp)) hpm
    obtain ⟨d', h1, h2⟩ := ih (fun x hx => hw x (by simp [hx])) (dset m.name m.sig d)
    refine ⟨d', by simp [Elf.readMetaLoop, he, bind, Except.bind, h1], ?_⟩
    intro n
    rw [h2 n, List.reverse_cons, List.find?_append]
    cases hf : ms.reverse.find? (fun m => decide (m.name = n)) with
    | some x => simp
    | none =>
      by_cases hn : m.name = n
      · simp [hn]
      · simp [hn, dget_dset_ne _ _ (fun h => hn h.symm)]

theorem chunks_enc (big : Bool) (w : Nat) (ptrs : List Nat) (hp : ∀ p ∈ ptrs, p < 256 ^ w) :
    (chunks w ptrs.length (ptrs.flatMap (encUint big w))).map (uintOf big) = ptrs := by
  induction ptrs with
  | nil => rfl
  | cons p ps ih =>
    simp only [List.length_cons, chunks, List.flatMap_cons, List.map_cons]
    rw [List.take_left' (by simp), List.drop_left' (by simp), ih (fun x hx => hp x (by simp [hx])), uintOf_encUint,
      Nat.mod_eq_of_lt (hp p (by simp))]

theorem flatMap_enc_length (big : Bool) (w : Nat) (ptrs : List Nat) :
    (ptrs.flatMap (encUint big w)).length = ptrs.length * w := by
  induction ptrs with
  | nil => simp
  | cons p ps ih => simp [ih, Nat.succ_mul]; omega

theorem iterUnpack_enc (big : Bool) (w : Nat) (hw : 0 < w) (ptrs : List Nat) (hp : ∀ p ∈ ptrs, p < 256 ^ w) :
    iterUnpack big w (ptrs.flatMap (encUint big w)) = .ok ptrs := by
  unfold iterUnpack
  rw [flatMap_enc_length, if_pos (Nat.mul_mod_left _ _), Nat.mul_div_cancel _ hw, chunks_enc big w ptrs hp]

theorem mapRes_get {α β : Type} (f : α → Res β) (xs : List α) (ys : List β) (h : mapRes f xs = .ok ys) :
    List.Forall₂ (fun x y => f x = .ok y) xs ys := by
  induction xs generalizing ys with
  | nil => simp [mapRes] at h; subst h; exact .nil
  | cons x xs ih =>
    simp only [mapRes, bind, Except.bind] at h
    cases hx : f x with
    | error e => rw [hx] at h; simp at h
    | ok y =>
      rw [hx] at h
      cases hxs : mapRes f xs with
      | error e => rw [hxs] at h; simp at h
      | ok ys' => rw [hxs] at h; simp at h; subst h; exact .cons hx (ih ys' hxs)

theorem forall2_imp {α β : Type} {R S : α → β → Prop} (h : ∀ a b, R a b → S a b) {as : List α} {bs : List β}
    (hr : List.Forall₂ R as bs) : List.Forall₂ S as bs := by
  induction hr with
  | nil => exact .nil
  | cons hab _ ih => exact .cons (h _ _ hab) ih

end Verif
