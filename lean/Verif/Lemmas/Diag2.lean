import Verif.Lemmas.Diag
import Verif.Props.Extract
/-! # Texts of the messages of the analysis, and which ones there are -/
set_option autoImplicit false

namespace Verif
open Spec

theorem texts_append (f : Str) (l m : List LogCall) : texts f (l ++ m) = texts f l ++ texts f m := by
  simp [texts]

theorem texts_none (f : Str) (l : List LogCall) (h : ∀ c ∈ l, c.fmt ≠ f) : texts f l = [] := by
  unfold texts
  rw [List.filter_eq_nil_iff.2 (fun c hc => by simpa using h c hc)]
  rfl

theorem texts_map {α : Type} (f : Str) (l : List α) (g : α → LogCall) (t : α → Option Str) (h : ∀ x ∈ l, (g x).fmt = f)
    (ht : ∀ x ∈ l, (g x).text = t x) : texts f (l.map g) = l.map t := by
  unfold texts
  rw [List.filter_eq_self.2 (fun c hc => by obtain ⟨x, hx, rfl⟩ := List.mem_map.1 hc; simpa using h x hx), List.map_map]
  exact List.map_congr_left fun x hx => ht x hx

/-- the formats of the messages about the list of syscalls -/
theorem tableCall_fmt {c : LogCall} (h : TableCall c) :
    c.fmt ≠ fmtRepeated ∧ c.fmt ≠ fmtNotImplemented ∧ c.fmt ≠ fmtBadLocation ∧ c.fmt ≠ fmtNoLocation ∧ c.fmt ≠ fmtNoSignature ∧
      c.fmt ≠ fmtMostFrequent := by
  cases h
  · show fmtOutside ≠ _ ∧ fmtOutside ≠ _ ∧ fmtOutside ≠ _ ∧ fmtOutside ≠ _ ∧ fmtOutside ≠ _ ∧ fmtOutside ≠ _; decide
  all_goals refine ⟨?_, ?_, ?_, ?_, ?_, ?_⟩
  all_goals (intro h; simp [badSizeCall, descriptorCall, noTableCall, fmtRepeated, fmtNotImplemented, fmtBadLocation, fmtNoLocation, fmtNoSignature, fmtMostFrequent] at h)

theorem mem_counts (vaddrs : List Nat) (p : Nat × Nat) : p ∈ counts vaddrs ↔ p.2 = vaddrs.count p.1 ∧ 1 < p.2 := by
  unfold counts
  rw [(sortBy_perm _ _).mem_iff]
  simp only [List.mem_filter, List.mem_map, List.mem_eraseDups, decide_eq_true_eq]
  constructor
  · rintro ⟨⟨va, -, rfl⟩, h⟩; exact ⟨rfl, h⟩
  · rintro ⟨h1, h2⟩
    refine ⟨⟨p.1, ?_, by rw [← h1]⟩, h2⟩
    apply List.count_pos_iff.1
    omega

theorem counts_nodup (vaddrs : List Nat) : ((counts vaddrs).map Prod.fst).Nodup := by
  unfold counts
  rw [((sortBy_perm _ _).map Prod.fst).nodup_iff]
  refine List.Nodup.sublist ((List.filter_sublist).map Prod.fst) ?_
  rw [List.map_map]
  show (vaddrs.eraseDups.map id).Nodup
  rw [List.map_id]
  exact nodup_eraseDups' _

theorem counts_sorted (vaddrs : List Nat) : (counts vaddrs).Pairwise fun x y => y.2 ≤ x.2 := by
  unfold counts
  refine (sortBy_pairwise _ ?_ ?_ _).imp ?_
  · intro a b; simp only [decide_eq_true_eq]; omega
  · intro a b c; simp only [decide_eq_true_eq]; omega
  · intro a b h; simpa using h

/-! The texts of the calls -/

theorem repeated_text (n : Nat) (t : Str) : (repeatedCall n t).text =
    some (cs!"Interesting! Vaddr found " ++ (natRepr n ++ (cs!" times: " ++ (t ++ [])))) := rfl

theorem noLocation_text (sc : Syscall) : (noLocationCall sc).text =
    some (cs!"Unable to find location for " ++ (sc.name ++ (cs!" (" ++ (sc.symbol.name ++ cs!")")))) := rfl

theorem noSignature_text (sc : Syscall) : (noSignatureCall sc).text =
    some (cs!"Unable to extract signature for " ++ (sc.name ++ (cs!" (" ++ (sc.symbol.name ++ cs!")")))) := rfl

theorem assumeNi_text (n : Str) (f : Path) (line : Option Nat) : (assumeNiCall n f line).text =
    line.map fun k => cs!"Assuming " ++ (n ++ (cs!" is not implemented as it points to " ++ (f.str ++ (cs!":" ++ (natRepr k ++ cs!" after adjustments"))))) := by
  cases line <;> rfl

theorem badLocation_text (sc : Syscall) (f r : Path) : (badLocationCall sc f r).text =
    some (cs!"Potentially bad location for " ++ (sc.name ++ (cs!" (" ++ (sc.symbol.name ++ (cs!"): " ++ (r.str ++ (cs!":" ++ (lineText sc.line ++ (locationHint f ++ []))))))))) := by
  unfold badLocationCall lineText
  cases sc.line <;> rfl

theorem outside_text (t s : Str) (i va : Nat) : (outsideCall t s i va).text = none := rfl

theorem locationHint_eq (f : Path) : locationHint f = reason f := by
  unfold locationHint reason
  cases f.parts.getLast? with
  | none => rfl
  | some n => simp only [endsWith_iff]

/-- all calls of a successful extraction -/
theorem extractL_calls (sh : Symbol → Str) (a0 : Arch) (e : Elf) (v : Ver) (env : KEnv) (out : List Syscall)
    (h : extractSyscalls a0 e v env = .ok out) (c : LogCall) (hc : c ∈ (extractL sh a0 e v env).1) :
    (out = [] ∧ (c = bitsCall a0.bits32 ∨ c = noVaddrCall ∨ c = noNiCall ∨ TableFatal c)) ∨ TableCall c ∨
    (∃ n t, c = repeatedCall n t) ∨ (∃ t i va, c = unresolvedCall t i va) ∨ c = noPrefixCall ∨ (∃ n f l, c = assumeNiCall n f l) ∨
    (∃ sc f r, c = badLocationCall sc f r) ∨ (∃ sc, c = noLocationCall sc) ∨ (∃ sc, c = noSignatureCall sc) := by
  by_cases hb : a0.bits32 = e.bits32
  · have h' := h
    unfold extractSyscalls at h
    rw [if_neg (by simpa using hb)] at h
    simp only at h
    cases he : tableEntries (a0.adjustAbi e) e env with
    | error x => rw [he] at h; cases h
    | ok entries =>
      rw [he, res_ok_bind] at h
      by_cases h1 : entries.isEmpty = true
      · rw [if_pos h1] at h
        cases h
        unfold extractL at hc
        rw [if_neg (by simpa using hb)] at hc
        simp only at hc
        rw [lm_bind_fst _ _ entries (by rw [tableEntriesL_snd]; exact he), if_pos h1, List.mem_append] at hc
        rcases hc with hc | hc
        · rcases tableEntriesL_calls _ _ _ _ he c hc with hc | ⟨hc, -⟩
          · exact .inr (.inl hc)
          · exact .inl ⟨rfl, .inr (.inr (.inr hc))⟩
        · simp only [bind, LM.bind, LM.log, LM.pure, List.append_nil, List.mem_singleton] at hc
          exact .inl ⟨rfl, .inr (.inl hc)⟩
      · rw [if_neg h1] at h
        by_cases h2 : e.niSyscalls.isEmpty = true
        · rw [if_pos h2] at h
          cases h
          unfold extractL at hc
          rw [if_neg (by simpa using hb)] at hc
          simp only at hc
          rw [lm_bind_fst _ _ entries (by rw [tableEntriesL_snd]; exact he), if_neg h1, if_pos h2, List.mem_append] at hc
          rcases hc with hc | hc
          · rcases tableEntriesL_calls _ _ _ _ he c hc with hc | ⟨hc, -⟩
            · exact .inr (.inl hc)
            · exact .inl ⟨rfl, .inr (.inr (.inr hc))⟩
          · simp only [bind, LM.bind, LM.log, LM.pure, List.append_nil, List.mem_singleton] at hc
            exact .inl ⟨rfl, .inr (.inr (.inl hc))⟩
        · have hne : entries ≠ [] := by simpa using h1
          have hni' : e.niSyscalls ≠ [] := by simpa using h2
          obtain ⟨cands, located, signed, hx⟩ := extraction_of_ok a0 e v env entries out hb he hne hni' h'
          obtain ⟨pre, hpre, hcl⟩ := candidatesL_fst sh _ e v _ entries cands hx.cands_ok
          rw [extractL_fst sh a0 e v env entries out cands located signed hb he hne hni' hx, hcl, finalL_eq] at hc
          simp only [List.mem_append] at hc
          right
          rcases hc with hc | (hc | hc | hc) | hc | (hc | hc) | hc
          · rcases tableEntriesL_calls _ _ _ _ he c hc with hc | ⟨-, hc⟩
            · exact .inl hc
            · exact absurd hc hne
          · obtain ⟨x, -, rfl⟩ := List.mem_map.1 hc
            exact .inr (.inl ⟨_, _, rfl⟩)
          · obtain ⟨x, -, rfl⟩ := List.mem_map.1 hc
            exact .inr (.inr (.inl ⟨_, _, _, rfl⟩))
          · refine .inr (.inr (.inr (.inl ?_)))
            rcases hpre with rfl | rfl
            · cases hc
            · simpa using hc
          · obtain ⟨x, -, rfl⟩ := List.mem_map.1 hc
            exact .inr (.inr (.inr (.inr (.inl ⟨_, _, _, rfl⟩))))
          · obtain ⟨x, -, rfl⟩ := List.mem_map.1 hc
            exact .inr (.inr (.inr (.inr (.inr (.inl ⟨_, _, _, rfl⟩)))))
          · obtain ⟨x, -, rfl⟩ := List.mem_map.1 hc
            exact .inr (.inr (.inr (.inr (.inr (.inr (.inl ⟨_, rfl⟩))))))
          · obtain ⟨x, -, rfl⟩ := List.mem_map.1 hc
            exact .inr (.inr (.inr (.inr (.inr (.inr (.inr ⟨_, rfl⟩))))))
  · unfold extractSyscalls at h
    rw [if_pos (by simpa using hb)] at h
    cases h
    unfold extractL at hc
    rw [if_pos (by simpa using hb)] at hc
    simp only [bind, LM.bind, LM.log, LM.pure, List.append_nil, List.mem_singleton] at hc
    exact .inl ⟨rfl, .inl hc⟩

theorem tableFatal_fmt {c : LogCall} (h : TableFatal c) {f : Str} (h1 : cs!"Unable to find %s symbol!" ≠ f)
    (h2 : cs!"Arch uses function descriptors, but vmlinux has no .opd section!" ≠ f)
    (h3 : cs!"Could not extract any valid function pointer from %s, giving up!" ≠ f)
    (h4 : cs!"Is the kernel relocatable? Relocation entries for the syscall table are not supported." ≠ f) : c.fmt ≠ f := by
  cases h with
  | missing => exact h1
  | noOpd => exact h2
  | noPointer _ _ h =>
    simp only [noPointerCalls, List.mem_cons, List.not_mem_nil, or_false] at h
    rcases h with rfl | rfl
    · exact h3
    · exact h4

end Verif
