import Verif.Spec.Record
import Verif.Lemmas.Diag2
import Verif.Lemmas.Locate3
import Verif.Lemmas.Described
/-! # Helper lemmas: the complete record of an extraction -/
set_option autoImplicit false

namespace Verif
open Spec

theorem said_append (l m : List LogCall) : said (l ++ m) = said l ++ said m := by simp [said]

theorem said_map {α : Type} (l : List α) (f : α → LogCall) (g : α → Said) (h : ∀ x ∈ l, ((f x).level, (f x).text) = g x) :
    said (l.map f) = l.map g := by
  unfold said
  rw [List.map_map]
  exact List.map_congr_left h

theorem not_contains (s : Section) (va : Nat) : (!s.contains va) = decide (va < s.vaddr ∨ s.vaddr + s.size ≤ va) := by
  unfold Section.contains
  rw [Bool.eq_iff_iff]
  simp

/-! ## The table -/

theorem filter_zipIdx_snd {α β : Type} (p : α → Bool) (c : β) (l : List α) (k : Nat) :
    (((l.zipIdx k).map fun q => (q.2, q.1)).filter fun q => p q.2).map (fun _ => c) = (l.filter p).map fun _ => c := by
  induction l generalizing k with
  | nil => rfl
  | cons x xs ih =>
    simp only [List.zipIdx_cons, List.map_cons, List.filter_cons]
    cases p x <;> simp [ih]

theorem badSize_text (t : Str) (n : Nat) : (badSizeCall t n).text = some (cs!"Syscall table (" ++ (t ++ (cs!") has bad size (" ++
    (natRepr n ++ cs!"), doing my best to figure out when to stop")))) := rfl

theorem said_unpack (e : Elf) (tbl : Symbol) (sec : Section) (n : Str) (vs : List Nat) (h : unpackTable e tbl sec = .ok vs) :
    said (unpackTableL e tbl sec n).1 = saidReading tbl sec vs := by
  unfold unpackTable at h
  unfold unpackTableL saidReading
  cases ho : e.vaddrToFileOffset tbl.vaddr with
  | error x => rw [ho] at h; cases h
  | ok off =>
    rw [ho, res_ok_bind] at h
    rw [lm_lift_fst rfl]
    by_cases hs : tbl.size > 0x80
    · rw [if_pos hs] at h
      rw [if_pos hs, if_pos hs, lm_lift_fst h, lm_bind_fst _ _ () rfl]
      simp only [LM.log, LM.pure, List.append_nil]
      rw [said_map _ _ (fun _ => ((.warning, none) : Said)) (fun p _ => rfl)]
      unfold enumerate
      rw [filter_zipIdx_snd (fun va => !sec.contains va)]
      simp only [not_contains]
    · rw [if_neg hs, if_neg hs, lm_bind_fst _ _ () rfl]
      simp only [LM.log, LM.lift, List.append_nil, said, List.map_cons, List.map_nil, badSize_text, List.append_assoc]
      rfl

theorem said_plain (e : Elf) (tbl : Symbol) (text : Section) (t : Str) (vs : List Nat) (h : unpackTable e tbl text = .ok vs) :
    said (plainTableL e tbl text t).1 = saidReading tbl text vs ++ saidNothing t vs := by
  unfold plainTableL saidNothing
  rw [lm_bind_fst _ _ vs (by rw [unpackTableL_snd]; exact h), lm_bind_fst _ _ () rfl, said_append, said_unpack _ _ _ _ _ h]
  congr 1
  simp only [LM.log, LM.pure, List.append_nil]
  cases vs with
  | nil => rfl
  | cons => rfl

theorem said_deref (e : Elf) (text : Section) (ds vs : List Nat) (h : mapRes e.readPtr ds = .ok vs) :
    said (derefDescriptorsL e text ds).1 = saidDescriptors text ds vs := by
  induction ds generalizing vs with
  | nil => cases h; rfl
  | cons d ds ih =>
    unfold mapRes at h
    cases hr : e.readPtr d with
    | error x => rw [hr] at h; cases h
    | ok va =>
      rw [hr, res_ok_bind] at h
      cases hm : mapRes e.readPtr ds with
      | error x => rw [hm] at h; cases h
      | ok vas =>
        rw [hm, res_ok_bind] at h
        cases h
        unfold derefDescriptorsL
        rw [lm_lift_fst hr, lm_bind_fst _ _ () rfl, lm_bind_fst _ _ vas (by rw [derefDescriptorsL_snd]; exact hm), said_append, said_append, ih vas hm]
        simp only [LM.log, LM.pure, saidDescriptors, List.zip_cons_cons, List.filter_cons, ← not_contains]
        have ht : ((descriptorCall d).level, (descriptorCall d).text) = ((.warning, some (cs!"Function descriptor at 0x" ++ Nat.toDigits 16 d ++
            cs!" points outside .text: something is off!")) : Said) := by
          show ((Level.warning, some (cs!"Function descriptor at 0x" ++ (Nat.toDigits 16 d ++ cs!" points outside .text: something is off!"))) : Said) = _
          simp only [List.append_assoc]
        cases text.contains va with
        | true => simp [said]
        | false =>
          simp only [Bool.false_eq_true, if_false, Bool.not_false, if_true, List.map_cons]
          rw [← ht]
          simp [said]

theorem direct_iff (a : Arch) (e : Elf) (tbl : Symbol) (text : Section) (first : Nat) (hd : a.usesFunctionDescriptors = true)
    (hf : e.readPtr tbl.vaddr = .ok first) : Direct a e tbl text ↔ text.contains first = true := by
  unfold Direct Section.contains
  rw [hd, hf]
  simp

theorem vaddrs_said (a : Arch) (e : Elf) (t : Str) (vs : List Nat) (h : vaddrsFromTable a e t = .ok vs) :
    TableSaid a e t vs (said (vaddrsFromTableL a e t).1) := by
  unfold vaddrsFromTable at h
  unfold vaddrsFromTableL
  cases h1 : dget t e.symbols with
  | none =>
    rw [h1] at h
    cases h
    exact .missing h1
  | some tbl =>
    rw [h1] at h
    simp only at h ⊢
    cases h2 : dget cs!".text" e.sections with
    | none => rw [h2] at h; cases h
    | some text =>
      rw [h2] at h
      simp only at h ⊢
      by_cases hd : a.usesFunctionDescriptors = true
      · rw [if_pos hd] at h ⊢
        cases hr : e.readPtr tbl.vaddr with
        | error x => rw [hr] at h; cases h
        | ok first =>
          rw [hr, res_ok_bind] at h
          rw [lm_lift_fst rfl]
          have hdir := direct_iff a e tbl text first hd hr
          by_cases hc : (!text.contains first) = true
          · rw [if_pos hc] at h ⊢
            have hnd : ¬ Direct a e tbl text := by rw [hdir]; simpa using hc
            cases h3 : dget cs!".opd" e.sections with
            | none =>
              rw [h3] at h
              cases h
              exact .noOpd tbl text h1 h2 hnd h3
            | some opd =>
              rw [h3] at h
              simp only at h ⊢
              cases hu : unpackTable e tbl opd with
              | error x => rw [hu] at h; cases h
              | ok descs =>
                rw [hu, res_ok_bind] at h
                rw [lm_bind_fst _ _ descs (by rw [unpackTableL_snd]; exact hu), said_append, said_unpack _ _ _ _ _ hu]
                cases hm : derefDescriptors e descs with
                | error x => rw [hm] at h; cases h
                | ok vaddrs =>
                  rw [hm, res_ok_bind] at h
                  rw [lm_bind_fst _ _ vaddrs (by rw [derefDescriptorsL_snd]; exact hm), said_append, said_deref _ _ _ _ hm]
                  by_cases hve : vaddrs.isEmpty = true
                  · rw [if_pos hve] at h ⊢
                    rw [said_plain _ _ _ _ _ h]
                    have hv0 : vaddrs = [] := by simpa using hve
                    subst hv0
                    cases descs with
                    | nil => exact .again tbl text opd vs h1 h2 hnd h3 hu h
                    | cons d ds =>
                      exfalso
                      unfold derefDescriptors mapRes at hm
                      cases hr' : e.readPtr d with
                      | error x => rw [hr'] at hm; cases hm
                      | ok va =>
                        rw [hr', res_ok_bind] at hm
                        cases hm' : mapRes e.readPtr ds with
                        | error x => rw [hm'] at hm; cases hm
                        | ok l => rw [hm'] at hm; cases hm
                  · rw [if_neg hve] at h ⊢
                    cases h
                    simp only [LM.pure, said, List.map_nil, List.append_nil]
                    refine .descriptors tbl text opd descs vs h1 h2 hnd h3 hu hm ?_
                    rintro rfl
                    cases hm
                    exact hve rfl
          · rw [if_neg hc] at h ⊢
            rw [said_plain _ _ _ _ _ h]
            exact .direct tbl text vs h1 h2 (hdir.2 (by simpa using hc)) h
      · rw [if_neg hd] at h ⊢
        rw [said_plain _ _ _ _ _ h]
        exact .direct tbl text vs h1 h2 (.inl (by simpa using hd)) h

theorem entries_said (a : Arch) (e : Elf) (env : KEnv) (entries : List (Nat × Nat)) (h : tableEntries a e env = .ok entries) :
    EntriesSaid a e env entries (said (tableEntriesL a e env).1) := by
  unfold tableEntries at h
  unfold tableEntriesL
  cases ht : a.tableName with
  | none =>
    rw [ht] at h
    exact .code entries ht h
  | some t =>
    rw [ht] at h
    simp only at h ⊢
    cases hv : vaddrsFromTable a e t with
    | error x => rw [hv] at h; cases h
    | ok vs =>
      rw [hv] at h
      cases h
      rw [lm_bind_fst _ _ vs (by rw [vaddrsFromTableL_snd]; exact hv)]
      simp only [LM.pure, List.append_nil]
      exact .table t vs _ ht (vaddrs_said a e t vs hv)

/-! ## The entries -/

theorem repeated_said (sh : Symbol → Str) (e : Elf) (by_ : Dict Nat Symbol) (vaddrs : List Nat) :
    ∃ cs, IsRepeated e (fun va => dget va by_) vaddrs cs ∧
      said (repeatedCalls sh e.niSyscalls by_ vaddrs) = cs.map fun c => saidRepeated sh (fun va => dget va by_) c.1 c.2 := by
  refine ⟨(counts vaddrs).filter fun c => !(dget c.1 by_).any e.niSyscalls.contains, ⟨?_, ?_, ?_, ?_⟩, ?_⟩
  · exact List.Nodup.sublist ((List.filter_sublist).map Prod.fst) (counts_nodup vaddrs)
  · intro va n
    rw [List.mem_filter, mem_counts, and_assoc]
    refine and_congr_right fun _ => and_congr_right fun _ => ?_
    cases hg : dget va by_ with
    | none => simp [hg]
    | some s => simp [hg, mem_niSyscalls, IsNi]
  · exact List.Pairwise.sublist List.filter_sublist (counts_sorted vaddrs)
  · intro n
    refine List.Sublist.trans ((List.Sublist.filter _ List.filter_sublist).map Prod.fst) ?_
    unfold counts
    rw [sortBy_filter _ _ (fun x y hx hy => by simp only [decide_eq_true_eq] at hx hy ⊢; omega)]
    refine List.Sublist.trans ((List.filter_sublist.trans List.filter_sublist).map Prod.fst) ?_
    rw [List.map_map]
    show (vaddrs.eraseDups.map id).Sublist _
    rw [List.map_id]
  · unfold repeatedCalls
    refine said_map _ _ _ fun c _ => ?_
    rw [repeated_text]
    unfold saidRepeated symbolText
    simp only [List.append_nil, List.append_assoc]
    rfl

theorem unresolved_said (t : Option Str) (by_ : Dict Nat Symbol) (entries : List (Nat × Nat)) :
    ∃ us, IsUnresolved (fun va => dget va by_) entries us ∧
      said (unresolvedCalls t by_ entries) = us.map fun u => saidUnresolved t u.1 u.2 := by
  refine ⟨(sortEntries entries).filter fun p => (dget p.2 by_).isNone, ⟨(sortEntries_perm entries).filter _, ?_⟩, ?_⟩
  · refine List.Pairwise.sublist List.filter_sublist ?_
    unfold sortEntries
    refine (sortBy_pairwise _ ?_ ?_ _).imp ?_
    · intro a b; simp only [decide_eq_true_eq]; omega
    · intro a b c; simp only [decide_eq_true_eq]; omega
    · intro a b h; simpa using h
  · unfold unresolvedCalls
    refine said_map _ _ _ fun c _ => ?_
    cases t with
    | none =>
      show ((Level.error, some (cs!"Unable to find symbol for #" ++ (natRepr c.1 ++ (cs!" 0x" ++ (Nat.toDigits 16 c.2 ++ []))))) : Said) = _
      simp only [saidUnresolved, List.append_nil, List.append_assoc]
    | some t =>
      show ((Level.error, some (cs!"Unable to find symbol for " ++ (t ++ (cs!"[" ++ (natRepr c.1 ++ (cs!"]: 0x" ++ (Nat.toDigits 16 c.2 ++ []))))))) : Said) = _
      simp only [saidUnresolved, List.append_nil, List.append_assoc]

/-! ## The last pass -/

theorem assume_said (kdir : Option Path) (scs : List Syscall) :
    said (assumeCalls kdir scs) = (scs.filter (inSysNi kdir)).map (saidNotImplemented kdir) := by
  unfold assumeCalls
  refine said_map _ _ _ fun sc hsc => ?_
  rw [assumeNi_text]
  have hf := (List.mem_filter.1 hsc).2
  unfold inSysNi at hf
  unfold saidNotImplemented
  cases hfile : sc.file with
  | none => simp [hfile] at hf
  | some f =>
    simp only [Option.getD_some, Option.map_some, List.append_assoc]
    rfl

theorem bad_said (kdir : Option Path) (scs : List Syscall) :
    said (badCalls kdir scs) = (scs.filter fun sc => unconfirmed sc && kdir.isSome).map (saidBadLocation kdir) := by
  unfold badCalls
  refine said_map _ _ _ fun sc hsc => ?_
  rw [badLocation_text, locationHint_eq]
  have hf := (List.mem_filter.1 hsc).2
  unfold unconfirmed at hf
  unfold saidBadLocation
  cases hfile : sc.file with
  | none => simp [hfile] at hf
  | some f =>
    simp only [Option.getD_some, Option.map_some, List.append_assoc, List.append_nil]
    rfl

theorem noLoc_said (e : Elf) (scs : List Syscall) :
    said (noLocCalls (canLocate e) scs) = (scs.filter fun sc => sc.file.isNone && tellsLocations e).map saidNoLocation := by
  unfold noLocCalls
  refine said_map _ _ _ fun sc _ => ?_
  rw [noLocation_text]
  simp only [saidNoLocation, List.append_assoc]
  rfl

theorem noSig_said (e : Elf) (scs : List Syscall) :
    said (noSigCalls (canSign e) scs) = (scs.filter fun sc => sc.signature.isNone && tellsSignatures e).map saidNoSignature := by
  unfold noSigCalls
  refine said_map _ _ _ fun sc _ => ?_
  rw [noSignature_text]
  simp only [saidNoSignature, List.append_assoc]
  rfl

/-- the calls about the entries, with the prefixes found -/
theorem candidatesL_prefixes (sh : Symbol → Str) (a : Arch) (e : Elf) (v : Ver) (o : List Symbol) (entries : List (Nat × Nat)) (out : List Syscall)
    (h : candidateSyscalls a e v o entries = .ok out) :
    ∃ l, SaidPrefixes (implementedNames e (fun va => dget va (symbolsByVaddr a e o (entries.map Prod.snd))) entries) (said l) ∧
      (candidatesL sh a e v o entries).1 =
      repeatedCalls sh e.niSyscalls (symbolsByVaddr a e o (entries.map Prod.snd)) (entries.map Prod.snd) ++
      (unresolvedCalls a.tableName (symbolsByVaddr a e o (entries.map Prod.snd)) entries ++ l) := by
  rw [← candidatesL_snd sh] at h
  unfold candidatesL at h ⊢
  simp only [mostFrequentL_eq] at h ⊢
  rw [lm_bind_fst _ _ () rfl]
  rw [lm_bind_snd, lm_pure_snd, res_ok_bind] at h
  rw [lm_bind_fst _ _ () rfl]
  rw [lm_bind_snd] at h
  simp only [repeatedL, lm_log_snd, res_ok_bind] at h
  rw [lm_bind_fst _ _ () rfl]
  rw [lm_bind_snd, lm_log_snd, res_ok_bind] at h
  rw [lm_bind_snd, lm_lift_snd] at h
  cases hp : commonPrefixes (((resolved (symbolsByVaddr a e o (entries.map Prod.snd)) (sortEntries entries)).filter
      fun p => !e.niSyscalls.contains p.2).map fun p => p.2.name) 20 with
  | error x => rw [hp] at h; cases h
  | ok ps =>
    refine ⟨if ps.isEmpty then [noPrefixCall] else [], ?_, ?_⟩
    · have hperm := implementedNames_perm a e o entries
      have hp' : commonPrefixes ((implSyms a e o entries).map fun p => p.2.name) 20 = .ok ps := hp
      have hne : ((implSyms a e o entries).map fun p => p.2.name) ≠ [] := by
        intro h0; rw [h0] at hp'; cases hp'
      obtain ⟨ps', hps, -, -, hm⟩ := C20_common_prefixes _ 20 hne (by decide)
      rw [hp'] at hps
      cases hps
      have hm' : ∀ p, p ∈ ps ↔ SharedPrefix (implementedNames e (fun va => dget va (symbolsByVaddr a e o (entries.map Prod.snd))) entries) p := by
        intro p
        rw [hm, SharedPrefix, countStarting_perm p hperm]
      cases hps : ps with
      | nil =>
        subst hps
        exact .inr ⟨fun p hp => by simpa using (hm' p).2 hp, rfl⟩
      | cons p qs => exact .inl ⟨⟨p, (hm' p).1 (by simp [hps])⟩, rfl⟩
    rw [hp, res_ok_bind] at h
    rw [lm_lift_fst rfl]
    rw [lm_bind_fst _ _ () rfl]
    rw [lm_bind_snd, lm_log_snd, res_ok_bind, lm_bind_snd, lm_lift_snd] at h
    cases he : a.extractEsoteric e with
    | error x => rw [he] at h; cases h
    | ok eso =>
      rw [he, res_ok_bind, lm_bind_snd, lm_lift_snd] at h
      rw [lm_lift_fst rfl]
      cases hs : esotericSyscalls e eso with
      | error x => rw [hs] at h; cases h
      | ok es =>
        rw [hs, res_ok_bind, lm_bind_snd, lm_lift_snd] at h
        rw [lm_lift_fst rfl]
        generalize hq : pyAssert _ = q at h ⊢
        cases q with
        | error x => cases h
        | ok u =>
          rw [lm_lift_fst rfl, lm_lift_lift]
          simp only [LM.pure, LM.log, repeatedCalls, unresolvedCalls, List.nil_append, List.append_nil, repeatedL]

/-- the calls about the entries come first, whatever the outcome -/
theorem candidatesL_prefix (sh : Symbol → Str) (a : Arch) (e : Elf) (v : Ver) (o : List Symbol) (entries : List (Nat × Nat)) :
    ∃ l, (candidatesL sh a e v o entries).1 =
      repeatedCalls sh e.niSyscalls (symbolsByVaddr a e o (entries.map Prod.snd)) (entries.map Prod.snd) ++
      (unresolvedCalls a.tableName (symbolsByVaddr a e o (entries.map Prod.snd)) entries ++ l) := by
  unfold candidatesL
  simp only [mostFrequentL_eq]
  rw [lm_bind_fst _ _ () rfl, lm_bind_fst _ _ () rfl, lm_bind_fst _ _ () rfl]
  exact ⟨_, rfl⟩

end Verif
