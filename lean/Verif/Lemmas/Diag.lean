import Verif.Spec.Diag
import Verif.Lemmas.Extract2
/-! # Helper lemmas: the messages of the extraction -/
set_option autoImplicit false

namespace Verif
open Spec

theorem lm_bind_snd {α β : Type} (m : LM α) (f : α → LM β) : (m >>= f).2 = (m.2 >>= fun x => (f x).2) := by
  show (LM.bind m f).2 = _
  unfold LM.bind
  cases h : m.2 <;> rfl

theorem lm_lift_snd {α : Type} (r : Res α) : (LM.lift r).2 = r := rfl
theorem lm_pure_snd {α : Type} (x : α) : (LM.pure x).2 = .ok x := rfl
theorem lm_log_snd (l : List LogCall) : (LM.log l).2 = .ok () := rfl

theorem res_ok_bind {α β : Type} (x : α) (f : α → Res β) : ((.ok x : Res α) >>= f) = f x := rfl
theorem res_bind_ok {α : Type} (r : Res α) : (r >>= fun x => .ok x) = r := by cases r <;> rfl

theorem unpackTableL_snd (e : Elf) (tbl : Symbol) (sec : Section) (n : Str) : (unpackTableL e tbl sec n).2 = unpackTable e tbl sec := by
  unfold unpackTableL unpackTable
  rw [lm_bind_snd, lm_lift_snd]
  congr 1
  funext off
  split
  · simp only [lm_bind_snd, lm_lift_snd, lm_log_snd, lm_pure_snd, res_ok_bind, res_bind_ok]
  · simp only [lm_bind_snd, lm_lift_snd, lm_log_snd, res_ok_bind]

theorem derefDescriptorsL_snd (e : Elf) (text : Section) (ds : List Nat) : (derefDescriptorsL e text ds).2 = derefDescriptors e ds := by
  unfold derefDescriptors
  induction ds with
  | nil => rfl
  | cons d ds ih =>
    unfold derefDescriptorsL mapRes
    simp only [lm_bind_snd, lm_lift_snd, lm_log_snd, lm_pure_snd, res_ok_bind, ih]

theorem plainTableL_snd (e : Elf) (tbl : Symbol) (text : Section) (n : Str) : (plainTableL e tbl text n).2 = unpackTable e tbl text := by
  unfold plainTableL
  simp only [lm_bind_snd, lm_log_snd, lm_pure_snd, res_ok_bind, unpackTableL_snd, res_bind_ok]

theorem vaddrsFromTableL_snd (a : Arch) (e : Elf) (n : Str) : (vaddrsFromTableL a e n).2 = vaddrsFromTable a e n := by
  unfold vaddrsFromTableL vaddrsFromTable
  cases dget n e.symbols with
  | none => rfl
  | some tbl =>
    simp only
    cases dget cs!".text" e.sections with
    | none => rfl
    | some text =>
      simp only
      by_cases hd : a.usesFunctionDescriptors = true
      · rw [if_pos hd, if_pos hd, lm_bind_snd, lm_lift_snd]
        congr 1
        funext first
        by_cases hc : (!text.contains first) = true
        · rw [if_pos hc, if_pos hc]
          cases dget cs!".opd" e.sections with
          | none => rfl
          | some opd =>
            simp only [lm_bind_snd, unpackTableL_snd]
            congr 1
            funext descs
            rw [derefDescriptorsL_snd]
            congr 1
            funext vs
            by_cases hv : vs.isEmpty = true
            · rw [if_pos hv, if_pos hv]; exact plainTableL_snd ..
            · rw [if_neg hv, if_neg hv]; rfl
        · rw [if_neg hc, if_neg hc]; exact plainTableL_snd ..
      · rw [if_neg hd, if_neg hd]; exact plainTableL_snd ..

theorem tableEntriesL_snd (a : Arch) (e : Elf) (env : KEnv) : (tableEntriesL a e env).2 = tableEntries a e env := by
  unfold tableEntriesL tableEntries
  cases a.tableName with
  | some t => simp only [lm_bind_snd, vaddrsFromTableL_snd]; rfl
  | none => simp only [lm_bind_snd]; rfl

theorem mostFrequentL_eq (ni : List Symbol) (by_ : Dict Nat Symbol) (vs : List Nat) : mostFrequentL ni by_ vs = LM.pure () := by
  unfold mostFrequentL
  split
  · rfl
  · rw [if_neg]
    simp

theorem candidatesL_snd (sh : Symbol → Str) (a : Arch) (e : Elf) (v : Ver) (o : List Symbol) (entries : List (Nat × Nat)) :
    (candidatesL sh a e v o entries).2 = candidateSyscalls a e v o entries := by
  unfold candidatesL candidateSyscalls
  simp only [lm_bind_snd, lm_lift_snd, lm_log_snd, mostFrequentL_eq, lm_pure_snd, repeatedL, res_ok_bind]
  rfl

theorem finalStepL_snd (kdir : Option Path) (cl cs : Bool) (sc : Syscall) (f : Found) :
    (finalStepL kdir cl cs sc f).2 = (keepFinal kdir sc >>= fun b => (.ok (if b then
      (match sc.file with
       | some file => if !sc.esoteric && !sc.goodLocation && kdir.isSome then
           (match maybeRel file kdir with
            | .ok r => keepL cl cs [badLocationCall sc file r] sc f
            | .error _ => keepL cl cs [] sc f) else keepL cl cs [] sc f
       | none => keepL cl cs [] sc f) else f) : Res Found)) := by
  unfold finalStepL keepFinal
  split
  · next h =>
    cases hf : sc.file with
    | none => rfl
    | some file =>
      simp only [lm_bind_snd, lm_lift_snd]
      cases hr : maybeRel file kdir with
      | error x => rfl
      | ok r =>
        simp only [res_ok_bind]
        cases hs : isSysNi r with
        | true => simp [lm_bind_snd, lm_log_snd, lm_pure_snd, res_ok_bind]
        | false =>
          cases hk : kdir.isSome with
          | true => simp only [h]; simp [lm_pure_snd]
          | false => simp [lm_pure_snd]
  · next h =>
    simp only [lm_pure_snd, res_ok_bind, if_true]
    cases hf : sc.file with
    | none => rfl
    | some file => simp only [Bool.not_eq_true] at h; rw [h]; rfl

theorem extractL_finalLoop (kdir : Option Path) (cl cs : Bool) (scs : List Syscall) (f : Found) :
    (do let g ← (finalLoopL kdir cl cs scs f).2; .ok g.implemented) =
      (do let l ← filterRes (keepFinal kdir) scs; .ok (f.implemented ++ l) : Res (List Syscall)) := by
  induction scs generalizing f with
  | nil => simp [finalLoopL, lm_pure_snd, filterRes, bind, Except.bind]
  | cons sc scs ih =>
    unfold finalLoopL filterRes
    rw [lm_bind_snd, finalStepL_snd]
    cases hk : keepFinal kdir sc with
    | error x => rfl
    | ok b =>
      simp only [res_ok_bind]
      rw [ih]
      cases filterRes (keepFinal kdir) scs with
      | error x => rfl
      | ok l =>
        simp only [res_ok_bind]
        cases b with
        | false => simp
        | true =>
          simp only [if_true]
          have himp : ∀ bad, (keepL cl cs bad sc f).implemented = f.implemented ++ [sc] := fun _ => rfl
          split
          · split
            · split <;> simp [himp]
            · simp [himp]
          · simp [himp]

theorem finalL_snd (kdir : Option Path) (e : Elf) (scs : List Syscall) : (finalL kdir e scs).2 = filterRes (keepFinal kdir) scs := by
  unfold finalL
  simp only [lm_bind_snd, lm_log_snd, lm_pure_snd, res_ok_bind]
  rw [extractL_finalLoop]
  simp only [List.nil_append, res_bind_ok]

theorem extractL_snd (sh : Symbol → Str) (a0 : Arch) (e : Elf) (v : Ver) (env : KEnv) :
    (extractL sh a0 e v env).2 = extractSyscalls a0 e v env := by
  unfold extractL extractSyscalls
  split
  · rfl
  · rw [lm_bind_snd, tableEntriesL_snd]
    congr 1
    funext entries
    split
    · rfl
    · split
      · rfl
      · simp only [lm_bind_snd, lm_lift_snd, candidatesL_snd, finalL_snd]

/-! ## The calls -/

theorem lm_bind_fst {α β : Type} (m : LM α) (f : α → LM β) (x : α) (h : m.2 = .ok x) : (m >>= f).1 = m.1 ++ (f x).1 := by
  show (LM.bind m f).1 = _
  unfold LM.bind
  rw [h]

theorem lm_lift_fst {α β : Type} {r : Res α} {x : α} (h : r = .ok x) (f : α → LM β) : (LM.lift r >>= f).1 = (f x).1 := by
  rw [lm_bind_fst _ _ x h]; rfl

theorem lm_lift_lift {α β : Type} (r : Res α) (g : α → Res β) : (LM.lift r >>= fun x => LM.lift (g x)).1 = [] := by
  show (LM.bind _ _).1 = _
  unfold LM.bind
  cases h : (LM.lift r).2 <;> rfl

theorem maybeRel_shownPath (f : Path) (kdir : Option Path) : maybeRel f kdir = .ok (shownPath kdir f) := by
  unfold maybeRel shownPath
  cases kdir with
  | none => rfl
  | some k =>
    simp only [Path.isRelativeTo, Path.relativeTo, Bool.and_eq_true, beq_iff_eq, List.isPrefixOf_iff_prefix]
    split <;> rfl

theorem isSysNi_iff (p : Path) : isSysNi p = decide ([cs!"kernel", cs!"sys_ni.c"] <:+ p.parts) := by
  unfold isSysNi
  rw [Bool.eq_iff_iff]
  simp [endsWith_iff]

/-- the calls collected about the syscalls that are kept -/
def badCalls (kdir : Option Path) (scs : List Syscall) : List LogCall :=
  (scs.filter fun sc => unconfirmed sc && kdir.isSome).map fun sc => badLocationCall sc (sc.file.getD ⟨false, []⟩) (shownPath kdir (sc.file.getD ⟨false, []⟩))
def noLocCalls (can : Bool) (scs : List Syscall) : List LogCall := (scs.filter fun sc => sc.file.isNone && can).map noLocationCall
def noSigCalls (can : Bool) (scs : List Syscall) : List LogCall := (scs.filter fun sc => sc.signature.isNone && can).map noSignatureCall
def assumeCalls (kdir : Option Path) (scs : List Syscall) : List LogCall :=
  (scs.filter (inSysNi kdir)).map fun sc => assumeNiCall sc.name (shownPath kdir (sc.file.getD ⟨false, []⟩)) sc.line

theorem finalStepL_eq (kdir : Option Path) (cl cg : Bool) (sc : Syscall) (f : Found) :
    finalStepL kdir cl cg sc f = (if inSysNi kdir sc then ([assumeNiCall sc.name (shownPath kdir (sc.file.getD ⟨false, []⟩)) sc.line], .ok f)
      else ([], .ok (keepL cl cg (badCalls kdir [sc]) sc f))) := by
  unfold finalStepL inSysNi badCalls unconfirmed
  by_cases h : (!sc.esoteric && !sc.goodLocation) = true
  · rw [if_pos h]
    cases hf : sc.file with
    | none => simp [h, hf]; rfl
    | some file =>
      simp only [h, Bool.true_and, Option.any_some, Option.getD_some, hf, Option.isSome_some]
      show LM.bind (LM.lift (maybeRel file kdir)) _ = _
      rw [maybeRel_shownPath]
      simp only [LM.bind, LM.lift, List.nil_append]
      rw [isSysNi_iff]
      by_cases hs : [cs!"kernel", cs!"sys_ni.c"] <:+ (shownPath kdir file).parts
      · simp only [decide_eq_true hs, if_true]; rfl
      · simp only [decide_eq_false hs, Bool.false_eq_true, if_false]
        cases hk : kdir.isSome with
        | true =>
          have : (List.filter (fun sc => !sc.esoteric && !sc.goodLocation && sc.file.isSome && true) [sc]) = [sc] := by simp [h, hf]
          rw [this]
          simp only [List.map_cons, List.map_nil, hf, Option.getD_some]
          rfl
        | false => simp; rfl
  · rw [if_neg h]
    simp only [Bool.not_eq_true] at h
    simp [h]; rfl

theorem finalLoopL_eq (kdir : Option Path) (cl cg : Bool) (scs : List Syscall) (f : Found) :
    finalLoopL kdir cl cg scs f = (assumeCalls kdir scs, .ok
      (let kept := scs.filter fun sc => !inSysNi kdir sc
       { badLoc := f.badLoc ++ badCalls kdir kept, noLoc := f.noLoc ++ noLocCalls cl kept, noSig := f.noSig ++ noSigCalls cg kept,
         implemented := f.implemented ++ kept })) := by
  induction scs generalizing f with
  | nil => simp [finalLoopL, assumeCalls, badCalls, noLocCalls, noSigCalls]; rfl
  | cons sc scs ih =>
    unfold finalLoopL
    show LM.bind _ _ = _
    rw [finalStepL_eq]
    by_cases h : inSysNi kdir sc = true
    · rw [if_pos h]
      simp only [LM.bind, ih]
      simp [assumeCalls, h]
      rfl
    · rw [if_neg h]
      simp only [Bool.not_eq_true] at h
      simp only [LM.bind, ih]
      refine Prod.ext ?_ ?_
      · simp [assumeCalls, h]
      · simp only [h, List.filter_cons, Bool.not_false, if_true, keepL, Except.ok.injEq, Found.mk.injEq, List.append_assoc, List.cons_append,
          List.nil_append, badCalls, noLocCalls, noSigCalls, and_true]
        refine ⟨?_, ?_, ?_⟩
        · congr 1; split <;> simp_all
        · congr 1; split <;> simp_all
        · congr 1; split <;> simp_all

theorem finalL_eq (kdir : Option Path) (e : Elf) (scs : List Syscall) :
    finalL kdir e scs = (let kept := scs.filter fun sc => !inSysNi kdir sc
      (assumeCalls kdir scs ++ (badCalls kdir kept ++ noLocCalls (canLocate e) kept ++ noSigCalls (canSign e) kept), .ok kept)) := by
  unfold finalL
  show LM.bind _ _ = _
  rw [finalLoopL_eq]
  simp [LM.bind, LM.log, LM.pure, bind]
  rfl

/-- the calls about the entries -/
def repeatedCalls (sh : Symbol → Str) (ni : List Symbol) (by_ : Dict Nat Symbol) (vaddrs : List Nat) : List LogCall :=
  ((counts vaddrs).filter fun c => !(dget c.1 by_).any ni.contains).map fun c => repeatedCall c.2 (symbolText sh by_ c.1)
def unresolvedCalls (t : Option Str) (by_ : Dict Nat Symbol) (entries : List (Nat × Nat)) : List LogCall :=
  ((sortEntries entries).filter fun p => (dget p.2 by_).isNone).map fun p => unresolvedCall t p.1 p.2

theorem candidatesL_fst (sh : Symbol → Str) (a : Arch) (e : Elf) (v : Ver) (o : List Symbol) (entries : List (Nat × Nat)) (out : List Syscall)
    (h : candidateSyscalls a e v o entries = .ok out) :
    ∃ l, (l = [] ∨ l = [noPrefixCall]) ∧ (candidatesL sh a e v o entries).1 =
      repeatedCalls sh e.niSyscalls (symbolsByVaddr a e o (entries.map Prod.snd)) (entries.map Prod.snd) ++
      (unresolvedCalls a.tableName (symbolsByVaddr a e o (entries.map Prod.snd)) entries ++ l) := by
  rw [← candidatesL_snd sh] at h
  unfold candidatesL at h ⊢
  simp only [mostFrequentL_eq] at h ⊢
  rw [lm_bind_fst _ _ () rfl]
  rw [lm_bind_snd, lm_pure_snd, res_ok_bind] at h
  rw [lm_bind_fst _ _ () rfl]
  rw [lm_bind_snd] at h
  simp only [repeatedL, lm_log_snd, res_ok_bind] at h
  rw [lm_bind_fst _ _ () rfl]
  rw [lm_bind_snd, lm_log_snd, res_ok_bind] at h
  rw [lm_bind_snd, lm_lift_snd] at h
  cases hp : commonPrefixes (((resolved (symbolsByVaddr a e o (entries.map Prod.snd)) (sortEntries entries)).filter
      fun p => !e.niSyscalls.contains p.2).map fun p => p.2.name) 20 with
  | error x => rw [hp] at h; cases h
  | ok ps =>
    refine ⟨if ps.isEmpty then [noPrefixCall] else [], by split <;> simp, ?_⟩
    rw [hp, res_ok_bind] at h
    rw [lm_lift_fst rfl]
    rw [lm_bind_fst _ _ () rfl]
    rw [lm_bind_snd, lm_log_snd, res_ok_bind, lm_bind_snd, lm_lift_snd] at h
    cases he : a.extractEsoteric e with
    | error x => rw [he] at h; cases h
    | ok eso =>
      rw [he, res_ok_bind, lm_bind_snd, lm_lift_snd] at h
      rw [lm_lift_fst rfl]
      cases hs : esotericSyscalls e eso with
      | error x => rw [hs] at h; cases h
      | ok es =>
        rw [hs, res_ok_bind, lm_bind_snd, lm_lift_snd] at h
        rw [lm_lift_fst rfl]
        generalize hq : pyAssert _ = q at h ⊢
        cases q with
        | error x => cases h
        | ok u =>
          rw [lm_lift_fst rfl, lm_lift_lift]
          simp only [LM.pure, LM.log, repeatedCalls, unresolvedCalls, List.nil_append, List.append_nil, repeatedL]

theorem extractL_fst (sh : Symbol → Str) (a0 : Arch) (e : Elf) (v : Ver) (env : KEnv) (entries : List (Nat × Nat))
    (out cands located signed : List Syscall) (hb : a0.bits32 = e.bits32) (he : tableEntries (a0.adjustAbi e) e env = .ok entries)
    (hne : entries ≠ []) (hni : e.niSyscalls ≠ []) (hx : Extraction (a0.adjustAbi e) e v env entries out cands located signed) :
    (extractL sh a0 e v env).1 = (tableEntriesL (a0.adjustAbi e) e env).1 ++
      ((candidatesL sh (a0.adjustAbi e) e v (env.niOrder e.niSyscalls) entries).1 ++ (finalL env.kdir e signed).1) := by
  have h1 : entries.isEmpty = false := by cases entries with | nil => exact absurd rfl hne | cons => rfl
  have h2 : e.niSyscalls.isEmpty = false := by
    cases hx : e.niSyscalls with | nil => exact absurd hx hni | cons => rfl
  unfold extractL
  rw [if_neg (by simpa using hb)]
  simp only
  rw [lm_bind_fst _ _ entries (by rw [tableEntriesL_snd]; exact he)]
  simp only [h1, h2, Bool.false_eq_true, if_false]
  rw [lm_bind_fst _ _ cands (by rw [candidatesL_snd]; exact hx.cands_ok), lm_lift_fst hx.located_ok,
    lm_lift_fst hx.signed_ok]

/-! ## Formats -/

theorem unpackTableL_fmt (e : Elf) (tbl : Symbol) (sec : Section) (n : Str) (c : LogCall) (h : c ∈ (unpackTableL e tbl sec n).1) :
    (∃ i va, c = outsideCall tbl.name n i va) ∨ c = badSizeCall tbl.name tbl.size := by
  unfold unpackTableL at h
  simp only [bind, LM.bind, LM.lift] at h
  cases ho : e.vaddrToFileOffset tbl.vaddr with
  | error x => rw [ho] at h; simp at h
  | ok off =>
    rw [ho] at h
    simp only [List.nil_append] at h
    split at h
    · cases hi : iterUnpack e.bigEndian e.ptrSize (readAt e.data off tbl.size) with
      | error x => rw [hi] at h; simp at h
      | ok vs =>
        rw [hi] at h
        simp only [LM.log, LM.pure, List.append_nil, List.nil_append, List.mem_map] at h
        obtain ⟨p, -, rfl⟩ := h
        exact .inl ⟨_, _, rfl⟩
    · simp only [LM.log, List.append_nil, List.mem_singleton] at h
      exact .inr h

/-- what is logged while reading the table is one of these -/
inductive TableCall : LogCall → Prop
  | outside (t s : Str) (i va : Nat) : TableCall (outsideCall t s i va)
  | badSize (t : Str) (n : Nat) : TableCall (badSizeCall t n)
  | descriptor (d : Nat) : TableCall (descriptorCall d)
  | noTable : TableCall noTableCall

/-- or one of these, when nothing is found -/
inductive TableFatal : LogCall → Prop
  | missing (t : Str) : TableFatal (tableMissingCall t)
  | noOpd : TableFatal noOpdCall
  | noPointer (t : Str) (c : LogCall) (h : c ∈ noPointerCalls t) : TableFatal c

theorem derefDescriptorsL_calls (e : Elf) (text : Section) (ds : List Nat) (c : LogCall) (h : c ∈ (derefDescriptorsL e text ds).1) : TableCall c := by
  induction ds with
  | nil => cases h
  | cons d ds ih =>
    unfold derefDescriptorsL at h
    simp only [bind, LM.bind, LM.lift] at h
    cases hr : e.readPtr d with
    | error x => rw [hr] at h; simp at h
    | ok va =>
      rw [hr] at h
      simp only [LM.log, List.nil_append, List.mem_append] at h
      rcases h with h | h
      · split at h
        · cases h
        · simp only [List.mem_singleton] at h; subst h; exact .descriptor _
      · apply ih
        cases hd : (derefDescriptorsL e text ds).2 with
        | error x => rw [hd] at h; exact h
        | ok l => rw [hd] at h; simpa [LM.pure] using h

theorem unpackTableL_calls (e : Elf) (tbl : Symbol) (sec : Section) (n : Str) (c : LogCall) (h : c ∈ (unpackTableL e tbl sec n).1) : TableCall c := by
  rcases unpackTableL_fmt e tbl sec n c h with ⟨i, va, rfl⟩ | rfl
  · exact .outside _ _ _ _
  · exact .badSize _ _

theorem plainTableL_calls (e : Elf) (tbl : Symbol) (text : Section) (t : Str) (vs : List Nat) (hv : (plainTableL e tbl text t).2 = .ok vs) (c : LogCall)
    (h : c ∈ (plainTableL e tbl text t).1) : TableCall c ∨ (TableFatal c ∧ vs = []) := by
  rw [plainTableL_snd] at hv
  unfold plainTableL at h
  rw [lm_bind_fst _ _ vs (by rw [unpackTableL_snd]; exact hv), lm_bind_fst _ _ () rfl] at h
  simp only [LM.log, LM.pure, List.append_nil, List.mem_append] at h
  rcases h with h | h
  · exact .inl (unpackTableL_calls _ _ _ _ _ h)
  · split at h
    · rename_i he
      exact .inr ⟨.noPointer _ _ h, by simpa using he⟩
    · cases h

theorem vaddrsFromTableL_calls (a : Arch) (e : Elf) (t : Str) (vs : List Nat) (hv : (vaddrsFromTableL a e t).2 = .ok vs) (c : LogCall)
    (h : c ∈ (vaddrsFromTableL a e t).1) : TableCall c ∨ (TableFatal c ∧ vs = []) := by
  unfold vaddrsFromTableL at hv h
  cases h1 : dget t e.symbols with
  | none =>
    rw [h1] at h hv
    simp only [bind, LM.bind, LM.log, LM.pure, List.append_nil, List.mem_singleton, Except.ok.injEq] at h hv
    exact .inr ⟨h ▸ .missing _, hv.symm⟩
  | some tbl =>
    rw [h1] at h hv
    simp only at h hv
    cases h2 : dget cs!".text" e.sections with
    | none => rw [h2] at hv; cases hv
    | some text =>
      rw [h2] at h hv
      simp only at h hv
      split at h
      · rename_i hd
        rw [if_pos hd] at hv
        rw [lm_bind_snd, lm_lift_snd] at hv
        cases hr : e.readPtr tbl.vaddr with
        | error x => rw [hr] at hv; cases hv
        | ok first =>
          rw [lm_lift_fst hr] at h
          rw [hr, res_ok_bind] at hv
          split at h
          · rename_i hc
            rw [if_pos hc] at hv
            cases h3 : dget cs!".opd" e.sections with
            | none =>
              rw [h3] at h hv
              simp only [bind, LM.bind, LM.log, LM.pure, List.append_nil, List.mem_singleton, Except.ok.injEq] at h hv
              exact .inr ⟨h ▸ .noOpd, hv.symm⟩
            | some opd =>
              rw [h3] at h hv
              simp only at h hv
              rw [lm_bind_snd] at hv
              cases hu : (unpackTableL e tbl opd cs!".opd").2 with
              | error x => rw [hu] at hv; cases hv
              | ok descs =>
                rw [hu, res_ok_bind, lm_bind_snd] at hv
                rw [lm_bind_fst _ _ descs hu, List.mem_append] at h
                rcases h with h | h
                · exact .inl (unpackTableL_calls _ _ _ _ _ h)
                cases hds : (derefDescriptorsL e text descs).2 with
                | error x => rw [hds] at hv; cases hv
                | ok vaddrs =>
                  rw [hds, res_ok_bind] at hv
                  rw [lm_bind_fst _ _ vaddrs hds, List.mem_append] at h
                  rcases h with h | h
                  · exact .inl (derefDescriptorsL_calls _ _ _ _ h)
                  split at h
                  · rename_i hve
                    rw [if_pos hve] at hv
                    exact plainTableL_calls _ _ _ _ _ hv _ h
                  · cases h
          · rename_i hc
            rw [if_neg hc] at hv
            exact plainTableL_calls _ _ _ _ _ hv _ h
      · rename_i hd
        rw [if_neg hd] at hv
        exact plainTableL_calls _ _ _ _ _ hv _ h

theorem tableEntriesL_calls (a : Arch) (e : Elf) (env : KEnv) (entries : List (Nat × Nat)) (hv : tableEntries a e env = .ok entries) (c : LogCall)
    (h : c ∈ (tableEntriesL a e env).1) : TableCall c ∨ (TableFatal c ∧ entries = []) := by
  rw [← tableEntriesL_snd] at hv
  unfold tableEntriesL at hv h
  cases ht : a.tableName with
  | none =>
    rw [ht] at h
    simp only [bind, LM.bind, LM.log, LM.lift, List.append_nil, List.mem_singleton] at h
    exact .inl (h ▸ .noTable)
  | some t =>
    rw [ht] at h hv
    simp only at h hv
    rw [lm_bind_snd] at hv
    cases hvs : (vaddrsFromTableL a e t).2 with
    | error x => rw [hvs] at hv; cases hv
    | ok vs =>
      rw [hvs, res_ok_bind, lm_pure_snd, Except.ok.injEq] at hv
      rw [lm_bind_fst _ _ vs hvs] at h
      simp only [LM.pure, List.append_nil] at h
      rcases vaddrsFromTableL_calls a e t vs hvs c h with h | ⟨h, rfl⟩
      · exact .inl h
      · exact .inr ⟨h, hv.symm⟩

end Verif
