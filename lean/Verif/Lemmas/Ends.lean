import Verif.Spec.Ends
import Verif.Props.X86Emu
import Verif.Lemmas.Found
import Verif.Lemmas.Main4
/-! # Lemmas: which functions end (C107) -/
set_option autoImplicit false

namespace Verif
open Spec

/-- the computation ends, with a value or an exception -/
def Ends {α : Type} (r : Res α) : Prop := r ≠ .error .hang

section
variable {α β : Type}

theorem ends_ok (x : α) : Ends (.ok x : Res α) := by intro h; cases h
theorem ends_pure (x : α) : Ends (pure x : Res α) := by intro h; cases h
theorem ends_error (e : Exc) (h : e ≠ .hang) : Ends (.error e : Res α) := by intro h'; cases h'; exact h rfl
theorem ends_bind (m : Res α) (f : α → Res β) (hm : Ends m) (hf : ∀ x, Ends (f x)) : Ends (m >>= f) := by
  cases m with
  | ok x => exact hf x
  | error e => intro h; exact hm (by change (Except.error e : Res β) = _ at h; cases h; rfl)
theorem ends_bind' (m : Res α) (f : α → Res β) (hm : Ends m) (hf : ∀ x, m = .ok x → Ends (f x)) : Ends (m >>= f) := by
  cases m with
  | ok x => exact hf x rfl
  | error e => intro h; exact hm (by change (Except.error e : Res β) = _ at h; cases h; rfl)
theorem ends_map (m : Res α) (f : α → β) (hm : Ends m) : Ends (m.map f) := by
  cases m with
  | ok x => exact ends_ok _
  | error e => intro h; exact hm (by change (Except.error e : Res β) = _ at h; cases h; rfl)
theorem ends_mapRes (f : α → Res β) (l : List α) (h : ∀ x ∈ l, Ends (f x)) : Ends (mapRes f l) := by
  induction l with
  | nil => exact ends_ok _
  | cons x l ih =>
    exact ends_bind _ _ (h x (by simp)) fun _ => ends_bind _ _ (ih fun y hy => h y (by simp [hy])) fun _ => ends_ok _
theorem ends_filterRes (f : α → Res Bool) (l : List α) (h : ∀ x, Ends (f x)) : Ends (filterRes f l) := by
  induction l with
  | nil => exact ends_ok _
  | cons x l ih => exact ends_bind _ _ (h x) fun _ => ends_bind _ _ ih fun _ => ends_ok _
theorem ends_forceAll (l : List (Res α)) (h : ∀ x ∈ l, Ends x) : Ends (forceAll l) := by
  induction l with
  | nil => exact ends_ok _
  | cons x l ih =>
    exact ends_bind _ _ (h x (by simp)) fun _ => ends_bind _ _ (ih fun y hy => h y (by simp [hy])) fun _ => ends_ok _
end

/-- one step of a proof that a computation ends -/
syntax "ends1" : tactic
macro_rules | `(tactic| ends1) => `(tactic| split)
macro_rules | `(tactic| ends1) => `(tactic| dsimp only)
macro_rules | `(tactic| ends1) => `(tactic| with_reducible refine ends_bind _ _ ?_ fun _ => ?_)
macro_rules | `(tactic| ends1) => `(tactic| (with_reducible refine ends_error _ ?_); exact (by intro h; cases h))
macro_rules | `(tactic| ends1) => `(tactic| with_reducible exact ends_pure _)
macro_rules | `(tactic| ends1) => `(tactic| with_reducible exact ends_ok _)
macro_rules | `(tactic| ends1) => `(tactic| with_reducible assumption)
macro "ends" : tactic => `(tactic| repeat' ends1)

theorem ends_pyAssert (c : Bool) : Ends (pyAssert c) := by unfold pyAssert; ends
macro_rules | `(tactic| ends1) => `(tactic| with_reducible exact ends_pyAssert _)

theorem ends_unpackUint (big : Bool) (n : Nat) (bs : Bytes) : Ends (unpackUint big n bs) := by unfold unpackUint; ends
macro_rules | `(tactic| ends1) => `(tactic| with_reducible exact ends_unpackUint _ _ _)

theorem ends_utf8Go (n : Nat) (bs : Bytes) : Ends (utf8Go n bs) := by
  induction bs generalizing n with
  | nil => cases n <;> exact ends_ok _
  | cons b bs ih =>
    cases n with
    | zero => unfold utf8Go; ends; exact ih _
    | succ n => exact ih n

theorem ends_decodeUtf8 (bs : Bytes) : Ends (decodeUtf8 bs) := ends_utf8Go _ _
macro_rules | `(tactic| ends1) => `(tactic| with_reducible exact ends_decodeUtf8 _)

theorem ends_relativeTo (p root : Path) : Ends (p.relativeTo root) := by unfold Path.relativeTo; ends
macro_rules | `(tactic| ends1) => `(tactic| with_reducible exact ends_relativeTo _ _)

theorem ends_maybeRel (p : Path) (root : Option Path) : Ends (maybeRel p root) := by unfold maybeRel; ends
macro_rules | `(tactic| ends1) => `(tactic| with_reducible exact ends_maybeRel _ _)

/-! ## The image -/

theorem ends_header (data : Bytes) : Ends (parseElfHeader data) := by unfold parseElfHeader; ends
macro_rules | `(tactic| ends1) => `(tactic| with_reducible exact ends_header _)

theorem ends_load (data : Bytes) (secOut : Str) (l : List Str) : Ends (Elf.load data secOut l) := by unfold Elf.load; ends
macro_rules | `(tactic| ends1) => `(tactic| with_reducible exact ends_load _ _ _)

theorem ends_vaddrToOffset (secs : List Section) (va : Nat) : Ends (vaddrToOffset secs va) := by
  induction secs with
  | nil => unfold vaddrToOffset; ends
  | cons s secs ih => unfold vaddrToOffset; ends

theorem ends_fileOffset (e : Elf) (va : Nat) : Ends (e.vaddrToFileOffset va) := ends_vaddrToOffset _ _
macro_rules | `(tactic| ends1) => `(tactic| with_reducible exact ends_fileOffset _ _)

theorem ends_vaddrRead (e : Elf) (va size : Nat) : Ends (e.vaddrRead va size) := by unfold Elf.vaddrRead; ends
macro_rules | `(tactic| ends1) => `(tactic| with_reducible exact ends_vaddrRead _ _ _)

theorem ends_readSymbol (e : Elf) (s : Symbol) : Ends (e.readSymbol s) := ends_vaddrRead _ _ _
macro_rules | `(tactic| ends1) => `(tactic| with_reducible exact ends_readSymbol _ _)

theorem ends_readPtr (e : Elf) (va : Nat) : Ends (e.readPtr va) := by unfold Elf.readPtr; ends
macro_rules | `(tactic| ends1) => `(tactic| with_reducible exact ends_readPtr _ _)

theorem ends_readStrLoop (acc ahead : Bytes) (hne : acc ≠ []) (h : (0 : UInt8) ∈ acc ++ ahead) (hacc : ∀ b ∈ acc.dropLast, b ≠ 0) :
    Ends (readStrLoop acc ahead) := by
  induction ahead generalizing acc with
  | nil =>
    unfold readStrLoop
    split
    · exact ends_ok _
    · next hl =>
      exfalso
      simp only [List.append_nil] at h
      rw [← List.dropLast_concat_getLast hne] at h
      rcases List.mem_append.1 h with h | h
      · exact hacc 0 h rfl
      · simp only [List.mem_singleton] at h
        exact hl (by rw [List.getLast?_eq_some_getLast hne, ← h])
  | cons b ahead ih =>
    unfold readStrLoop
    split
    · exact ends_ok _
    · next hl =>
      refine ih _ (by simp) (by simpa using h) ?_
      simp only [List.dropLast_concat]
      intro x hx hx0
      rw [← List.dropLast_concat_getLast hne] at hx
      rcases List.mem_append.1 hx with hx | hx
      · exact hacc x hx hx0
      · simp only [List.mem_singleton] at hx
        exact hl (by rw [List.getLast?_eq_some_getLast hne, ← hx, hx0])

theorem ends_readString (e : Elf) (va : Nat) (h : ¬ Unterminated e va) : Ends (e.vaddrReadString va) := by
  unfold Elf.vaddrReadString
  refine ends_bind' _ _ (ends_fileOffset _ _) fun off hoff => ?_
  split
  · ends
  · next b ahead hd =>
    refine ends_bind _ _ (ends_readStrLoop _ _ (by simp) ?_ (by simp)) fun _ => ends_decodeUtf8 _
    refine Classical.byContradiction fun h0 => h ⟨off, hoff, ?_, ?_⟩
    · refine Classical.byContradiction fun hl => ?_
      rw [List.drop_eq_nil_of_le (by omega)] at hd
      cases hd
    · intro x hx hx0
      rw [hd] at hx
      exact h0 (by rw [hx0] at hx; simpa using hx)

theorem ends_versionFromVmlinux (e : Elf) (h : ¬ EndlessBanner e) : Ends (versionFromVmlinux e) := by
  unfold versionFromVmlinux decodeBanner
  split
  · exact ends_ok _
  · next sym hs =>
    split
    · ends
    · next hz => exact ends_bind _ _ (ends_readString e _ fun hu => h ⟨sym, hs, by simpa using hz, hu⟩) fun _ => ends_ok _

theorem ends_kernelVersion (e : Elf) (kdir : Bool) (r : Res Str) (h : ¬ EndlessBanner e) : Ends (kernelVersion (some e) kdir r) := by
  unfold kernelVersion
  exact ends_bind _ _ (ends_versionFromVmlinux e h) fun _ => by ends

theorem ends_kindMatch (k : Kind) (e : Elf) : Ends (k.match e) := by cases k <;> (unfold Kind.match; ends)
macro_rules | `(tactic| ends1) => `(tactic| with_reducible exact ends_kindMatch _ _)

theorem ends_archFromVmlinux (e : Elf) : Ends (archFromVmlinux e) := by
  unfold archFromVmlinux
  generalize archClasses = l
  induction l with
  | nil => exact ends_ok _
  | cons k l ih => unfold archFromVmlinuxGo; ends
macro_rules | `(tactic| ends1) => `(tactic| with_reducible exact ends_archFromVmlinux _)

theorem ends_newArch (k : Kind) (v : Ver) (abi : Str) (b : Bool) : Ends (newArch k v abi b) := by
  cases k
  · unfold newArch newArm; ends
  · unfold newArch newArm64; ends
  · unfold newArch newMips; ends
  · unfold newArch newPowerPC; ends
  · unfold newArch newRiscV; ends
  · unfold newArch newX86; ends
macro_rules | `(tactic| ends1) => `(tactic| with_reducible exact ends_newArch _ _ _ _)

theorem ends_createArch (st : KStore) (k : Kind) (v : Ver) (abi : Str) (b : Bool) : Ends (createArch st k v abi b) := by
  unfold createArch; ends
macro_rules | `(tactic| ends1) => `(tactic| with_reducible exact ends_createArch _ _ _ _ _)

theorem ends_archFromName (n : Str) (v : Ver) : Ends (archFromName n v) := by unfold archFromName; ends
macro_rules | `(tactic| ends1) => `(tactic| with_reducible exact ends_archFromName _ _)

theorem ends_archFromNameSt (st : KStore) (n : Str) (v : Ver) : Ends (archFromNameSt st n v) := by unfold archFromNameSt; ends
macro_rules | `(tactic| ends1) => `(tactic| with_reducible exact ends_archFromNameSt _ _ _)

theorem ends_matches (a : Arch) (e : Elf) : Ends (a.matches e) := by unfold Arch.matches; ends
macro_rules | `(tactic| ends1) => `(tactic| with_reducible exact ends_matches _ _)

theorem ends_kernelInit (n : Option Str) (e : Elf) (kdir : Bool) (r : Res Str) (h : ¬ EndlessBanner e) :
    Ends (kernelInit n (some e) kdir r) := by
  have hv := ends_kernelVersion e kdir r h
  unfold kernelInit
  split
  · ends
  split
  · ends
  split
  · ends
  refine ends_bind _ _ ?_ fun _ => by ends
  cases n with
  | none => ends
  | some n => ends

/-! ## Extraction -/

theorem ends_iterUnpack (big : Bool) (n : Nat) (bs : Bytes) : Ends (iterUnpack big n bs) := by unfold iterUnpack; ends
macro_rules | `(tactic| ends1) => `(tactic| with_reducible exact ends_iterUnpack _ _ _)

theorem ends_unsizedLoop (big : Bool) (psz : Nat) (sec : Section) (bd : Option Nat) (fuel cur : Nat) (bs : Bytes) :
    Ends (unsizedLoop big psz sec bd fuel cur bs) := by
  induction fuel generalizing cur bs with
  | zero => unfold unsizedLoop; ends
  | succ n ih =>
    unfold unsizedLoop
    refine ends_bind _ _ (by ends) fun _ => ?_
    split
    · ends
    split
    · ends
    exact ends_bind _ _ (ih _ _) fun _ => ends_ok _
macro_rules | `(tactic| ends1) => `(tactic| with_reducible exact ends_unsizedLoop _ _ _ _ _ _ _)

theorem ends_unpackTable (e : Elf) (t : Symbol) (s : Section) : Ends (unpackTable e t s) := by unfold unpackTable; ends
macro_rules | `(tactic| ends1) => `(tactic| with_reducible exact ends_unpackTable _ _ _)

theorem ends_deref (e : Elf) (l : List Nat) : Ends (derefDescriptors e l) := ends_mapRes _ _ fun _ _ => ends_readPtr _ _
macro_rules | `(tactic| ends1) => `(tactic| with_reducible exact ends_deref _ _)

theorem ends_vaddrsFromTable (a : Arch) (e : Elf) (t : Str) : Ends (vaddrsFromTable a e t) := by unfold vaddrsFromTable; ends
macro_rules | `(tactic| ends1) => `(tactic| with_reducible exact ends_vaddrsFromTable _ _ _)

theorem ends_extractVaddrs (x : X86Env) (a : Arch) (e : Elf) : Ends (extractVaddrs x a e) := by
  have hemu : ∀ s n l, Ends (emulate s n l) := by
    intro s n l
    obtain ⟨res, h, -⟩ := C44_terminates s n l
    rw [h]
    exact ends_ok _
  unfold extractVaddrs
  repeat' first | exact hemu _ _ _ | ends1
macro_rules | `(tactic| ends1) => `(tactic| with_reducible exact ends_extractVaddrs _ _ _)

theorem ends_byteAt (c : Bytes) (i : Nat) : Ends (byteAt c i) := by unfold byteAt; ends
macro_rules | `(tactic| ends1) => `(tactic| with_reducible exact ends_byteAt _ _)

theorem ends_unpackWords (big : Bool) (bs : Bytes) : Ends (unpackWords big bs) := by
  fun_induction unpackWords big bs with
  | case1 => exact ends_ok _
  | case2 a b c d rest ih => exact ends_bind _ _ ih fun _ => ends_ok _
  | case3 => ends
macro_rules | `(tactic| ends1) => `(tactic| with_reducible exact ends_unpackWords _ _)

theorem ends_dummyCode (a : Arch) (s : Symbol) (e : Elf) : Ends (a.dummyCode s e) := by
  unfold Arch.dummyCode
  split
  · unfold armDummy; ends
  · unfold mipsDummy; ends
  · unfold ppcDummy; ends
  · unfold x86Dummy; ends
  · ends
  · ends
macro_rules | `(tactic| ends1) => `(tactic| with_reducible exact ends_dummyCode _ _ _)

theorem ends_isDummy (a : Arch) (s : Symbol) (e : Elf) (n : Option Symbol) (c : Option Bytes) : Ends (a.isDummy s e n c) := by
  unfold Arch.isDummy; ends
macro_rules | `(tactic| ends1) => `(tactic| with_reducible exact ends_isDummy _ _ _ _ _)

theorem ends_readInt (e : Elf) (va : Nat) (n : Int) : Ends (e.vaddrReadInt va n) := by unfold Elf.vaddrReadInt; ends
macro_rules | `(tactic| ends1) => `(tactic| with_reducible exact ends_readInt _ _ _)

theorem ends_esoteric (a : Arch) (e : Elf) : Ends (a.extractEsoteric e) := by
  unfold Arch.extractEsoteric ppcEsoteric; ends
macro_rules | `(tactic| ends1) => `(tactic| with_reducible exact ends_esoteric _ _)

theorem ends_esotericSyscalls (e : Elf) (l : List Esoteric) : Ends (esotericSyscalls e l) := ends_mapRes _ _ fun _ _ => by ends
macro_rules | `(tactic| ends1) => `(tactic| with_reducible exact ends_esotericSyscalls _ _)

theorem ends_commonPrefixes (l : List Str) (n : Nat) : Ends (commonPrefixes l n) := by unfold commonPrefixes; ends
macro_rules | `(tactic| ends1) => `(tactic| with_reducible exact ends_commonPrefixes _ _)

theorem ends_candidates (a : Arch) (e : Elf) (v : Ver) (ni : List Symbol) (es : List (Nat × Nat)) :
    Ends (candidateSyscalls a e v ni es) := by
  unfold candidateSyscalls
  have hf : ∀ r c l, Ends (filterRes (fun sc : Syscall => do let d ← a.isDummy sc.symbol e r c; .ok (!d)) l) :=
    fun r c l => ends_filterRes _ _ fun _ => by ends
  repeat' first | exact hf _ _ _ | ends1

/-! ## Locations -/

theorem ends_parseLocRow (row : Str) : Ends (parseLocRow row) := by unfold parseLocRow; ends
macro_rules | `(tactic| ends1) => `(tactic| with_reducible exact ends_parseLocRow _)

theorem ends_smartLoc (p : Path) (d : Option Path) (l : Loc) : Ends (smartLoc p d l) := by unfold smartLoc; ends
macro_rules | `(tactic| ends1) => `(tactic| with_reducible exact ends_smartLoc _ _ _)

theorem ends_smart (w : LEnv) (hw : Responds w) (l : List Nat) (d : Option Path) : Ends (smartAddr2line w l d) :=
  ends_bind _ _ (hw.1 l) fun _ => ends_ok _

theorem smart_items_end (w : LEnv) (l : List Nat) (d : Option Path) (items : List (Res Loc)) (h : smartAddr2line w l d = .ok items) :
    ∀ x ∈ items, Ends x := by
  unfold smartAddr2line at h
  cases hr : w.addr2line l with
  | error e => rw [hr] at h; cases h
  | ok rows =>
    rw [hr] at h
    cases h
    intro x hx
    obtain ⟨row, -, rfl⟩ := List.mem_map.1 hx
    ends

theorem ends_remap (k : Path) (r p : Option Path) : Ends (remapPath k r p) := by unfold remapPath; ends
macro_rules | `(tactic| ends1) => `(tactic| with_reducible exact ends_remap _ _ _)

theorem ends_adjustGo (lines : List Str) (line i : Nat) : Ends (adjustGo lines line i) := by
  induction i with
  | zero => exact ends_ok _
  | succ i ih => unfold adjustGo; ends

theorem ends_adjustLine (fs : Files) (f : Path) (l : Nat) : Ends (adjustLine fs f l) := by
  unfold adjustLine
  split
  · ends
  · exact ends_adjustGo _ _ _
macro_rules | `(tactic| ends1) => `(tactic| with_reducible exact ends_adjustLine _ _ _)

theorem ends_goodLocationAt (fs : Files) (f : Path) (l : Nat) (a : Arch) (sc : Syscall) : Ends (goodLocationAt fs f l a sc) := by
  unfold goodLocationAt; ends
macro_rules | `(tactic| ends1) => `(tactic| with_reducible exact ends_goodLocationAt _ _ _ _ _)

theorem ends_firstStep (w : LEnv) (a : Arch) (k : Path) (r : Option Path) (sc : Syscall) (l : Loc) : Ends (firstStep w a k r sc l) := by
  unfold firstStep; ends
macro_rules | `(tactic| ends1) => `(tactic| with_reducible exact ends_firstStep _ _ _ _ _ _)

theorem ends_firstLoop (w : LEnv) (a : Arch) (k : Path) (r : Option Path) (i : Nat) (scs : List Syscall) (locs : List Loc) (x : Work) :
    Ends (firstLoop w a k r i scs locs x) := by
  induction scs generalizing i locs x with
  | nil => exact ends_ok _
  | cons sc scs ih =>
    cases locs with
    | nil => exact ends_ok _
    | cons l locs =>
      unfold firstLoop
      exact ends_bind _ _ (by ends) fun p => ih _ _ _
macro_rules | `(tactic| ends1) => `(tactic| with_reducible exact ends_firstLoop _ _ _ _ _ _ _ _)

theorem ends_secondLoop (w : LEnv) (a : Arch) (k : Path) (r : Option Path) (rs : List Ref) (locs : List (Res Loc)) (x : Work)
    (h : ∀ y ∈ locs, Ends y) : Ends (secondLoop w a k r rs locs x) := by
  induction rs generalizing locs x with
  | nil => exact ends_ok _
  | cons r' rs ih =>
    cases locs with
    | nil => exact ends_ok _
    | cons l locs =>
      have hl : Ends l := h l (by simp)
      have ih' := fun x => ih locs x fun y hy => h y (by simp [hy])
      unfold secondLoop
      repeat' first | exact ih' _ | ends1

theorem ends_retryLoop (w : LEnv) (a : Arch) (k : Path) (r : Option Path) (sc : Syscall) (locs : List (Res Loc)) (i n : Bool)
    (h : ∀ y ∈ locs, Ends y) : Ends (retryLoop w a k r sc locs i n) := by
  induction locs generalizing i n with
  | nil => exact ends_ok _
  | cons l locs ih =>
    have hl : Ends l := h l (by simp)
    have ih' := fun i n => ih i n fun y hy => h y (by simp [hy])
    unfold retryLoop
    repeat' first | exact ih' _ _ | ends1

theorem ends_thirdLoop (w : LEnv) (hw : Responds w) (a : Arch) (k : Path) (r : Option Path) (rs : List Ref) (x : Work) :
    Ends (thirdLoop w a k r rs x) := by
  induction rs generalizing x with
  | nil => exact ends_ok _
  | cons r' rs ih =>
    unfold thirdLoop
    refine ends_bind' _ _ (ends_smart w hw _ _) fun items hi => ?_
    refine ends_bind _ _ (ends_retryLoop _ _ _ _ _ _ _ _ (smart_items_end w _ _ _ hi)) fun res => ?_
    repeat' first | exact ih _ | ends1

theorem ends_rowLocation (k : Path) (row : Str) : Ends (rowLocation k row) := by unfold rowLocation; ends
macro_rules | `(tactic| ends1) => `(tactic| with_reducible exact ends_rowLocation _ _)

theorem ends_grepMatch (a : Arch) (k : Path) (rows : List Str) (todo : List Ref) : Ends (grepMatch a k rows todo) := by
  induction rows generalizing todo with
  | nil => exact ends_ok _
  | cons row rows ih =>
    unfold grepMatch
    repeat' first | exact ih _ | ends1

theorem ends_fourthLoop (w : LEnv) (a : Arch) (gs : List (Ref × Option (Path × Nat))) (scs : List Syscall) :
    Ends (fourthLoop w a gs scs) := by
  induction gs generalizing scs with
  | nil => exact ends_ok _
  | cons g gs ih =>
    obtain ⟨r, o⟩ := g
    cases o with
    | none => exact ih _
    | some p =>
      unfold fourthLoop
      repeat' first | exact ih _ | ends1

theorem ends_extractLocations (w : LEnv) (hw : Responds w) (a : Arch) (k r : Option Path) (scs : List Syscall) :
    Ends (extractLocations w a k r scs) := by
  unfold extractLocations
  split
  · exact ends_ok _
  refine ends_bind' _ _ (ends_smart w hw _ _) fun items hi => ?_
  refine ends_bind _ _ (ends_forceAll _ (smart_items_end w _ _ _ hi)) fun locs => ?_
  cases k with
  | none => exact ends_ok _
  | some k =>
    refine ends_bind _ _ (by ends) fun k1 => ?_
    dsimp only
    split
    · exact ends_ok _
    refine ends_bind _ _ ?_ fun k2 => ?_
    · split
      · exact ends_ok _
      · exact ends_bind' _ _ (ends_smart w hw _ _) fun items hi => ends_secondLoop _ _ _ _ _ _ _ (smart_items_end w _ _ _ hi)
    refine ends_bind _ _ (ends_thirdLoop w hw _ _ _ _ _) fun k3 => ?_
    split
    · exact ends_ok _
    refine ends_bind _ _ ?_ fun _ => ends_fourthLoop _ _ _ _
    exact ends_bind _ _ hw.2 fun _ => ends_grepMatch _ _ _ _

/-! ## Signatures -/

theorem ends_fmtArg (t n : Str) : Ends (fmtArg t n) := by unfold fmtArg; ends
macro_rules | `(tactic| ends1) => `(tactic| with_reducible exact ends_fmtArg _ _)

theorem ends_fmtArgs (l : List Str) : Ends (fmtArgs l) := by
  fun_induction fmtArgs l with
  | case1 t n rest ih => exact ends_bind _ _ (ends_fmtArg _ _) fun _ => ends_bind _ _ ih fun _ => ends_ok _
  | case2 => exact ends_ok _
macro_rules | `(tactic| ends1) => `(tactic| with_reducible exact ends_fmtArgs _)

theorem ends_expandField (big : Bool) (f : Str) : Ends (expandField big f) := by unfold expandField; ends
macro_rules | `(tactic| ends1) => `(tactic| with_reducible exact ends_expandField _ _)

theorem ends_expandMacros (big : Bool) (l : List Str) : Ends (expandMacros big l) := by
  induction l with
  | nil => exact ends_ok _
  | cons f l ih => unfold expandMacros; ends
macro_rules | `(tactic| ends1) => `(tactic| with_reducible exact ends_expandMacros _ _)

theorem ends_parseSignature (s : Str) (big : Bool) : Ends (parseSignature s big) := by unfold parseSignature; ends
macro_rules | `(tactic| ends1) => `(tactic| with_reducible exact ends_parseSignature _ _)

theorem ends_ofDefine (s : Str) (big : Bool) : Ends (signatureOfDefine s big) := by unfold signatureOfDefine; ends
theorem ends_ofAsmlinkage (s : Str) : Ends (signatureOfAsmlinkage s) := by unfold signatureOfAsmlinkage; ends

theorem ends_ofText (s : Str) (big : Bool) : Ends (signatureOfText s big) := by
  unfold signatureOfText
  dsimp only
  split
  · exact ends_map _ _ (ends_ofDefine _ _)
  split
  · exact ends_map _ _ (ends_ofAsmlinkage _)
  · exact ends_ok _
macro_rules | `(tactic| ends1) => `(tactic| with_reducible exact ends_ofText _ _)

theorem getLast_append_strip (sig l : Str) (h : (strip l).getLast? = some ')') : (sig ++ strip l).getLast? = some ')' := by
  rw [List.getLast?_append, h]; rfl

/-- reading from a text that is over ends as soon as some later line ends with a parenthesis -/
theorem ends_readSigLoop (sig : Str) (ls : List Str) (h : sig.getLast? = some ')' ∨ ∃ l ∈ ls, (strip l).getLast? = some ')') :
    Ends (readSigLoop sig ls) := by
  have hend : ∀ s : Str, s.getLast? = some ')' → endsWith s cs!")" = true := by
    intro s hs
    obtain ⟨pre, rfl⟩ : ∃ pre, s = pre ++ [')'] := by
      cases hn : s.getLast? with
      | none => rw [hn] at hs; cases hs
      | some c =>
        rw [hn] at hs
        cases hs
        exact List.getLast?_eq_some_iff.1 hn
    exact (endsWith_iff _ _).2 ⟨pre, rfl⟩
  induction ls generalizing sig with
  | nil =>
    rcases h with h | ⟨l, hl, -⟩
    · unfold readSigLoop; rw [if_pos (hend _ h)]; exact ends_ok _
    · cases hl
  | cons l ls ih =>
    unfold readSigLoop
    split
    · exact ends_ok _
    · next hne =>
      rcases h with h | ⟨x, hx, hx1⟩
      · exact absurd (hend _ h) hne
      · refine ih _ ?_
        rcases List.mem_cons.1 hx with rfl | hx
        · exact .inl (getLast_append_strip _ _ hx1)
        · exact .inr ⟨x, hx, hx1⟩

theorem ends_fromSource (lines : List Str) (line : Nat) (big : Bool) (hl : line - 1 < lines.length) (h : ¬ Unclosed lines line) :
    Ends (signatureFromSource lines line big) := by
  unfold signatureFromSource
  refine ends_bind _ _ ?_ fun _ => by ends
  unfold readSigText
  split
  · ends
  · have hex : ∃ x ∈ lines.drop (line - 1), (strip x).getLast? = some ')' := by
      unfold Unclosed at h
      refine Classical.byContradiction fun hno => h fun i l hi hl' heq => hno ⟨l, ?_, heq⟩
      rw [List.mem_iff_getElem?]
      exact ⟨i - (line - 1), by rw [List.getElem?_drop]; rw [show line - 1 + (i - (line - 1)) = i by omega]; exact hl'⟩
    split
    · next hd => rw [hd] at hex; obtain ⟨x, hx, -⟩ := hex; cases hx
    · next l ls hd =>
      rw [hd] at hex
      obtain ⟨x, hx, hx1⟩ := hex
      refine ends_readSigLoop _ _ ?_
      rcases List.mem_cons.1 hx with rfl | hx
      · exact .inl hx1
      · exact .inr ⟨x, hx, hx1⟩

theorem ends_readMeta (e : Elf) (p : Nat) : Ends (e.readMeta p) := by unfold Elf.readMeta; ends
macro_rules | `(tactic| ends1) => `(tactic| with_reducible exact ends_readMeta _ _)

theorem ends_readMetaArgs (e : Elf) (h : ∀ va, Ends (e.vaddrReadString va)) (t a i n : Nat) : Ends (e.readMetaArgs t a i n) := by
  induction n generalizing i with
  | zero => unfold Elf.readMetaArgs; ends
  | succ n ih =>
    unfold Elf.readMetaArgs
    repeat' first | exact h _ | exact ih _ | ends1

theorem ends_readMetaEntry (e : Elf) (h : ∀ va, Ends (e.vaddrReadString va)) (p : Nat) : Ends (e.readMetaEntry p) := by
  unfold Elf.readMetaEntry
  repeat' first | exact h _ | exact ends_readMetaArgs e h _ _ _ _ | ends1

theorem ends_readMetaLoop (e : Elf) (h : ∀ va, Ends (e.vaddrReadString va)) (ps : List Nat) (d : Dict Str (List Str)) :
    Ends (e.readMetaLoop ps d) := by
  induction ps generalizing d with
  | nil => exact ends_ok _
  | cons p ps ih => exact ends_bind _ _ (ends_readMetaEntry e h p) fun _ => ih _

theorem ends_readRange (e : Elf) (a b : Nat) : Ends (e.readRange a b) := by unfold Elf.readRange; ends
macro_rules | `(tactic| ends1) => `(tactic| with_reducible exact ends_readRange _ _ _)

theorem ends_syscallMeta (e : Elf) (h : ¬ EndlessName e) : Ends e.syscallMeta := by
  unfold Elf.syscallMeta
  split
  · exact ends_ok _
  · next start hs =>
    have hstr : ∀ va, Ends (e.vaddrReadString va) := fun va => ends_readString e va fun hu => h ⟨by rw [hs]; rfl, va, hu⟩
    repeat' first | exact ends_readMetaLoop e hstr _ _ | ends1

/-- signing a syscall ends, unless it is a definition without an end -/
theorem ends_signSyscall (fs : Files) (big have_ : Bool) (m : Option (Dict Str (List Str))) (sc : Syscall)
    (h : sc.goodLocation = true → ∀ f l lines, sc.file = some f → sc.line = some l → fs f = some lines →
      l - 1 < lines.length ∧ ¬ Unclosed lines l) : Ends (signSyscall fs big have_ m sc) := by
  unfold signSyscall
  split
  · ends
  split
  · next hg =>
    refine ends_bind _ _ (ends_pyAssert _) fun _ => ?_
    split
    · next f l hf hl =>
      split
      · ends
      · next lines hlines =>
        obtain ⟨h1, h2⟩ := h hg f l lines hf hl hlines
        exact ends_bind _ _ (ends_fromSource _ _ _ h1 h2) fun _ => ends_ok _
    · ends
    · ends
  · ends

/-- the candidates are new: nothing is known of their locations -/
theorem candidates_fresh (a : Arch) (e : Elf) (v : Ver) (ni : List Symbol) (es : List (Nat × Nat)) (scs : List Syscall)
    (h : candidateSyscalls a e v ni es = .ok scs) : ∀ sc ∈ scs, Fresh sc := by
  obtain ⟨ps, eso, esoScs, niRef, niCode, hc⟩ := candidates_of_ok _ _ _ _ _ _ h
  intro sc hsc
  obtain ⟨hm, -⟩ := (filterRes_mem _ _ _ hc.filtered sc).1 hsc
  rcases List.mem_append.1 hm with hm | hm
  · obtain ⟨i, s, -, rfl, -⟩ := (buildSyscalls_mem _ _ _ _ _).1 hm
    exact ⟨rfl, rfl⟩
  · have := esoteric_unlocated _ _ _ hc.esoScs_ok sc hm
    exact ⟨this.2.2.1, this.2.2.2⟩

theorem ends_keepFinal (k : Option Path) (sc : Syscall) : Ends (keepFinal k sc) := by unfold keepFinal; ends

theorem ends_extract (a0 : Arch) (e : Elf) (v : Ver) (le : LEnv) (hw : Responds le) (ni : List Symbol → List Symbol)
    (x : X86Env) (kdir rdir : Option Path) (h1 : ¬ EndlessName e)
    (h2 : kdir.isSome = true → ¬ EndlessDefinition le.files (a0.adjustAbi e)) :
    Ends (extractSyscalls a0 e v ⟨ni, extractVaddrs x (a0.adjustAbi e), extractLocations le (a0.adjustAbi e) kdir rdir, le.files, kdir⟩) := by
  unfold extractSyscalls
  split
  · ends
  refine ends_bind _ _ ?_ fun entries => ?_
  · unfold tableEntries; ends
  split
  · ends
  split
  · ends
  refine ends_bind' _ _ (ends_candidates _ _ _ _ _) fun cands hc => ?_
  refine ends_bind' _ _ (ends_extractLocations _ hw _ _ _ _) fun located hloc => ?_
  refine ends_bind _ _ ?_ fun signed => ends_filterRes _ _ fun _ => ends_keepFinal _ _
  unfold extractSignatures
  refine ends_bind _ _ (ends_syscallMeta e h1) fun m => ends_mapRes _ _ fun sc hsc => ends_signSyscall _ _ _ _ _ ?_
  intro hg f l lines hf hl hlines
  obtain ⟨ht, hfresh⟩ := extractLocations_ok _ _ _ _ _ _ hloc
  have hfr := candidates_fresh _ _ _ _ _ _ hc
  cases hk : kdir with
  | none =>
    have := hfresh hk hfr sc hsc
    rw [this.1] at hg
    cases hg
  | some k =>
    obtain ⟨c, hcm, hT⟩ := forall2_mem_right ht hsc
    obtain ⟨f', l', lines', text, q1, q2, q3, q4, q5⟩ := hT.good (hfr _ hcm).1 hg
    rw [hf] at q1; cases q1
    rw [hl] at q2; cases q2
    have q3' := hlines.symm.trans q3; cases q3'
    have hlt : l - 1 < lines.length := (List.getElem?_eq_some_iff.1 q4).1
    refine ⟨hlt, fun hu => h2 (by rw [hk]; rfl) ⟨sc, f, l, lines, hlines, hlt, hu, fun i1 i2 => ⟨lines, text, hlines, q4, ?_⟩⟩⟩
    rcases q5 with q5 | q5
    · exact .inl ((goodDefinition_iff _ _ _ i1).1 q5)
    · exact .inr ((goodDefinition_iff _ _ _ i2).1 q5)

end Verif
