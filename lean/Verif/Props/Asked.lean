import Verif.Lemmas.Asked
import Verif.Spec.Origin
import Verif.Lemmas.Origin
import Verif.Props.Location
/-! # C114: what addr2line is asked about

A world in which another program answers as addr2line does on the questions that are put, and in any way on others, gives the
same locations. So what does not matter is not asked, or asked in vain. -/
set_option autoImplicit false

namespace Verif
open Spec

/-- C114: what addr2line says about addresses outside the code of the syscalls does not matter. -/
theorem C114_within (w : LEnv) (other : List Nat → Res (List Str)) (a : Arch) (kdir rdir : Option Path) (scs : List Syscall)
    (h : ∀ addrs, (∀ x ∈ addrs, ∃ sc ∈ scs, InCode sc.symbol x) → other addrs = w.addr2line addrs) :
    extractLocations { w with addr2line := other } a kdir rdir scs = extractLocations w a kdir rdir scs := by
  refine extractLocations_other w other a rdir kdir scs (h _ ?_) (fun _ syms _ hs => h _ ?_) (fun _ sc hsc _ => h _ ?_)
  · intro x hx
    obtain ⟨sc, hsc, rfl⟩ := List.mem_map.1 hx
    exact ⟨sc, hsc, .inl rfl⟩
  · intro x hx
    obtain ⟨s, hm, rfl⟩ := List.mem_map.1 hx
    obtain ⟨h1, sc, hsc, rfl⟩ := hs s hm
    exact ⟨sc, hsc, .inr ⟨by omega, by omega⟩⟩
  · exact fun x hx => ⟨sc, hsc, retryAddrs_inCode sc x hx⟩

/-- C114: without kernel sources only the first addresses are asked about, all at once. -/
theorem C114_no_sources (w : LEnv) (other : List Nat → Res (List Str)) (a : Arch) (rdir : Option Path) (scs : List Syscall)
    (h : other (scs.map fun sc => sc.symbol.realVaddr) = w.addr2line (scs.map fun sc => sc.symbol.realVaddr)) :
    extractLocations { w with addr2line := other } a none rdir scs = extractLocations w a none rdir scs :=
  extractLocations_other w other a rdir none scs h (fun h => absurd rfl h) (fun h => absurd rfl h)

/-- C114: when there is no addr2line, nothing is asked. -/
theorem C114_no_tool (w : LEnv) (other : List Nat → Res (List Str)) (a : Arch) (kdir rdir : Option Path) (scs : List Syscall)
    (hw : w.haveAddr2line = false) :
    extractLocations { w with addr2line := other } a kdir rdir scs = extractLocations w a kdir rdir scs := by
  unfold extractLocations
  simp only [hw, Bool.not_false, if_true]

/-- C114, the part that holds: with at least one syscall and no function of three bytes, addr2line is never run without an
address (it would read addresses from the terminal), so what it would do then does not matter. -/
theorem C114_something_asked_partial (w : LEnv) (other : List Nat → Res (List Str)) (a : Arch) (kdir rdir : Option Path)
    (scs : List Syscall) (hne : scs ≠ []) (h3 : ∀ sc ∈ scs, sc.symbol.size ≠ 3)
    (h : ∀ addrs, addrs ≠ [] → other addrs = w.addr2line addrs) :
    extractLocations { w with addr2line := other } a kdir rdir scs = extractLocations w a kdir rdir scs := by
  refine extractLocations_other w other a rdir kdir scs (h _ ?_) (fun _ syms hs _ => h _ ?_) (fun _ sc hsc hsz => h _ ?_)
  · simpa using hne
  · simpa using hs
  · intro he
    have := h3 sc hsc
    simp [retryAddrs] at he
    omega

/-- C114: with no syscalls at all, addr2line is run without an address: its fate is that of the extraction. -/
theorem C114_no_syscalls (w : LEnv) (a : Arch) (kdir rdir : Option Path) (x : Exc) (hw : w.haveAddr2line = true)
    (h : w.addr2line [] = .error x) : extractLocations w a kdir rdir [] = .error x := by
  unfold extractLocations
  simp only [hw, Bool.not_true, Bool.false_eq_true, if_false, List.map_nil, smartAddr2line, h, bind, Except.bind]

/-- `open` as before, and a function of three bytes about which the debug information says nothing -/
def shortScs : List Syscall :=
  [Syscall.new (some 0) 0 cs!"open" cs!"open" (smallSym cs!"__x64_sys_open" 0x1000 16) none,
   Syscall.new (some 1) 1 cs!"getpid" cs!"getpid" (smallSym cs!"__x64_sys_getpid" 0x2000 3) none]

/-- addr2line waits for ever when it is not given an address -/
def waiting (l : List Nat) : Res (List Str) := if l = [] then .error .hang else smallWorld.addr2line l

/-- C114 does not hold of the code: with a function of three bytes that is not located by its first and last address,
addr2line is run without an address, and a run in which it then waits for input never ends. -/
theorem C114_nothing_asked_refuted :
    ¬ ∀ (w : LEnv) (other : List Nat → Res (List Str)) (a : Arch) (kdir rdir : Option Path) (scs : List Syscall), scs ≠ [] →
      (∀ addrs, addrs ≠ [] → other addrs = w.addr2line addrs) →
      extractLocations { w with addr2line := other } a kdir rdir scs = extractLocations w a kdir rdir scs := by
  intro h
  have h1 := h smallWorld waiting x64Arch (some ⟨true, [cs!"k"]⟩) none shortScs (by decide) (fun addrs hne => if_neg hne)
  have h2 : extractLocations { smallWorld with addr2line := waiting } x64Arch (some ⟨true, [cs!"k"]⟩) none shortScs =
      .error .hang := rfl
  have h3 : ∃ out, extractLocations smallWorld x64Arch (some ⟨true, [cs!"k"]⟩) none shortScs = .ok out := ⟨_, rfl⟩
  obtain ⟨out, h3⟩ := h3
  rw [h2, h3] at h1
  cases h1

/-- `C114_within`: another world, in which addresses outside of `open` and `getpid` have files -/
example : let other := fun (l : List Nat) => if l.all (fun x => decide (x < 0x3000)) then smallWorld.addr2line l else .error .hang
    (∀ addrs, (∀ x ∈ addrs, ∃ sc ∈ smallScs, InCode sc.symbol x) → other addrs = smallWorld.addr2line addrs) ∧
    other [0x4000] ≠ smallWorld.addr2line [0x4000] := by
  refine ⟨fun addrs h => if_pos ?_, fun h => by cases h⟩
  rw [List.all_eq_true]
  intro x hx
  obtain ⟨sc, hsc, hi⟩ := h x hx
  have : sc.symbol.realVaddr < 0x2fff ∧ sc.symbol.realVaddr + sc.symbol.size < 0x3000 := by
    revert hsc
    clear hi hx h
    revert sc
    decide
  rw [decide_eq_true_iff]
  rcases hi with rfl | ⟨-, h2⟩ <;> omega

/-- `C114_something_asked_partial`: the syscalls of the small world -/
example : smallScs ≠ [] ∧ (∀ sc ∈ smallScs, sc.symbol.size ≠ 3) ∧
    (∀ addrs, addrs ≠ [] → waiting addrs = smallWorld.addr2line addrs) ∧
    ∃ out, extractLocations { smallWorld with addr2line := waiting } x64Arch (some ⟨true, [cs!"k"]⟩) none smallScs = .ok out ∧
      out.map (fun s => (s.line, s.goodLocation)) = [(some 2, true), (some 7, true)] := by
  refine ⟨by decide, by decide, fun addrs hne => if_neg hne, ?_⟩
  rw [C114_something_asked_partial smallWorld waiting _ _ _ smallScs (by decide) (by decide) (fun addrs hne => if_neg hne)]
  exact smallWorld_run

/-- `C114_no_sources`, `C114_no_tool`, `C114_no_syscalls` -/
example : (let other := fun (l : List Nat) => if l = [0x1000, 0x2000] then smallWorld.addr2line l else .error .hang
    other (smallScs.map fun sc => sc.symbol.realVaddr) = smallWorld.addr2line (smallScs.map fun sc => sc.symbol.realVaddr)) ∧
    ({ smallWorld with haveAddr2line := false } : LEnv).haveAddr2line = false ∧
    ({ smallWorld with addr2line := waiting } : LEnv).addr2line [] = .error .hang :=
  ⟨rfl, rfl, rfl⟩

end Verif
