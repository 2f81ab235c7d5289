import Verif.Lemmas.Prefer
import Verif.Props.EndToEnd
import Verif.Props.Extract
/-! # Which of the symbols at an address gives its name to a syscall (C108) -/
set_option autoImplicit false

namespace Verif
open Spec

theorem best_congr (a : Arch) (l l' : List Symbol) (s : Symbol) (hm : ∀ x, x ∈ l ↔ x ∈ l') (h : BestNamed a l s) : BestNamed a l' s :=
  ⟨(hm s).1 h.mem, fun t ht => h.best t ((hm t).2 ht), fun t ht => h.tie t ((hm t).2 ht)⟩

/-- C108: every name is in one of the classes of every architecture and ABI. -/
theorem C108_classes (a : Arch) (n : Str) : ∃ w ∈ wishes a, w.fits n = true := by
  have hb := covers_basic
  have : Covers (wishes a) := by
    unfold wishes
    cases a.kind <;> simp only
    · exact covers_append _ _ hb
    · exact covers_append _ _ (covers_cons _ _ hb)
    · exact covers_append _ _ hb
    · split
      · exact hb
      · exact covers_append _ _ hb
    · exact covers_append _ _ (covers_cons _ _ hb)
    · split
      · exact covers_cons _ _ (covers_cons _ _ covers_lower)
      · exact covers_append _ _ (covers_cons _ _ (covers_append _ _ covers_any))
  exact this n

/-- C108: the symbol chosen for an address of the table where there is no ni_syscall is the one with the best name. -/
theorem C108_choice (a : Arch) (e : Elf) (hd : DistinctNames e) (niOrder : List Symbol) (hord : niOrder.Perm e.niSyscalls)
    (seen : List Nat) (va : Nat) (hva : va ∈ seen) (hni : ∀ s, IsNi e s → s.vaddr ≠ va) (s : Symbol) :
    dget va (symbolsByVaddr a e niOrder seen) = some s ↔ BestNamed a (symbolsAt e va) s := by
  have hinit : dget va (initialByVaddr niOrder) = none := by
    have := (initialByVaddr_get niOrder va).2
    cases hx : dget va (initialByVaddr niOrder) with
    | none => rfl
    | some x =>
      rw [hx] at this
      obtain ⟨t, h1, h2⟩ := this.1 rfl
      exact absurd h2 (hni t ((mem_niSyscalls e t).1 (hord.mem_iff.1 h1)))
  rw [symbolsByVaddr_get a e niOrder seen va hva, hinit]
  have hc := choose_best a e.niSyscalls va (fun t ht => hni t ((mem_niSyscalls e t).1 ht)) e.sortedSyms [] none
    (by simpa using sorted_before e hd) rfl
  rw [List.nil_append] at hc
  have hm : ∀ x, x ∈ e.sortedSyms.filter (fun s => decide (s.vaddr = va)) ↔ x ∈ symbolsAt e va := by
    intro x
    unfold symbolsAt
    rw [List.mem_filter, List.mem_filter, (sortedSyms_perm e).mem_iff]
  constructor
  · intro h
    rw [h] at hc
    exact best_congr _ _ _ _ hm hc.2
  · intro h
    cases hx : e.sortedSyms.foldl (chooseAt a e.niSyscalls va) none with
    | none =>
      rw [hx] at hc
      have hc' : e.sortedSyms.filter (fun s => decide (s.vaddr = va)) = [] := hc
      have := (hm s).2 h.mem
      rw [hc'] at this
      cases this
    | some t =>
      rw [hx] at hc
      rw [best_unique a _ t s (best_congr _ _ _ _ hm hc.2) h]

/-- the names of the symbols of an image loaded by the program are distinct -/
theorem loaded_distinct {w : MWorld} {h : List Run} {p : Path} {e : Elf} (hl : LoadedFrom w h p e) : DistinctNames e := by
  obtain ⟨data, r1, r2, -, -, -, -, -, hl, -⟩ := hl
  have hs : ∃ machine lines, e.symbols = (extractSymbols machine lines).1 := by
    unfold Elf.load at hl
    cases hh : parseElfHeader data with
    | error x => rw [hh] at hl; cases hl
    | ok x => rw [hh] at hl; cases hl; exact ⟨_, _, rfl⟩
  obtain ⟨machine, lines, hs⟩ := hs
  unfold DistinctNames Elf.syms
  rw [hs, List.map_map]
  have hn : ((extractSymbols machine lines).1.map Prod.fst).Nodup := (extractSymbols_nodup machine lines).1
  have : (extractSymbols machine lines).1.map (Symbol.name ∘ Prod.snd) = (extractSymbols machine lines).1.map Prod.fst := by
    apply List.map_congr_left
    intro q hq
    obtain ⟨l, -, -, h⟩ := (extractSymbols_mem machine lines).1 q hq
    exact h.symm
  rw [this]
  exact hn

/-- C108: when an analysis ends with status 0, each printed syscall of the table has the symbol with the best name of all symbols of the
image at the address in its entry. -/
theorem C108_run (w : MWorld) (hw : Pythonic w) (help : Str) (args : Args) (s : MState)
    (h0 : (main w help args s).1 = .ok 0) (hb : ¬ BuildMode args) (hh : ¬ AsksForHelp args) :
    ∃ (p : Path) (e : Elf) (a0 : Arch) (ver : Ver) (hist : List Run) (entries : List (Nat × Nat)) (scs : List Syscall) (text : Str),
      (∃ ref code cands located, Analysed w args p e a0 ver hist entries ref code cands located scs) ∧
      outputSyscalls w.jinja w.css w.js ⟨ver, cs!"vmlinux", a0.adjustAbi e, scs⟩ args.format = .ok text ∧
      (main w help args s).2.out = some text ∧
      ∀ sc ∈ scs, ∀ i, sc.index = some i → ∃ va, (i, va) ∈ entries ∧ BestNamed (a0.adjustAbi e) (symbolsAt e va) sc.symbol := by
  obtain ⟨p, e, a0, ver, hist, entries, ref, code, cands, located, scs, text, hA, ht, hout⟩ := C88_run w hw help args s h0 hb hh
  refine ⟨p, e, a0, ver, hist, entries, scs, text, ⟨ref, code, cands, located, hA⟩, ht, hout, ?_⟩
  intro sc hsc i hi
  obtain ⟨⟨va, hva, hch, hnn, -, -⟩, -⟩ := (hA.printed i sc.symbol sc.number).1 ⟨sc, hsc, hi, rfl, rfl⟩
  refine ⟨va, hva, ?_⟩
  obtain ⟨-, hl, hld⟩ := hA.image
  have hseen : va ∈ entries.map Prod.snd := List.mem_map.2 ⟨_, hva, rfl⟩
  have hord := hw.1 e.niSyscalls
  have h32 := (C32_choice (a0.adjustAbi e) e _ hord _ va hseen).2 _ hch
  have hno : ∀ t, IsNi e t → t.vaddr ≠ va := fun t ht hv => hnn (h32.2.2.2 ⟨t, ht, hv⟩)
  exact (C108_choice (a0.adjustAbi e) e (loaded_distinct hld) _ hord _ va hseen hno _).1 hch

/-- names of the same function, for a 64-bit x86 kernel -/
def x86Names : List Symbol :=
  [cs!"SyS_read", cs!"__do_sys_read", cs!"__ia32_sys_read", cs!"__se_sys_read", cs!"__x64_sys_read", cs!"compat_sys_read", cs!"sys_read"].map
    fun n => ⟨0x100, 0x100, 8, cs!"FUNC", n⟩

/-- the order of preference of these names: for 64-bit programs, for 32-bit programs -/
example : ∃ a b, newArch .x86 [6, 0] cs!"x64" false = .ok a ∧ newArch .x86 [6, 0] cs!"ia32" false = .ok b ∧
    x86Names.map (fun s => rankOf (wishes a) s.name) = [4, 3, 5, 3, 0, 2, 1] ∧
    x86Names.map (fun s => rankOf (wishes b) s.name) = [5, 4, 0, 4, 1, 3, 2] :=
  ⟨_, _, rfl, rfl, by decide +kernel, by decide +kernel⟩

/-- the hypotheses of `C108_choice` hold of a small image, with two symbols at an address -/
example : ∃ a, newArch .riscv [6, 0] cs!"rv64" false = .ok a ∧ DistinctNames aliasElf ∧
    (∀ s, IsNi aliasElf s → s.vaddr ≠ 0x108) ∧ (symbolsAt aliasElf 0x108).length = 2 ∧
    (dget 0x108 (symbolsByVaddr a aliasElf aliasElf.niSyscalls [0x100, 0x108])).map Symbol.name = some cs!"sys_open" := by
  refine ⟨_, rfl, by unfold DistinctNames; decide, ?_, by decide, by decide +kernel⟩
  intro s hs
  rw [IsNi, ← mem_niSyscalls] at hs
  have h : ∀ s ∈ aliasElf.niSyscalls, s.vaddr ≠ 0x108 := by decide +kernel
  exact h s hs

/-- and those of `C108_run` -/
example : Pythonic (tinyWorld cs!"6.0.3" tinySymbols) ∧ (main (tinyWorld cs!"6.0.3" tinySymbols) [] { vmlinux := some cs!"vmlinux" } {}).1 = .ok 0 := by
  refine ⟨⟨fun l => .refl _, fun _ => .refl _, fun _ => .refl _⟩, by decide +kernel⟩

end Verif
