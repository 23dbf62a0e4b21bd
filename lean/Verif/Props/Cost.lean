import Verif.Proofs.Cost
import Verif.Props.Verdict
import Verif.Props.Install

/-!
# C101: what a pledge costs

`Spec.cost m0 prog d`: the number of instructions that the kernel executes in the filter `prog` for system call `d`.
-/
set_option autoImplicit false

namespace Props
open Spec Pledge Bpfvm Kernel

/-- Counting does not interfere: without the count it is the kernel's interpreter. And a run that ends takes at least one instruction and
never one twice. -/
theorem count_run (p : Prog) (w : List (BitVec 32)) (n : Nat) (r : Regs) (h : p.length - r.pc = n) :
    (countFrom p w r).map Prod.fst = runFrom p w r ∧ ∀ v k, countFrom p w r = some (v, k) → 1 ≤ k ∧ k ≤ n := by
  induction n using Nat.strongRecOn generalizing r with
  | ind n ih =>
    cases hi : p[r.pc]? with
    | none =>
      rw [countFrom, runFrom, hi]
      exact ⟨rfl, by simp⟩
    | some i =>
      have hlt := (List.getElem?_eq_some_iff.1 hi).1
      rw [countFrom_step p w r i hi, runFrom_step p w r i hi]
      cases hs : Kernel.step w i r with
      | next r' =>
        have hpc := step_later w i r r' hs
        obtain ⟨h1, h2⟩ := ih (p.length - r'.pc) (by omega) r' rfl
        simp only
        cases hc : countFrom p w r' with
        | none =>
          rw [hc] at h1
          exact ⟨h1, by simp⟩
        | some x =>
          rw [hc] at h1
          refine ⟨h1, ?_⟩
          intro v k hk
          simp only [Option.bind_some, Option.some.injEq, Prod.mk.injEq] at hk
          have := h2 x.1 x.2 hc
          omega
      | done v => exact ⟨rfl, by simp; omega⟩
      | bad => exact ⟨rfl, by simp⟩

/-- C101: `cost` is about the kernel's own run: it exists exactly if the run has a value. -/
theorem C101_counting (m0 : Nat → BitVec 32) (p : Prog) (d : SeccompData) :
    (countFrom p d.words ⟨0, 0, 0, m0⟩).map Prod.fst = Kernel.run m0 p d.words ∧
    ((cost m0 p d).isSome ↔ (Kernel.run m0 p d.words).isSome) := by
  have h := (count_run p d.words _ ⟨0, 0, 0, m0⟩ rfl).1
  refine ⟨h, ?_⟩
  unfold Kernel.run cost
  rw [← h]
  simp

/-- C101: every program, also one that this library did not make, executes at most as many instructions as it has. -/
theorem C101_program (m0 : Nat → BitVec 32) (p : Prog) (d : SeccompData) (n : Nat) (h : cost m0 p d = some n) : 1 ≤ n ∧ n ≤ p.length := by
  unfold cost at h
  rw [Option.map_eq_some_iff] at h
  obtain ⟨⟨v, k⟩, h1, rfl⟩ := h
  have := (count_run p d.words _ ⟨0, 0, 0, m0⟩ rfl).2 v k h1
  simpa using this

theorem cost_of {b : Build} {ids : Ids} {ps : List Promise} {v : SeccompReturn} {prog : Prog} (h : promisesToProg b ids ps v = .ok prog)
    (m0 : Nat → BitVec 32) (d : SeccompData) :
    cost m0 prog d = some (if d.arch = X86_64 then 3 + kost ids d (allFilters ps) else 3) := by
  rw [promisesToProg_eq] at h
  cases h
  exact cost_progOf m0 ids ps _ d

section
variable {b : Build} {ids : Ids} {ps : List Promise} {v : SeccompReturn} {prog : Prog} (h : promisesToProg b ids ps v = .ok prog)
  (m0 : Nat → BitVec 32) (d : SeccompData)
include h

/-- C101: a call of another architecture costs three instructions, whatever is promised. -/
theorem C101_foreign (ha : d.arch ≠ X86_64) : cost m0 prog d = some 3 := by
  rw [cost_of h, if_neg ha]

/-- Not vacuous: an i386 call. -/
example := C101_foreign (promisesToProg_eq ⟨true⟩ ⟨100, 100⟩ [.StdIO] .KillProcess) (fun _ => 0) { mkCall 1 [] with arch := 0x40000003 } (by decide)

/-- C101: exit costs five, whatever is promised. -/
theorem C101_exit (ha : d.arch = X86_64) (hn : d.nr = 60) : cost m0 prog d = some 5 := by
  rw [cost_of h, if_pos ha]
  have : kost ids d (allFilters ps) = 2 := by
    have hf : allFilters ps = .Whitelist Libc.SYS_exit :: (ps.map filtersOf).flatten := rfl
    rw [hf, kost]
    simp [frag, evC, ev, hn, Libc.SYS_exit]
  rw [this]

/-- Not vacuous: exit. -/
example := C101_exit (promisesToProg_eq ⟨true⟩ ⟨100, 100⟩ [.StdIO] .KillProcess) (fun _ => 0) (mkCall 60 []) rfl rfl

/-- Not vacuous: exit, with a generated program. -/
example := C101_program (fun _ => 0) _ (mkCall 60 []) 5 (C101_exit (promisesToProg_eq ⟨true⟩ ⟨100, 100⟩ [.StdIO] .KillProcess) (fun _ => 0) (mkCall 60 []) rfl rfl)

/-- C101: a native call whose number nothing mentions costs five instructions and one or two for each system call that is mentioned. -/
theorem C101_unmentioned (ha : d.arch = X86_64) (hn : ∀ p, p = .Default ∨ p ∈ ps → ¬ Mentions p d.nr) :
    cost m0 prog d = some (5 + (ps.map idleCost).sum) := by
  rw [cost_of h, if_pos ha, kost_idle, allFilters_sum, idle_table]
  · have : (ps.map fun p => ((filtersOf p).map idle).sum) = ps.map idleCost := List.map_congr_left fun p _ => idle_table p
    rw [this, show idleCost .Default = 1 from rfl]
    simp only [Option.some.injEq]
    omega
  · intro f hf he
    simp only [allFilters, List.mem_flatten, List.mem_map, List.mem_cons] at hf
    obtain ⟨_, ⟨p, hp, rfl⟩, hf⟩ := hf
    refine hn p hp ⟨⟨0, 0⟩, { mkCall 0 (fine f) with nr := nrOf f }, he.symm, ?_⟩
    exact (match_iff _ _ p).1 ⟨f, hf, fine_matches f⟩

/-- C101: no call costs more than this. -/
theorem C101_worst : ∃ n, cost m0 prog d = some n ∧ n ≤ 5 + (ps.map worstCost).sum := by
  refine ⟨_, cost_of h m0 d, ?_⟩
  have h1 := kost_le ids d (allFilters ps)
  rw [allFilters_sum] at h1
  have h2 := weigh_table .Default d.nr
  have h3 : (ps.map fun p => ((filtersOf p).map (weigh d.nr)).sum).sum ≤ (ps.map worstCost).sum := by
    clear h h1
    induction ps with
    | nil => simp
    | cons p ps ih =>
      simp only [List.map_cons, List.sum_cons]
      exact Nat.add_le_add (weigh_table p d.nr) ih
  simp only [worstCost] at h2
  split <;> omega

/-- C101: promises added at the end do not make any call cheaper, and do not change what a call costs that was allowed before: the order of
promises matters for nothing but the cost, and what is needed most should come first. -/
theorem C101_order (qs : List Promise) (prog' : Prog) (h' : promisesToProg b ids (ps ++ qs) v = .ok prog') :
    ∃ n n', cost m0 prog d = some n ∧ cost m0 prog' d = some n' ∧ n ≤ n' ∧ (Allowed ids ps d → n' = n) := by
  refine ⟨_, _, cost_of h m0 d, cost_of h' m0 d, ?_⟩
  rw [allFilters_append]
  have := kost_append ids d (allFilters ps) ((qs.map filtersOf).flatten)
  rw [allFilters_iff] at this
  split
  · exact ⟨Nat.add_le_add_left this.1 3, fun ha => by rw [this.2 ha]⟩
  · exact ⟨Nat.le_refl _, fun _ => rfl⟩

end

/-- C101: the bound of `C101_worst` is met for every promise alone. -/
theorem C101_worst_met (b : Build) (ids : Ids) (p : Promise) (v : SeccompReturn) :
    ∃ prog d, promisesToProg b ids [p] v = .ok prog ∧ ∀ m0, cost m0 prog d = some (5 + worstCost p) := by
  obtain ⟨h1, h2, h3, h4⟩ := hard_table p (mem_allPromises p)
  refine ⟨_, hard p, promisesToProg_eq b ids [p] v, fun m0 => ?_⟩
  rw [cost_of (promisesToProg_eq b ids [p] v), if_pos h3, kost_ids ids _ h1 h2, h4]
  simp only [Option.some.injEq]
  omega

/-- C101: a thread pays for all its pledges. -/
theorem C101_thread (t : Thread) (l : List Past) (hl : HasPledged t l) (d : SeccompData) :
    costAll t.filters d ≤ (l.map fun p => 5 + (p.ps.map worstCost).sum).sum ∧
    (d.arch = X86_64 → (∀ x ∈ l, ∀ p, p = .Default ∨ p ∈ x.ps → ¬ Mentions p d.nr) →
      costAll t.filters d = (l.map fun p => 5 + (p.ps.map idleCost).sum).sum) := by
  rw [hasPledged_iff] at hl
  rw [hl]
  clear hl
  unfold costAll
  induction l with
  | nil => exact ⟨Nat.le_refl _, fun _ _ => rfl⟩
  | cons x l ih =>
    simp only [List.map_cons, List.sum_cons]
    obtain ⟨n, h1, h2⟩ := C101_worst (promisesToProg_eq ⟨false⟩ x.ids x.ps x.v) (fun _ => 0) d
    refine ⟨?_, ?_⟩
    · rw [h1]
      exact Nat.add_le_add h2 ih.1
    · intro ha hn
      rw [C101_unmentioned (promisesToProg_eq ⟨false⟩ x.ids x.ps x.v) (fun _ => 0) d ha (hn x (by simp)),
        ih.2 ha fun y hy => hn y (by simp [hy])]
      rfl

/-! ## the hypotheses can be met -/

/-- execve under StdIO; a denied prctl is the worst case. -/
example (b : Build) (ids : Ids) (v : SeccompReturn) : ∃ prog, promisesToProg b ids [.StdIO] v = .ok prog ∧
    (∀ m0, cost m0 prog (mkCall 59 []) = some 128) ∧ (∀ m0, cost m0 prog (mkCall 157 [99]) = some 137) := by
  refine ⟨_, promisesToProg_eq b ids [.StdIO] v, fun m0 => ?_, fun m0 => ?_⟩
  · refine C101_unmentioned (promisesToProg_eq b ids [.StdIO] v) m0 (mkCall 59 []) rfl ?_
    rintro p hp ⟨ids, d, hd, h⟩
    rw [permits_iff (n := 59) (by rw [hd]; rfl)] at h
    have hf : freeOf 59 = [.Exec] := by decide +kernel
    rcases h with h | h
    · rw [hf] at h; simp at h; subst h; simp at hp
    · exact h
  · obtain ⟨h1, h2, h3, h4⟩ := hard_table .StdIO (mem_allPromises _)
    have := cost_of (promisesToProg_eq b ids [.StdIO] v) m0 (hard .StdIO)
    rw [if_pos h3, kost_ids ids _ h1 h2, h4] at this
    exact this

end Props
