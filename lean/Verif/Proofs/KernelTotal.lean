import Verif.Proofs.VmKernel

/-!
# The kernel's interpreter is total on accepted programs and blind to the initial scratch memory
-/
set_option autoImplicit false

namespace Kernel
open Bpfvm

/-- Check a finite list of codes. -/
theorem ball_of_all (l : List (BitVec 16)) (P : BitVec 16 → Prop) [DecidablePred P] (h : l.all (fun c => decide (P c)) = true) :
    ∀ c ∈ l, P c := by
  intro c hc
  simpa using List.all_eq_true.1 h c hc

/-- Two machine states that an accepted program cannot tell apart. `V`: the memory cells known to have been stored. -/
structure Alike (r r' : Regs) (V : BitVec 16) : Prop where
  pc : r'.pc = r.pc
  A : r'.A = r.A
  X : r'.X = r.X
  M : ∀ j, j < 16 → V.getLsbD j = true → r'.M j = r.M j

/-- Instructions that only move or compute in `A` and `X`. -/
def lineCodes : List (BitVec 16) :=
  [0x80#16, 0x81#16, 0x04#16, 0x0c#16, 0x14#16, 0x1c#16, 0x24#16, 0x2c#16, 0x34#16, 0x3c#16, 0x44#16, 0x4c#16, 0x54#16, 0x5c#16, 0x64#16, 0x6c#16, 0x74#16, 0x7c#16, 0xa4#16, 0xac#16, 0x84#16,
   0x00#16, 0x01#16, 0x07#16, 0x87#16, 0x20#16]

theorem code_cases (i : SockFilter) (h : seccompInstrOK i = true) :
    i.code ∈ lineCodes ∨ i.code ∈ condJumps ∨ i.code ∈ [0x60#16, 0x61#16] ∨ i.code ∈ [0x02#16, 0x03#16] ∨ i.code = 0x05#16 ∨
      i.code = 0x06#16 ∨ i.code = 0x16#16 := by
  unfold seccompInstrOK at h
  split at h
  · rename_i h2
    left; rw [h2]; decide
  · simp only [condJumps, lineCodes, List.cons_append, List.nil_append, List.contains_eq_mem, decide_eq_true_eq, List.mem_cons,
      List.not_mem_nil, or_false] at h ⊢
    grind

/-- Such an instruction goes on to the next one or ends the run, whatever the memory. -/
theorem line_step (w : List (BitVec 32)) (hw : 16 ≤ w.length) (i : SockFilter) (hs : seccompInstrOK i = true) (hc : i.code ∈ lineCodes)
    (r r' : Regs) (hpc : r'.pc = r.pc) (hA : r'.A = r.A) (hX : r'.X = r.X) :
    (∃ a x, step w i r = .next { r with pc := r.pc + 1, A := a, X := x } ∧ step w i r' = .next { r' with pc := r.pc + 1, A := a, X := x }) ∨
    (∃ v, step w i r = .done v ∧ step w i r' = .done v) := by
  simp only [lineCodes, List.mem_cons, List.not_mem_nil, or_false] at hc
  rcases hc with h | h | h | h | h | h | h | h | h | h | h | h | h | h | h | h | h | h | h | h | h | h | h | h | h | h
  case inr.inr.inr.inr.inr.inr.inr.inr.inr.inr.inr.inr.inr.inr.inr.inr.inr.inr.inr.inr.inr.inr.inr.inr.inr =>
    have hk : i.k.toNat < 64 := by
      unfold seccompInstrOK at hs
      rw [if_pos h, Bool.and_eq_true, decide_eq_true_eq, decide_eq_true_eq] at hs
      exact hs.1
    obtain ⟨v, hwv⟩ : ∃ v, w[i.k.toNat / 4]? = some v := ⟨_, List.getElem?_eq_getElem (by omega)⟩
    left
    exact ⟨v, r.X, by simp [step, h, hwv], by simp [step, h, hwv, hpc, hX]⟩
  case inr.inr.inr.inr.inr.inr.inr.inr.inl =>
    by_cases hz : i.k = 0#32 <;> simp [step, h, alu, hz, hpc, hA, hX]
  case inr.inr.inr.inr.inr.inr.inr.inr.inr.inl =>
    by_cases hz : r.X = 0#32 <;> simp [step, h, alu, hz, hpc, hA, hX]
  all_goals simp [step, h, alu, hpc, hA, hX]

/-- A conditional jump takes one of its two branches, whatever the memory. -/
theorem cond_step (w : List (BitVec 32)) (i : SockFilter) (hc : i.code ∈ condJumps) (r r' : Regs) (hpc : r'.pc = r.pc)
    (hA : r'.A = r.A) (hX : r'.X = r.X) :
    ∃ c : Bool, step w i r = .next { r with pc := r.pc + 1 + (if c then i.jt.toNat else i.jf.toNat) } ∧
      step w i r' = .next { r' with pc := r.pc + 1 + (if c then i.jt.toNat else i.jf.toNat) } := by
  simp only [condJumps, List.mem_cons, List.not_mem_nil, or_false] at hc
  rcases hc with h | h | h | h | h | h | h | h
  · exact ⟨decide (r.A = i.k), by simp [step, h, cond], by simp [step, h, cond, hpc, hA]⟩
  · exact ⟨decide (r.A = r.X), by simp [step, h, cond], by simp [step, h, cond, hpc, hA, hX]⟩
  · exact ⟨decide (i.k < r.A), by simp [step, h, cond], by simp [step, h, cond, hpc, hA]⟩
  · exact ⟨decide (r.X < r.A), by simp [step, h, cond], by simp [step, h, cond, hpc, hA, hX]⟩
  · exact ⟨decide (i.k ≤ r.A), by simp [step, h, cond], by simp [step, h, cond, hpc, hA]⟩
  · exact ⟨decide (r.X ≤ r.A), by simp [step, h, cond], by simp [step, h, cond, hpc, hA, hX]⟩
  · exact ⟨decide (r.A &&& i.k ≠ 0), by simp [step, h, cond], by simp [step, h, cond, hpc, hA]⟩
  · exact ⟨decide (r.A &&& r.X ≠ 0), by simp [step, h, cond], by simp [step, h, cond, hpc, hA, hX]⟩

/-- Run at most `n` instructions. -/
def runFor (p : Prog) (w : List (BitVec 32)) : Nat → Regs → Option (BitVec 32)
  | 0, _ => none
  | n + 1, r =>
    match p[r.pc]? with
    | none => none
    | some i =>
      match step w i r with
      | .next r' => runFor p w n r'
      | .done v => some v
      | .bad => none

theorem runFrom_of_runFor (p : Prog) (w : List (BitVec 32)) (n : Nat) (r : Regs) (v : BitVec 32) (h : runFor p w n r = some v) :
    runFrom p w r = some v := by
  induction n generalizing r with
  | zero => cases h
  | succ n ih =>
    unfold runFor at h
    rw [runFrom]
    split
    · rename_i hp; rw [hp] at h; cases h
    · rename_i i hp
      rw [hp] at h
      simp only at h
      split
      · rename_i r' hs; rw [hs] at h; exact ih r' h
      · rename_i v' hs; rw [hs] at h; exact h
      · rename_i hs; rw [hs] at h; cases h

/-- From two states that cannot be told apart an accepted program returns the same value, within as many instructions as are left. -/
theorem total (p : Prog) (w : List (BitVec 32)) (hacc : accepts p = true) (hw : 16 ≤ w.length) :
    ∀ (n : Nat) (r r' : Regs) (masks : Nat → BitVec 16) (mv : BitVec 16), p.length - r.pc ≤ n → r.pc < p.length →
      memFrom r.pc masks mv (p.drop r.pc) = true → Alike r r' (mv &&& masks r.pc) →
      ∃ v, runFor p w n r = some v ∧ runFor p w n r' = some v := by
  simp only [accepts, Bool.and_eq_true, decide_eq_true_eq, List.all_eq_true] at hacc
  obtain ⟨⟨⟨⟨⟨-, -⟩, hcl⟩, hret⟩, -⟩, hsec⟩ := hacc
  intro n
  induction n with
  | zero => intro r r' masks mv h1 h2; omega
  | succ n ih =>
    intro r r' masks mv hn hlt hm hag
    obtain ⟨hpc, hA, hX, hM⟩ := hag
    have hp : p[r.pc]? = some p[r.pc] := List.getElem?_eq_getElem hlt
    have hmi : p[r.pc] ∈ p := List.getElem_mem hlt
    have hdrop : p.drop r.pc = p[r.pc] :: p.drop (r.pc + 1) := List.drop_eq_getElem_cons hlt
    generalize p[r.pc] = i at hp hmi hdrop
    have hok := classicFrom_get p.length p 0 r.pc i hcl hp
    rw [Nat.zero_add] at hok
    have hs := hsec i hmi
    rw [hdrop] at hm
    have hlast := endsInRet_last p hret r.pc i hp
    have hlen : (p.drop (r.pc + 1)).length = p.length - (r.pc + 1) := by simp
    unfold instrOK at hok
    rw [Bool.and_eq_true] at hok
    have hok := hok.2
    have next : ∀ u u', step w i r = .next u → step w i r' = .next u' →
        (∃ v, runFor p w n u = some v ∧ runFor p w n u' = some v) → ∃ v, runFor p w (n + 1) r = some v ∧ runFor p w (n + 1) r' = some v := by
      intro u u' h1 h2 h3
      simpa only [runFor, hpc, hp, h1, h2] using h3
    have stop : ∀ v, step w i r = .done v → step w i r' = .done v →
        ∃ v, runFor p w (n + 1) r = some v ∧ runFor p w (n + 1) r' = some v := by
      intro v h1 h2
      exact ⟨v, by simp only [runFor, hp, h1], by simp only [runFor, hpc, hp, h2]⟩
    have jump : ∀ (t : Nat) (masks' : Nat → BitVec 16), r.pc + 1 + t < p.length →
        memFrom (r.pc + 1) masks' (~~~0) (p.drop (r.pc + 1)) = true → Sub (masks' (r.pc + 1 + t)) (mv &&& masks r.pc) →
        ∃ v, runFor p w n { r with pc := r.pc + 1 + t } = some v ∧ runFor p w n { r' with pc := r.pc + 1 + t } = some v := by
      intro t masks' ht hm' hsub
      obtain ⟨m2, v2, e1, e2⟩ := mem_skip t _ _ _ _ hm' (by rw [hlen]; omega)
      rw [List.drop_drop] at e1
      exact ih _ _ m2 v2 (by simp; omega) ht e1
        ⟨rfl, hA, hX, fun j hj h => hM j hj (hsub j (e2 _ j (sub_and_right _ _ j h)))⟩
    rcases code_cases i hs with hc | hc | hc | hc | hc | hc | hc
    · -- straight line
      have g : i.code ∉ [0x02#16, 0x03#16, 0x60#16, 0x61#16, 0x05#16, 0x06#16, 0x16#16] ∧ i.code ∉ condJumps := by
        have : ∀ c ∈ lineCodes, c ∉ [0x02#16, 0x03#16, 0x60#16, 0x61#16, 0x05#16, 0x06#16, 0x16#16] ∧ c ∉ condJumps :=
          ball_of_all _ _ (by decide)
        exact this _ hc
      obtain ⟨h1, h2⟩ := g
      simp only [List.mem_cons, List.not_mem_nil, or_false, not_or] at h1
      obtain ⟨g1, g2, g3, g4, g5, g6, g7⟩ := h1
      have hnext := hlast g6 g7
      simp only [memFrom, List.mem_cons, List.not_mem_nil, or_false, g1, g2, g3, g4, g5, h2, if_false] at hm
      rcases line_step w hw i hs hc r r' hpc hA hX with ⟨a, x, e1, e2⟩ | ⟨v, e1, e2⟩
      · exact next _ _ e1 e2 (ih _ _ masks (mv &&& masks r.pc) (by simp; omega) hnext hm
          ⟨rfl, rfl, rfl, fun j hj h => hM j hj (sub_and_left _ _ j h)⟩)
      · exact stop v e1 e2
    · -- conditional jumps
      have hk : r.pc + i.jt.toNat + 1 < p.length ∧ r.pc + i.jf.toNat + 1 < p.length := by
        have hno : ∀ c ∈ condJumps, c ∉ [0x34#16, 0x94#16] ∧ c ∉ [0x64#16, 0x74#16] ∧ c ∉ [0x60#16, 0x61#16, 0x02#16, 0x03#16] ∧
            c ≠ 0x05#16 :=
          ball_of_all _ _ (by decide)
        obtain ⟨n1, n2, n3, n4⟩ := hno _ hc
        rw [if_neg n1, if_neg n2, if_neg n3, if_neg n4, if_pos hc] at hok
        simpa using hok
      have hno : ∀ c ∈ condJumps, c ∉ [0x02#16, 0x03#16] ∧ c ∉ [0x60#16, 0x61#16] ∧ c ≠ 0x05#16 :=
          ball_of_all _ _ (by decide)
      obtain ⟨n1, n2, n3⟩ := hno _ hc
      simp only [memFrom, if_neg n1, if_neg n2, if_neg n3, if_pos hc] at hm
      obtain ⟨c, e1, e2⟩ := cond_step w i hc r r' hpc hA hX
      refine next _ _ e1 e2 ?_
      cases c with
      | true => exact jump _ _ (by simp; omega) hm ((andMask_sub _ _ _ _).trans (andMask_self _ _ _))
      | false => exact jump _ _ (by simp; omega) hm (andMask_self _ _ _)
    · -- memory loads
      have hk : i.k.toNat < 16 := by
        simp only [List.mem_cons, List.not_mem_nil, or_false] at hc
        rcases hc with h | h <;> simpa [h] using hok
      have hno : ∀ c ∈ [0x60#16, 0x61#16], c ∉ [0x02#16, 0x03#16] ∧ c ≠ 0x06#16 ∧ c ≠ 0x16#16 :=
          ball_of_all _ _ (by decide)
      obtain ⟨n1, n2, n3⟩ := hno _ hc
      simp only [memFrom, if_neg n1, if_pos hc, Bool.and_eq_true, decide_eq_true_eq] at hm
      have hbit := bit_ne _ _ hk hm.1
      have hv := hM _ hk hbit
      have hnext := hlast n2 n3
      have go : ∀ a x, ∃ v, runFor p w n { r with pc := r.pc + 1, A := a, X := x } = some v ∧
          runFor p w n { r' with pc := r.pc + 1, A := a, X := x } = some v := fun a x =>
        ih _ _ masks (mv &&& masks r.pc) (by simp; omega) hnext hm.2 ⟨rfl, rfl, rfl, fun j hj h => hM j hj (sub_and_left _ _ j h)⟩
      simp only [List.mem_cons, List.not_mem_nil, or_false] at hc
      rcases hc with h | h
      · exact next _ _ (by simp [step, h]) (by simp [step, h, hpc, hX, hv]) (go (r.M i.k.toNat) r.X)
      · exact next _ _ (by simp [step, h]) (by simp [step, h, hpc, hA, hv]) (go r.A (r.M i.k.toNat))
    · -- stores
      have hk : i.k.toNat < 16 := by
        simp only [List.mem_cons, List.not_mem_nil, or_false] at hc
        rcases hc with h | h <;> simpa [h] using hok
      have hno : ∀ c ∈ [0x02#16, 0x03#16], c ≠ 0x06#16 ∧ c ≠ 0x16#16 :=
          ball_of_all _ _ (by decide)
      obtain ⟨n2, n3⟩ := hno _ hc
      simp only [memFrom, if_pos hc] at hm
      have hnext := hlast n2 n3
      have go : ∀ z, ∃ v, runFor p w n { r with pc := r.pc + 1, M := fun j => if j = i.k.toNat then z else r.M j } = some v ∧
          runFor p w n { r' with pc := r.pc + 1, M := fun j => if j = i.k.toNat then z else r'.M j } = some v := by
        intro z
        refine ih _ _ masks _ (by simp; omega) hnext hm ⟨rfl, hA, hX, fun j hj h => ?_⟩
        have hj1 := sub_and_left _ _ j h
        by_cases hjk : j = i.k.toNat
        · simp only [hjk, if_true]
        · simp only [hjk, if_false]
          exact hM j hj (bit_or _ _ _ hj1 hjk)
      simp only [List.mem_cons, List.not_mem_nil, or_false] at hc
      rcases hc with h | h
      · exact next _ _ (by simp [step, h]) (by simp [step, h, hpc, hA]) (go r.A)
      · exact next _ _ (by simp [step, h]) (by simp [step, h, hpc, hX]) (go r.X)
    · -- JA
      have hk : i.k.toNat < p.length - r.pc - 1 := by simpa [hc, condJumps] using hok
      simp only [memFrom, hc, List.mem_cons, List.not_mem_nil, BitVec.reduceEq, or_self, if_false, if_true] at hm
      exact next { r with pc := r.pc + 1 + i.k.toNat } { r' with pc := r.pc + 1 + i.k.toNat } (by simp [step, hc])
        (by simp [step, hc, hpc]) (jump _ _ (by omega) hm (andMask_self _ _ _))
    · exact stop i.k (by simp [step, hc]) (by simp [step, hc])
    · exact stop r.A (by simp [step, hc]) (by simp [step, hc, hA])

end Kernel
