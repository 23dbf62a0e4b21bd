import Verif.Env.Kernel
import Verif.Proofs.Prog

/-!
# The kernel interpreter on the instruction forms used by the library
-/
set_option autoImplicit false

namespace Kernel
open Bpfvm

theorem runFrom_step (p : Prog) (w : List (BitVec 32)) (r : Regs) (i : SockFilter) (h : p[r.pc]? = some i) :
    runFrom p w r = match step w i r with
      | .next r' => runFrom p w r'
      | .done v => some v
      | .bad => none := by
  rw [runFrom, h]
  rfl

theorem runFrom_of_ev (w : List (BitVec 32)) (p l pre : List SockFilter) (n : Nat) (r : Regs)
    (hprog : p = pre ++ l) (hpc : r.pc = pre.length + n) (v : BitVec 32) (h : ev w l n r.A = .ret v) :
    runFrom p w r = some v := by
  induction l generalizing pre n r with
  | nil => cases n <;> simp [ev] at h
  | cons i rest ih =>
    have hp' : p = (pre ++ [i]) ++ rest := by simp [hprog]
    cases n with
    | succ n => exact ih (pre ++ [i]) n r hp' (by simp [hpc]; omega) (by simpa only [ev] using h)
    | zero =>
      have hget : p[r.pc]? = some i := by simp [hprog, hpc]
      rw [runFrom_step p w r i hget]
      simp only [ev] at h
      obtain ⟨code, jt, jf, k⟩ := i
      simp only at *
      by_cases h1 : code = 0x20#16
      · subst h1
        simp only [if_true] at h
        cases hv : w[k.toNat / 4]? with
        | none => simp [hv] at h
        | some v' =>
          simp only [hv] at h
          have := ih _ 0 { r with pc := r.pc + 1, A := v' } hp' (by simp [hpc]) h
          simpa [step, hv] using this
      rw [if_neg h1] at h
      by_cases h2 : code = 0x15#16
      · subst h2
        have := ih _ (if r.A = k then jt.toNat else jf.toNat)
          { r with pc := r.pc + 1 + (if r.A = k then jt.toNat else jf.toNat) } hp' (by simp [hpc]) (by simpa using h)
        simpa [step, cond] using this
      rw [if_neg h2] at h
      by_cases h3 : code = 0x25#16
      · subst h3
        have := ih _ (if k < r.A then jt.toNat else jf.toNat)
          { r with pc := r.pc + 1 + (if k < r.A then jt.toNat else jf.toNat) } hp' (by simp [hpc]) (by simpa using h)
        simpa [step, cond] using this
      rw [if_neg h3] at h
      by_cases h4 : code = 0x05#16
      · subst h4
        have := ih _ k.toNat { r with pc := r.pc + 1 + k.toNat } hp' (by simp [hpc]) (by simpa using h)
        simpa [step] using this
      rw [if_neg h4] at h
      by_cases h5 : code = 0x54#16
      · subst h5
        have := ih _ 0 { r with pc := r.pc + 1, A := r.A &&& k } hp' (by simp [hpc]) (by simpa using h)
        simpa [step, alu] using this
      rw [if_neg h5] at h
      by_cases h6 : code = 0x06#16
      · subst h6
        simp only [if_true, Ev.ret.injEq] at h
        simp [step, h]
      rw [if_neg h6] at h
      simp at h

theorem run_of_ev (m0 : Nat → BitVec 32) (w : List (BitVec 32)) (p : Prog) (v : BitVec 32) (h : ev w p 0 0 = .ret v) :
    run m0 p w = some v :=
  runFrom_of_ev w p p [] 0 _ (by simp) (by simp) v h

/-- The kernel's value of a generated program. -/
theorem run_progOf (m0 : Nat → BitVec 32) (ids : Pledge.Ids) (ps : List Pledge.Promise) (v : BitVec 32) (d : SeccompData) :
    run m0 (Pledge.progOf ids ps v) d.words = some (Spec.verdict ids ps v d) :=
  run_of_ev m0 _ _ _ (Pledge.ev_prog_verdict ids d ps v)

end Kernel
