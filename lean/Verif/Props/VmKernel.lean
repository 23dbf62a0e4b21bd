import Verif.Proofs.VmKernel
import Verif.Props.Vm
import Verif.Spec.Observe

/-!
# C18: the VM and the kernel on arbitrary accepted programs
-/
set_option autoImplicit false

namespace Props
open Bpfvm Spec Kernel

/-- The instruction forms that the kernel accepts and the VM does not implement, or not like the kernel: conditional jumps with
register operand (JEQ, JGT, JGE, JSET), NEG, TAX, TXA, and the loads of the record's length into A and X. -/
def notLikeKernel : List (BitVec 16) := [0x1d#16, 0x2d#16, 0x3d#16, 0x4d#16, 0x84#16, 0x07#16, 0x87#16, 0x80#16, 0x81#16]

/-- Division of A by X. -/
def divX : BitVec 16 := 0x3c#16

theorem runProg_same (b : Build) (p : Prog) (data w : List (BitVec 32)) (m0 : Nat → BitVec 32) (hacc : accepts p = true)
    (hsup : ∀ i ∈ p, i.code ∉ notLikeKernel) (hdata : ∀ j < 16, data[j]? = w[j]?) (hw : 16 ≤ w.length) :
    ∃ v, Kernel.run m0 p w = some v ∧
      (runProg b p data = some (.ok v) ∨ runProg b p data = some .panic ∧ MayPanic b p v) := by
  have hacc' := hacc
  simp only [accepts, Bool.and_eq_true, decide_eq_true_eq] at hacc'
  obtain ⟨⟨⟨⟨⟨hl, hl'⟩, -⟩, -⟩, hm⟩, -⟩ := hacc'
  have hlen : ¬ p.length > 65535 := by unfold maxInsns at hl'; omega
  have hrun : runProg b p data = (VM.loop b ⟨0, 0, 0, Vector.replicate MEMSIZE 0, p⟩ data).map Prod.snd := by
    unfold runProg VM.new
    rw [if_neg hlen]
    rfl
  rw [hrun]
  unfold Kernel.run
  exact sim b p data w hacc hsup hdata hw p.length ⟨0, 0, 0, Vector.replicate MEMSIZE 0, p⟩ ⟨0, 0, 0, m0⟩ (fun _ => ~~~0) 0
    (by simp) hl rfl hm ⟨rfl, rfl, rfl, fun j _ h => by simp at h⟩

/-- C18, unchecked builds: on every program the kernel accepts that avoids these forms, for every record and every initial content
of the kernel's scratch memory, the kernel returns a value and the VM returns the same one. -/
theorem C18_unchecked (b : Build) (hb : b.overflowChecks = false) (p : List SockFilter) (hacc : accepts p = true)
    (hsup : ∀ i ∈ p, i.code ∉ notLikeKernel ∧ i.code ≠ divX) (m0 : Nat → BitVec 32) (d : SeccompData) :
    ∃ v, Kernel.run m0 p d.words = some v ∧ runProg b p d.words = some (.ok v) := by
  obtain ⟨v, h1, h2⟩ := runProg_same b p d.words d.words m0 hacc (fun i hi => (hsup i hi).1) (fun _ _ => rfl) (Nat.le_refl 16)
  rcases h2 with h2 | ⟨-, h3 | ⟨⟨i, hi, h3⟩, -⟩⟩
  · exact ⟨v, h1, h2⟩
  · rw [hb] at h3; cases h3
  · exact absurd h3 (hsup i hi).2

/-- C18, unchecked builds, division by X included: the VM returns the kernel's value, or it panics and the kernel returns 0. -/
theorem C18_unchecked_div (b : Build) (hb : b.overflowChecks = false) (p : List SockFilter) (hacc : accepts p = true)
    (hsup : ∀ i ∈ p, i.code ∉ notLikeKernel) (m0 : Nat → BitVec 32) (d : SeccompData) :
    ∃ v, Kernel.run m0 p d.words = some v ∧ (runProg b p d.words = some (.ok v) ∨ runProg b p d.words = some .panic ∧ v = 0) := by
  obtain ⟨v, h1, h2⟩ := runProg_same b p d.words d.words m0 hacc hsup (fun _ _ => rfl) (Nat.le_refl 16)
  rcases h2 with h2 | ⟨h2, h3 | ⟨-, h3⟩⟩
  · exact ⟨v, h1, .inl h2⟩
  · rw [hb] at h3; cases h3
  · exact ⟨v, h1, .inr ⟨h2, h3⟩⟩

/-- C18, every build, division by X included: the VM returns the kernel's value or panics; never another value, never an error. -/
theorem C18_value_or_panic (b : Build) (p : List SockFilter) (hacc : accepts p = true)
    (hsup : ∀ i ∈ p, i.code ∉ notLikeKernel) (m0 : Nat → BitVec 32) (d : SeccompData) :
    ∃ v, Kernel.run m0 p d.words = some v ∧ (runProg b p d.words = some (.ok v) ∨ runProg b p d.words = some .panic) := by
  obtain ⟨v, h1, h2⟩ := runProg_same b p d.words d.words m0 hacc hsup (fun _ _ => rfl) (Nat.le_refl 16)
  exact ⟨v, h1, h2.imp id And.left⟩

/-- C18 through `any_to_data`: although the slice is too long (C26) the words behind the record have no influence. -/
theorem C18_slice (b : Build) (p : List SockFilter) (hacc : accepts p = true) (hsup : ∀ i ∈ p, i.code ∉ notLikeKernel)
    (m0 : Nat → BitVec 32) (d : SeccompData) (beyond : Nat → BitVec 32) :
    ∃ v, Kernel.run m0 p d.words = some v ∧
      (runProg b p (anyToData d.words beyond) = some (.ok v) ∨
       runProg b p (anyToData d.words beyond) = some .panic ∧ (b.overflowChecks = true ∨ (∃ i ∈ p, i.code = divX) ∧ v = 0)) :=
  runProg_same b p _ d.words m0 hacc hsup
    (fun j hj => by
      rw [anyToData, List.getElem?_append_left (by exact hj)]) (Nat.le_refl 16)

/-! ### Cases

A program with an indirect flow through scratch memory, a forward jump, an ALU operation with X and every kind of store. -/

/-- ld [16]; st M3; ldx #7; stx M5; ld M3; add x; jeq #9, +0, +2; ldx M5; ja +1; ld M3; ret a -/
def sample : List SockFilter :=
  [⟨0x20, 0, 0, 16⟩, ⟨0x02, 0, 0, 3⟩, ⟨0x01, 0, 0, 7⟩, ⟨0x03, 0, 0, 5⟩, ⟨0x60, 0, 0, 3⟩, ⟨0x0c, 0, 0, 0⟩, ⟨0x15, 0, 2, 9⟩,
   ⟨0x61, 0, 0, 5⟩, ⟨0x05, 0, 0, 1⟩, ⟨0x60, 0, 0, 3⟩, ⟨0x16, 0, 0, 0⟩]

/-- Not vacuous: the same on a longer slice. -/
example := C18_slice ⟨true⟩ sample (by decide +kernel) (by decide +kernel) (fun _ => 7) (mkCall 0 [2]) fun _ => 9

/-- Not vacuous: the same in a checked build. -/
example := C18_value_or_panic ⟨true⟩ sample (by decide +kernel) (by decide +kernel) (fun _ => 7) (mkCall 0 [2])

/-- Not vacuous: the accumulator by a register that is zero. -/
example := C18_unchecked_div ⟨false⟩ rfl [⟨0x20, 0, 0, 0⟩, ⟨0x3c, 0, 0, 0⟩, ⟨0x16, 0, 0, 0⟩] (by decide +kernel) (by decide +kernel) (fun _ => 7)
  (mkCall 5 [])

/-- Not vacuous: a program with arithmetic, jumps and memory. -/
example := C18_unchecked ⟨false⟩ rfl sample (by decide +kernel) (by decide +kernel) (fun _ => 7) (mkCall 0 [2])

example : accepts sample = true ∧ ∀ i ∈ sample, i.code ∉ notLikeKernel ∧ i.code ≠ divX := by decide +kernel

/-- The value for a first argument of 2: the sum. -/
example (b : Build) : runProg b sample (mkCall 0 [2]).words = some (.ok 9) := by
  rw [runProg_fuel b _ _ (by decide)]
  cases b with | mk o => cases o <;> exact congrArg some (by decide)

/-! ### The excluded forms really differ -/

/-- The interpreter with fuel, for evaluating examples. -/
def kfuel (p : Prog) (w : List (BitVec 32)) : Nat → Regs → Option (BitVec 32)
  | 0, _ => none
  | n + 1, r => match p[r.pc]? with
    | none => none
    | some i => match step w i r with
      | .next r' => kfuel p w n r'
      | .done v => some v
      | .bad => none

theorem runFrom_fuel (p : Prog) (w : List (BitVec 32)) (n : Nat) (r : Regs) (v : BitVec 32) (h : kfuel p w n r = some v) :
    runFrom p w r = some v := by
  induction n generalizing r with
  | zero => cases h
  | succ n ih =>
    rw [runFrom]
    unfold kfuel at h
    split
    · rename_i e; rw [e] at h; cases h
    · rename_i i e
      rw [e] at h
      simp only at h
      split
      · rename_i r' e'; rw [e'] at h; exact ih r' h
      · rename_i v' e'; rw [e'] at h; exact h
      · rename_i e'; rw [e'] at h; cases h

/-- For every excluded form there is an accepted program using it on which every build of the VM does not return the kernel's
value. -/
theorem C18_limits (c : BitVec 16) (hc : c ∈ divX :: notLikeKernel) :
    ∃ p : List SockFilter, accepts p = true ∧ (∃ i ∈ p, i.code = c) ∧ (∀ i ∈ p, i.code ∈ divX :: notLikeKernel → i.code = c) ∧
      ∀ b m0 (d : SeccompData), ∃ v, Kernel.run m0 p d.words = some v ∧ runProg b p d.words ≠ some (.ok v) := by
  have key : ∀ (p : List SockFilter) (v : BitVec 32) (r : Res Error (BitVec 32)), p.length ≤ 65535 → r ≠ .ok v →
      (∀ (m0 : Nat → BitVec 32) (d : SeccompData), kfuel p d.words 9 ⟨0, 0, 0, m0⟩ = some v) →
      (∀ (o : Bool) (d : SeccompData), (loopFuel ⟨o⟩ d.words p.length ⟨0, 0, 0, Vector.replicate MEMSIZE 0, p⟩).2 = r) →
      ∀ b m0 (d : SeccompData), ∃ v, Kernel.run m0 p d.words = some v ∧ runProg b p d.words ≠ some (.ok v) := by
    intro p v r hl hr h1 h2 b m0 d
    refine ⟨v, runFrom_fuel p _ 9 _ v (h1 m0 d), ?_⟩
    rw [runProg_fuel b _ _ hl, h2 b.overflowChecks d]
    intro h
    exact hr (Option.some.inj h)
  simp only [divX, notLikeKernel, List.mem_cons, List.not_mem_nil, or_false] at hc
  rcases hc with rfl | rfl | rfl | rfl | rfl | rfl | rfl | rfl | rfl | rfl
  · -- A / X with X = 0
    exact ⟨[⟨0x3c, 0, 0, 0⟩, ⟨0x06, 0, 0, 1⟩], by decide, by simp, by decide,
      key _ 0 .panic (by decide) (by decide) (fun _ _ => rfl) (fun o _ => rfl)⟩
  · -- JEQ x: X = 0, A = 1, k = 1
    exact ⟨[⟨0x00, 0, 0, 1⟩, ⟨0x1d, 0, 1, 1⟩, ⟨0x06, 0, 0, 1⟩, ⟨0x06, 0, 0, 2⟩], by decide, by simp, by decide,
      key _ 2 (.ok 1) (by decide) (by decide) (fun _ _ => rfl) (fun o _ => by cases o <;> rfl)⟩
  · -- JGT x: X = 0, A = 1, k = 1
    exact ⟨[⟨0x00, 0, 0, 1⟩, ⟨0x2d, 0, 1, 1⟩, ⟨0x06, 0, 0, 1⟩, ⟨0x06, 0, 0, 2⟩], by decide, by simp, by decide,
      key _ 1 (.ok 2) (by decide) (by decide) (fun _ _ => rfl) (fun o _ => by cases o <;> rfl)⟩
  · -- JGE x: X = 0, A = 1, k = 2
    exact ⟨[⟨0x00, 0, 0, 1⟩, ⟨0x3d, 0, 1, 2⟩, ⟨0x06, 0, 0, 1⟩, ⟨0x06, 0, 0, 2⟩], by decide, by simp, by decide,
      key _ 1 (.ok 2) (by decide) (by decide) (fun _ _ => rfl) (fun o _ => by cases o <;> rfl)⟩
  · -- JSET x: X = 0, A = 1, k = 1
    exact ⟨[⟨0x00, 0, 0, 1⟩, ⟨0x4d, 0, 1, 1⟩, ⟨0x06, 0, 0, 1⟩, ⟨0x06, 0, 0, 2⟩], by decide, by simp, by decide,
      key _ 2 (.ok 1) (by decide) (by decide) (fun _ _ => by simp [kfuel, step, Kernel.cond]) (fun o _ => by cases o <;> rfl)⟩
  · -- NEG
    exact ⟨[⟨0x84, 0, 0, 0⟩, ⟨0x06, 0, 0, 1⟩], by decide, by simp, by decide,
      key _ 1 (.err (.UnsupportedInstruction 0x80)) (by decide) (by decide) (fun _ _ => rfl) (fun o _ => by cases o <;> rfl)⟩
  · -- TAX
    exact ⟨[⟨0x07, 0, 0, 0⟩, ⟨0x06, 0, 0, 1⟩], by decide, by simp, by decide,
      key _ 1 (.err (.UnsupportedInstruction 7)) (by decide) (by decide) (fun _ _ => rfl) (fun o _ => by cases o <;> rfl)⟩
  · -- TXA
    exact ⟨[⟨0x87, 0, 0, 0⟩, ⟨0x06, 0, 0, 1⟩], by decide, by simp, by decide,
      key _ 1 (.err (.UnsupportedInstruction 7)) (by decide) (by decide) (fun _ _ => rfl) (fun o _ => by cases o <;> rfl)⟩
  · -- LD LEN: 64 bytes, 16 words
    exact ⟨[⟨0x80, 0, 0, 0⟩, ⟨0x16, 0, 0, 0⟩], by decide, by simp, by decide,
      key _ 64 (.ok 16) (by decide) (by decide) (fun _ _ => rfl) (fun o _ => by cases o <;> rfl)⟩
  · -- LDX LEN
    exact ⟨[⟨0x81, 0, 0, 0⟩, ⟨0x0c, 0, 0, 0⟩, ⟨0x16, 0, 0, 0⟩], by decide, by simp, by decide,
      key _ 64 (.ok 16) (by decide) (by decide) (fun _ _ => rfl) (fun o _ => by cases o <;> rfl)⟩

/-- Not vacuous: division by the register is one of the codes. -/
example := C18_limits divX (by simp)

end Props
