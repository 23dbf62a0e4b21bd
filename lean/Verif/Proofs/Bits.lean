import Verif.Spec.Policy

/-! # Masks against bit positions -/
set_option autoImplicit false

namespace Pledge
open Bpfvm Spec

theorem lo_eq_setWidth (x : BitVec 64) : lo x = x.setWidth 32 := by
  unfold lo
  apply BitVec.eq_of_getLsbD_eq
  intro i hi
  simp [hi]

theorem and_eq_zero_iff (x m : BitVec 32) : x &&& m = 0 ↔ ∀ i, i < 32 → m.getLsbD i = true → x.getLsbD i = false := by
  constructor
  · intro h i hi hm
    have := congrArg (fun y => y.getLsbD i) h
    simpa [hm] using this
  · intro h
    apply BitVec.eq_of_getLsbD_eq
    intro i hi
    have := h i hi
    simp only [BitVec.getLsbD_and, BitVec.ofNat_eq_ofNat, BitVec.getLsbD_zero]
    cases hm : m.getLsbD i
    · simp
    · simp [this hm]

theorem and_eq_self_iff (x m : BitVec 32) : x &&& m = m ↔ ∀ i, i < 32 → m.getLsbD i = true → x.getLsbD i = true := by
  constructor
  · intro h i hi hm
    have := congrArg (fun y => y.getLsbD i) h
    simpa [hm] using this
  · intro h
    apply BitVec.eq_of_getLsbD_eq
    intro i hi
    have := h i hi
    simp only [BitVec.getLsbD_and]
    cases hm : m.getLsbD i
    · simp
    · simp [this hm]

/-- The mask `m` has exactly the listed bits (checked by evaluation for literal masks). -/
def isMask (m : BitVec 32) (bits : List Nat) : Bool :=
  (List.range 32).all (fun i => m.getLsbD i == bits.contains i) && bits.all (· < 32)

theorem mask_none (x m : BitVec 32) (bits : List Nat) (h : isMask m bits = true) : x &&& m = 0 ↔ hasNone x bits := by
  simp only [isMask, Bool.and_eq_true, List.all_eq_true, List.mem_range, beq_iff_eq, decide_eq_true_eq] at h
  rw [and_eq_zero_iff]
  constructor
  · intro hx i hi
    exact hx i (h.2 i hi) (by rw [h.1 i (h.2 i hi)]; simpa using hi)
  · intro hx i hi hm
    rw [h.1 i hi] at hm
    exact hx i (by simpa using hm)

theorem mask_all (x m : BitVec 32) (bits : List Nat) (h : isMask m bits = true) : x &&& m = m ↔ hasAll x bits := by
  simp only [isMask, Bool.and_eq_true, List.all_eq_true, List.mem_range, beq_iff_eq, decide_eq_true_eq] at h
  rw [and_eq_self_iff]
  constructor
  · intro hx i hi
    exact hx i (h.2 i hi) (by rw [h.1 i (h.2 i hi)]; simpa using hi)
  · intro hx i hi hm
    rw [h.1 i hi] at hm
    exact hx i (by simpa using hm)

theorem mask_two_none (x : BitVec 32) :
    (x &&& 0x40 ≠ 0x40 ∧ x &&& 0x400000 ≠ 0x400000) ↔ hasNone x [6, 22] := by
  have h1 := mask_all x 0x40 [6] (by decide)
  have h2 := mask_all x 0x400000 [22] (by decide)
  rw [ne_eq, ne_eq, h1, h2]
  simp [hasNone, hasAll]

theorem mask_prot (x : BitVec 32) : x &&& 0xfffffffc = 0 ↔ ∀ i, 2 ≤ i → x.getLsbD i = false := by
  rw [mask_none x _ ((List.range 30).map (· + 2)) (by decide)]
  unfold hasNone
  constructor
  · intro h i hi
    by_cases hlt : i < 32
    · exact h i (by simp only [List.mem_map, List.mem_range]; exact ⟨i - 2, by omega, by omega⟩)
    · exact BitVec.getLsbD_of_ge x i (by omega)
  · intro h i hi
    simp only [List.mem_map, List.mem_range] at hi
    obtain ⟨j, _, rfl⟩ := hi
    exact h _ (by omega)

theorem acc_mode (x : BitVec 32) (c : BitVec 2) : x &&& 3 = c.setWidth 32 ↔ x.setWidth 2 = c := by
  have h3 : ∀ i, i < 32 → (3#32).getLsbD i = decide (i < 2) := by decide
  constructor
  · intro h
    apply BitVec.eq_of_getLsbD_eq
    intro i hi
    have := congrArg (fun y => y.getLsbD i) h
    simp only [BitVec.ofNat_eq_ofNat, BitVec.getLsbD_and, h3 i (by omega), hi, decide_true, Bool.and_true,
      BitVec.getLsbD_setWidth, show i < 32 by omega, Bool.true_and] at this
    simp [hi, this]
  · intro h
    subst h
    apply BitVec.eq_of_getLsbD_eq
    intro i hi
    simp only [BitVec.ofNat_eq_ofNat, BitVec.getLsbD_and, h3 i (by omega), BitVec.getLsbD_setWidth]
    simp [hi, Bool.and_comm]

theorem acc_mode0 (x : BitVec 32) : x &&& 3 = 0 ↔ x.setWidth 2 = 0#2 := acc_mode x 0
theorem acc_mode1 (x : BitVec 32) : x &&& 3 = 1 ↔ x.setWidth 2 = 1#2 := acc_mode x 1
theorem acc_mode2 (x : BitVec 32) : x &&& 3 = 2 ↔ x.setWidth 2 = 2#2 := acc_mode x 2

theorem split_mask (x m : BitVec 32) : (x &&& ~~~m) ||| (x &&& m) = x := by
  apply BitVec.eq_of_getLsbD_eq
  intro i hi
  simp only [BitVec.getLsbD_or, BitVec.getLsbD_and, BitVec.getLsbD_not, hi, decide_true, Bool.true_and]
  cases x.getLsbD i <;> cases m.getLsbD i <;> rfl

theorem two_bits (x : BitVec 32) : x &&& 0x80800 ∈ [0x0#32, 0x800#32, 0x80000#32, 0x80800#32] := by
  have h : x &&& 0x80800 = (if x.getLsbD 11 then 0x800 else 0) ||| (if x.getLsbD 19 then 0x80000 else 0) := by
    apply BitVec.eq_of_getLsbD_eq
    intro i hi
    have hm : ∀ i, i < 32 → (0x80800#32).getLsbD i = (decide (i = 11) || decide (i = 19)) := by decide
    have hm1 : ∀ i, i < 32 → (0x800#32).getLsbD i = decide (i = 11) := by decide
    have hm2 : ∀ i, i < 32 → (0x80000#32).getLsbD i = decide (i = 19) := by decide
    simp only [BitVec.ofNat_eq_ofNat, BitVec.getLsbD_and, BitVec.getLsbD_or, hm i hi]
    by_cases h11 : i = 11
    · subst h11
      cases hx : x.getLsbD 11 <;> cases hy : x.getLsbD 19 <;> decide
    · by_cases h19 : i = 19
      · subst h19
        cases hx : x.getLsbD 11 <;> cases hy : x.getLsbD 19 <;> decide
      · have e1 : (if x.getLsbD 11 = true then 0x800#32 else 0#32).getLsbD i = false := by
          split
          · simp [hm1 i hi, h11]
          · simp
        have e2 : (if x.getLsbD 19 = true then 0x80000#32 else 0#32).getLsbD i = false := by
          split
          · simp [hm2 i hi, h19]
          · simp
        rw [e1, e2, decide_eq_false h11, decide_eq_false h19]; simp
  rw [h]
  cases x.getLsbD 11 <;> cases x.getLsbD 19 <;> decide

theorem sock_type (x t : BitVec 32) (ht : t &&& 0x80800 = 0) : x &&& 0xfff7f7ff = t ↔ isSockType x t := by
  have hm : (0xfff7f7ff : BitVec 32) = ~~~0x80800 := by decide
  rw [hm]
  constructor
  · intro h
    refine ⟨x &&& 0x80800, two_bits x, ?_⟩
    have := split_mask x 0x80800
    rw [h] at this
    exact this.symm
  · rintro ⟨fl, hfl, rfl⟩
    have hf : fl &&& ~~~0x80800 = 0 := by
      simp only [List.mem_cons, List.not_mem_nil, or_false] at hfl
      rcases hfl with rfl | rfl | rfl | rfl <;> decide
    have e : (t ||| fl) &&& ~~~0x80800 = (t &&& ~~~0x80800) ||| (fl &&& ~~~0x80800) := by
      apply BitVec.eq_of_getLsbD_eq
      intro i hi
      simp only [BitVec.getLsbD_or, BitVec.getLsbD_and, Bool.and_or_distrib_right]
    rw [e, hf]
    have := split_mask t 0x80800
    rw [ht] at this
    simpa using this

theorem arg_zero (x : BitVec 64) : (lo x = 0 ∧ hi x = 0) ↔ x = 0 := by
  constructor
  · rintro ⟨h1, h2⟩
    apply BitVec.eq_of_getLsbD_eq
    intro i hi'
    have a := congrArg (fun y => y.getLsbD i) h1
    have b := congrArg (fun y => y.getLsbD (i - 32)) h2
    simp only [lo, hi, BitVec.getLsbD_extractLsb', BitVec.ofNat_eq_ofNat, BitVec.getLsbD_zero, Bool.and_eq_false_iff,
      decide_eq_false_iff_not, Nat.zero_add] at a b
    simp only [BitVec.ofNat_eq_ofNat, BitVec.getLsbD_zero]
    by_cases h : i < 32
    · simpa [h] using a
    · have e : 32 + (i - 32) = i := by omega
      rw [e] at b
      rcases b with b | b
      · omega
      · exact b
  · rintro rfl; decide

theorem not_lt_iff (x : BitVec 32) (n : Nat) (hn : n < 2 ^ 32) : ¬ BitVec.ofNat 32 n < x ↔ x.toNat ≤ n := by
  rw [BitVec.lt_def, BitVec.toNat_ofNat, Nat.mod_eq_of_lt hn]; omega

end Pledge
