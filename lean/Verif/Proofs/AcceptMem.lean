import Verif.Proofs.VmKernel

/-!
# The kernel's check of memory loads is the meet over all paths
-/
set_option autoImplicit false

namespace Kernel
open Bpfvm

/-- Some path from the start arrives at position `pc` without a store to cell `k`. -/
inductive UnsetAt (p : Prog) (k : Nat) : Nat → Prop
  | start : UnsetAt p k 0
  | next (pc : Nat) (i : SockFilter) : UnsetAt p k pc → p[pc]? = some i → i.code ≠ 0x05#16 → i.code ∉ condJumps →
      ¬ (i.code ∈ [0x02#16, 0x03#16] ∧ i.k.toNat = k) → UnsetAt p k (pc + 1)
  | ja (pc : Nat) (i : SockFilter) : UnsetAt p k pc → p[pc]? = some i → i.code = 0x05#16 → UnsetAt p k (pc + 1 + i.k.toNat)
  | cond (pc : Nat) (i : SockFilter) (t : BitVec 8) : UnsetAt p k pc → p[pc]? = some i → i.code ∈ condJumps → t = i.jt ∨ t = i.jf →
      UnsetAt p k (pc + 1 + t.toNat)

/-- The jump at `pc` can lead to `t`. -/
def JumpsTo (p : Prog) (pc t : Nat) : Prop :=
  ∃ i, p[pc]? = some i ∧ (i.code = 0x05#16 ∧ t = pc + 1 + i.k.toNat ∨
    i.code ∈ condJumps ∧ (t = pc + 1 + i.jt.toNat ∨ t = pc + 1 + i.jf.toNat))

/-- The instruction at `pc` goes on to the next one and does not store cell `k`. -/
def Falls (p : Prog) (k pc : Nat) : Prop :=
  ∃ i, p[pc]? = some i ∧ i.code ≠ 0x05#16 ∧ i.code ∉ condJumps ∧ ¬ (i.code ∈ [0x02#16, 0x03#16] ∧ i.k.toNat = k)

theorem unsetAt_iff (p : Prog) (k pc : Nat) :
    UnsetAt p k pc ↔ (pc = 0 ∨ ∃ q, pc = q + 1 ∧ UnsetAt p k q ∧ Falls p k q) ∨ ∃ q, q < pc ∧ UnsetAt p k q ∧ JumpsTo p q pc := by
  constructor
  · intro h
    cases h with
    | start => exact .inl (.inl rfl)
    | next q i h1 h2 h3 h4 h5 => exact .inl (.inr ⟨q, rfl, h1, i, h2, h3, h4, h5⟩)
    | ja q i h1 h2 h3 => exact .inr ⟨q, by omega, h1, i, h2, .inl ⟨h3, rfl⟩⟩
    | cond q i t h1 h2 h3 h4 =>
      refine .inr ⟨q, by omega, h1, i, h2, .inr ⟨h3, ?_⟩⟩
      rcases h4 with rfl | rfl
      · exact .inl rfl
      · exact .inr rfl
  · rintro ((rfl | ⟨q, rfl, h1, i, h2, h3, h4, h5⟩) | ⟨q, -, h1, i, h2, ⟨h3, rfl⟩ | ⟨h3, rfl | rfl⟩⟩)
    · exact .start
    · exact .next q i h1 h2 h3 h4 h5
    · exact .ja q i h1 h2 h3
    · exact .cond q i _ h1 h2 h3 (.inl rfl)
    · exact .cond q i _ h1 h2 h3 (.inr rfl)

/-- What the check knows before instruction `pc`. -/
structure Knows (p : Prog) (pc : Nat) (masks : Nat → BitVec 16) (mv : BitVec 16) : Prop where
  fall : ∀ k < 16, mv.getLsbD k = false ↔ pc = 0 ∨ ∃ q, pc = q + 1 ∧ UnsetAt p k q ∧ Falls p k q
  jumps : ∀ k < 16, ∀ t, (masks t).getLsbD k = false ↔ ∃ q, q < pc ∧ UnsetAt p k q ∧ JumpsTo p q t

theorem knows_at {p : Prog} {pc : Nat} {masks : Nat → BitVec 16} {mv : BitVec 16} (h : Knows p pc masks mv) (k : Nat) (hk : k < 16) :
    (mv &&& masks pc).getLsbD k = false ↔ UnsetAt p k pc := by
  rw [unsetAt_iff, BitVec.getLsbD_and, Bool.and_eq_false_iff, h.fall k hk, h.jumps k hk]

theorem bit_self (k j : Nat) (hk : k < 16) (hj : j < 16) : (1#16 <<< k).getLsbD j = decide (j = k) := by
  simp only [BitVec.getLsbD_shiftLeft, BitVec.getLsbD_one]
  by_cases h1 : j < k
  · have : j ≠ k := by omega
    simp [h1, this]
  · by_cases h2 : j = k
    · subst h2; simp [hj]
    · have : j - k ≠ 0 := by omega
      simp [this, h2]

theorem bit_test (V : BitVec 16) (k : Nat) (hk : k < 16) : V &&& (1#16 <<< k) ≠ 0 ↔ V.getLsbD k = true := by
  refine ⟨bit_ne V k hk, fun h e => ?_⟩
  have := congrArg (fun x => x.getLsbD k) e
  rw [BitVec.getLsbD_and, bit_self k k hk hk, h] at this
  simp at this

theorem get_andMask (masks : Nat → BitVec 16) (t j k : Nat) (m : BitVec 16) :
    (andMask masks t m j).getLsbD k = false ↔ (masks j).getLsbD k = false ∨ j = t ∧ m.getLsbD k = false := by
  unfold andMask
  split
  · rename_i h
    rw [BitVec.getLsbD_and, Bool.and_eq_false_iff]
    simp [h]
  · rename_i h
    simp [h]

theorem ones_bit (k : Nat) (hk : k < 16) : (~~~(0 : BitVec 16)).getLsbD k = false ↔ False := by
  have : ∀ k : Fin 16, (~~~(0 : BitVec 16)).getLsbD k = true := by decide
  rw [this ⟨k, hk⟩]
  simp

theorem memFrom_iff (p : Prog) (hk : ∀ i ∈ p, i.code ∈ [0x60#16, 0x61#16, 0x02#16, 0x03#16] → i.k.toNat < 16) :
    ∀ (l : Prog) (pre : Prog) (masks : Nat → BitVec 16) (mv : BitVec 16), p = pre ++ l → Knows p pre.length masks mv →
      (memFrom pre.length masks mv l = true ↔
        ∀ n i, l[n]? = some i → i.code ∈ [0x60#16, 0x61#16] → ¬ UnsetAt p i.k.toNat (pre.length + n)) := by
  intro l
  induction l with
  | nil => intro pre masks mv _ _; simp [memFrom]
  | cons i l ih =>
    intro pre masks mv hp hkn
    have hat := knows_at hkn
    have hi : p[pre.length]? = some i := by rw [hp]; simp
    have him : i ∈ p := by rw [hp]; simp
    have hp' : p = (pre ++ [i]) ++ l := by rw [hp]; simp
    have hlen : (pre ++ [i]).length = pre.length + 1 := by simp
    -- what the tail says
    have tail : ∀ masks' mv', Knows p (pre.length + 1) masks' mv' →
        (memFrom (pre.length + 1) masks' mv' l = true ↔
          ∀ n j, l[n]? = some j → j.code ∈ [0x60#16, 0x61#16] → ¬ UnsetAt p j.k.toNat (pre.length + (n + 1))) := by
      intro masks' mv' hkn'
      have h1 := ih (pre ++ [i]) masks' mv' hp' (by rw [hlen]; exact hkn')
      rw [hlen] at h1
      rw [h1]
      simp only [Nat.add_assoc, Nat.add_comm 1]
    -- splitting the claim at the head
    have split : (∀ n j, (i :: l)[n]? = some j → j.code ∈ [0x60#16, 0x61#16] → ¬ UnsetAt p j.k.toNat (pre.length + n)) ↔
        (i.code ∈ [0x60#16, 0x61#16] → ¬ UnsetAt p i.k.toNat pre.length) ∧
        ∀ n j, l[n]? = some j → j.code ∈ [0x60#16, 0x61#16] → ¬ UnsetAt p j.k.toNat (pre.length + (n + 1)) := by
      constructor
      · intro h
        exact ⟨fun hc => h 0 i rfl hc, fun n j hj => h (n + 1) j hj⟩
      · rintro ⟨h1, h2⟩ n j hj
        cases n with
        | zero => cases hj; exact h1
        | succ n => exact h2 n j hj
    rw [split]
    -- knowledge after an instruction that is no jump
    have line : i.code ≠ 0x05#16 → i.code ∉ condJumps → ∀ mv' : BitVec 16,
        (∀ k < 16, mv'.getLsbD k = false ↔ (mv &&& masks pre.length).getLsbD k = false ∧ ¬ (i.code ∈ [0x02#16, 0x03#16] ∧ i.k.toNat = k)) →
        Knows p (pre.length + 1) masks mv' := by
      intro h1 h2 mv' h3
      constructor
      · intro k hk'
        rw [h3 k hk', hat k hk']
        constructor
        · rintro ⟨g1, g2⟩
          exact .inr ⟨_, rfl, g1, i, hi, h1, h2, g2⟩
        · rintro (g | ⟨q, g1, g2, j, g3, -, -, g4⟩)
          · omega
          · have : q = pre.length := by omega
            subst this
            rw [hi] at g3; cases g3
            exact ⟨g2, g4⟩
      · intro k hk' t
        rw [hkn.jumps k hk']
        constructor
        · rintro ⟨q, g1, g2⟩
          exact ⟨q, by omega, g2⟩
        · rintro ⟨q, g1, g2, j, g3, g4⟩
          refine ⟨q, ?_, g2, j, g3, g4⟩
          by_cases hq : q = pre.length
          · subst hq
            rw [hi] at g3; cases g3
            rcases g4 with ⟨g4, -⟩ | ⟨g4, -⟩
            · exact absurd g4 h1
            · exact absurd g4 h2
          · omega
    -- knowledge after a jump
    have jump : (i.code = 0x05#16 ∨ i.code ∈ condJumps) → ∀ masks' : Nat → BitVec 16,
        (∀ k < 16, ∀ t, (masks' t).getLsbD k = false ↔
          (masks t).getLsbD k = false ∨ JumpsTo p pre.length t ∧ (mv &&& masks pre.length).getLsbD k = false) →
        Knows p (pre.length + 1) masks' (~~~0) := by
      intro h1 masks' h2
      constructor
      · intro k hk'
        rw [ones_bit k hk']
        constructor
        · exact False.elim
        · rintro (g | ⟨q, g1, -, j, g3, g4, g5, -⟩)
          · omega
          · have : q = pre.length := by omega
            subst this
            rw [hi] at g3; cases g3
            rcases h1 with h1 | h1
            · exact g4 h1
            · exact g5 h1
      · intro k hk' t
        rw [h2 k hk', hat k hk', hkn.jumps k hk']
        constructor
        · rintro (⟨q, g1, g2⟩ | ⟨g1, g2⟩)
          · exact ⟨q, by omega, g2⟩
          · exact ⟨_, by omega, g2, g1⟩
        · rintro ⟨q, g1, g2, g3⟩
          by_cases hq : q = pre.length
          · subst hq; exact .inr ⟨g3, g2⟩
          · exact .inl ⟨q, by omega, g2, g3⟩
    unfold memFrom
    simp only
    by_cases c1 : i.code ∈ [0x02#16, 0x03#16]
    · have hno : ∀ c ∈ [0x02#16, 0x03#16], c ∉ [0x60#16, 0x61#16] ∧ c ≠ 0x05#16 ∧ c ∉ condJumps := by
        intro c hc
        simp only [List.mem_cons, List.not_mem_nil, or_false] at hc
        rcases hc with rfl | rfl <;> decide
      obtain ⟨n1, n2, n3⟩ := hno _ c1
      have hk16 : i.k.toNat < 16 := hk i him (by
        simp only [List.mem_cons, List.not_mem_nil, or_false] at c1 ⊢
        rcases c1 with h | h <;> simp [h])
      rw [if_pos c1, tail _ _ (line n2 n3 _ ?_)]
      · exact ⟨fun h => ⟨fun hc => absurd hc n1, h⟩, fun h => h.2⟩
      · intro k hk'
        rw [BitVec.getLsbD_or, bit_self _ _ hk16 hk', Bool.or_eq_false_iff, decide_eq_false_iff_not]
        exact ⟨fun ⟨a, b⟩ => ⟨a, fun h => b h.2.symm⟩, fun ⟨a, b⟩ => ⟨a, fun h => b ⟨c1, h.symm⟩⟩⟩
    rw [if_neg c1]
    by_cases c2 : i.code ∈ [0x60#16, 0x61#16]
    · have hno : ∀ c ∈ [0x60#16, 0x61#16], c ≠ 0x05#16 ∧ c ∉ condJumps := by
        intro c hc
        simp only [List.mem_cons, List.not_mem_nil, or_false] at hc
        rcases hc with rfl | rfl <;> decide
      obtain ⟨n2, n3⟩ := hno _ c2
      have hk16 : i.k.toNat < 16 := hk i him (by
        simp only [List.mem_cons, List.not_mem_nil, or_false] at c2 ⊢
        rcases c2 with h | h <;> simp [h])
      rw [if_pos c2, Bool.and_eq_true, decide_eq_true_eq, bit_test _ _ hk16, tail _ _ (line n2 n3 _ (by simp [c1])), ← hat _ hk16]
      simp [c2]
    rw [if_neg c2]
    by_cases c3 : i.code = 0x05#16
    · rw [if_pos c3, tail _ _ (jump (.inl c3) _ ?_)]
      · exact ⟨fun h => ⟨fun hc => absurd hc c2, h⟩, fun h => h.2⟩
      · intro k hk' t
        rw [get_andMask]
        refine or_congr Iff.rfl (and_congr ?_ Iff.rfl)
        have : i.code ∉ condJumps := by rw [c3]; decide
        constructor
        · intro h; exact ⟨i, hi, .inl ⟨c3, h⟩⟩
        · rintro ⟨j, g1, g2⟩
          rw [hi] at g1; cases g1
          rcases g2 with ⟨-, g2⟩ | ⟨g2, -⟩
          · exact g2
          · exact absurd g2 this
    rw [if_neg c3]
    by_cases c4 : i.code ∈ condJumps
    · rw [if_pos c4, tail _ _ (jump (.inr c4) _ ?_)]
      · exact ⟨fun h => ⟨fun hc => absurd hc c2, h⟩, fun h => h.2⟩
      · intro k hk' t
        rw [get_andMask, get_andMask, or_assoc, ← or_and_right]
        refine or_congr Iff.rfl (and_congr ?_ Iff.rfl)
        constructor
        · intro h; exact ⟨i, hi, .inr ⟨c4, h⟩⟩
        · rintro ⟨j, g1, g2⟩
          rw [hi] at g1; cases g1
          rcases g2 with ⟨g2, -⟩ | ⟨-, g2⟩
          · exact absurd g2 c3
          · exact g2
    · rw [if_neg c4, tail _ _ (line c3 c4 _ (by simp [c1]))]
      exact ⟨fun h => ⟨fun hc => absurd hc c2, h⟩, fun h => h.2⟩

/-- The check of a whole program. -/
theorem mem_iff (p : Prog) (hk : ∀ i ∈ p, i.code ∈ [0x60#16, 0x61#16, 0x02#16, 0x03#16] → i.k.toNat < 16) :
    memFrom 0 (fun _ => ~~~0) 0 p = true ↔
      ∀ n i, p[n]? = some i → i.code ∈ [0x60#16, 0x61#16] → ¬ UnsetAt p i.k.toNat n := by
  have := memFrom_iff p hk p [] (fun _ => ~~~0) 0 rfl ⟨fun k hk' => by simp, fun k hk' t => by
    rw [ones_bit k hk']
    exact ⟨False.elim, fun ⟨q, h, _⟩ => by simp at h⟩⟩
  simpa using this

end Kernel
