import Verif.Proofs.KernelTotal
import Verif.Spec.Agree

/-!
# One step of the VM against one step of the kernel
-/
set_option autoImplicit false

namespace Kernel
open Bpfvm Spec

/-- The cells known to be stored after the instruction. -/
def storedAfter (i : SockFilter) (V : BitVec 16) : BitVec 16 :=
  if i.code ∈ [0x02#16, 0x03#16] then V ||| (1#16 <<< i.k.toNat) else V

/-- What the kernel's checks say about a single instruction, as far as one step needs it. -/
structure StepOK (i : SockFilter) (V : BitVec 16) : Prop where
  code : seccompInstrOK i = true
  div : i.code = 0x34#16 → i.k ≠ 0
  cell : i.code ∈ [0x60#16, 0x61#16, 0x02#16, 0x03#16] → i.k.toNat < 16
  stored : i.code ∈ [0x60#16, 0x61#16] → V.getLsbD i.k.toNat = true

/-- What one step has to establish. -/
def StepAgrees (b : Build) (data w : List (BitVec 32)) (i : SockFilter) (V : BitVec 16) (vm : VM) (r : Regs) : Prop :=
  (∃ v vm', step w i r = .done v ∧ VM.executeInstr b { vm with pc := vm.pc + 1 } data i = (vm', .ok (some v))) ∨
  (∃ r' vm', step w i r = .next r' ∧ VM.executeInstr b { vm with pc := vm.pc + 1 } data i = (vm', .ok none) ∧
    Agree vm' r' (storedAfter i V))

theorem agree_alu (b : Build) (data w : List (BitVec 32)) (i : SockFilter) (V : BitVec 16) (hi : StepOK i V)
    (hc : i.code ∈ supported) (h4 : i.code &&& 7#16 = 4#16) (vm : VM) (r : Regs) (hag : Agree vm r V)
    (hd : departure b data.length i r.A r.X = none) : StepAgrees b data w i V vm r := by
  obtain ⟨hs, hdiv, hcell, hst⟩ := hi
  obtain ⟨hpc, hA, hX, hM⟩ := hag
  have hV : storedAfter i V = V := by
    unfold storedAfter
    rw [if_neg]
    intro h
    simp only [List.mem_cons, List.not_mem_nil, or_false] at h
    rcases h with h | h <;> rw [h] at h4 <;> revert h4 <;> decide
  have hx := executeInstr_eq b { vm with pc := vm.pc + 1 } data i
  simp only [h4, BitVec.reduceEq, reduceIte] at hx
  rcases alu_agree b { vm with pc := vm.pc + 1 } i r hA hX hc h4 hdiv with ⟨v, h1, h2⟩ | ⟨h0, h1, h2⟩
  · rcases h2 with h2 | ⟨h2, h3⟩
    · right
      refine ⟨_, _, h1 w, by rw [hx, h2], ?_⟩
      rw [hV]
      exact ⟨by simp [hpc], rfl, hX, hM⟩
    · exfalso
      rw [aluValue_eq] at h2
      obtain ⟨code, jt, jf, k⟩ := i
      simp only [supported, List.mem_cons, List.not_mem_nil, or_false] at hc h4 hdiv hd h2
      rcases hc with h | h | h | h | h | h | h | h | h | h | h | h | h | h | h | h | h | h | h | h | h | h | h | h | h | h | h | h | h |
        h | h | h <;> subst h
      all_goals first
        | (revert h4; decide)
        | skip
      all_goals
        simp only [BitVec.reduceAnd, BitVec.reduceEq, reduceIte, addU32, subU32, mulU32, divU32, shlU32, shrU32, hA, hX, h3,
          true_and] at h2
        simp [departure, overflows, operand, h3] at hd
      all_goals first
        | cases h2
        | (split at h2
           · omega
           · cases h2)
        | simp_all
  · exfalso
    simp [departure, h0] at hd
    rw [aluValue_eq] at h2
    simp [h0, divU32, hX, hd] at h2

theorem agree_step (b : Build) (data w : List (BitVec 32)) (hdata : ∀ j < 16, data[j]? = w[j]?) (hw : 16 ≤ w.length)
    (i : SockFilter) (V : BitVec 16) (hi : StepOK i V) (vm : VM) (r : Regs) (hag : Agree vm r V)
    (hd : departure b data.length i r.A r.X = none) : StepAgrees b data w i V vm r := by
  by_cases h4 : i.code &&& 7#16 = 4#16
  · by_cases hc : i.code ∈ unsupported
    · exfalso
      simp only [unsupported, List.mem_cons, List.not_mem_nil, or_false] at hc
      rcases hc with h | h | h | h | h | h | h | h | h <;> rw [h] at h4
      all_goals first
        | (revert h4; decide)
        | simp [departure, h] at hd
    · exact agree_alu b data w i V hi (supported_of i hi.code hc) h4 vm r hag hd
  obtain ⟨hs, hdiv, hcell, hst⟩ := hi
  obtain ⟨hpc, hA, hX, hM⟩ := hag
  have hx := executeInstr_eq b { vm with pc := vm.pc + 1 } data i
  have hc : i.code ∈ supported ∨ i.code ∈ unsupported := by
    by_cases hc : i.code ∈ unsupported
    · exact .inr hc
    · exact .inl (supported_of i hs hc)
  -- loads and stores, jumps
  have keep : ∀ (a x : BitVec 32) (n : Nat), i.code ∉ [0x02#16, 0x03#16] →
      step w i r = .next { r with pc := r.pc + 1 + n, A := a, X := x } →
      VM.executeInstr b { vm with pc := vm.pc + 1 } data i = ({ vm with pc := vm.pc + 1 + n, acc := a, idx := x }, .ok none) →
      StepAgrees b data w i V vm r := by
    intro a x n hn h1 h2
    refine .inr ⟨_, _, h1, h2, ?_⟩
    rw [storedAfter, if_neg hn]
    exact ⟨by simp [hpc], rfl, rfl, hM⟩
  have stores : ∀ (v : BitVec 32) (hk : i.k.toNat < MEMSIZE), i.code ∈ [0x02#16, 0x03#16] →
      step w i r = .next { r with pc := r.pc + 1, M := fun j => if j = i.k.toNat then v else r.M j } →
      VM.executeInstr b { vm with pc := vm.pc + 1 } data i = ({ vm with pc := vm.pc + 1, mem := vm.mem.set i.k.toNat v hk }, .ok none) →
      StepAgrees b data w i V vm r := by
    intro v hk hn h1 h2
    refine .inr ⟨_, _, h1, h2, ?_⟩
    rw [storedAfter, if_pos hn]
    refine ⟨by simp [hpc], hA, hX, fun j hj hj' => ?_⟩
    refine (vset vm.mem _ j hk hj _).trans ?_
    by_cases hjk : j = i.k.toNat
    · simp only [hjk, if_true]
    · simp only [hjk, if_false]
      exact hM j hj (bit_or _ _ _ hj' hjk)
  have jumps : ∀ (c c' : Bool), i.code ∉ [0x02#16, 0x03#16] → (i.jt = i.jf ∨ c = c') →
      step w i r = .next { r with pc := r.pc + 1 + (if c then i.jt.toNat else i.jf.toNat) } →
      VM.executeInstr b { vm with pc := vm.pc + 1 } data i =
        ({ vm with pc := vm.pc + 1 + (if c' then i.jt.toNat else i.jf.toNat) }, .ok none) → StepAgrees b data w i V vm r := by
    intro c c' hn hcc h1 h2
    refine keep r.A r.X (if c then i.jt.toNat else i.jf.toNat) hn h1 ?_
    rw [h2, ← hA, ← hX]
    rcases hcc with hcc | hcc
    · rw [hcc]; simp
    · rw [hcc]
  rcases hc with hc | hc
  · simp only [supported, List.mem_cons, List.not_mem_nil, or_false] at hc
    rcases hc with h | h | h | h | h | h | h | h | h | h | h | h | h | h | h | h | h | h | h | h | h | h | h | h | h | h | h | h | h |
      h | h | h
    all_goals first
      | (exfalso; rw [h] at h4; revert h4; decide)
      | skip
    all_goals
      simp only [h, BitVec.reduceAnd, BitVec.reduceEq, reduceIte, ldValue_eq, ldxValue_eq, fetchData_eq, fetchU32, VM.readMem,
        fetchSrc_eq, jumpAmount_eq] at hx
    · -- LD IMM
      exact keep i.k r.X 0 (by rw [h]; decide) (by simp [step, h]) (by rw [hx, ← hX])
    · -- LD ABS
      have hk : i.k.toNat < 64 := by
        unfold seccompInstrOK at hs
        rw [if_pos h, Bool.and_eq_true, decide_eq_true_eq, decide_eq_true_eq] at hs
        exact hs.1
      have hk4 : i.k.toNat / 4 < 16 := by omega
      obtain ⟨v, hwv⟩ : ∃ v, w[i.k.toNat / 4]? = some v := ⟨_, List.getElem?_eq_getElem (by omega)⟩
      rw [hdata _ hk4, hwv] at hx
      exact keep v r.X 0 (by rw [h]; decide) (by simp [step, h, hwv]) (by rw [hx, ← hX])
    · -- LD MEM
      have hk := hcell (by rw [h]; decide)
      have hk' : i.k.toNat < MEMSIZE := hk
      have hv := hM _ hk (hst (by rw [h]; decide))
      simp only [hk', ↓reduceDIte] at hx
      exact keep (r.M i.k.toNat) r.X 0 (by rw [h]; decide) (by simp [step, h]) (by rw [hx, ← hX, ← hv]; rfl)
    · -- LDX IMM
      exact keep r.A i.k 0 (by rw [h]; decide) (by simp [step, h]) (by rw [hx, ← hA])
    · -- LDX MEM
      have hk := hcell (by rw [h]; decide)
      have hk' : i.k.toNat < MEMSIZE := hk
      have hv := hM _ hk (hst (by rw [h]; decide))
      simp only [hk', ↓reduceDIte] at hx
      exact keep r.A (r.M i.k.toNat) 0 (by rw [h]; decide) (by simp [step, h]) (by rw [hx, ← hA, ← hv]; rfl)
    · -- ST
      have hk' : i.k.toNat < MEMSIZE := hcell (by rw [h]; decide)
      simp only [hk', ↓reduceDIte] at hx
      exact stores r.A hk' (by rw [h]; decide) (by simp [step, h]) (by rw [hx]; simp [hA])
    · -- STX
      have hk' : i.k.toNat < MEMSIZE := hcell (by rw [h]; decide)
      simp only [hk', ↓reduceDIte] at hx
      exact stores r.X hk' (by rw [h]; decide) (by simp [step, h]) (by rw [hx]; simp [hX])
    · -- RET K
      exact .inl ⟨i.k, _, by simp [step, h], hx⟩
    · -- RET A
      exact .inl ⟨r.A, _, by simp [step, h], by rw [hx, hA]⟩
    · -- JA
      exact keep r.A r.X i.k.toNat (by rw [h]; decide) (by simp [step, h]) (by rw [hx, ← hA, ← hX])
    · -- JEQ
      exact jumps (decide (r.A = i.k)) (decide (r.A = i.k)) (by rw [h]; decide) (.inr rfl) (by simp [step, cond, h]) (by rw [hx]; simp [hA])
    · -- JGT
      exact jumps (decide (i.k < r.A)) (decide (i.k < r.A)) (by rw [h]; decide) (.inr rfl) (by simp [step, cond, h]) (by rw [hx]; simp [hA])
    · -- JGE
      exact jumps (decide (i.k ≤ r.A)) (decide (i.k ≤ r.A)) (by rw [h]; decide) (.inr rfl) (by simp [step, cond, h]) (by rw [hx]; simp [hA])
    · -- JSET
      exact jumps (decide (r.A &&& i.k ≠ 0)) (decide (r.A &&& i.k ≠ 0)) (by rw [h]; decide) (.inr rfl) (by simp [step, cond, h])
        (by rw [hx]; simp [gt_iff_lt, bv_pos, hA])
  · simp only [unsupported, List.mem_cons, List.not_mem_nil, or_false] at hc
    rcases hc with h | h | h | h | h | h | h | h | h
    all_goals
      simp only [h, BitVec.reduceAnd, BitVec.reduceEq, reduceIte, ldValue_eq, ldxValue_eq, fetchData_eq, fetchU32, VM.readMem,
        fetchSrc_eq, jumpAmount_eq] at hx
      simp only [departure, h, BitVec.reduceEq, reduceIte, or_self, or_false, or_true, reduceCtorEq] at hd
    · -- JEQ X
      split at hd
      · rename_i hq
        exact jumps (decide (r.A = r.X)) (decide (r.A = i.k)) (by rw [h]; decide) (hq.imp_right fun hq => decide_eq_decide.2 hq)
          (by simp [step, cond, h]) (by rw [hx]; simp [hA])
      · cases hd
    · -- JGT X
      split at hd
      · rename_i hq
        exact jumps (decide (r.X < r.A)) (decide (i.k < r.A)) (by rw [h]; decide) (hq.imp_right fun hq => decide_eq_decide.2 hq)
          (by simp [step, cond, h]) (by rw [hx]; simp [hA])
      · cases hd
    · -- JGE X
      split at hd
      · rename_i hq
        exact jumps (decide (r.X ≤ r.A)) (decide (i.k ≤ r.A)) (by rw [h]; decide) (hq.imp_right fun hq => decide_eq_decide.2 hq)
          (by simp [step, cond, h]) (by rw [hx]; simp [hA])
      · cases hd
    · -- JSET X
      split at hd
      · rename_i hq
        exact jumps (decide (r.A &&& r.X ≠ 0)) (decide (r.A &&& i.k ≠ 0)) (by rw [h]; decide)
          (hq.imp_right fun hq => decide_eq_decide.2 (not_congr hq))
          (by simp [step, cond, h]) (by rw [hx]; simp [gt_iff_lt, bv_pos, hA])
      · cases hd
    · -- LD LEN
      split at hd
      · rename_i hq
        exact keep 64#32 r.X 0 (by rw [h]; decide) (by simp [step, h]) (by rw [hx, hq, ← hX])
      · cases hd
    · -- LDX LEN
      split at hd
      · rename_i hq
        exact keep r.A 64#32 0 (by rw [h]; decide) (by simp [step, h]) (by rw [hx, hq, ← hA])
      · cases hd

/-- Where the kernel's step goes. -/
theorem step_pc (w : List (BitVec 32)) (hw : 16 ≤ w.length) (i : SockFilter) (hs : seccompInstrOK i = true) (r r' : Regs)
    (h : step w i r = .next r') :
    i.code ≠ 0x06#16 ∧ i.code ≠ 0x16#16 ∧
    if i.code = 0x05#16 then r'.pc = r.pc + 1 + i.k.toNat
    else if i.code ∈ condJumps then r'.pc = r.pc + 1 + i.jt.toNat ∨ r'.pc = r.pc + 1 + i.jf.toNat
    else r'.pc = r.pc + 1 := by
  rcases code_cases i hs with hc | hc | hc | hc | hc | hc | hc
  · have hn : i.code ≠ 0x05#16 ∧ i.code ∉ condJumps ∧ i.code ≠ 0x06#16 ∧ i.code ≠ 0x16#16 := ball_of_all _ (fun c => c ≠ 0x05#16 ∧ c ∉ condJumps ∧ c ≠ 0x06#16 ∧ c ≠ 0x16#16) (by decide) _ hc
    rw [if_neg hn.1, if_neg hn.2.1]
    refine ⟨hn.2.2.1, hn.2.2.2, ?_⟩
    rcases line_step w hw i hs hc r r rfl rfl rfl with ⟨a, x, h1, -⟩ | ⟨v, h1, -⟩
    · rw [h1] at h; cases h; rfl
    · rw [h1] at h; cases h
  · have hn : i.code ≠ 0x05#16 ∧ i.code ≠ 0x06#16 ∧ i.code ≠ 0x16#16 := ball_of_all _ (fun c => c ≠ 0x05#16 ∧ c ≠ 0x06#16 ∧ c ≠ 0x16#16) (by decide) _ hc
    rw [if_neg hn.1, if_pos hc]
    refine ⟨hn.2.1, hn.2.2, ?_⟩
    obtain ⟨c, h1, -⟩ := cond_step w i hc r r rfl rfl rfl
    rw [h1] at h; cases h
    cases c
    · exact .inr rfl
    · exact .inl rfl
  · have hn : i.code ≠ 0x05#16 ∧ i.code ∉ condJumps ∧ i.code ≠ 0x06#16 ∧ i.code ≠ 0x16#16 := ball_of_all _ (fun c => c ≠ 0x05#16 ∧ c ∉ condJumps ∧ c ≠ 0x06#16 ∧ c ≠ 0x16#16) (by decide) _ hc
    rw [if_neg hn.1, if_neg hn.2.1]
    refine ⟨hn.2.2.1, hn.2.2.2, ?_⟩
    simp only [List.mem_cons, List.not_mem_nil, or_false] at hc
    rcases hc with hc | hc <;> simp [step, hc] at h <;> rw [← h]
  · have hn : i.code ≠ 0x05#16 ∧ i.code ∉ condJumps ∧ i.code ≠ 0x06#16 ∧ i.code ≠ 0x16#16 := ball_of_all _ (fun c => c ≠ 0x05#16 ∧ c ∉ condJumps ∧ c ≠ 0x06#16 ∧ c ≠ 0x16#16) (by decide) _ hc
    rw [if_neg hn.1, if_neg hn.2.1]
    refine ⟨hn.2.2.1, hn.2.2.2, ?_⟩
    simp only [List.mem_cons, List.not_mem_nil, or_false] at hc
    rcases hc with hc | hc <;> simp [step, hc] at h <;> rw [← h]
  · rw [if_pos hc]
    refine ⟨by rw [hc]; decide, by rw [hc]; decide, ?_⟩
    simp [step, hc] at h
    rw [← h]
  · simp [step, hc] at h
  · simp [step, hc] at h

/-- The checker's knowledge goes along with the kernel's step. -/
theorem mem_next (p : Prog) (w : List (BitVec 32)) (hacc : accepts p = true) (hw : 16 ≤ w.length) (i : SockFilter) (r r' : Regs)
    (masks : Nat → BitVec 16) (mv : BitVec 16) (hp : p[r.pc]? = some i) (hm : memFrom r.pc masks mv (p.drop r.pc) = true)
    (h : step w i r = .next r') :
    ∃ masks' mv', memFrom r'.pc masks' mv' (p.drop r'.pc) = true ∧
      Sub (mv' &&& masks' r'.pc) (storedAfter i (mv &&& masks r.pc)) ∧ r.pc < r'.pc ∧ r'.pc < p.length := by
  simp only [accepts, Bool.and_eq_true, decide_eq_true_eq, List.all_eq_true] at hacc
  obtain ⟨⟨⟨⟨⟨-, -⟩, hcl⟩, hret⟩, -⟩, hsec⟩ := hacc
  obtain ⟨hlt, hget⟩ := List.getElem?_eq_some_iff.1 hp
  have hmi : i ∈ p := by rw [← hget]; exact List.getElem_mem hlt
  have hdrop : p.drop r.pc = i :: p.drop (r.pc + 1) := by rw [← hget]; exact List.drop_eq_getElem_cons hlt
  have hok := classicFrom_get p.length p 0 r.pc i hcl hp
  rw [Nat.zero_add] at hok
  have hs := hsec i hmi
  rw [hdrop] at hm
  have hlast := endsInRet_last p hret r.pc i hp
  have hlen : (p.drop (r.pc + 1)).length = p.length - (r.pc + 1) := by simp
  unfold instrOK at hok
  rw [Bool.and_eq_true] at hok
  have hok := hok.2
  obtain ⟨h6, h16, hpc⟩ := step_pc w hw i hs r r' h
  have jump : ∀ (t : Nat) (masks' : Nat → BitVec 16), r.pc + 1 + t < p.length → r'.pc = r.pc + 1 + t →
      memFrom (r.pc + 1) masks' (~~~0) (p.drop (r.pc + 1)) = true → Sub (masks' (r.pc + 1 + t)) (mv &&& masks r.pc) →
      i.code ∉ [0x02#16, 0x03#16] →
      ∃ masks' mv', memFrom r'.pc masks' mv' (p.drop r'.pc) = true ∧
        Sub (mv' &&& masks' r'.pc) (storedAfter i (mv &&& masks r.pc)) ∧ r.pc < r'.pc ∧ r'.pc < p.length := by
    intro t masks' ht hr hm' hsub hn
    obtain ⟨m2, v2, e1, e2⟩ := mem_skip t _ _ _ _ hm' (by rw [hlen]; omega)
    rw [List.drop_drop] at e1
    rw [hr, storedAfter, if_neg hn]
    exact ⟨m2, v2, e1, fun j h => hsub j (e2 _ j (sub_and_right _ _ j h)), by omega, ht⟩
  have hnext := hlast h6 h16
  simp only [memFrom] at hm
  split at hm
  · rename_i hc
    have hn : i.code ≠ 0x05#16 ∧ i.code ∉ condJumps := ball_of_all _ (fun c => c ≠ 0x05#16 ∧ c ∉ condJumps) (by decide) _ hc
    rw [if_neg hn.1, if_neg hn.2] at hpc
    rw [hpc, storedAfter, if_pos hc]
    exact ⟨_, _, hm, sub_and_left _ _, by omega, hnext⟩
  · rename_i hst
    split at hm
    · rename_i hc
      have hn : i.code ≠ 0x05#16 ∧ i.code ∉ condJumps := ball_of_all _ (fun c => c ≠ 0x05#16 ∧ c ∉ condJumps) (by decide) _ hc
      rw [if_neg hn.1, if_neg hn.2] at hpc
      rw [Bool.and_eq_true] at hm
      rw [hpc, storedAfter, if_neg hst]
      exact ⟨_, _, hm.2, sub_and_left _ _, by omega, hnext⟩
    · split at hm
      · rename_i hc
        rw [if_pos hc] at hpc
        have hk : i.k.toNat < p.length - r.pc - 1 := by simpa [hc, condJumps] using hok
        exact jump _ _ (by omega) hpc hm (andMask_self _ _ _) hst
      · rename_i h5
        split at hm
        · rename_i hc
          rw [if_neg h5, if_pos hc] at hpc
          have hn : i.code ∉ [0x34#16, 0x94#16] ∧ i.code ∉ [0x64#16, 0x74#16] ∧ i.code ∉ [0x60#16, 0x61#16, 0x02#16, 0x03#16] :=
            ball_of_all _ (fun c => c ∉ [0x34#16, 0x94#16] ∧ c ∉ [0x64#16, 0x74#16] ∧ c ∉ [0x60#16, 0x61#16, 0x02#16, 0x03#16]) (by decide) _ hc
          rw [if_neg hn.1, if_neg hn.2.1, if_neg hn.2.2, if_neg h5, if_pos hc, Bool.and_eq_true, decide_eq_true_eq,
            decide_eq_true_eq] at hok
          rcases hpc with hpc | hpc
          · exact jump _ _ (by omega) hpc hm ((andMask_sub _ _ _ _).trans (andMask_self _ _ _)) hst
          · exact jump _ _ (by omega) hpc hm (andMask_self _ _ _) hst
        · rename_i hc
          rw [if_neg h5, if_neg hc] at hpc
          rw [hpc, storedAfter, if_neg hst]
          exact ⟨_, _, hm, sub_and_left _ _, by omega, hnext⟩

/-- What the checks say about the instruction to be executed. -/
theorem stepOK_of (p : Prog) (hacc : accepts p = true) (i : SockFilter) (r : Regs) (masks : Nat → BitVec 16) (mv : BitVec 16)
    (hp : p[r.pc]? = some i) (hm : memFrom r.pc masks mv (p.drop r.pc) = true) : StepOK i (mv &&& masks r.pc) := by
  simp only [accepts, Bool.and_eq_true, decide_eq_true_eq, List.all_eq_true] at hacc
  obtain ⟨⟨⟨⟨⟨-, -⟩, hcl⟩, hret⟩, -⟩, hsec⟩ := hacc
  obtain ⟨hlt, hget⟩ := List.getElem?_eq_some_iff.1 hp
  have hmi : i ∈ p := by rw [← hget]; exact List.getElem_mem hlt
  have hdrop : p.drop r.pc = i :: p.drop (r.pc + 1) := by rw [← hget]; exact List.drop_eq_getElem_cons hlt
  have hok := classicFrom_get p.length p 0 r.pc i hcl hp
  unfold instrOK at hok
  rw [Bool.and_eq_true] at hok
  have hok := hok.2
  rw [hdrop] at hm
  have hcell : i.code ∈ [0x60#16, 0x61#16, 0x02#16, 0x03#16] → i.k.toNat < 16 := by
    intro h
    have hn : i.code ∉ [0x34#16, 0x94#16] ∧ i.code ∉ [0x64#16, 0x74#16] := ball_of_all _ (fun c => c ∉ [0x34#16, 0x94#16] ∧ c ∉ [0x64#16, 0x74#16]) (by decide) _ h
    rw [if_neg hn.1, if_neg hn.2, if_pos h, decide_eq_true_eq] at hok
    exact hok
  refine ⟨hsec i hmi, ?_, hcell, ?_⟩
  · intro h
    simpa [h] using hok
  · intro h
    have hn : i.code ∉ [0x02#16, 0x03#16] ∧ i.code ∈ [0x60#16, 0x61#16, 0x02#16, 0x03#16] := ball_of_all _ (fun c => c ∉ [0x02#16, 0x03#16] ∧ c ∈ [0x60#16, 0x61#16, 0x02#16, 0x03#16]) (by decide) _ h
    simp only [memFrom] at hm
    rw [if_neg hn.1, if_pos h, Bool.and_eq_true, decide_eq_true_eq] at hm
    exact bit_ne _ _ (hcell hn.2) hm.1

/-- Error and panic departures. -/
theorem departs_stop (b : Build) (data : List (BitVec 32)) (i : SockFilter) (vm : VM) :
    (∀ e, departure b data.length i vm.acc vm.idx = some (.error e) →
      (VM.executeInstr b { vm with pc := vm.pc + 1 } data i).2 = .err e) ∧
    (departure b data.length i vm.acc vm.idx = some .panic → (VM.executeInstr b { vm with pc := vm.pc + 1 } data i).2 = .panic) := by
  have hx := executeInstr_eq b { vm with pc := vm.pc + 1 } data i
  refine ⟨fun e h => ?_, fun h => ?_⟩
  · unfold departure at h
    split at h
    · rename_i hc
      simp only [hc, BitVec.reduceAnd, BitVec.reduceEq, reduceIte, aluValue_eq] at hx
      rw [hx]
      cases h; rfl
    · split at h
      · rename_i hc
        rcases hc with hc | hc
        all_goals
          simp only [hc, BitVec.reduceAnd, BitVec.reduceEq, reduceIte] at hx
          rw [hx]
          cases h; rfl
      · repeat' split at h
        all_goals cases h
  · unfold departure at h
    by_cases hd : i.code = 0x3c#16
    · simp only [hd, BitVec.reduceEq, reduceIte, or_self] at h
      split at h
      · rename_i hz
        simp only [hd, BitVec.reduceAnd, BitVec.reduceEq, reduceIte, aluValue_eq, divU32] at hx
        rw [if_pos (show vm.idx = 0 from hz)] at hx
        rw [hx]
      · cases h
    · have hov : b.overflowChecks = true ∧ overflows i.code vm.acc.toNat (operand i vm.idx).toNat := by
        rw [if_neg hd] at h
        repeat' split at h
        all_goals first
          | assumption
          | cases h
      obtain ⟨hb, hov⟩ := hov
      simp only [overflows, operand, List.mem_cons, List.not_mem_nil, or_false] at hov
      have hc : i.code = 0x04#16 ∨ i.code = 0x0c#16 ∨ i.code = 0x14#16 ∨ i.code = 0x1c#16 ∨ i.code = 0x24#16 ∨ i.code = 0x2c#16 ∨
          i.code = 0x64#16 ∨ i.code = 0x6c#16 ∨ i.code = 0x74#16 ∨ i.code = 0x7c#16 := by grind
      rcases hc with hc | hc | hc | hc | hc | hc | hc | hc | hc | hc
      all_goals
        simp only [hc, BitVec.reduceEq, reduceIte, or_self, or_true, false_and, true_and, or_false, false_or] at hov
        simp only [hc, BitVec.reduceAnd, BitVec.reduceEq, reduceIte, aluValue_eq, addU32, subU32, mulU32, shlU32, shrU32, hb,
          true_and] at hx
        rw [if_pos (by omega)] at hx
        rw [hx]

/-- The remaining departures: both machines go on, but not in the same state. -/
theorem departs_other (b : Build) (data w : List (BitVec 32)) (i : SockFilter) (vm : VM) (r : Regs) (hag : SameState vm r)
    (hd : departure b data.length i r.A r.X = some .otherState) :
    ¬ SameStep (VM.executeInstr b { vm with pc := vm.pc + 1 } data i) (step w i r) := by
  obtain ⟨hpc, hA, hX, hM⟩ := hag
  have hx := executeInstr_eq b { vm with pc := vm.pc + 1 } data i
  have jumps : ∀ (c c' : Bool), ¬ (i.jt = i.jf ∨ c = c') →
      step w i r = .next { r with pc := r.pc + 1 + (if c then i.jt.toNat else i.jf.toNat) } →
      VM.executeInstr b { vm with pc := vm.pc + 1 } data i =
        ({ vm with pc := vm.pc + 1 + (if c' then i.jt.toNat else i.jf.toNat) }, .ok none) →
      ¬ SameStep (VM.executeInstr b { vm with pc := vm.pc + 1 } data i) (step w i r) := by
    intro c c' hcc h1 h2 h
    rw [h1, h2] at h
    have he := h.2.pc
    rw [not_or, ← BitVec.toNat_inj] at hcc
    simp only [hpc] at he
    cases c <;> cases c' <;> simp at he hcc <;> omega
  unfold departure at hd
  split at hd
  · cases hd
  · split at hd
    · cases hd
    · split at hd
      · rename_i hc
        split at hd
        · cases hd
        · rename_i hl
          rcases hc with h | h
          all_goals
            simp only [h, BitVec.reduceAnd, BitVec.reduceEq, reduceIte, ldValue_eq, ldxValue_eq] at hx
            rw [hx]
            simp only [step, h, BitVec.reduceToNat, Nat.reduceAnd]
            intro hq
            first
              | exact hl hq.2.acc
              | exact hl hq.2.idx
      · split at hd
        · rename_i h
          simp only [h, BitVec.reduceAnd, BitVec.reduceEq, reduceIte, jumpAmount_eq] at hx
          split at hd
          · cases hd
          · rename_i hq
            exact jumps (decide (r.A = r.X)) (decide (r.A = i.k)) (by rwa [decide_eq_decide]) (by simp [step, cond, h])
              (by rw [hx]; simp [hA])
        · split at hd
          · rename_i h
            simp only [h, BitVec.reduceAnd, BitVec.reduceEq, reduceIte, jumpAmount_eq] at hx
            split at hd
            · cases hd
            · rename_i hq
              exact jumps (decide (r.X < r.A)) (decide (i.k < r.A)) (by rwa [decide_eq_decide]) (by simp [step, cond, h])
                (by rw [hx]; simp [hA])
          · split at hd
            · rename_i h
              simp only [h, BitVec.reduceAnd, BitVec.reduceEq, reduceIte, jumpAmount_eq] at hx
              split at hd
              · cases hd
              · rename_i hq
                exact jumps (decide (r.X ≤ r.A)) (decide (i.k ≤ r.A)) (by rwa [decide_eq_decide]) (by simp [step, cond, h])
                  (by rw [hx]; simp [hA])
            · split at hd
              · rename_i h
                simp only [h, BitVec.reduceAnd, BitVec.reduceEq, reduceIte, jumpAmount_eq] at hx
                split at hd
                · cases hd
                · rename_i hq
                  exact jumps (decide (r.A &&& r.X ≠ 0)) (decide (r.A &&& i.k ≠ 0))
                    (by rw [decide_eq_decide]; intro h'; exact hq (h'.imp_right fun h' => Decidable.not_iff_not.1 h'))
                    (by simp [step, cond, h]) (by rw [hx]; simp [gt_iff_lt, bv_pos, hA])
              · repeat' split at hd
                all_goals cases hd

/-! ## Runs -/

theorem visits_prepend (p : Prog) (w : List (BitVec 32)) (r r' rd : Regs) (i : SockFilter) (hp : p[r.pc]? = some i)
    (hs : step w i r = .next r') (h : Visits p w r' rd) : Visits p w r rd := by
  induction h with
  | start => exact .next r r' i .start hp hs
  | next a a' j _ h1 h2 ih => exact .next a a' j ih h1 h2

theorem visits_cases (p : Prog) (w : List (BitVec 32)) (r rd : Regs) (h : Visits p w r rd) :
    rd = r ∨ ∃ i r', p[r.pc]? = some i ∧ step w i r = .next r' ∧ Visits p w r' rd := by
  induction h with
  | start => exact .inl rfl
  | next a a' j h0 h1 h2 ih =>
    right
    rcases ih with rfl | ⟨i, r', e1, e2, e3⟩
    · exact ⟨j, a', h1, h2, .start⟩
    · exact ⟨i, r', e1, e2, .next a a' j e3 h1 h2⟩

theorem step_forward (p : Prog) (w : List (BitVec 32)) (hacc : accepts p = true) (hw : 16 ≤ w.length) (r r' : Regs) (i : SockFilter)
    (hp : p[r.pc]? = some i) (hs : step w i r = .next r') : r.pc < r'.pc := by
  simp only [accepts, Bool.and_eq_true, decide_eq_true_eq, List.all_eq_true] at hacc
  obtain ⟨hlt, hget⟩ := List.getElem?_eq_some_iff.1 hp
  have hmi : i ∈ p := by rw [← hget]; exact List.getElem_mem hlt
  have := (step_pc w hw i (hacc.2 i hmi) r r' hs).2.2
  repeat' split at this
  all_goals omega

theorem visits_pc (p : Prog) (w : List (BitVec 32)) (hacc : accepts p = true) (hw : 16 ≤ w.length) (r rd : Regs)
    (h : Visits p w r rd) : r.pc ≤ rd.pc := by
  induction h with
  | start => exact Nat.le_refl _
  | next a a' j _ h1 h2 ih => exact Nat.le_trans ih (Nat.le_of_lt (step_forward p w hacc hw a a' j h1 h2))

/-- Both machines are at the same place, and the VM knows all the cells the program may read. -/
def Together (p : Prog) (vm : VM) (r : Regs) : Prop :=
  ∃ masks mv, r.pc < p.length ∧ vm.prog = p ∧ memFrom r.pc masks mv (p.drop r.pc) = true ∧ Agree vm r (mv &&& masks r.pc)

theorem agree_run (b : Build) (p : Prog) (data w : List (BitVec 32)) (hacc : accepts p = true)
    (hdata : ∀ j < 16, data[j]? = w[j]?) (hw : 16 ≤ w.length) :
    ∀ (n : Nat) (vm : VM) (r : Regs), p.length - r.pc ≤ n → Together p vm r →
      (NoDeparture b data.length p w r → ∃ v, runFrom p w r = some v ∧ (vm.loop b data).map Prod.snd = some (.ok v)) ∧
      (∀ rd dep, FirstDeparture b data.length p w r rd dep →
        (∀ e, dep = .error e → (vm.loop b data).map Prod.snd = some (.err e)) ∧
        (dep = .panic → (vm.loop b data).map Prod.snd = some .panic)) := by
  intro n
  induction n with
  | zero =>
    intro vm r hn ht
    obtain ⟨_, _, hlt, _⟩ := ht
    omega
  | succ n ih =>
    intro vm r hn ht
    obtain ⟨masks, mv, hlt, hprog, hm, hag⟩ := ht
    have hp : p[r.pc]? = some p[r.pc] := List.getElem?_eq_getElem hlt
    generalize p[r.pc] = i at hp
    have hv : vm.prog[vm.pc]? = some i := by rw [hprog, hag.pc]; exact hp
    have hloop := loop_step b vm data i hv
    cases hd : departure b data.length i r.A r.X with
    | some dep0 =>
      refine ⟨fun h => absurd ⟨.start, i, hp, hd⟩ (h r dep0), fun rd dep h => ?_⟩
      have hle := h.2 r dep0 ⟨.start, i, hp, hd⟩
      have hrd : rd = r := by
        rcases visits_cases p w r rd h.1.1 with hh | ⟨j, r', e1, e2, e3⟩
        · exact hh
        · have := step_forward p w hacc hw r r' j e1 e2
          have := visits_pc p w hacc hw r' rd e3
          omega
      obtain ⟨⟨_, j, hj, hdep⟩, _⟩ := h
      subst hrd
      rw [hp] at hj
      cases hj
      rw [hd] at hdep
      cases hdep
      have hst := departs_stop b data i vm
      refine ⟨fun e he => ?_, fun he => ?_⟩
      · have := hst.1 e (by rw [hag.acc, hag.idx, hd, he])
        rw [hloop]
        rcases hx : VM.executeInstr b { vm with pc := vm.pc + 1 } data i with ⟨vm', res⟩
        rw [hx] at this
        simp only at this
        subst this
        rfl
      · have := hst.2 (by rw [hag.acc, hag.idx, hd, he])
        rw [hloop]
        rcases hx : VM.executeInstr b { vm with pc := vm.pc + 1 } data i with ⟨vm', res⟩
        rw [hx] at this
        simp only at this
        subst this
        rfl
    | none =>
      have hnot : ∀ dep, ¬ DepartsAt b data.length p w r r dep := by
        rintro dep ⟨_, j, hj, hdep⟩
        rw [hp] at hj
        cases hj
        rw [hd] at hdep
        cases hdep
      rcases agree_step b data w hdata hw i _ (stepOK_of p hacc i r masks mv hp hm) vm r hag hd with
        ⟨v, vm', h1, h2⟩ | ⟨r', vm', h1, h2, h3⟩
      · refine ⟨fun _ => ⟨v, by rw [runFrom_step p w r i hp, h1], by rw [hloop, h2]; rfl⟩, fun rd dep h => ?_⟩
        exfalso
        rcases visits_cases p w r rd h.1.1 with rfl | ⟨j, r', e1, e2, e3⟩
        · exact hnot dep h.1
        · rw [hp] at e1
          cases e1
          rw [h1] at e2
          cases e2
      · obtain ⟨masks', mv', g1, g2, g3, g4⟩ := mem_next p w hacc hw i r r' masks mv hp hm h1
        have hprog' : vm'.prog = p := by
          have := (executeInstr_facts b { vm with pc := vm.pc + 1 } data i).1
          rw [h2] at this
          exact this.trans hprog
        have IH := ih vm' r' (by omega) ⟨masks', mv', g4, hprog', g1, h3.pc, h3.acc, h3.idx, fun j hj hj' => h3.mem j hj (g2 j hj')⟩
        have hl : vm.loop b data = vm'.loop b data := by rw [hloop, h2]
        have hr : runFrom p w r = runFrom p w r' := by rw [runFrom_step p w r i hp, h1]
        rw [hl, hr]
        have up : ∀ rd dep, DepartsAt b data.length p w r' rd dep → DepartsAt b data.length p w r rd dep :=
          fun rd dep h => ⟨visits_prepend p w r r' rd i hp h1 h.1, h.2⟩
        refine ⟨fun h => IH.1 fun rd dep hh => h rd dep (up rd dep hh), fun rd dep h => IH.2 rd dep ⟨?_, fun a d' ha => h.2 a d' (up a d' ha)⟩⟩
        refine ⟨?_, h.1.2⟩
        rcases visits_cases p w r rd h.1.1 with rfl | ⟨j, r'', e1, e2, e3⟩
        · exact absurd h.1 (hnot dep)
        · rw [hp] at e1
          cases e1
          rw [h1] at e2
          cases e2
          exact e3

/-- A run without departures or a first departure. -/
theorem first_exists (b : Build) (len : Nat) (p : Prog) (w : List (BitVec 32)) (r : Regs) (h : ¬ NoDeparture b len p w r) :
    ∃ rd dep, FirstDeparture b len p w r rd dep := by
  have hex : ∃ rd dep, DepartsAt b len p w r rd dep := by
    apply Classical.byContradiction
    intro hn
    exact h fun rd dep hh => hn ⟨rd, dep, hh⟩
  obtain ⟨rd, dep, hh⟩ := hex
  have key : ∀ (n : Nat) rd dep, rd.pc ≤ n → DepartsAt b len p w r rd dep → ∃ rd dep, FirstDeparture b len p w r rd dep := by
    intro n
    induction n with
    | zero => intro rd dep hn hh; exact ⟨rd, dep, hh, fun a d' _ => by omega⟩
    | succ n ih =>
      intro rd dep hn hh
      by_cases hs : ∃ rd' dep', DepartsAt b len p w r rd' dep' ∧ rd'.pc < rd.pc
      · obtain ⟨rd', dep', h1, h2⟩ := hs
        exact ih rd' dep' (by omega) h1
      · refine ⟨rd, dep, hh, fun a d' ha => ?_⟩
        apply Nat.le_of_not_lt
        intro hlt
        exact hs ⟨a, d', ha, hlt⟩
  exact key rd.pc rd dep (Nat.le_refl _) hh

end Kernel
