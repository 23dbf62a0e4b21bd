import Verif.Proofs.VmStep
import Verif.Proofs.KernelEv

/-!
# Simulation between the VM and the kernel's interpreter on accepted programs
-/
set_option autoImplicit false

namespace Kernel
open Bpfvm

/-! ## What the checks say about single instructions -/

theorem classicFrom_get (flen : Nat) (l : Prog) (pc n : Nat) (i : SockFilter) (h : classicFrom flen pc l = true)
    (hi : l[n]? = some i) : instrOK flen (pc + n) i = true := by
  induction l generalizing pc n with
  | nil => simp at hi
  | cons a l ih =>
    simp only [classicFrom, Bool.and_eq_true] at h
    cases n with
    | zero => simp at hi; subst hi; exact h.1
    | succ n =>
      have := ih (pc + 1) n h.2 (by simpa using hi)
      rwa [show pc + 1 + n = pc + (n + 1) by omega] at this

/-- `a` has no bit that `b` has not. -/
def Sub (a b : BitVec 16) : Prop := ∀ j, a.getLsbD j = true → b.getLsbD j = true

theorem Sub.refl (a : BitVec 16) : Sub a a := fun _ h => h
theorem Sub.trans {a b c : BitVec 16} (h1 : Sub a b) (h2 : Sub b c) : Sub a c := fun j h => h2 j (h1 j h)
theorem sub_and_left (a b : BitVec 16) : Sub (a &&& b) a := by intro j h; simp at h; exact h.1
theorem sub_and_right (a b : BitVec 16) : Sub (a &&& b) b := by intro j h; simp at h; exact h.2

theorem andMask_sub (masks : Nat → BitVec 16) (t : Nat) (m : BitVec 16) (j : Nat) : Sub (andMask masks t m j) (masks j) := by
  unfold andMask
  split
  · exact sub_and_left _ _
  · exact .refl _

theorem andMask_self (masks : Nat → BitVec 16) (t : Nat) (m : BitVec 16) : Sub (andMask masks t m t) m := by
  unfold andMask
  rw [if_pos rfl]
  exact sub_and_right _ _

/-- The checker's state further down. -/
theorem mem_skip (n : Nat) (l : Prog) (pc : Nat) (masks : Nat → BitVec 16) (mv : BitVec 16) (h : memFrom pc masks mv l = true)
    (hn : n ≤ l.length) :
    ∃ masks' mv', memFrom (pc + n) masks' mv' (l.drop n) = true ∧ ∀ t, Sub (masks' t) (masks t) := by
  induction n generalizing l pc masks mv with
  | zero => exact ⟨masks, mv, by simpa using h, fun _ => .refl _⟩
  | succ n ih =>
    cases l with
    | nil => simp at hn
    | cons i rest =>
      have hn' : n ≤ rest.length := by simpa using hn
      have e : pc + (n + 1) = pc + 1 + n := by omega
      rw [e]
      simp only [List.drop_succ_cons]
      simp only [memFrom] at h
      split at h
      · exact ih rest (pc + 1) masks _ h hn'
      · split at h
        · rw [Bool.and_eq_true] at h
          exact ih rest (pc + 1) masks _ h.2 hn'
        · split at h
          · obtain ⟨m', v', h1, h2⟩ := ih rest (pc + 1) _ _ h hn'
            exact ⟨m', v', h1, fun t => (h2 t).trans (andMask_sub _ _ _ _)⟩
          · split at h
            · obtain ⟨m', v', h1, h2⟩ := ih rest (pc + 1) _ _ h hn'
              exact ⟨m', v', h1, fun t => ((h2 t).trans (andMask_sub _ _ _ _)).trans (andMask_sub _ _ _ _)⟩
            · exact ih rest (pc + 1) masks _ h hn'

/-- Codes the VM does not implement or implements differently: jumps with register operand, NEG, TAX, TXA, LEN loads. -/
def unsupported : List (BitVec 16) := [0x1d#16, 0x2d#16, 0x3d#16, 0x4d#16, 0x84#16, 0x07#16, 0x87#16, 0x80#16, 0x81#16]

/-- The rest of what seccomp accepts. -/
def supported : List (BitVec 16) :=
  [0x00#16, 0x20#16, 0x60#16, 0x01#16, 0x61#16, 0x02#16, 0x03#16, 0x04#16, 0x0c#16, 0x14#16, 0x1c#16, 0x24#16, 0x2c#16, 0x34#16, 0x3c#16, 0x44#16, 0x4c#16, 0x54#16, 0x5c#16, 0x64#16, 0x6c#16, 0x74#16,
   0x7c#16, 0xa4#16, 0xac#16, 0x06#16, 0x16#16, 0x05#16, 0x15#16, 0x25#16, 0x35#16, 0x45#16]

theorem supported_of (i : SockFilter) (h1 : seccompInstrOK i = true) (h2 : i.code ∉ unsupported) : i.code ∈ supported := by
  unfold seccompInstrOK at h1
  split at h1
  · rename_i h; rw [h]; decide
  · simp only [condJumps, List.cons_append, List.nil_append, List.contains_eq_mem, decide_eq_true_eq] at h1
    simp only [unsupported, supported, List.mem_cons, List.not_mem_nil, or_false, not_or] at h1 h2 ⊢
    grind

/-- Agreement of the two machines. `V`: the memory cells known to have been stored. -/
structure Agree (vm : VM) (r : Regs) (V : BitVec 16) : Prop where
  pc : vm.pc = r.pc
  acc : vm.acc = r.A
  idx : vm.idx = r.X
  mem : ∀ j (hj : j < 16), V.getLsbD j = true → vm.mem[j]'hj = r.M j

/-- The VM may give up with a panic only in a checked build, or in a program that divides by the index register; then the kernel
returns 0. -/
def MayPanic (b : Build) (p : Prog) (v : BitVec 32) : Prop := b.overflowChecks = true ∨ (∃ i ∈ p, i.code = 0x3c#16) ∧ v = 0

/-- The claim: the kernel returns `v` and so does the VM, unless it panics. -/
def Same (b : Build) (p : Prog) (data w : List (BitVec 32)) (vm : VM) (r : Regs) : Prop :=
  ∃ v, runFrom p w r = some v ∧
    ((vm.loop b data).map Prod.snd = some (.ok v) ∨ (vm.loop b data).map Prod.snd = some .panic ∧ MayPanic b p v)

theorem same_next {b : Build} {p : Prog} {data w : List (BitVec 32)} {vm vm' : VM} {r r' : Regs} {i : SockFilter}
    (hp : p[r.pc]? = some i) (hv : vm.prog[vm.pc]? = some i) (h1 : step w i r = .next r')
    (h2 : VM.executeInstr b { vm with pc := vm.pc + 1 } data i = (vm', .ok none)) (h : Same b p data w vm' r') :
    Same b p data w vm r := by
  unfold Same at *
  rw [runFrom_step p w r i hp, h1, loop_step b vm data i hv, h2]
  exact h

theorem same_done {b : Build} {p : Prog} {data w : List (BitVec 32)} {vm vm' : VM} {r : Regs} {i : SockFilter} {v : BitVec 32}
    (hp : p[r.pc]? = some i) (hv : vm.prog[vm.pc]? = some i) (h1 : step w i r = .done v)
    (h2 : VM.executeInstr b { vm with pc := vm.pc + 1 } data i = (vm', .ok (some v))) : Same b p data w vm r := by
  unfold Same
  rw [runFrom_step p w r i hp, h1, loop_step b vm data i hv, h2]
  exact ⟨v, rfl, .inl rfl⟩

/-- If the VM panics here the claim only needs a kernel value. -/
theorem same_panic {b : Build} {p : Prog} {data w : List (BitVec 32)} {vm vm' : VM} {r : Regs} {i : SockFilter}
    (hv : vm.prog[vm.pc]? = some i)
    (h2 : VM.executeInstr b { vm with pc := vm.pc + 1 } data i = (vm', .panic))
    (hk : ∃ v, runFrom p w r = some v ∧ MayPanic b p v) : Same b p data w vm r := by
  obtain ⟨v, hk, hm⟩ := hk
  refine ⟨v, hk, .inr ⟨?_, hm⟩⟩
  rw [loop_step b vm data i hv, h2]
  rfl

theorem same_maybe {b : Build} {p : Prog} {data w : List (BitVec 32)} {vm vm' : VM} {r r' : Regs} {i : SockFilter}
    (hp : p[r.pc]? = some i) (hv : vm.prog[vm.pc]? = some i) (h1 : step w i r = .next r')
    (h2 : VM.executeInstr b { vm with pc := vm.pc + 1 } data i = (vm', .ok none) ∨
      (∃ vm'', VM.executeInstr b { vm with pc := vm.pc + 1 } data i = (vm'', .panic)) ∧ b.overflowChecks = true)
    (h : Same b p data w vm' r') : Same b p data w vm r := by
  rcases h2 with h2 | ⟨⟨vm'', h2⟩, hm⟩
  · exact same_next hp hv h1 h2 h
  · refine same_panic hv h2 ?_
    obtain ⟨v, hk, -⟩ := h
    exact ⟨v, by rw [runFrom_step p w r i hp, h1]; exact hk, .inl hm⟩

/-- The two ALUs agree, or the VM panics and the kernel's one may have stopped the program. -/
theorem alu_agree (b : Build) (vm : VM) (i : SockFilter) (r : Regs) (ha : vm.acc = r.A) (hx : vm.idx = r.X)
    (hc : i.code ∈ supported) (h4 : i.code &&& 7#16 = 4#16) (hk : i.code = 0x34#16 → i.k ≠ 0) :
    (∃ v, (∀ w, step w i r = .next { r with pc := r.pc + 1, A := v }) ∧
      (vm.aluValue b i = .ok v ∨ vm.aluValue b i = .panic ∧ b.overflowChecks = true)) ∨
    (i.code = 0x3c#16 ∧ (∀ w, step w i r = .done 0) ∧ vm.aluValue b i = .panic) := by
  by_cases h3c : i.code = 0x3c#16
  · rw [aluValue_eq, ha, hx]
    simp only [step, alu, h3c, BitVec.reduceToNat, BitVec.reduceAnd, BitVec.reduceEq, reduceIte, Nat.reduceAnd, Nat.reduceEqDiff,
      divU32]
    by_cases hs : r.X = 0
    · right
      simp only [hs, if_true]
      exact ⟨trivial, fun _ => trivial, trivial⟩
    · left
      simp only [hs, if_false]
      exact ⟨_, fun _ => rfl, .inl rfl⟩
  obtain ⟨code, jt, jf, k⟩ := i
  simp only [supported, List.mem_cons, List.not_mem_nil, or_false] at hc h4 hk ⊢
  rcases hc with h | h | h | h | h | h | h | h | h | h | h | h | h | h | h | h | h | h | h | h | h | h | h | h | h | h | h | h | h |
    h | h | h <;> subst h
  all_goals first
    | (exfalso; revert h4; decide)
    | exact absurd rfl h3c
    | skip
  all_goals
    rw [aluValue_eq, ha, hx]
    simp only [step, alu, BitVec.reduceToNat, BitVec.reduceAnd, BitVec.reduceEq, reduceIte, Nat.reduceAnd, Nat.reduceEqDiff]
  all_goals
    try simp only [addU32, subU32, mulU32, divU32, shlU32, shrU32]
  all_goals
    left
    first
    | exact ⟨_, fun _ => rfl, .inl rfl⟩
    | (rw [if_neg (by simpa using hk), if_neg (by simpa using hk)]
       exact ⟨_, fun _ => rfl, .inl rfl⟩)
    | (refine ⟨_, fun _ => rfl, ?_⟩
       split
       · rename_i h
         exact .inr ⟨rfl, h.1⟩
       · exact .inl rfl)

theorem endsInRet_last (p : Prog) (h : endsInRet p = true) (n : Nat) (i : SockFilter) (hi : p[n]? = some i)
    (hc : i.code ≠ 0x06#16) (hc' : i.code ≠ 0x16#16) : n + 1 < p.length := by
  obtain ⟨hlt, rfl⟩ := List.getElem?_eq_some_iff.1 hi
  by_cases hn : n + 1 < p.length
  · exact hn
  · exfalso
    unfold endsInRet at h
    rw [List.getLast?_eq_getElem?, show p.length - 1 = n by omega, List.getElem?_eq_getElem hlt] at h
    simp [hc, hc'] at h

theorem bit_ne (V : BitVec 16) (k : Nat) (hk : k < 16) (h : V &&& (1#16 <<< k) ≠ 0) : V.getLsbD k = true := by
  cases hb : V.getLsbD k
  · exfalso
    apply h
    apply BitVec.eq_of_getLsbD_eq
    intro j hj
    simp only [BitVec.getLsbD_and, BitVec.getLsbD_shiftLeft, BitVec.getLsbD_one]
    by_cases hjk : j = k
    · subst hjk; simp [hb]
    · have : ¬ (j - k = 0 ∧ ¬ j < k) := by omega
      by_cases h1 : j < k
      · simp [h1]
      · have h2 : j - k ≠ 0 := by omega
        simp [h2]
  · rfl

theorem bit_or (V : BitVec 16) (k j : Nat) (h : (V ||| (1#16 <<< k)).getLsbD j = true) (hjk : j ≠ k) : V.getLsbD j = true := by
  simp only [BitVec.getLsbD_or, BitVec.getLsbD_shiftLeft, BitVec.getLsbD_one] at h
  by_cases h1 : j < k
  · simpa [h1] using h
  · have h2 : j - k ≠ 0 := by omega
    simpa [h2] using h

theorem vset (m : Vector (BitVec 32) MEMSIZE) (k j : Nat) (hk : k < MEMSIZE) (hj : j < 16) (v : BitVec 32) :
    (m.set k v hk)[j]'hj = if j = k then v else m[j]'hj := by
  have := Vector.getElem_set (xs := m) (i := k) (x := v) hk (j := j) hj
  rw [this]
  simp only [eq_comm]

theorem bv_pos (x : BitVec 32) : 0#32 < x ↔ ¬ x = 0#32 := by
  rw [BitVec.lt_def, ← BitVec.toNat_inj]
  simp
  omega

/-- On an accepted program without unsupported instructions the two interpreters agree from every reachable pair of states. -/
theorem sim (b : Build) (p : Prog) (data w : List (BitVec 32)) (hacc : accepts p = true) (hsup : ∀ i ∈ p, i.code ∉ unsupported)
    (hdata : ∀ j < 16, data[j]? = w[j]?) (hw : 16 ≤ w.length) :
    ∀ (n : Nat) (vm : VM) (r : Regs) (masks : Nat → BitVec 16) (mv : BitVec 16), p.length - r.pc ≤ n → r.pc < p.length →
      vm.prog = p → memFrom r.pc masks mv (p.drop r.pc) = true → Agree vm r (mv &&& masks r.pc) → Same b p data w vm r := by
  simp only [accepts, Bool.and_eq_true, decide_eq_true_eq, List.all_eq_true] at hacc
  obtain ⟨⟨⟨⟨⟨-, -⟩, hcl⟩, hret⟩, -⟩, hsec⟩ := hacc
  intro n
  induction n with
  | zero => intro vm r masks mv h1 h2; omega
  | succ n ih =>
    intro vm r masks mv hn hlt hprog hm hag
    obtain ⟨hpc, hacc', hidx, hmem⟩ := hag
    have hp : p[r.pc]? = some p[r.pc] := List.getElem?_eq_getElem hlt
    have hmi : p[r.pc] ∈ p := List.getElem_mem hlt
    have hdrop : p.drop r.pc = p[r.pc] :: p.drop (r.pc + 1) := List.drop_eq_getElem_cons hlt
    generalize p[r.pc] = i at hp hmi hdrop
    have hv : vm.prog[vm.pc]? = some i := by rw [hprog, hpc]; exact hp
    have hok := classicFrom_get p.length p 0 r.pc i hcl hp
    rw [Nat.zero_add] at hok
    have hs := hsec i hmi
    have hc := supported_of i hs (hsup i hmi)
    rw [hdrop] at hm
    have hlast := endsInRet_last p hret r.pc i hp
    have hlen : (p.drop (r.pc + 1)).length = p.length - (r.pc + 1) := by simp
    unfold instrOK at hok
    rw [Bool.and_eq_true] at hok
    have hok := hok.2
    -- where straight-line instructions go on
    have line : ∀ (a x : BitVec 32), i.code ∉ [0x02#16, 0x03#16, 0x60#16, 0x61#16, 0x05#16, 0x06#16, 0x16#16] → i.code ∉ condJumps →
        Same b p data w { vm with pc := vm.pc + 1, acc := a, idx := x } { r with pc := r.pc + 1, A := a, X := x } := by
      intro a x h1 h2
      simp only [List.mem_cons, List.not_mem_nil, or_false, not_or] at h1
      obtain ⟨g1, g2, g3, g4, g5, g6, g7⟩ := h1
      have hnext := hlast g6 g7
      simp only [memFrom, List.mem_cons, List.not_mem_nil, or_false, g1, g2, g3, g4, g5, h2, if_false] at hm
      exact ih _ _ masks (mv &&& masks r.pc) (by simp; omega) hnext hprog hm
        ⟨by simp [hpc], rfl, rfl, fun j hj h => hmem j hj (sub_and_left _ _ j h)⟩
    -- where jumps go on
    have jump : ∀ (t : Nat) (masks' : Nat → BitVec 16), r.pc + 1 + t < p.length →
        memFrom (r.pc + 1) masks' (~~~0) (p.drop (r.pc + 1)) = true → Sub (masks' (r.pc + 1 + t)) (mv &&& masks r.pc) →
        Same b p data w { vm with pc := vm.pc + 1 + t } { r with pc := r.pc + 1 + t } := by
      intro t masks' ht hm' hsub
      obtain ⟨m2, v2, e1, e2⟩ := mem_skip t _ _ _ _ hm' (by rw [hlen]; omega)
      rw [List.drop_drop] at e1
      exact ih _ _ m2 v2 (by simp; omega) ht hprog e1
        ⟨by simp [hpc], hacc', hidx, fun j hj h => hmem j hj (hsub j (e2 _ j (sub_and_right _ _ j h)))⟩
    by_cases halu : i.code &&& 7#16 = 4#16
    · have hk : i.code = 0x34#16 → i.k ≠ 0 := by
        intro h
        simpa [h] using hok
      have hn1 : i.code ∉ [0x02#16, 0x03#16, 0x60#16, 0x61#16, 0x05#16, 0x06#16, 0x16#16] := by
        intro h
        simp only [List.mem_cons, List.not_mem_nil, or_false] at h
        rcases h with h | h | h | h | h | h | h <;> rw [h] at halu <;> revert halu <;> decide
      have hn2 : i.code ∉ condJumps := by
        intro h
        simp only [condJumps, List.mem_cons, List.not_mem_nil, or_false] at h
        rcases h with h | h | h | h | h | h | h | h <;> rw [h] at halu <;> revert halu <;> decide
      have hx := executeInstr_eq b { vm with pc := vm.pc + 1 } data i
      simp only [halu, BitVec.reduceEq, reduceIte] at hx
      rcases alu_agree b { vm with pc := vm.pc + 1 } i r hacc' hidx hc halu hk with ⟨v, h1, h2⟩ | ⟨h0, h1, h2⟩
      · refine same_maybe (vm' := { vm with pc := vm.pc + 1, acc := v, idx := r.X }) hp hv (h1 w) ?_ (line v r.X hn1 hn2)
        rcases h2 with h2 | ⟨h2, h3⟩
        · left
          rw [hx, h2]
          simp [hidx]
        · right
          exact ⟨⟨_, by rw [hx, h2]⟩, h3⟩
      · exact same_panic hv (hx.trans (by rw [h2])) ⟨0, by rw [runFrom_step p w r i hp, h1 w], .inr ⟨⟨i, hmi, h0⟩, rfl⟩⟩
    · simp only [supported, List.mem_cons, List.not_mem_nil, or_false] at hc
      rcases hc with h | h | h | h | h | h | h | h | h | h | h | h | h | h | h | h | h | h | h | h | h | h | h | h | h | h | h | h | h |
        h | h | h
      all_goals first
        | (exfalso; rw [h] at halu; revert halu; decide)
        | skip
      all_goals
        have hx := executeInstr_eq b { vm with pc := vm.pc + 1 } data i
        simp only [h, BitVec.reduceAnd, BitVec.reduceEq, reduceIte, ldValue_eq, ldxValue_eq, fetchData_eq, fetchU32, VM.readMem,
          fetchSrc_eq, jumpAmount_eq] at hx
      · -- LD IMM
        have hst : step w i r = .next { r with pc := r.pc + 1, A := i.k, X := r.X } := by simp [step, cond, h]
        exact same_next (vm' := { vm with pc := vm.pc + 1, acc := i.k, idx := r.X }) hp hv hst (hx.trans (by rw [← hidx]))
          (line i.k r.X (by rw [h]; decide) (by rw [h]; decide))
      · -- LD ABS
        have hk : i.k.toNat < 64 := by
          unfold seccompInstrOK at hs
          rw [if_pos h, Bool.and_eq_true, decide_eq_true_eq, decide_eq_true_eq] at hs
          exact hs.1
        have hk4 : i.k.toNat / 4 < 16 := by omega
        obtain ⟨v, hwv⟩ : ∃ v, w[i.k.toNat / 4]? = some v := ⟨_, List.getElem?_eq_getElem (by omega)⟩
        have hst : step w i r = .next { r with pc := r.pc + 1, A := v, X := r.X } := by simp [step, h, hwv]
        rw [hdata _ hk4, hwv] at hx
        exact same_next (vm' := { vm with pc := vm.pc + 1, acc := v, idx := r.X }) hp hv hst (hx.trans (by rw [← hidx]))
          (line v r.X (by rw [h]; decide) (by rw [h]; decide))
      · -- LD MEM
        have hk : i.k.toNat < 16 := by simpa [h] using hok
        simp only [memFrom, h, List.mem_cons, List.not_mem_nil, or_false, BitVec.reduceEq, or_self, if_false, true_or, or_true, if_true,
          Bool.and_eq_true, decide_eq_true_eq] at hm
        have hbit := bit_ne _ _ hk hm.1
        have hst : step w i r = .next { r with pc := r.pc + 1, A := r.M i.k.toNat, X := r.X } := by simp [step, h]
        have hk' : i.k.toNat < MEMSIZE := hk
        simp only [hk, hk', ↓reduceDIte] at hx
        refine same_next hp hv hst hx ?_
        exact ih _ _ masks (mv &&& masks r.pc) (by simp; omega) (hlast (by rw [h]; decide) (by rw [h]; decide)) hprog hm.2
          ⟨by simp [hpc], by first | exact hacc' | exact hmem _ hk hbit, by first | exact hidx | exact hmem _ hk hbit,
            fun j hj hj' => hmem j hj (sub_and_left _ _ j hj')⟩
      · -- LDX IMM
        have hst : step w i r = .next { r with pc := r.pc + 1, A := r.A, X := i.k } := by simp [step, cond, h]
        exact same_next (vm' := { vm with pc := vm.pc + 1, acc := r.A, idx := i.k }) hp hv hst (hx.trans (by rw [← hacc']))
          (line r.A i.k (by rw [h]; decide) (by rw [h]; decide))
      · -- LDX MEM
        have hk : i.k.toNat < 16 := by simpa [h] using hok
        simp only [memFrom, h, List.mem_cons, List.not_mem_nil, or_false, BitVec.reduceEq, or_self, if_false, true_or, or_true, if_true,
          Bool.and_eq_true, decide_eq_true_eq] at hm
        have hbit := bit_ne _ _ hk hm.1
        have hst : step w i r = .next { r with pc := r.pc + 1, A := r.A, X := r.M i.k.toNat } := by simp [step, h]
        have hk' : i.k.toNat < MEMSIZE := hk
        simp only [hk, hk', ↓reduceDIte] at hx
        refine same_next hp hv hst hx ?_
        exact ih _ _ masks (mv &&& masks r.pc) (by simp; omega) (hlast (by rw [h]; decide) (by rw [h]; decide)) hprog hm.2
          ⟨by simp [hpc], by first | exact hacc' | exact hmem _ hk hbit, by first | exact hidx | exact hmem _ hk hbit,
            fun j hj hj' => hmem j hj (sub_and_left _ _ j hj')⟩
      · -- ST
        have hk : i.k.toNat < 16 := by simpa [h] using hok
        simp only [memFrom, h, List.mem_cons, List.not_mem_nil, or_false, BitVec.reduceEq, or_self, if_false, true_or, or_true,
          if_true] at hm
        have hst : step w i r = .next { r with pc := r.pc + 1, M := fun j => if j = i.k.toNat then r.A else r.M j } := by
          simp [step, h]
        have hk' : i.k.toNat < MEMSIZE := hk
        simp only [hk, hk', ↓reduceDIte] at hx
        refine same_next hp hv hst hx ?_
        refine ih _ _ masks _ (by simp; omega) (hlast (by rw [h]; decide) (by rw [h]; decide)) hprog hm
          ⟨by simp [hpc], hacc', hidx, fun j hj hj' => ?_⟩
        have hj1 := sub_and_left _ _ j hj'
        refine (vset vm.mem _ j hk' hj _).trans ?_
        by_cases hjk : j = i.k.toNat
        · simp only [hjk, if_true, hacc']
        · simp only [hjk, if_false]
          exact hmem j hj (bit_or _ _ _ hj1 hjk)
      · -- STX
        have hk : i.k.toNat < 16 := by simpa [h] using hok
        simp only [memFrom, h, List.mem_cons, List.not_mem_nil, or_false, BitVec.reduceEq, or_self, if_false, true_or, or_true,
          if_true] at hm
        have hst : step w i r = .next { r with pc := r.pc + 1, M := fun j => if j = i.k.toNat then r.X else r.M j } := by
          simp [step, h]
        have hk' : i.k.toNat < MEMSIZE := hk
        simp only [hk, hk', ↓reduceDIte] at hx
        refine same_next hp hv hst hx ?_
        refine ih _ _ masks _ (by simp; omega) (hlast (by rw [h]; decide) (by rw [h]; decide)) hprog hm
          ⟨by simp [hpc], hacc', hidx, fun j hj hj' => ?_⟩
        have hj1 := sub_and_left _ _ j hj'
        refine (vset vm.mem _ j hk' hj _).trans ?_
        by_cases hjk : j = i.k.toNat
        · simp only [hjk, if_true, hidx]
        · simp only [hjk, if_false]
          exact hmem j hj (bit_or _ _ _ hj1 hjk)
      · -- RET K
        have hst : step w i r = .done i.k := by simp [step, cond, h]
        exact same_done hp hv hst hx
      · -- RET A
        have hst : step w i r = .done r.A := by simp [step, cond, h]
        exact same_done hp hv hst (hx.trans (by rw [hacc']))
      · -- JA
        have hst : step w i r = .next { r with pc := r.pc + 1 + i.k.toNat } := by simp [step, cond, h]
        have hk : i.k.toNat < p.length - r.pc - 1 := by simpa [h, condJumps] using hok
        simp only [memFrom, h, List.mem_cons, List.not_mem_nil, or_false, BitVec.reduceEq, or_self, if_false, if_true] at hm
        refine same_next hp hv hst hx (jump _ _ (by omega) hm (andMask_self _ _ _))
      · -- JEQ
        have hst : step w i r = .next { r with pc := r.pc + 1 + (if r.A = i.k then i.jt.toNat else i.jf.toNat) } := by
          simp [step, cond, h]
        have hk : r.pc + i.jt.toNat + 1 < p.length ∧ r.pc + i.jf.toNat + 1 < p.length := by simpa [h, condJumps] using hok
        simp only [memFrom, h, List.mem_cons, List.not_mem_nil, or_false, BitVec.reduceEq, or_self, if_false, if_true, condJumps,
          true_or, or_true] at hm
        refine same_next hp hv hst (vm' := { vm with pc := vm.pc + 1 + (if r.A = i.k then i.jt.toNat else i.jf.toNat) })
          (hx.trans (by simp [hacc'])) ?_
        split
        · exact jump _ _ (by omega) hm ((andMask_sub _ _ _ _).trans (andMask_self _ _ _))
        · exact jump _ _ (by omega) hm (andMask_self _ _ _)
      · -- JGT
        have hst : step w i r = .next { r with pc := r.pc + 1 + (if i.k < r.A then i.jt.toNat else i.jf.toNat) } := by
          simp [step, cond, h]
        have hk : r.pc + i.jt.toNat + 1 < p.length ∧ r.pc + i.jf.toNat + 1 < p.length := by simpa [h, condJumps] using hok
        simp only [memFrom, h, List.mem_cons, List.not_mem_nil, or_false, BitVec.reduceEq, or_self, if_false, if_true, condJumps,
          true_or, or_true] at hm
        refine same_next hp hv hst (vm' := { vm with pc := vm.pc + 1 + (if i.k < r.A then i.jt.toNat else i.jf.toNat) })
          (hx.trans (by simp [hacc'])) ?_
        split
        · exact jump _ _ (by omega) hm ((andMask_sub _ _ _ _).trans (andMask_self _ _ _))
        · exact jump _ _ (by omega) hm (andMask_self _ _ _)
      · -- JGE
        have hst : step w i r = .next { r with pc := r.pc + 1 + (if i.k ≤ r.A then i.jt.toNat else i.jf.toNat) } := by
          simp [step, cond, h]
        have hk : r.pc + i.jt.toNat + 1 < p.length ∧ r.pc + i.jf.toNat + 1 < p.length := by simpa [h, condJumps] using hok
        simp only [memFrom, h, List.mem_cons, List.not_mem_nil, or_false, BitVec.reduceEq, or_self, if_false, if_true, condJumps,
          true_or, or_true] at hm
        refine same_next hp hv hst (vm' := { vm with pc := vm.pc + 1 + (if i.k ≤ r.A then i.jt.toNat else i.jf.toNat) })
          (hx.trans (by simp [hacc'])) ?_
        split
        · exact jump _ _ (by omega) hm ((andMask_sub _ _ _ _).trans (andMask_self _ _ _))
        · exact jump _ _ (by omega) hm (andMask_self _ _ _)
      · -- JSET
        have hst : step w i r = .next { r with pc := r.pc + 1 + (if r.A &&& i.k ≠ 0 then i.jt.toNat else i.jf.toNat) } := by
          simp [step, cond, h]
        have hk : r.pc + i.jt.toNat + 1 < p.length ∧ r.pc + i.jf.toNat + 1 < p.length := by simpa [h, condJumps] using hok
        simp only [memFrom, h, List.mem_cons, List.not_mem_nil, or_false, BitVec.reduceEq, or_self, if_false, if_true, condJumps,
          true_or, or_true] at hm
        refine same_next hp hv hst (vm' := { vm with pc := vm.pc + 1 + (if r.A &&& i.k ≠ 0 then i.jt.toNat else i.jf.toNat) })
          (hx.trans (by simp [gt_iff_lt, bv_pos, hacc'])) ?_
        split
        · exact jump _ _ (by omega) hm ((andMask_sub _ _ _ _).trans (andMask_self _ _ _))
        · exact jump _ _ (by omega) hm (andMask_self _ _ _)

end Kernel
