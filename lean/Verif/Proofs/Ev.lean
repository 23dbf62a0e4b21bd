import Verif.Model.Vm

/-!
# A structural evaluator for accumulator-only programs, and its relation to the VM

`ev w prog skip a` runs the straight-line/forward-jump program `prog` on the words `w` with accumulator `a`, after skipping
`skip` instructions. It covers the instruction forms that src/seccomp.rs uses; anything else is `stuck`. It is a proof device
only: the theorems are about `VM.run`.
-/
set_option autoImplicit false

namespace Bpfvm

/-- Result of `ev`: returned a value, fell off the end with an accumulator, or left the covered subset. -/
inductive Ev where
  | ret (v : BitVec 32)
  | fall (a : BitVec 32)
  | stuck
  deriving DecidableEq

def ev (w : RunData) : List SockFilter → Nat → BitVec 32 → Ev
  | [], 0, a => .fall a
  | [], _ + 1, _ => .stuck
  | _ :: rest, n + 1, a => ev w rest n a
  | i :: rest, 0, a =>
    if i.code = 0x20#16 then
      match w[i.k.toNat / 4]? with
      | some v => ev w rest 0 v
      | none => .stuck
    else if i.code = 0x15#16 then ev w rest (if a = i.k then i.jt.toNat else i.jf.toNat) a
    else if i.code = 0x25#16 then ev w rest (if i.k < a then i.jt.toNat else i.jf.toNat) a
    else if i.code = 0x05#16 then ev w rest i.k.toNat a
    else if i.code = 0x54#16 then ev w rest 0 (a &&& i.k)
    else if i.code = 0x06#16 then .ret i.k
    else .stuck

section
variable (w : RunData) (rest : List SockFilter) (jt jf : BitVec 8) (k a : BitVec 32) (i : SockFilter) (n : Nat)

theorem ev_nil : ev w [] 0 a = .fall a := rfl
theorem ev_skip : ev w (i :: rest) (n + 1) a = ev w rest n a := rfl
theorem ev_ld (v : BitVec 32) (h : w[k.toNat / 4]? = some v) : ev w (⟨0x20, jt, jf, k⟩ :: rest) 0 a = ev w rest 0 v := by
  simp [ev, h]
theorem ev_jeq : ev w (⟨0x15, jt, jf, k⟩ :: rest) 0 a = if a = k then ev w rest jt.toNat a else ev w rest jf.toNat a := by
  simp [ev]; split <;> rfl
theorem ev_jgt : ev w (⟨0x25, jt, jf, k⟩ :: rest) 0 a = if k < a then ev w rest jt.toNat a else ev w rest jf.toNat a := by
  simp [ev]; split <;> rfl
theorem ev_ja : ev w (⟨0x05, jt, jf, k⟩ :: rest) 0 a = ev w rest k.toNat a := by simp [ev]
theorem ev_and : ev w (⟨0x54, jt, jf, k⟩ :: rest) 0 a = ev w rest 0 (a &&& k) := by simp [ev]
theorem ev_ret : ev w (⟨0x06, jt, jf, k⟩ :: rest) 0 a = .ret k := by simp [ev]
end

theorem ev_append (w : RunData) (f g : List SockFilter) (n : Nat) (a : BitVec 32) :
    ev w f n a ≠ .stuck →
    ev w (f ++ g) n a =
      match ev w f n a with
      | .ret v => .ret v
      | .fall a' => ev w g 0 a'
      | .stuck => .stuck := by
  induction f generalizing n a with
  | nil =>
    cases n with
    | zero => intro _; simp [ev]
    | succ n => intro h; simp [ev] at h
  | cons i rest ih =>
    cases n with
    | succ n => intro h; simp only [List.cons_append, ev] at *; exact ih _ _ h
    | zero =>
      intro h
      simp only [List.cons_append, ev] at *
      split
      · rename_i hc
        rw [if_pos hc] at h
        split
        · rename_i v hv
          simp only [hv] at h
          exact ih _ _ h
        · rename_i hv; simp [hv] at h
      · rename_i hc
        rw [if_neg hc] at h
        split
        · rename_i hc; rw [if_pos hc] at h; exact ih _ _ h
        · rename_i hc; rw [if_neg hc] at h
          split
          · rename_i hc; rw [if_pos hc] at h; exact ih _ _ h
          · rename_i hc; rw [if_neg hc] at h
            split
            · rename_i hc; rw [if_pos hc] at h; exact ih _ _ h
            · rename_i hc; rw [if_neg hc] at h
              split
              · rename_i hc; rw [if_pos hc] at h; exact ih _ _ h
              · rename_i hc; rw [if_neg hc] at h
                split
                · rfl
                · rename_i hc; simp [hc] at h

/-! ## single steps of the VM on the covered instruction forms -/

theorem loop_done (b : Build) (vm : VM) (data : RunData) (h : vm.prog.length ≤ vm.pc) :
    vm.loop b data = some (vm, .ok 0) := by
  rw [VM.loop, if_neg (by omega)]

theorem loop_step (b : Build) (vm : VM) (data : RunData) (i : SockFilter) (h : vm.prog[vm.pc]? = some i) :
    vm.loop b data =
      match VM.executeInstr b { vm with pc := vm.pc + 1 } data i with
      | (vm', .ok none) => VM.loop b vm' data
      | (vm', .ok (some r)) => some (vm', .ok r)
      | (vm', .err e) => some (vm', .err e)
      | (vm', .panic) => some (vm', .panic) := by
  have hlt : vm.pc < vm.prog.length := by
    rcases Nat.lt_or_ge vm.pc vm.prog.length with h' | h'
    · exact h'
    · rw [List.getElem?_eq_none h'] at h; cases h
  rw [VM.loop, if_pos hlt, VM.execute, h]
  rfl

/-- The VM computes what `ev` says, started anywhere inside a program. -/
theorem loop_of_ev (b : Build) (w : RunData) (l pre : List SockFilter) (n : Nat) (vm : VM)
    (hprog : vm.prog = pre ++ l) (hpc : vm.pc = pre.length + n) :
    (∀ v, ev w l n vm.acc = .ret v → (vm.loop b w).map Prod.snd = some (.ok v)) ∧
    (∀ a, ev w l n vm.acc = .fall a → (vm.loop b w).map Prod.snd = some (.ok 0)) := by
  induction l generalizing pre n vm with
  | nil =>
    cases n with
    | succ n => simp [ev]
    | zero =>
      refine ⟨by simp [ev], fun a _ => ?_⟩
      rw [loop_done b vm w (by simp [hprog, hpc])]; rfl
  | cons i rest ih =>
    have hp' : vm.prog = (pre ++ [i]) ++ rest := by simp [hprog]
    cases n with
    | succ n =>
      have := ih (pre ++ [i]) n vm hp' (by simp [hpc]; omega)
      simpa only [ev] using this
    | zero =>
      have hget : vm.prog[vm.pc]? = some i := by simp [hprog, hpc]
      rw [loop_step b vm w i hget]
      simp only [ev]
      obtain ⟨code, jt, jf, k⟩ := i
      simp only at *
      by_cases h1 : code = 0x20#16
      · subst h1
        simp only [VM.executeInstr, VM.ldValue, fetchData, fetchU32]
        simp only [if_true]
        cases hv : w[k.toNat / 4]? with
        | none => simp
        | some v =>
          have := ih _ 0 { vm with pc := vm.pc + 1, acc := v } hp' (by simp [hpc])
          simpa [Libc.BPF_LD, Libc.BPF_ABS, Libc.BPF_IMM, Libc.BPF_W, hv] using this
      rw [if_neg h1]
      by_cases h2 : code = 0x15#16
      · subst h2
        have := ih _ (if vm.acc = k then jt.toNat else jf.toNat)
          { vm with pc := vm.pc + 1 + (if vm.acc = k then jt.toNat else jf.toNat) } hp' (by simp [hpc])
        simpa [VM.executeInstr, VM.jumpAmount, Libc.BPF_LD, Libc.BPF_LDX, Libc.BPF_ST, Libc.BPF_STX, Libc.BPF_ALU,
          Libc.BPF_JMP, Libc.BPF_JA, Libc.BPF_JEQ] using this
      rw [if_neg h2]
      by_cases h3 : code = 0x25#16
      · subst h3
        have := ih _ (if k < vm.acc then jt.toNat else jf.toNat)
          { vm with pc := vm.pc + 1 + (if k < vm.acc then jt.toNat else jf.toNat) } hp' (by simp [hpc])
        simpa [VM.executeInstr, VM.jumpAmount, Libc.BPF_LD, Libc.BPF_LDX, Libc.BPF_ST, Libc.BPF_STX, Libc.BPF_ALU,
          Libc.BPF_JMP, Libc.BPF_JA, Libc.BPF_JEQ, Libc.BPF_JGT] using this
      rw [if_neg h3]
      by_cases h4 : code = 0x05#16
      · subst h4
        have := ih _ k.toNat { vm with pc := vm.pc + 1 + k.toNat } hp' (by simp [hpc])
        simpa [VM.executeInstr, VM.jumpAmount, Libc.BPF_LD, Libc.BPF_LDX, Libc.BPF_ST, Libc.BPF_STX, Libc.BPF_ALU,
          Libc.BPF_JMP, Libc.BPF_JA] using this
      rw [if_neg h4]
      by_cases h5 : code = 0x54#16
      · subst h5
        have := ih _ 0 { vm with pc := vm.pc + 1, acc := vm.acc &&& k } hp' (by simp [hpc])
        simpa [VM.executeInstr, VM.aluValue, VM.fetchSrc, Libc.BPF_LD, Libc.BPF_LDX, Libc.BPF_ST, Libc.BPF_STX,
          Libc.BPF_ALU, Libc.BPF_K, Libc.BPF_ADD, Libc.BPF_SUB, Libc.BPF_MUL, Libc.BPF_DIV, Libc.BPF_OR,
          Libc.BPF_AND] using this
      rw [if_neg h5]
      by_cases h6 : code = 0x06#16
      · subst h6
        simp [VM.executeInstr, VM.fetchSrc, Libc.BPF_LD, Libc.BPF_LDX, Libc.BPF_ST, Libc.BPF_STX,
          Libc.BPF_ALU, Libc.BPF_JMP, Libc.BPF_RET, Libc.BPF_K]
      rw [if_neg h6]
      simp

/-- `run` on a whole program, for programs that the VM accepts. -/
theorem runProg_of_ev (b : Build) (w : RunData) (prog : List SockFilter) (hlen : prog.length ≤ 65535) (v : BitVec 32)
    (h : ev w prog 0 0 = .ret v) : runProg b prog w = some (.ok v) := by
  unfold runProg VM.new
  rw [if_neg (by omega)]
  exact (loop_of_ev b w prog [] 0 _ (by simp [VM.reset]) (by simp [VM.reset])).1 v (by simpa [VM.reset] using h)

end Bpfvm
