import Verif.Proofs.Cost
import Verif.Proofs.Agree
import Verif.Spec.Path
import Verif.Spec.Vm

/-!
# The way through a filter
-/
set_option autoImplicit false

namespace Bpfvm
open Spec

/-- The addresses of the instructions that `ev` executes; the code starts at address `base`. -/
def evL (w : RunData) : Nat → List SockFilter → Nat → BitVec 32 → List Nat
  | _, [], _, _ => []
  | base, _ :: rest, n + 1, a => evL w (base + 1) rest n a
  | base, i :: rest, 0, a =>
    base :: if i.code = 0x20#16 then
      match w[i.k.toNat / 4]? with
      | some v => evL w (base + 1) rest 0 v
      | none => []
    else if i.code = 0x15#16 then evL w (base + 1) rest (if a = i.k then i.jt.toNat else i.jf.toNat) a
    else if i.code = 0x25#16 then evL w (base + 1) rest (if i.k < a then i.jt.toNat else i.jf.toNat) a
    else if i.code = 0x05#16 then evL w (base + 1) rest i.k.toNat a
    else if i.code = 0x54#16 then evL w (base + 1) rest 0 (a &&& i.k)
    else []

theorem evL_length (w : RunData) (base : Nat) (l : List SockFilter) (n : Nat) (a : BitVec 32) : (evL w base l n a).length = evC w l n a := by
  induction l generalizing base n a with
  | nil => rfl
  | cons i rest ih =>
    cases n with
    | succ n => exact ih _ n a
    | zero =>
      simp only [evL, evC, List.length_cons]
      rw [Nat.add_comm]
      congr 1
      split
      · cases w[i.k.toNat / 4]? with
        | none => rfl
        | some v => exact ih _ _ _
      split
      · exact ih _ _ _
      split
      · exact ih _ _ _
      split
      · exact ih _ _ _
      split
      · exact ih _ _ _
      · rfl

theorem evL_mem (w : RunData) (base : Nat) (l : List SockFilter) (n : Nat) (a : BitVec 32) :
    ∀ x ∈ evL w base l n a, base ≤ x ∧ x < base + l.length := by
  induction l generalizing base n a with
  | nil => simp [evL]
  | cons i rest ih =>
    intro x hx
    have key : ∀ m b, x ∈ evL w (base + 1) rest m b → base ≤ x ∧ x < base + (i :: rest).length := by
      intro m b h
      have := ih _ m b x h
      simp only [List.length_cons]
      omega
    cases n with
    | succ n => exact key n a hx
    | zero =>
      simp only [evL, List.mem_cons] at hx
      rcases hx with rfl | hx
      · simp
      split at hx
      · split at hx
        · exact key _ _ hx
        · cases hx
      split at hx
      · exact key _ _ hx
      split at hx
      · exact key _ _ hx
      split at hx
      · exact key _ _ hx
      split at hx
      · exact key _ _ hx
      · cases hx

theorem evL_append (w : RunData) (base : Nat) (f g : List SockFilter) (n : Nat) (a : BitVec 32) (h : ev w f n a ≠ .stuck) :
    evL w base (f ++ g) n a = evL w base f n a ++ match ev w f n a with
      | .fall a' => evL w (base + f.length) g 0 a'
      | _ => [] := by
  induction f generalizing base n a with
  | nil =>
    cases n with
    | zero => simp [ev, evL]
    | succ n => simp [ev] at h
  | cons i rest ih =>
    have hb : base + (i :: rest).length = base + 1 + rest.length := by simp only [List.length_cons]; omega
    rw [hb]
    cases n with
    | succ n => exact ih _ n a h
    | zero =>
      simp only [List.cons_append, ev, evL] at *
      congr 1
      by_cases h1 : i.code = 0x20#16
      · simp only [h1, if_true] at h ⊢
        cases hv : w[i.k.toNat / 4]? with
        | none => simp [hv] at h
        | some v => simp only [hv] at h ⊢; exact ih _ _ _ h
      simp only [h1, if_false] at h ⊢
      by_cases h2 : i.code = 0x15#16
      · simp only [h2, if_true] at h ⊢; exact ih _ _ _ h
      simp only [h2, if_false] at h ⊢
      by_cases h3 : i.code = 0x25#16
      · simp only [h3, if_true] at h ⊢; exact ih _ _ _ h
      simp only [h3, if_false] at h ⊢
      by_cases h4 : i.code = 0x05#16
      · simp only [h4, if_true] at h ⊢; exact ih _ _ _ h
      simp only [h4, if_false] at h ⊢
      by_cases h5 : i.code = 0x54#16
      · simp only [h5, if_true] at h ⊢; exact ih _ _ _ h
      simp only [h5, if_false] at h ⊢
      by_cases h6 : i.code = 0x06#16
      · simp [h6]
      · simp [h6] at h

theorem evL_ne_nil (w : RunData) (base : Nat) (l : List SockFilter) (n : Nat) (a v : BitVec 32) (h : ev w l n a = .ret v) :
    evL w base l n a ≠ [] := by
  induction l generalizing base n a with
  | nil => cases n <;> simp [ev] at h
  | cons i rest ih =>
    cases n with
    | succ n => exact ih _ n a h
    | zero => simp [evL]

/-- Words behind the record change nothing. -/
theorem ev_more (w rest' : RunData) (base : Nat) (l : List SockFilter) (n : Nat) (a v : BitVec 32) (h : ev w l n a = .ret v) :
    ev (w ++ rest') l n a = .ret v ∧ evL (w ++ rest') base l n a = evL w base l n a := by
  induction l generalizing base n a with
  | nil => cases n <;> simp [ev] at h
  | cons i rest ih =>
    cases n with
    | succ n => exact ih _ n a h
    | zero =>
      simp only [ev, evL] at *
      by_cases h1 : i.code = 0x20#16
      · simp only [h1, if_true] at h ⊢
        cases hv : w[i.k.toNat / 4]? with
        | none => simp [hv] at h
        | some v =>
          have hlt := (List.getElem?_eq_some_iff.1 hv).1
          rw [List.getElem?_append_left hlt]
          simp only [hv] at h ⊢
          exact ⟨(ih (base + 1) _ _ h).1, by rw [(ih (base + 1) _ _ h).2]⟩
      simp only [h1, if_false] at h ⊢
      by_cases h2 : i.code = 0x15#16
      · simp only [h2, if_true] at h ⊢; exact ⟨(ih (base + 1) _ _ h).1, by rw [(ih (base + 1) _ _ h).2]⟩
      simp only [h2, if_false] at h ⊢
      by_cases h3 : i.code = 0x25#16
      · simp only [h3, if_true] at h ⊢; exact ⟨(ih (base + 1) _ _ h).1, by rw [(ih (base + 1) _ _ h).2]⟩
      simp only [h3, if_false] at h ⊢
      by_cases h4 : i.code = 0x05#16
      · simp only [h4, if_true] at h ⊢; exact ⟨(ih (base + 1) _ _ h).1, by rw [(ih (base + 1) _ _ h).2]⟩
      simp only [h4, if_false] at h ⊢
      by_cases h5 : i.code = 0x54#16
      · simp only [h5, if_true] at h ⊢; exact ⟨(ih (base + 1) _ _ h).1, by rw [(ih (base + 1) _ _ h).2]⟩
      simp only [h5, if_false] at h ⊢
      exact ⟨h, trivial⟩

/-- The VM goes the way that `evL` says. -/
theorem exec_of_ev (b : Build) (w : RunData) (l pre : List SockFilter) (n : Nat) (vm : VM)
    (hprog : vm.prog = pre ++ l) (hpc : vm.pc = pre.length + n) (v : BitVec 32) (h : ev w l n vm.acc = .ret v) :
    ∃ vm', Exec b w vm (evL w pre.length l n vm.acc) vm' (.ok v) := by
  induction l generalizing pre n vm with
  | nil => cases n <;> simp [ev] at h
  | cons i rest ih =>
    have hp' : vm.prog = (pre ++ [i]) ++ rest := by simp [hprog]
    have hl : (pre ++ [i]).length = pre.length + 1 := by simp
    cases n with
    | succ n =>
      have := ih (pre ++ [i]) n vm hp' (by simp [hpc]; omega) (by simpa only [ev] using h)
      rw [hl] at this
      exact this
    | zero =>
      have hget : vm.prog[vm.pc]? = some i := by simp [hprog, hpc]
      have hlt : vm.pc < vm.prog.length := (List.getElem?_eq_some_iff.1 hget).1
      have hx : vm.execute b w = VM.executeInstr b { vm with pc := vm.pc + 1 } w i := by unfold VM.execute; rw [hget]
      have hbase : pre.length = vm.pc := by omega
      have go : ∀ (vm' : VM) (l : List Nat), VM.executeInstr b { vm with pc := vm.pc + 1 } w i = (vm', .ok none) →
          (∃ vm'', Exec b w vm' l vm'' (.ok v)) → ∃ vm'', Exec b w vm (pre.length :: l) vm'' (.ok v) := by
        rintro vm' l h1 ⟨vm'', h2⟩
        rw [hbase]
        exact ⟨vm'', .next vm vm' vm'' l _ hlt (hx.trans h1) h2⟩
      simp only [ev] at h
      obtain ⟨code, jt, jf, k⟩ := i
      simp only [evL] at *
      by_cases h1 : code = 0x20#16
      · subst h1
        simp only [if_true] at h ⊢
        cases hv : w[k.toNat / 4]? with
        | none => simp [hv] at h
        | some v' =>
          simp only [hv] at h ⊢
          have := ih _ 0 { vm with pc := vm.pc + 1, acc := v' } hp' (by simp [hpc]) h
          simp only [hl] at this
          refine go _ _ ?_ this
          simp [VM.executeInstr, VM.ldValue, fetchData, fetchU32, Libc.BPF_LD, Libc.BPF_ABS, Libc.BPF_IMM, Libc.BPF_W, hv]
      simp only [h1, if_false] at h ⊢
      by_cases h2 : code = 0x15#16
      · subst h2
        simp only [if_true] at h ⊢
        have := ih _ (if vm.acc = k then jt.toNat else jf.toNat)
          { vm with pc := vm.pc + 1 + (if vm.acc = k then jt.toNat else jf.toNat) } hp' (by simp [hpc]) h
        simp only [hl] at this
        refine go _ _ ?_ this
        simp [VM.executeInstr, VM.jumpAmount, Libc.BPF_LD, Libc.BPF_LDX, Libc.BPF_ST, Libc.BPF_STX, Libc.BPF_ALU,
          Libc.BPF_JMP, Libc.BPF_JA, Libc.BPF_JEQ]
      simp only [h2, if_false] at h ⊢
      by_cases h3 : code = 0x25#16
      · subst h3
        simp only [if_true] at h ⊢
        have := ih _ (if k < vm.acc then jt.toNat else jf.toNat)
          { vm with pc := vm.pc + 1 + (if k < vm.acc then jt.toNat else jf.toNat) } hp' (by simp [hpc]) h
        simp only [hl] at this
        refine go _ _ ?_ this
        simp [VM.executeInstr, VM.jumpAmount, Libc.BPF_LD, Libc.BPF_LDX, Libc.BPF_ST, Libc.BPF_STX, Libc.BPF_ALU,
          Libc.BPF_JMP, Libc.BPF_JA, Libc.BPF_JEQ, Libc.BPF_JGT]
      simp only [h3, if_false] at h ⊢
      by_cases h4 : code = 0x05#16
      · subst h4
        simp only [if_true] at h ⊢
        have := ih _ k.toNat { vm with pc := vm.pc + 1 + k.toNat } hp' (by simp [hpc]) h
        simp only [hl] at this
        refine go _ _ ?_ this
        simp [VM.executeInstr, VM.jumpAmount, Libc.BPF_LD, Libc.BPF_LDX, Libc.BPF_ST, Libc.BPF_STX, Libc.BPF_ALU,
          Libc.BPF_JMP, Libc.BPF_JA]
      simp only [h4, if_false] at h ⊢
      by_cases h5 : code = 0x54#16
      · subst h5
        simp only [if_true] at h ⊢
        have := ih _ 0 { vm with pc := vm.pc + 1, acc := vm.acc &&& k } hp' (by simp [hpc]) h
        simp only [hl] at this
        refine go _ _ ?_ this
        simp [VM.executeInstr, VM.aluValue, VM.fetchSrc, Libc.BPF_LD, Libc.BPF_LDX, Libc.BPF_ST, Libc.BPF_STX,
          Libc.BPF_ALU, Libc.BPF_K, Libc.BPF_ADD, Libc.BPF_SUB, Libc.BPF_MUL, Libc.BPF_DIV, Libc.BPF_OR,
          Libc.BPF_AND]
      simp only [h5, if_false] at h ⊢
      by_cases h6 : code = 0x06#16
      · subst h6
        simp only [if_true, Ev.ret.injEq] at h ⊢
        subst h
        rw [hbase]
        refine ⟨{ vm with pc := vm.pc + 1 }, .value vm _ _ hlt ?_⟩
        rw [hx]
        simp [VM.executeInstr, VM.fetchSrc, Libc.BPF_LD, Libc.BPF_LDX, Libc.BPF_ST, Libc.BPF_STX,
          Libc.BPF_ALU, Libc.BPF_JMP, Libc.BPF_RET, Libc.BPF_K]
      · simp [h6] at h

end Bpfvm

namespace Spec
open Bpfvm Kernel Pledge

theorem walk_of_ev (w : List (BitVec 32)) (p l pre : List SockFilter) (n : Nat) (r : Regs)
    (hprog : p = pre ++ l) (hpc : r.pc = pre.length + n) (v : BitVec 32) (h : ev w l n r.A = .ret v) :
    Walk p w r (evL w pre.length l n r.A) v := by
  induction l generalizing pre n r with
  | nil => cases n <;> simp [ev] at h
  | cons i rest ih =>
    have hp' : p = (pre ++ [i]) ++ rest := by simp [hprog]
    have hl : (pre ++ [i]).length = pre.length + 1 := by simp
    cases n with
    | succ n =>
      have := ih (pre ++ [i]) n r hp' (by simp [hpc]; omega) (by simpa only [ev] using h)
      rw [hl] at this
      exact this
    | zero =>
      have hget : p[r.pc]? = some i := by simp [hprog, hpc]
      have hbase : pre.length = r.pc := by omega
      have go : ∀ (r' : Regs) (l : List Nat), Kernel.step w i r = .next r' → Walk p w r' l v → Walk p w r (pre.length :: l) v := by
        intro r' l h1 h2
        rw [hbase]
        exact .next r r' i l v hget h1 h2
      simp only [ev] at h
      obtain ⟨code, jt, jf, k⟩ := i
      simp only [evL] at *
      by_cases h1 : code = 0x20#16
      · subst h1
        simp only [if_true] at h ⊢
        cases hv : w[k.toNat / 4]? with
        | none => simp [hv] at h
        | some v' =>
          simp only [hv] at h ⊢
          have := ih _ 0 { r with pc := r.pc + 1, A := v' } hp' (by simp [hpc]) h
          simp only [hl] at this
          exact go _ _ (by simp [Kernel.step, hv]) this
      simp only [h1, if_false] at h ⊢
      by_cases h2 : code = 0x15#16
      · subst h2
        simp only [if_true] at h ⊢
        have := ih _ (if r.A = k then jt.toNat else jf.toNat)
          { r with pc := r.pc + 1 + (if r.A = k then jt.toNat else jf.toNat) } hp' (by simp [hpc]) h
        simp only [hl] at this
        exact go _ _ (by simp [Kernel.step, Kernel.cond]) this
      simp only [h2, if_false] at h ⊢
      by_cases h3 : code = 0x25#16
      · subst h3
        simp only [if_true] at h ⊢
        have := ih _ (if k < r.A then jt.toNat else jf.toNat)
          { r with pc := r.pc + 1 + (if k < r.A then jt.toNat else jf.toNat) } hp' (by simp [hpc]) h
        simp only [hl] at this
        exact go _ _ (by simp [Kernel.step, Kernel.cond]) this
      simp only [h3, if_false] at h ⊢
      by_cases h4 : code = 0x05#16
      · subst h4
        simp only [if_true] at h ⊢
        have := ih _ k.toNat { r with pc := r.pc + 1 + k.toNat } hp' (by simp [hpc]) h
        simp only [hl] at this
        exact go _ _ (by simp [Kernel.step]) this
      simp only [h4, if_false] at h ⊢
      by_cases h5 : code = 0x54#16
      · subst h5
        simp only [if_true] at h ⊢
        have := ih _ 0 { r with pc := r.pc + 1, A := r.A &&& k } hp' (by simp [hpc]) h
        simp only [hl] at this
        exact go _ _ (by simp [Kernel.step, alu]) this
      simp only [h5, if_false] at h ⊢
      by_cases h6 : code = 0x06#16
      · subst h6
        simp only [if_true, Ev.ret.injEq] at h ⊢
        rw [hbase]
        exact .done r _ v hget (by simp [Kernel.step, h])
      · simp [h6] at h

theorem walk_run (p : Prog) (w : List (BitVec 32)) (r : Regs) (l : List Nat) (v : BitVec 32) (h : Walk p w r l v) :
    runFrom p w r = some v ∧ countFrom p w r = some (v, l.length) ∧ l.Pairwise (· < ·) ∧ l.head? = some r.pc ∧
      (∀ a ∈ l, r.pc ≤ a ∧ a < p.length) := by
  induction h with
  | done r i v h1 h2 =>
    refine ⟨by rw [runFrom_step p w r i h1, h2], by rw [countFrom_step p w r i h1, h2]; rfl, by simp, rfl, ?_⟩
    intro a ha
    rw [List.mem_singleton] at ha
    have := (List.getElem?_eq_some_iff.1 h1).1
    omega
  | next r r' i l v h1 h2 h3 ih =>
    obtain ⟨e1, e2, e3, e4, e5⟩ := ih
    have hpc := step_later w i r r' h2
    refine ⟨by rw [runFrom_step p w r i h1, h2]; exact e1, by rw [countFrom_step p w r i h1, h2]; simp [e2], ?_, rfl, ?_⟩
    · refine List.pairwise_cons.2 ⟨fun a ha => ?_, e3⟩
      have := (e5 a ha).1
      omega
    · intro a ha
      rcases List.mem_cons.1 ha with rfl | ha
      · have := (List.getElem?_eq_some_iff.1 h1).1
        omega
      · have := e5 a ha
        omega

theorem walk_exists (p : Prog) (w : List (BitVec 32)) (v : BitVec 32) (n : Nat) (r : Regs) (hn : p.length - r.pc = n)
    (h : runFrom p w r = some v) : ∃ l, Walk p w r l v := by
  induction n using Nat.strongRecOn generalizing r with
  | ind n ih =>
    cases hi : p[r.pc]? with
    | none => rw [runFrom, hi] at h; cases h
    | some i =>
      have hlt := (List.getElem?_eq_some_iff.1 hi).1
      rw [runFrom_step p w r i hi] at h
      cases hs : Kernel.step w i r with
      | next r' =>
        rw [hs] at h
        have hpc := step_later w i r r' hs
        obtain ⟨l, hl⟩ := ih (p.length - r'.pc) (by omega) r' rfl h
        exact ⟨_, .next r r' i l v hi hs hl⟩
      | done v' =>
        rw [hs] at h
        cases h
        exact ⟨_, .done r i v hi hs⟩
      | bad => rw [hs] at h; cases h

theorem walk_unique (p : Prog) (w : List (BitVec 32)) (r : Regs) (l l' : List Nat) (v v' : BitVec 32) (h : Walk p w r l v)
    (h' : Walk p w r l' v') : l = l' ∧ v = v' := by
  induction h generalizing l' v' with
  | done r i v h1 h2 =>
    cases h' with
    | done r i' v' g1 g2 =>
      rw [h1] at g1
      cases g1
      rw [h2] at g2
      cases g2
      exact ⟨rfl, rfl⟩
    | next r r' i' l v' g1 g2 g3 =>
      rw [h1] at g1
      cases g1
      rw [h2] at g2
      cases g2
  | next r r' i l v h1 h2 h3 ih =>
    cases h' with
    | done r i' v' g1 g2 =>
      rw [h1] at g1
      cases g1
      rw [h2] at g2
      cases g2
    | next r r'' i' l' v' g1 g2 g3 =>
      rw [h1] at g1
      cases g1
      rw [h2] at g2
      cases g2
      obtain ⟨e1, e2⟩ := ih _ _ g3
      exact ⟨by rw [e1], e2⟩

theorem execute_eq (b : Build) (vm : VM) (data : RunData) (i : SockFilter) (h : vm.prog[vm.pc]? = some i) :
    vm.execute b data = VM.executeInstr b { vm with pc := vm.pc + 1 } data i := by
  unfold VM.execute
  rw [h]

/-- `agree_run` with the addresses. -/
theorem agree_path (b : Build) (p : Prog) (data w : List (BitVec 32)) (hacc : accepts p = true)
    (hdata : ∀ j < 16, data[j]? = w[j]?) (hw : 16 ≤ w.length) :
    ∀ (n : Nat) (vm : VM) (r : Regs), p.length - r.pc ≤ n → Together p vm r →
      (NoDeparture b data.length p w r → ∃ v l vm', Walk p w r l v ∧ Exec b data vm l vm' (.ok v)) ∧
      (∀ rd dep, FirstDeparture b data.length p w r rd dep →
        ∃ l1, (∀ l v, Walk p w r l v → (l1 ++ [rd.pc]) <+: l) ∧
          (∀ e, dep = .error e → ∃ vm', Exec b data vm (l1 ++ [rd.pc]) vm' (.err e)) ∧
          (dep = .panic → ∃ vm', Exec b data vm (l1 ++ [rd.pc]) vm' .panic)) := by
  intro n
  induction n with
  | zero =>
    intro vm r hn ht
    obtain ⟨_, _, hlt, _⟩ := ht
    omega
  | succ n ih =>
    intro vm r hn ht
    obtain ⟨masks, mv, hlt, hprog, hm, hag⟩ := ht
    have hp : p[r.pc]? = some p[r.pc] := List.getElem?_eq_getElem hlt
    generalize p[r.pc] = i at hp
    have hv : vm.prog[vm.pc]? = some i := by rw [hprog, hag.pc]; exact hp
    have hvlt : vm.pc < vm.prog.length := (List.getElem?_eq_some_iff.1 hv).1
    have hex := execute_eq b vm data i hv
    cases hd : departure b data.length i r.A r.X with
    | some dep0 =>
      refine ⟨fun h => absurd ⟨.start, i, hp, hd⟩ (h r dep0), fun rd dep h => ?_⟩
      have hle := h.2 r dep0 ⟨.start, i, hp, hd⟩
      have hrd : rd = r := by
        rcases visits_cases p w r rd h.1.1 with hh | ⟨j, r', e1, e2, e3⟩
        · exact hh
        · have := step_forward p w hacc hw r r' j e1 e2
          have := visits_pc p w hacc hw r' rd e3
          omega
      obtain ⟨⟨_, j, hj, hdep⟩, _⟩ := h
      subst hrd
      rw [hp] at hj
      cases hj
      rw [hd] at hdep
      cases hdep
      have hst := departs_stop b data i vm
      refine ⟨[], ?_, fun e he => ?_, fun he => ?_⟩
      · intro l v hl
        cases hl with
        | done => exact List.prefix_rfl
        | next => exact ⟨_, rfl⟩
      · have := hst.1 e (by rw [hag.acc, hag.idx, hd, he])
        rcases hx : VM.executeInstr b { vm with pc := vm.pc + 1 } data i with ⟨vm', res⟩
        rw [hx] at this
        simp only at this
        subst this
        rw [← hag.pc]
        exact ⟨vm', .error vm vm' e hvlt (hex.trans hx)⟩
      · have := hst.2 (by rw [hag.acc, hag.idx, hd, he])
        rcases hx : VM.executeInstr b { vm with pc := vm.pc + 1 } data i with ⟨vm', res⟩
        rw [hx] at this
        simp only at this
        subst this
        rw [← hag.pc]
        exact ⟨vm', .panics vm vm' hvlt (hex.trans hx)⟩
    | none =>
      have hnot : ∀ dep, ¬ DepartsAt b data.length p w r r dep := by
        rintro dep ⟨_, j, hj, hdep⟩
        rw [hp] at hj
        cases hj
        rw [hd] at hdep
        cases hdep
      rcases agree_step b data w hdata hw i _ (stepOK_of p hacc i r masks mv hp hm) vm r hag hd with
        ⟨v, vm', h1, h2⟩ | ⟨r', vm', h1, h2, h3⟩
      · refine ⟨fun _ => ⟨v, [r.pc], vm', .done r i v hp h1, ?_⟩, fun rd dep h => ?_⟩
        · rw [← hag.pc]
          exact .value vm vm' v hvlt (hex.trans h2)
        exfalso
        rcases visits_cases p w r rd h.1.1 with rfl | ⟨j, r', e1, e2, e3⟩
        · exact hnot dep h.1
        · rw [hp] at e1
          cases e1
          rw [h1] at e2
          cases e2
      · obtain ⟨masks', mv', g1, g2, g3, g4⟩ := mem_next p w hacc hw i r r' masks mv hp hm h1
        have hprog' : vm'.prog = p := by
          have := (executeInstr_facts b { vm with pc := vm.pc + 1 } data i).1
          rw [h2] at this
          exact this.trans hprog
        have IH := ih vm' r' (by omega) ⟨masks', mv', g4, hprog', g1, h3.pc, h3.acc, h3.idx, fun j hj hj' => h3.mem j hj (g2 j hj')⟩
        have up : ∀ rd dep, DepartsAt b data.length p w r' rd dep → DepartsAt b data.length p w r rd dep :=
          fun rd dep h => ⟨visits_prepend p w r r' rd i hp h1 h.1, h.2⟩
        have hnext : ∀ l vm'' res, Exec b data vm' l vm'' res → Exec b data vm (r.pc :: l) vm'' res := by
          intro l vm'' res h
          rw [← hag.pc]
          exact .next vm vm' vm'' l res hvlt (hex.trans h2) h
        refine ⟨fun h => ?_, fun rd dep h => ?_⟩
        · obtain ⟨v, l, vm'', e1, e2⟩ := IH.1 fun rd dep hh => h rd dep (up rd dep hh)
          exact ⟨v, _, vm'', .next r r' i l v hp h1 e1, hnext _ _ _ e2⟩
        · have hfirst : FirstDeparture b data.length p w r' rd dep := by
            refine ⟨⟨?_, h.1.2⟩, fun a d' ha => h.2 a d' (up a d' ha)⟩
            rcases visits_cases p w r rd h.1.1 with rfl | ⟨j, r'', e1, e2, e3⟩
            · exact absurd h.1 (hnot dep)
            · rw [hp] at e1
              cases e1
              rw [h1] at e2
              cases e2
              exact e3
          obtain ⟨l1, k1, k2, k3⟩ := IH.2 rd dep hfirst
          refine ⟨r.pc :: l1, ?_, fun e he => ?_, fun he => ?_⟩
          · intro l v hl
            cases hl with
            | done _ i' _ q1 q2 =>
              rw [hp] at q1
              cases q1
              rw [h1] at q2
              cases q2
            | next _ r'' i' l' _ q1 q2 q3 =>
              rw [hp] at q1
              cases q1
              rw [h1] at q2
              cases q2
              exact List.cons_prefix_cons.2 ⟨rfl, k1 l' v q3⟩
          · obtain ⟨vm'', hh⟩ := k2 e he
            exact ⟨vm'', hnext _ _ _ hh⟩
          · obtain ⟨vm'', hh⟩ := k3 he
            exact ⟨vm'', hnext _ _ _ hh⟩

end Spec

namespace Pledge
open Bpfvm Spec

theorem ev_header (d : SeccompData) (a : BitVec 32) :
    ev d.words header 0 a = if d.arch = X86_64 then .fall d.nr else .ret 0x80000000 := by
  simp only [header, ev_ld4, ev_jeq, ev_ret, ev_skip, ev_ld0, ev_nil, BitVec.reduceToNat]
  rfl

theorem body_append (ids : Ids) (fs gs : List Filtered) : body ids (fs ++ gs) = body ids fs ++ body ids gs := by
  simp [body]

theorem allowed_take {ids : Ids} {ps : List Promise} {d : SeccompData} {i j : Nat} (h : i ≤ j) (ha : Allowed ids (ps.take i) d) :
    Allowed ids (ps.take j) d := by
  rcases ha with ha | ⟨p, hp, ha⟩
  · exact .inl ha
  · refine .inr ⟨p, ?_, ha⟩
    have : ps.take i = (ps.take j).take i := by rw [List.take_take]; congr 1; omega
    rw [this] at hp
    exact List.mem_of_mem_take hp

/-- A way that ends ends in the first part or behind it. -/
theorem last_split (w : RunData) (f g : List SockFilter) (v : BitVec 32) (a : Nat) (h : ev w (f ++ g) 0 0 = .ret v)
    (ha : (evL w 0 (f ++ g) 0 0).getLast? = some a) (hf : ev w f 0 0 ≠ .stuck) :
    (∀ x, ev w f 0 0 = .ret x → a < f.length ∧ (evL w 0 f 0 0).getLast? = some a) ∧ (∀ x, ev w f 0 0 = .fall x → f.length ≤ a) := by
  rw [ev_append _ _ _ _ _ hf] at h
  rw [evL_append _ _ _ _ _ _ hf] at ha
  constructor
  · intro x hx
    rw [hx] at ha
    simp only [List.append_nil] at ha
    have := evL_mem _ _ _ _ _ a (List.mem_of_getLast? ha)
    exact ⟨by omega, ha⟩
  · intro x hx
    rw [hx] at ha h
    simp only at ha h
    have hne' := evL_ne_nil w (0 + f.length) _ _ _ _ h
    rw [List.getLast?_append] at ha
    rw [List.getLast?_eq_some_getLast hne', Option.some_or, ← List.getLast?_eq_some_getLast hne'] at ha
    have := evL_mem _ _ _ _ _ a (List.mem_of_getLast? ha)
    omega

/-- Where the way through the filter of a pledge ends. -/
theorem last_progOf (ids : Ids) (ps : List Promise) (v : BitVec 32) (d : SeccompData) :
    ∃ a, (evL d.words 0 (progOf ids ps v) 0 0).getLast? = some a ∧ a < (progOf ids ps v).length ∧
      (d.arch ≠ X86_64 → a = 2) ∧
      (d.arch = X86_64 → 4 ≤ a ∧ ∀ i, (Allowed ids (ps.take i) d ↔ a < 4 + (body ids (allFilters (ps.take i))).length)) := by
  classical
  have hr := ev_prog_verdict ids d ps v
  have hne := evL_ne_nil d.words 0 _ _ _ _ hr
  obtain ⟨a, ha⟩ : ∃ a, (evL d.words 0 (progOf ids ps v) 0 0).getLast? = some a := by
    cases h : (evL d.words 0 (progOf ids ps v) 0 0).getLast? with
    | none => exact absurd (List.getLast?_eq_none_iff.1 h) hne
    | some a => exact ⟨a, rfl⟩
  have hmem := List.mem_of_getLast? ha
  have hb := evL_mem _ _ _ _ _ a hmem
  have hdr := last_split d.words header (body ids (allFilters ps) ++ [⟨0x6, 0, 0, v⟩]) (verdict ids ps v d) a
    (by rw [← hr, progOf, List.append_assoc]) (by rw [← ha, progOf, List.append_assoc]) (by rw [ev_header]; split <;> simp)
  refine ⟨a, ha, by omega, ?_, ?_⟩
  · intro hx
    have := (hdr.1 0x80000000 (by rw [ev_header, if_neg hx])).2
    have hx' : ¬ d.arch = 0xc000003e#32 := hx
    have e : evL d.words 0 header 0 0 = [0, 1, 2] := by
      simp [evL, header, SeccompData.words, hx']
    rw [e] at this
    cases this
    rfl
  · intro hx
    have h4 := hdr.2 d.nr (by rw [ev_header, if_pos hx])
    refine ⟨h4, fun i => ?_⟩
    have hsplit : progOf ids ps v = (header ++ body ids (allFilters (ps.take i))) ++
        (body ids (((ps.drop i).map filtersOf).flatten) ++ [⟨0x6, 0, 0, v⟩]) := by
      unfold progOf
      conv => lhs; rw [← List.take_append_drop i ps, allFilters_append, body_append]
      simp only [List.append_assoc]
    have hlen : (header ++ body ids (allFilters (ps.take i))).length = 4 + (body ids (allFilters (ps.take i))).length := by
      rw [List.length_append]; rfl
    have hev : ev d.words (header ++ body ids (allFilters (ps.take i))) 0 0 =
        if Allowed ids (ps.take i) d then Ev.ret 0x7fff0000 else Ev.fall d.nr := by
      rw [ev_append _ _ _ _ _ (by rw [ev_header, if_pos hx]; simp), ev_header, if_pos hx]
      simp only [ev_body, allFilters_iff]
    rw [hsplit] at ha hr
    have hs := last_split d.words _ _ _ a hr ha (by rw [hev]; split <;> simp)
    rw [hlen] at hs
    constructor
    · intro hall
      exact (hs.1 _ (by rw [hev, if_pos hall])).1
    · intro hlt
      apply Classical.byContradiction
      intro hn
      have := hs.2 _ (by rw [hev, if_neg hn])
      omega

end Pledge
