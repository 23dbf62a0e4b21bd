import Verif.Proofs.Asm
import Verif.Props.Vm
import Verif.Proofs.Ev

/-!
# Simulation between the label-level reading of a source and the VM on the compiled program
-/
set_option autoImplicit false

namespace Bpfvm
open Spec

/-- The VM's registers and memory are those of the source-level state. -/
structure Rel (vm : VM) (s : St) : Prop where
  acc : vm.acc = s.acc
  idx : vm.idx = s.idx
  mem : ∀ j (hj : j < 16), vm.mem[j]'hj = s.mem ⟨j, hj⟩

/-- The instruction word of an operation that is neither a label nor a jump. -/
def word : Operation → SockFilter
  | .Load mode v => bpf_ld mode v
  | .LoadIdx mode v => bpf_ldx mode v
  | .Store mode v => bpf_st mode v
  | .StoreIdx mode v => bpf_stx mode v
  | .Alu op src v => bpf_alu op src v
  | .Return src v => bpf_ret src v
  | _ => ⟨0, 0, 0, 0⟩

/-! Instruction words as literals. -/
theorem ldw_IMM (v : BitVec 32) : bpf_ld .IMM v = ⟨0x00#16, 0, 0, v⟩ := rfl
theorem ldw_ABS (v : BitVec 32) : bpf_ld .ABS v = ⟨0x20#16, 0, 0, v⟩ := rfl
theorem ldw_IND (v : BitVec 32) : bpf_ld .IND v = ⟨0x40#16, 0, 0, v⟩ := rfl
theorem ldw_MEM (v : BitVec 32) : bpf_ld .MEM v = ⟨0x60#16, 0, 0, v⟩ := rfl
theorem ldw_LEN (v : BitVec 32) : bpf_ld .LEN v = ⟨0x80#16, 0, 0, v⟩ := rfl
theorem ldxw_IMM (v : BitVec 32) : bpf_ldx .IMM v = ⟨0x01#16, 0, 0, v⟩ := rfl
theorem ldxw_ABS (v : BitVec 32) : bpf_ldx .ABS v = ⟨0x21#16, 0, 0, v⟩ := rfl
theorem ldxw_IND (v : BitVec 32) : bpf_ldx .IND v = ⟨0x41#16, 0, 0, v⟩ := rfl
theorem ldxw_MEM (v : BitVec 32) : bpf_ldx .MEM v = ⟨0x61#16, 0, 0, v⟩ := rfl
theorem ldxw_LEN (v : BitVec 32) : bpf_ldx .LEN v = ⟨0x81#16, 0, 0, v⟩ := rfl
theorem aluw_ADD_Const (v : BitVec 32) : bpf_alu .ADD .Const v = ⟨0x04#16, 0, 0, v⟩ := rfl
theorem aluw_ADD_Idx (v : BitVec 32) : bpf_alu .ADD .Idx v = ⟨0x0c#16, 0, 0, v⟩ := rfl
theorem aluw_SUB_Const (v : BitVec 32) : bpf_alu .SUB .Const v = ⟨0x14#16, 0, 0, v⟩ := rfl
theorem aluw_SUB_Idx (v : BitVec 32) : bpf_alu .SUB .Idx v = ⟨0x1c#16, 0, 0, v⟩ := rfl
theorem aluw_MUL_Const (v : BitVec 32) : bpf_alu .MUL .Const v = ⟨0x24#16, 0, 0, v⟩ := rfl
theorem aluw_MUL_Idx (v : BitVec 32) : bpf_alu .MUL .Idx v = ⟨0x2c#16, 0, 0, v⟩ := rfl
theorem aluw_DIV_Const (v : BitVec 32) : bpf_alu .DIV .Const v = ⟨0x34#16, 0, 0, v⟩ := rfl
theorem aluw_DIV_Idx (v : BitVec 32) : bpf_alu .DIV .Idx v = ⟨0x3c#16, 0, 0, v⟩ := rfl
theorem aluw_OR_Const (v : BitVec 32) : bpf_alu .OR .Const v = ⟨0x44#16, 0, 0, v⟩ := rfl
theorem aluw_OR_Idx (v : BitVec 32) : bpf_alu .OR .Idx v = ⟨0x4c#16, 0, 0, v⟩ := rfl
theorem aluw_AND_Const (v : BitVec 32) : bpf_alu .AND .Const v = ⟨0x54#16, 0, 0, v⟩ := rfl
theorem aluw_AND_Idx (v : BitVec 32) : bpf_alu .AND .Idx v = ⟨0x5c#16, 0, 0, v⟩ := rfl
theorem aluw_LSH_Const (v : BitVec 32) : bpf_alu .LSH .Const v = ⟨0x64#16, 0, 0, v⟩ := rfl
theorem aluw_LSH_Idx (v : BitVec 32) : bpf_alu .LSH .Idx v = ⟨0x6c#16, 0, 0, v⟩ := rfl
theorem aluw_RSH_Const (v : BitVec 32) : bpf_alu .RSH .Const v = ⟨0x74#16, 0, 0, v⟩ := rfl
theorem aluw_RSH_Idx (v : BitVec 32) : bpf_alu .RSH .Idx v = ⟨0x7c#16, 0, 0, v⟩ := rfl
theorem aluw_MOD_Const (v : BitVec 32) : bpf_alu .MOD .Const v = ⟨0x94#16, 0, 0, v⟩ := rfl
theorem aluw_MOD_Idx (v : BitVec 32) : bpf_alu .MOD .Idx v = ⟨0x9c#16, 0, 0, v⟩ := rfl
theorem aluw_XOR_Const (v : BitVec 32) : bpf_alu .XOR .Const v = ⟨0xa4#16, 0, 0, v⟩ := rfl
theorem aluw_XOR_Idx (v : BitVec 32) : bpf_alu .XOR .Idx v = ⟨0xac#16, 0, 0, v⟩ := rfl
theorem retw_Const (v : BitVec 32) : bpf_ret .Const v = ⟨0x06#16, 0, 0, v⟩ := rfl
theorem retw_Idx (v : BitVec 32) : bpf_ret .Idx v = ⟨0x0e#16, 0, 0, v⟩ := rfl
theorem retw_Acc (v : BitVec 32) : bpf_ret .Acc v = ⟨0x16#16, 0, 0, v⟩ := rfl
theorem jmpw_JA (v : BitVec 32) (jt jf : BitVec 8) : bpf_jmp .JA v jt jf = ⟨0x05#16, jt, jf, v⟩ := rfl
theorem jmpw_JEQ (v : BitVec 32) (jt jf : BitVec 8) : bpf_jmp .JEQ v jt jf = ⟨0x15#16, jt, jf, v⟩ := rfl
theorem jmpw_JGT (v : BitVec 32) (jt jf : BitVec 8) : bpf_jmp .JGT v jt jf = ⟨0x25#16, jt, jf, v⟩ := rfl
theorem jmpw_JGE (v : BitVec 32) (jt jf : BitVec 8) : bpf_jmp .JGE v jt jf = ⟨0x35#16, jt, jf, v⟩ := rfl
theorem jmpw_JSET (v : BitVec 32) (jt jf : BitVec 8) : bpf_jmp .JSET v jt jf = ⟨0x45#16, jt, jf, v⟩ := rfl

theorem toSockFilter_plain (b : Build) (n : Nat) (op : Operation) (labels : Labels) (h : isPlain op = true) :
    toSockFilter b n op labels = .ok (word op) := by
  cases op <;> first | rfl | cases h

theorem arith_eq (b : Build) (op : AluOp) (a s : BitVec 32) :
    Props.aluRes b op a s = match arith b op a s with | some v => .ok v | none => .panic := by
  rw [Props.aluRes_eq]
  unfold arith
  by_cases h : aluByZero op s.toNat ∨ b.overflowChecks = true ∧ aluOverflows op a.toNat s.toNat
  · rw [if_pos h, if_pos h]
  · rw [if_neg h, if_neg h]

theorem readMem_eq (vm : VM) (s : St) (hr : Rel vm s) (v : BitVec 32) :
    vm.readMem v = match (if h : v.toNat < 16 then some (s.mem ⟨v.toNat, h⟩) else none) with | some v => .ok v | none => .panic := by
  unfold VM.readMem
  by_cases h : v.toNat < 16
  · have h' : v.toNat < MEMSIZE := h
    rw [dif_pos h', dif_pos h]
    simp only [Res.ok.injEq]
    exact hr.mem _ h
  · have h' : ¬ v.toNat < MEMSIZE := h
    rw [dif_neg h', dif_neg h]

theorem wordAt_eq (data : RunData) (off : Nat) :
    fetchData data off 0#16 = match wordAt data off with | some v => .ok v | none => .panic := by
  rw [fetchData_eq, if_pos rfl]
  rfl

theorem ldValue_word (b : Build) (vm : VM) (data : RunData) (s : St) (hr : Rel vm s) (mode : Mode) (v : BitVec 32) :
    vm.ldValue b data (bpf_ld mode v) = match loaded b data s mode v with | some v => .ok v | none => .panic := by
  rw [ldValue_eq]
  cases mode with
  | IMM => simp only [ldw_IMM, BitVec.reduceAnd, BitVec.reduceEq, reduceIte]; rfl
  | LEN => simp only [ldw_LEN, BitVec.reduceAnd, BitVec.reduceEq, reduceIte]; rfl
  | MEM =>
    simp only [ldw_MEM, BitVec.reduceAnd, BitVec.reduceEq, reduceIte]
    exact readMem_eq vm s hr v
  | ABS =>
    simp only [ldw_ABS, BitVec.reduceAnd, BitVec.reduceEq, reduceIte]
    exact wordAt_eq data v.toNat
  | IND =>
    simp only [ldw_IND, BitVec.reduceAnd, BitVec.reduceEq, reduceIte]
    show ((addU32 b vm.idx v).bind fun off => fetchData data off.toNat 0#16) = _
    have := arith_eq b .ADD vm.idx v
    simp only [Props.aluRes] at this
    rw [this, hr.idx]
    simp only [loaded]
    cases h : arith b .ADD s.idx v with
    | none => rfl
    | some off => exact wordAt_eq data off.toNat

theorem ldxValue_word (b : Build) (vm : VM) (data : RunData) (s : St) (hr : Rel vm s) (mode : Mode) (v : BitVec 32)
    (hm : mode ≠ .ABS ∧ mode ≠ .IND) :
    vm.ldxValue data (bpf_ldx mode v) = match loaded b data s mode v with | some v => .ok v | none => .panic := by
  rw [ldxValue_eq]
  cases mode with
  | IMM => simp only [ldxw_IMM, BitVec.reduceAnd, BitVec.reduceEq, reduceIte]; rfl
  | LEN => simp only [ldxw_LEN, BitVec.reduceAnd, BitVec.reduceEq, reduceIte]; rfl
  | MEM =>
    simp only [ldxw_MEM, BitVec.reduceAnd, BitVec.reduceEq, reduceIte]
    exact readMem_eq vm s hr v
  | ABS => exact absurd rfl hm.1
  | IND => exact absurd rfl hm.2

theorem aluValue_word (b : Build) (vm : VM) (s : St) (hr : Rel vm s) (op : AluOp) (src : Src) (v : BitVec 32) (hs : src ≠ .Acc) :
    vm.aluValue b (bpf_alu op src v) = match arith b op s.acc (s.src src v) with | some v => .ok v | none => .panic := by
  rw [← arith_eq, aluValue_eq, hr.acc, hr.idx]
  cases src with
  | Acc => exact absurd rfl hs
  | Const =>
    cases op <;>
      simp only [aluw_ADD_Const, aluw_SUB_Const, aluw_MUL_Const, aluw_DIV_Const, aluw_OR_Const, aluw_AND_Const, aluw_LSH_Const, aluw_RSH_Const, aluw_MOD_Const, aluw_XOR_Const,
        BitVec.reduceAnd, BitVec.reduceEq, reduceIte] <;> rfl
  | Idx =>
    cases op <;>
      simp only [aluw_ADD_Idx, aluw_SUB_Idx, aluw_MUL_Idx, aluw_DIV_Idx, aluw_OR_Idx, aluw_AND_Idx, aluw_LSH_Idx, aluw_RSH_Idx, aluw_MOD_Idx, aluw_XOR_Idx,
        BitVec.reduceAnd, BitVec.reduceEq, reduceIte] <;> rfl

theorem set_mem (m : Vector (BitVec 32) MEMSIZE) (k j : Nat) (hk : k < MEMSIZE) (hj : j < 16) (v : BitVec 32) :
    (m.set k v hk)[j]'hj = if j = k then v else m[j]'hj := by
  have := Vector.getElem_set (xs := m) (i := k) (x := v) hk (j := j) hj
  rw [this]
  simp only [eq_comm]

/-- The class bits of the words. -/
def classOf : Operation → BitVec 16
  | .Load .. => 0#16
  | .LoadIdx .. => 1#16
  | .Store .. => 2#16
  | .StoreIdx .. => 3#16
  | _ => 4#16

theorem class_word (op : Operation) (h : isPlain op = true) : (word op).code &&& 7#16 = classOf op := by
  cases op with
  | Alu o s v =>
    cases o <;> cases s <;> simp [word, classOf, bpf_ld, bpf_ldx, bpf_st, bpf_stx, bpf_alu, bpf_stmt_w, bpf_stmt, Instr.toU32, AluOp.toU32, Src.toU32, WordSize.toU32,
      Mode.toU32, BPF_A, Libc.BPF_LD, Libc.BPF_LDX, Libc.BPF_ST, Libc.BPF_STX, Libc.BPF_ALU, Libc.BPF_IMM, Libc.BPF_ABS, Libc.BPF_IND,
      Libc.BPF_MEM, Libc.BPF_LEN, Libc.BPF_W, Libc.BPF_K, Libc.BPF_X, Libc.BPF_ADD, Libc.BPF_SUB, Libc.BPF_MUL, Libc.BPF_DIV, Libc.BPF_OR,
      Libc.BPF_AND, Libc.BPF_LSH, Libc.BPF_RSH, Libc.BPF_MOD, Libc.BPF_XOR]
  | Label | JumpTo | Jump | Return => cases h
  | _ m v =>
    cases m <;> simp [word, classOf, bpf_ld, bpf_ldx, bpf_st, bpf_stx, bpf_alu, bpf_stmt_w, bpf_stmt, Instr.toU32, AluOp.toU32, Src.toU32, WordSize.toU32,
      Mode.toU32, BPF_A, Libc.BPF_LD, Libc.BPF_LDX, Libc.BPF_ST, Libc.BPF_STX, Libc.BPF_ALU, Libc.BPF_IMM, Libc.BPF_ABS, Libc.BPF_IND,
      Libc.BPF_MEM, Libc.BPF_LEN, Libc.BPF_W, Libc.BPF_K, Libc.BPF_X, Libc.BPF_ADD, Libc.BPF_SUB, Libc.BPF_MUL, Libc.BPF_DIV, Libc.BPF_OR,
      Libc.BPF_AND, Libc.BPF_LSH, Libc.BPF_RSH, Libc.BPF_MOD, Libc.BPF_XOR]

/-- One plain operation on the VM. -/
theorem plain_step (b : Build) (vm : VM) (data : RunData) (s : St) (hr : Rel vm s) (op : Operation) (rest : List Operation)
    (hp : isPlain op = true) (ho : OpOK rest op) :
    match effect b data s op with
    | some s' => ∃ vm', vm.executeInstr b data (word op) = (vm', .ok none) ∧ vm'.pc = vm.pc ∧ vm'.prog = vm.prog ∧ Rel vm' s'
    | none => vm.executeInstr b data (word op) = (vm, .panic) := by
  have hc := class_word op hp
  rw [executeInstr_eq]
  cases op with
  | Load m v =>
    simp only [hc, classOf, reduceIte, effect]
    simp only [word, ldValue_word b vm data s hr]
    cases loaded b data s m v with
    | none => rfl
    | some x => exact ⟨_, rfl, rfl, rfl, rfl, hr.idx, hr.mem⟩
  | LoadIdx m v =>
    simp only [hc, classOf, BitVec.reduceEq, reduceIte, effect]
    simp only [word, ldxValue_word b vm data s hr m v ho]
    cases loaded b data s m v with
    | none => rfl
    | some x => exact ⟨_, rfl, rfl, rfl, hr.acc, rfl, hr.mem⟩
  | Store m v =>
    have hk : (word (.Store m v)).k = v := rfl
    simp only [hc, classOf, BitVec.reduceEq, reduceIte, effect, stored, hk]
    by_cases h : v.toNat < 16
    · have h' : v.toNat < MEMSIZE := h
      rw [if_pos h, dif_pos h']
      refine ⟨_, rfl, rfl, rfl, hr.acc, hr.idx, fun j hj => ?_⟩
      refine (set_mem vm.mem _ j h' hj _).trans ?_
      simp only [hr.acc, hr.mem j hj]
    · have h' : ¬ v.toNat < MEMSIZE := h
      rw [if_neg h, dif_neg h']
  | StoreIdx m v =>
    have hk : (word (.StoreIdx m v)).k = v := rfl
    simp only [hc, classOf, BitVec.reduceEq, reduceIte, effect, stored, hk]
    by_cases h : v.toNat < 16
    · have h' : v.toNat < MEMSIZE := h
      rw [if_pos h, dif_pos h']
      refine ⟨_, rfl, rfl, rfl, hr.acc, hr.idx, fun j hj => ?_⟩
      refine (set_mem vm.mem _ j h' hj _).trans ?_
      simp only [hr.idx, hr.mem j hj]
    · have h' : ¬ v.toNat < MEMSIZE := h
      rw [if_neg h, dif_neg h']
  | Alu o src v =>
    simp only [hc, classOf, BitVec.reduceEq, reduceIte, effect]
    simp only [word, aluValue_word b vm s hr o src v ho]
    cases arith b o s.acc (s.src src v) with
    | none => rfl
    | some x => exact ⟨_, rfl, rfl, rfl, rfl, hr.idx, hr.mem⟩
  | _ => cases hp

theorem ret_step (b : Build) (vm : VM) (data : RunData) (s : St) (hr : Rel vm s) (src : Src) (v : BitVec 32) :
    vm.executeInstr b data (bpf_ret src v) = (vm, .ok (some (s.src src v))) := by
  cases src with
  | Const => simp only [executeInstr_eq, fetchSrc_eq, retw_Const, BitVec.reduceAnd, BitVec.reduceEq, reduceIte, St.src]
  | Idx => simp only [executeInstr_eq, fetchSrc_eq, retw_Idx, BitVec.reduceAnd, BitVec.reduceEq, reduceIte, St.src, hr.idx]
  | Acc => simp only [executeInstr_eq, fetchSrc_eq, retw_Acc, BitVec.reduceAnd, BitVec.reduceEq, reduceIte, St.src, hr.acc]

theorem and_pos (a k : BitVec 32) : a &&& k > 0 ↔ ∃ j : Nat, a.getLsbD j = true ∧ k.getLsbD j = true := by
  constructor
  · intro h
    apply Classical.byContradiction
    intro hn
    have : a &&& k = 0 := by
      apply BitVec.eq_of_getLsbD_eq
      intro i hi
      simp only [BitVec.getLsbD_and]
      cases ha : a.getLsbD i <;> cases hk : k.getLsbD i <;> simp
      exact hn ⟨i, ha, hk⟩
    rw [this] at h
    exact absurd h (by decide)
  · rintro ⟨j, h1, h2⟩
    have hne : a &&& k ≠ 0 := by
      intro h
      have : (a &&& k).getLsbD j = true := by simp [h1, h2]
      rw [h] at this
      simp at this
    rw [gt_iff_lt, BitVec.lt_def]
    have : (a &&& k).toNat ≠ 0 := fun h => hne (BitVec.toNat_inj.1 (by simpa using h))
    exact Nat.pos_of_ne_zero this

theorem jump_step (b : Build) (vm : VM) (data : RunData) (op : JmpOp) (hop : op ≠ .JA) (k : BitVec 32) (jt jf : BitVec 8) :
    (holds op vm.acc k → vm.executeInstr b data (bpf_jmp op k jt jf) = ({ vm with pc := vm.pc + jt.toNat }, .ok none)) ∧
    (¬ holds op vm.acc k → vm.executeInstr b data (bpf_jmp op k jt jf) = ({ vm with pc := vm.pc + jf.toNat }, .ok none)) := by
  have key : ∀ c : Prop, ∀ _ : Decidable c, (c ↔ holds op vm.acc k) →
      vm.executeInstr b data (bpf_jmp op k jt jf) =
        ({ vm with pc := vm.pc + (if c then jt.toNat else jf.toNat) }, .ok none) →
      (holds op vm.acc k → vm.executeInstr b data (bpf_jmp op k jt jf) = ({ vm with pc := vm.pc + jt.toNat }, .ok none)) ∧
      (¬ holds op vm.acc k → vm.executeInstr b data (bpf_jmp op k jt jf) = ({ vm with pc := vm.pc + jf.toNat }, .ok none)) := by
    intro c _ hc he
    constructor
    · intro h; rw [he, if_pos (hc.2 h)]
    · intro h; rw [he, if_neg fun h' => h (hc.1 h')]
  cases op with
  | JA => exact absurd rfl hop
  | JEQ =>
    exact key (vm.acc = k) inferInstance BitVec.toNat_inj.symm 
      (by simp only [executeInstr_eq, jumpAmount_eq, jmpw_JEQ, BitVec.reduceAnd, BitVec.reduceEq, reduceIte])
  | JGT =>
    exact key (vm.acc > k) inferInstance Iff.rfl 
      (by simp only [executeInstr_eq, jumpAmount_eq, jmpw_JGT, BitVec.reduceAnd, BitVec.reduceEq, reduceIte])
  | JGE =>
    exact key (vm.acc ≥ k) inferInstance Iff.rfl 
      (by simp only [executeInstr_eq, jumpAmount_eq, jmpw_JGE, BitVec.reduceAnd, BitVec.reduceEq, reduceIte])
  | JSET =>
    exact key (vm.acc &&& k > 0) inferInstance (and_pos _ _) 
      (by simp only [executeInstr_eq, jumpAmount_eq, jmpw_JSET, BitVec.reduceAnd, BitVec.reduceEq, reduceIte])

theorem ja_step (b : Build) (vm : VM) (data : RunData) (k : BitVec 32) (jt jf : BitVec 8) :
    vm.executeInstr b data (bpf_jmp .JA k jt jf) = ({ vm with pc := vm.pc + k.toNat }, .ok none) := by
  simp only [executeInstr_eq, jumpAmount_eq, jmpw_JA, BitVec.reduceAnd, BitVec.reduceEq, reduceIte]

/-! ## Whole programs -/

theorem after_below (prog pre rest : List Operation) (op : Operation) (hop : op.isLabel = false) (hprog : prog = pre ++ op :: rest)
    (l : String) (far : Nat) (hb : Below far rest l) (target : List Operation) (ha : After prog l target) :
    ∃ skip, rest = skip ++ .Label l :: target ∧ instrs skip ≤ far := by
  obtain ⟨skip, t, h1, h2, h3⟩ := hb
  obtain ⟨⟨pre', h4⟩, h5⟩ := ha
  have e : pre' ++ .Label l :: target = (pre ++ op :: skip) ++ .Label l :: t := by rw [← h4, hprog, h1]; simp
  have : t = target := by
    rw [List.append_eq_append_iff] at e
    rcases e with ⟨x, h6, h7⟩ | ⟨x, h6, h7⟩
    · cases x with
      | nil => simp at h7; exact h7.symm
      | cons y x =>
        simp only [List.cons_append, List.cons.injEq] at h7
        exact absurd (by rw [h7.2]; simp) h5
    · cases x with
      | nil => simp at h7; exact h7
      | cons y x =>
        simp only [List.cons_append, List.cons.injEq] at h7
        exact absurd (by rw [h7.2]; simp) h2
  subst this
  exact ⟨skip, h1, h3⟩

theorem below_after (prog pre rest : List Operation) (op : Operation) (hprog : prog = pre ++ op :: rest)
    (l : String) (far : Nat) (hb : Below far rest l) : ∃ target skip, After prog l target ∧ rest = skip ++ .Label l :: target ∧
      instrs skip ≤ far := by
  obtain ⟨skip, t, h1, h2, h3⟩ := hb
  exact ⟨t, skip, ⟨⟨pre ++ op :: skip, by rw [hprog, h1]; simp⟩, h2⟩, h1, h3⟩

/-- The offset of an optional label. -/
theorem jmpCalc_opt (b : Build) (prog pre rest : List Operation) (op : Operation) (hop : op.isLabel = false)
    (hprog : prog = pre ++ op :: rest) (lab : Option String) (far : Nat) (hb : ∀ l ∈ lab, Below far rest l) :
    ∃ n, jmpCalc b (mapLabels prog) lab (instrs pre) = .ok n ∧ n ≤ far ∧
      ∀ target, Goes prog rest lab target → ∃ skip, rest = skip ++ target ∧ instrs skip = n := by
  cases lab with
  | none => exact ⟨0, rfl, Nat.zero_le _, fun t ht => ⟨[], by rw [show t = rest from ht]; rfl, rfl⟩⟩
  | some l =>
    obtain ⟨skip, t, h1, h2, h3⟩ := hb l rfl
    refine ⟨instrs skip, ?_, h3, fun target ht => ?_⟩
    · rw [hprog, h1]
      exact jmpCalc_below b pre skip t op hop l h2
    · obtain ⟨skip', h4, -⟩ := after_below prog pre rest op hop hprog l far ⟨skip, t, h1, h2, h3⟩ target ht
      refine ⟨skip' ++ [.Label l], by rw [h4]; simp, ?_⟩
      have hs : skip' ++ .Label l :: target = skip ++ .Label l :: t := by rw [← h4, h1]
      -- both are last definitions
      have : t = target := by
        have h5 := ht.2
        rw [List.append_eq_append_iff] at hs
        rcases hs with ⟨x, h6, h7⟩ | ⟨x, h6, h7⟩
        · cases x with
          | nil => simp at h7; exact h7.symm
          | cons y x =>
            simp only [List.cons_append, List.cons.injEq] at h7
            exact absurd (by rw [h7.2]; simp) h5
        · cases x with
          | nil => simp at h7; exact h7
          | cons y x =>
            simp only [List.cons_append, List.cons.injEq] at h7
            exact absurd (by rw [h7.2]; simp) h2
      subst this
      have := List.append_cancel_right hs
      rw [this, instrs_append, instrs_label]
      rfl

/-- Well-formed programs compile. -/
theorem compile_wellFormed (b : Build) (prog : List Operation) (h : WellFormed prog) : ∃ code, compile b prog = .ok code := by
  refine emit_all b _ 0 _ fun i op hi => ?_
  obtain ⟨pre, rest, h1, h2, h3⟩ := filter_split prog i op hi
  have ho := h pre op rest h1
  rw [Nat.zero_add, ← h2]
  cases op with
  | Label l => cases h3
  | JumpTo l =>
    obtain ⟨far, hb⟩ := ho
    obtain ⟨n, e, -⟩ := jmpCalc_opt b prog pre rest (.JumpTo l) rfl h1 (some l) far (fun l' hl => by
      cases hl; exact hb)
    exact ⟨_, by simp only [toSockFilter, e, Res.bind]; rfl⟩
  | Jump op k lt lf =>
    obtain ⟨n, e, -⟩ := jmpCalc_opt b prog pre rest (.Jump op k lt lf) rfl h1 lt 255 ho.2.1
    obtain ⟨m, e', -⟩ := jmpCalc_opt b prog pre rest (.Jump op k lt lf) rfl h1 lf 255 ho.2.2
    exact ⟨_, by simp only [toSockFilter, e, e', Res.bind]; rfl⟩
  | Return src v => exact ⟨_, rfl⟩
  | _ => exact ⟨_, rfl⟩

/-- A source-level run is a run of the VM on the compiled code. -/
theorem srcRun_loop (b b' : Build) (prog : List Operation) (h : WellFormed prog) (code : List SockFilter)
    (hc : compile b' prog = .ok code) (hlen : code.length < 2 ^ 32) (data : RunData) (rest : List Operation) (s : St)
    (r : Res Error (BitVec 32)) (hrun : SrcRun b data prog rest s r) (pre : List Operation) (hp : prog = pre ++ rest) (vm : VM)
    (hprog : vm.prog = code) (hpc : vm.pc = instrs pre) (hr : Rel vm s) : (vm.loop b data).map Prod.snd = some r := by
  induction hrun generalizing pre vm with
  | off s =>
    rw [loop_done b vm data (by rw [hpc, hprog, compile_length b' prog code hc, hp]; simp)]
    rfl
  | label l rest s r _ ih =>
    exact ih (pre ++ [.Label l]) (by rw [hp]; simp) vm hprog (by rw [hpc, instrs_append, instrs_label]; rfl) hr
  | plain op rest s s' r hpl he _ ih =>
    have hop : op.isLabel = false := by cases op <;> first | rfl | cases hpl
    subst hp
    obtain ⟨sf, h1, h2⟩ := compile_get b' pre rest op hop code hc
    rw [toSockFilter_plain b' _ op _ hpl] at h1
    injection h1 with h1
    subst h1
    have hst := plain_step b { vm with pc := vm.pc + 1 } data s ⟨hr.acc, hr.idx, hr.mem⟩ op rest hpl (h pre op rest rfl)
    rw [he] at hst
    obtain ⟨vm', h3, h4, h5, h6⟩ := hst
    rw [loop_step b vm data _ (by rw [hprog, hpc]; exact h2), h3]
    exact ih (pre ++ [op]) (by simp) vm' (by rw [h5]; exact hprog)
      (by rw [h4, instrs_append, instrs_cons op hop]; simp [hpc, instrs]) h6
  | panics op rest s hpl he =>
    have hop : op.isLabel = false := by cases op <;> first | rfl | cases hpl
    subst hp
    obtain ⟨sf, h1, h2⟩ := compile_get b' pre rest op hop code hc
    rw [toSockFilter_plain b' _ op _ hpl] at h1
    injection h1 with h1
    subst h1
    have hst := plain_step b { vm with pc := vm.pc + 1 } data s ⟨hr.acc, hr.idx, hr.mem⟩ op rest hpl (h pre op rest rfl)
    rw [he] at hst
    rw [loop_step b vm data _ (by rw [hprog, hpc]; exact h2), hst]
    rfl
  | ret src v rest s =>
    subst hp
    obtain ⟨sf, h1, h2⟩ := compile_get b' pre rest (.Return src v) rfl code hc
    injection h1 with h1
    subst h1
    rw [loop_step b vm data _ (by rw [hprog, hpc]; exact h2), ret_step b { vm with pc := vm.pc + 1 } data s ⟨hr.acc, hr.idx, hr.mem⟩]
    rfl
  | jumpTo l rest target s r ha _ ih =>
    obtain ⟨far, hb⟩ := h pre _ rest hp
    obtain ⟨n, e, -, hg⟩ := jmpCalc_opt b' prog pre rest (.JumpTo l) rfl hp (some l) far (fun l' hl => by cases hl; exact hb)
    obtain ⟨skip, h3, h4⟩ := hg target ha
    have hc' := hc
    rw [hp] at hc'
    obtain ⟨sf, h1, h2⟩ := compile_get b' pre rest (.JumpTo l) rfl code hc'
    rw [← hp] at h1
    simp only [toSockFilter, e, Res.bind, Res.ok.injEq] at h1
    subst h1
    rw [loop_step b vm data _ (by rw [hprog, hpc]; exact h2), ja_step]
    have hl := compile_length b' prog code hc
    have hn : n < 2 ^ 32 := by
      rw [hp, h3, instrs_append, instrs_cons _ rfl, instrs_append] at hl
      omega
    refine ih (pre ++ .JumpTo l :: skip) (by rw [hp, h3]; simp) _ hprog ?_ ⟨hr.acc, hr.idx, hr.mem⟩
    simp only [BitVec.toNat_ofNat, hpc]
    rw [instrs_append, instrs_cons _ rfl, h4, Nat.mod_eq_of_lt hn]
    omega
  | taken op k lt lf rest target s r hh ha _ ih =>
    have ho := h pre _ rest hp
    obtain ⟨n, e, hn, hg⟩ := jmpCalc_opt b' prog pre rest (.Jump op k lt lf) rfl hp lt 255 ho.2.1
    obtain ⟨m, e', -, -⟩ := jmpCalc_opt b' prog pre rest (.Jump op k lt lf) rfl hp lf 255 ho.2.2
    obtain ⟨skip, h3, h4⟩ := hg target ha
    have hc' := hc
    rw [hp] at hc'
    obtain ⟨sf, h1, h2⟩ := compile_get b' pre rest (.Jump op k lt lf) rfl code hc'
    rw [← hp] at h1
    simp only [toSockFilter, e, e', Res.bind, Res.ok.injEq] at h1
    subst h1
    rw [loop_step b vm data _ (by rw [hprog, hpc]; exact h2),
      (jump_step b _ data op ho.1 k _ _).1 (by rw [hr.acc]; exact hh)]
    refine ih (pre ++ .Jump op k lt lf :: skip) (by rw [hp, h3]; simp) _ hprog ?_ ⟨hr.acc, hr.idx, hr.mem⟩
    simp only [BitVec.toNat_ofNat, hpc]
    rw [instrs_append, instrs_cons _ rfl, h4, Nat.mod_eq_of_lt (by omega)]
    omega
  | notTaken op k lt lf rest target s r hh ha _ ih =>
    have ho := h pre _ rest hp
    obtain ⟨n, e, -, -⟩ := jmpCalc_opt b' prog pre rest (.Jump op k lt lf) rfl hp lt 255 ho.2.1
    obtain ⟨m, e', hm, hg⟩ := jmpCalc_opt b' prog pre rest (.Jump op k lt lf) rfl hp lf 255 ho.2.2
    obtain ⟨skip, h3, h4⟩ := hg target ha
    have hc' := hc
    rw [hp] at hc'
    obtain ⟨sf, h1, h2⟩ := compile_get b' pre rest (.Jump op k lt lf) rfl code hc'
    rw [← hp] at h1
    simp only [toSockFilter, e, e', Res.bind, Res.ok.injEq] at h1
    subst h1
    rw [loop_step b vm data _ (by rw [hprog, hpc]; exact h2),
      (jump_step b _ data op ho.1 k _ _).2 (by rw [hr.acc]; exact hh)]
    refine ih (pre ++ .Jump op k lt lf :: skip) (by rw [hp, h3]; simp) _ hprog ?_ ⟨hr.acc, hr.idx, hr.mem⟩
    simp only [BitVec.toNat_ofNat, hpc]
    rw [instrs_append, instrs_cons _ rfl, h4, Nat.mod_eq_of_lt (by omega)]
    omega

/-- Well-formed programs have a source-level run from everywhere. -/
theorem srcRun_exists (b : Build) (data : RunData) (prog : List Operation) (h : WellFormed prog) (n : Nat) (pre rest : List Operation)
    (hn : rest.length ≤ n) (hp : prog = pre ++ rest) (s : St) : ∃ r, SrcRun b data prog rest s r := by
  induction n generalizing pre rest s with
  | zero =>
    have : rest = [] := List.length_eq_zero_iff.1 (by omega)
    subst this
    exact ⟨_, .off s⟩
  | succ n ih =>
    cases rest with
    | nil => exact ⟨_, .off s⟩
    | cons op rest =>
      have hn' : rest.length ≤ n := by simpa using hn
      have ho := h pre op rest hp
      have hp1 : prog = (pre ++ [op]) ++ rest := by rw [hp]; simp
      have plain : isPlain op = true → ∃ r, SrcRun b data prog (op :: rest) s r := by
        intro hpl
        cases he : effect b data s op with
        | none => exact ⟨_, .panics op rest s hpl he⟩
        | some s' =>
          obtain ⟨r, hr⟩ := ih (pre ++ [op]) rest hn' hp1 s'
          exact ⟨r, .plain op rest s s' r hpl he hr⟩
      have goes : ∀ (lab : Option String) (far : Nat), (∀ l ∈ lab, Below far rest l) →
          ∃ target r, Goes prog rest lab target ∧ SrcRun b data prog target s r := by
        intro lab far hb
        cases lab with
        | none =>
          obtain ⟨r, hr⟩ := ih (pre ++ [op]) rest hn' hp1 s
          exact ⟨rest, r, rfl, hr⟩
        | some l =>
          obtain ⟨target, skip, ha, he, -⟩ := below_after prog pre rest op hp l far (hb l rfl)
          obtain ⟨r, hr⟩ := ih (pre ++ op :: skip ++ [.Label l]) target (by rw [he] at hn'; simp at hn'; omega)
            (by rw [hp, he]; simp) s
          exact ⟨target, r, ha, hr⟩
      cases op with
      | Label l =>
        obtain ⟨r, hr⟩ := ih (pre ++ [.Label l]) rest hn' hp1 s
        exact ⟨r, .label l rest s r hr⟩
      | Return src v => exact ⟨_, .ret src v rest s⟩
      | JumpTo l =>
        obtain ⟨far, hb⟩ := ho
        obtain ⟨t, r, ha, hr⟩ := goes (some l) far (fun l' hl => by cases hl; exact hb)
        exact ⟨r, .jumpTo l rest t s r ha hr⟩
      | Jump op k lt lf =>
        by_cases hh : holds op s.acc k
        · obtain ⟨t, r, ha, hr⟩ := goes lt 255 ho.2.1
          exact ⟨r, .taken op k lt lf rest t s r hh ha hr⟩
        · obtain ⟨t, r, ha, hr⟩ := goes lf 255 ho.2.2
          exact ⟨r, .notTaken op k lt lf rest t s r hh ha hr⟩
      | _ => exact plain rfl

end Bpfvm
