import Verif.Props.Verdict
import Verif.Props.Asm
import Verif.Props.Install

/-!
# C61–C63: exact behaviour where the expected property fails

C09, C19 and C20 are false as a user expects them. Here is what holds instead, for every payload and every program.
-/
set_option autoImplicit false

namespace Props
open Pledge Bpfvm Spec

/-! ## C61 -/

/-- A masked comparison of `c ||| e` with constants is a masked comparison of `e`, if it is so in every bit. -/
theorem or_mask (c m k m' k' : BitVec 32)
    (h : ∀ i : Fin 32, ∀ b : Bool, (((c.getLsbD i || b) && m.getLsbD i) == k.getLsbD i) = ((b && m'.getLsbD i) == k'.getLsbD i))
    (e : BitVec 32) : (c ||| e) &&& m = k ↔ e &&& m' = k' := by
  constructor
  · intro he
    apply BitVec.eq_of_getLsbD_eq
    intro i hi
    have h1 := h ⟨i, hi⟩ (e.getLsbD i)
    have h2 := congrArg (fun x => x.getLsbD i) he
    simp only [BitVec.getLsbD_and, BitVec.getLsbD_or] at h2 ⊢
    simp only [h2, beq_self_eq_true] at h1
    exact eq_of_beq h1.symm
  · intro he
    apply BitVec.eq_of_getLsbD_eq
    intro i hi
    have h1 := h ⟨i, hi⟩ (e.getLsbD i)
    have h2 := congrArg (fun x => x.getLsbD i) he
    simp only [BitVec.getLsbD_and, BitVec.getLsbD_or] at h2 ⊢
    simp only [h2, beq_self_eq_true] at h1
    exact eq_of_beq h1

/-- A masked comparison of `c ||| e` fails if a bit of `c` contradicts it. -/
theorem or_mask_ne (c m k : BitVec 32) (i : Fin 32) (h : (c.getLsbD i && m.getLsbD i && !k.getLsbD i) = true) (e : BitVec 32) :
    (c ||| e) &&& m ≠ k := by
  intro he
  have h2 := congrArg (fun x => x.getLsbD i) he
  simp only [BitVec.getLsbD_and, BitVec.getLsbD_or] at h2
  cases hc : c.getLsbD i <;> cases hm : m.getLsbD i <;> cases hk : k.getLsbD i <;> simp_all

/-- The kernel executes a call exactly for the actions LOG and ALLOW. -/
theorem outcome_executed_iff (r : BitVec 32) :
    Kernel.outcome r = .executed ↔ r &&& 0xffff0000#32 = 0x7ffc0000#32 ∨ r &&& 0xffff0000#32 = 0x7fff0000#32 := by
  rw [Kernel.outcome_executed, Kernel.action_eq_iff, Kernel.action_eq_iff]

/-- C61: the return values with which a forbidden call is executed all the same. `Allow` and `Log` are requests to do so; a number
given with `Errno` or `Trace` has that effect exactly when its upper bits turn the action into ALLOW or LOG. -/
theorem C61_executed_iff (v : SeccompReturn) :
    Kernel.outcome v.toU32 = .executed ↔
      v = .Allow ∨ v = .Log ∨ (∃ e, v = .Errno e ∧ e &&& 0xfffa0000 = 0x7ffa0000) ∨
      (∃ t, v = .Trace t ∧ (t &&& 0x800f0000 = 0x000c0000 ∨ t &&& 0x800f0000 = 0x000f0000)) := by
  cases v with
  | Errno e =>
    rw [outcome_executed_iff]
    have h1 : ((SeccompReturn.Errno e).toU32 &&& 0xffff0000#32) ≠ 0x7ffc0000#32 :=
      or_mask_ne _ _ _ 16 (by decide) e
    have h2 : (SeccompReturn.Errno e).toU32 &&& 0xffff0000#32 = 0x7fff0000#32 ↔ e &&& 0xfffa0000#32 = 0x7ffa0000#32 :=
      or_mask _ _ _ _ _ (by decide +kernel) e
    simp [h1, h2]
  | Trace t =>
    rw [outcome_executed_iff]
    have h1 : ((SeccompReturn.Trace t).toU32 &&& 0xffff0000#32) = 0x7ffc0000#32 ↔ t &&& 0x800f0000#32 = 0x000c0000#32 :=
      or_mask _ _ _ _ _ (by decide +kernel) t
    have h2 : (SeccompReturn.Trace t).toU32 &&& 0xffff0000#32 = 0x7fff0000#32 ↔ t &&& 0x800f0000#32 = 0x000f0000#32 :=
      or_mask _ _ _ _ _ (by decide +kernel) t
    simp [h1, h2]
  | _ => simp [show ∀ r, Kernel.outcome r = .executed ↔ _ from outcome_executed_iff]; try decide

/-- C61: whatever return value the library's decoder recognises, the kernel does what the decoded value asks for. What the decoder
refuses, the kernel answers with ENOSYS (user notification without a listener) or by killing the process. -/
theorem C61_decoder_agrees (r : BitVec 32) :
    (∀ x, SeccompReturn.tryFrom r = .ok x → Kernel.outcome r = requested x) ∧
    (SeccompReturn.tryFrom r = .err (.UnsupportedReturn r) →
      Kernel.outcome r = if r &&& 0xffff0000 = 0x7fc00000 then .errno 38 else .killProcess) := by
  unfold SeccompReturn.tryFrom Kernel.outcome
  simp only [SECCOMP_RET_ACTION_FULL, SECCOMP_RET_DATA, SECCOMP_RET_KILL_PROCESS, SECCOMP_RET_KILL_THREAD, SECCOMP_RET_TRAP,
    SECCOMP_RET_ERRNO, SECCOMP_RET_TRACE, SECCOMP_RET_LOG, SECCOMP_RET_ALLOW]
  have hl : ∀ x : SeccompReturn, (Res.err (Error.UnsupportedReturn r) : Res Error SeccompReturn) ≠ .ok x := by intro x h; cases h
  by_cases h1 : r &&& 0xffff0000#32 = 0x80000000#32
  · simp [h1, requested]
  by_cases h2 : r &&& 0xffff0000#32 = 0x00000000#32
  · simp [h2, requested]
  by_cases h3 : r &&& 0xffff0000#32 = 0x00030000#32
  · simp [h3, requested]
  by_cases h4 : r &&& 0xffff0000#32 = 0x00050000#32
  · simp [h4, requested]
  by_cases h5 : r &&& 0xffff0000#32 = 0x7ff00000#32
  · simp [h5, requested]
  by_cases h6 : r &&& 0xffff0000#32 = 0x7ffc0000#32
  · simp [h6, requested]
  by_cases h7 : r &&& 0xffff0000#32 = 0x7fff0000#32
  · simp [h7, requested]
  simp [h1, h2, h3, h4, h5, h6, h7]

/-- C61: the fate of a forbidden call under a thread's only filter, for every violation whatever its payload: the decoder applied to
the 32-bit value of the violation predicts it, and the call is executed in exactly the cases of `C61_executed_iff`. -/
theorem C61_denied_fate (b : Build) (ids : Ids) (ps : List Promise) (v : SeccompReturn) (d : SeccompData) (h : Denies ids ps d) :
    ∃ prog, promisesToProg b ids ps v = .ok prog ∧
      (∀ x, SeccompReturn.tryFrom v.toU32 = .ok x → Kernel.outcome (Kernel.runFilters [prog] d) = requested x) ∧
      (Kernel.outcome (Kernel.runFilters [prog] d) = .executed ↔
        v = .Allow ∨ v = .Log ∨ (∃ e, v = .Errno e ∧ e &&& 0xfffa0000 = 0x7ffa0000) ∨
        (∃ t, v = .Trace t ∧ (t &&& 0x800f0000 = 0x000c0000 ∨ t &&& 0x800f0000 = 0x000f0000))) := by
  have hx : Kernel.outcome (Kernel.runFilters [progOf ids ps v.toU32] d) = Kernel.outcome v.toU32 := by
    have hv := h b v
    rw [filterVerdict_eq] at hv
    have hc : Kernel.cur (progOf ids ps v.toU32) d = v.toU32 := by
      unfold Kernel.cur
      rw [Kernel.run_progOf]
      injection hv
    rw [Kernel.runFilters_eq, List.map_cons, List.map_nil, hc]
    show Kernel.outcome (if Kernel.actionOnly v.toU32 < Kernel.actionOnly 0x7fff0000#32 then v.toU32 else 0x7fff0000#32) = _
    have hle := Kernel.action_le_max v.toU32
    have ha : Kernel.actionOnly 0x7fff0000#32 = (0x7fff0000#32).toInt := by decide
    split
    · rfl
    · rename_i hn
      have he : Kernel.actionOnly v.toU32 = (0x7fff0000#32).toInt := by omega
      rw [(Kernel.outcome_executed v.toU32).2 (.inr he)]
      decide
  refine ⟨_, promisesToProg_eq b ids ps v, ?_, ?_⟩
  · intro x hd
    rw [hx]
    exact (C61_decoder_agrees _).1 x hd
  · rw [hx]
    exact C61_executed_iff v

/-- Payloads of the two kinds: with these numbers, and with no others, a forbidden call is executed. -/
example : (0x7ffa0000#32 &&& 0xfffa0000#32 = 0x7ffa0000#32) ∧ (0x000c0005#32 &&& 0x800f0000#32 = 0x000c0000#32) ∧
    ¬ (0x00010005#32 &&& 0xfffa0000#32 = 0x7ffa0000#32) := by decide
/-- Under StdIO, execve with violation `Errno(0x7ffa0001)` is executed. -/
example : ∃ prog, promisesToProg ⟨true⟩ ⟨1, 1⟩ [.StdIO] (.Errno 0x7ffa0001) = .ok prog ∧
    Kernel.outcome (Kernel.runFilters [prog] (mkCall 59 [])) = .executed := by
  obtain ⟨prog, h, -, h2⟩ := C61_denied_fate ⟨true⟩ ⟨1, 1⟩ [.StdIO] (.Errno 0x7ffa0001) (mkCall 59 []) (denies_execve _)
  exact ⟨prog, h, h2.2 (.inr (.inr (.inl ⟨_, rfl, by decide⟩)))⟩

/-! ## C62 -/

/-- C62: the three possible results of the assembler, each with the exact condition on the source. A program comes out if every
label that is referred to is defined, and (in a checked build) defined below the reference; then it has one instruction per operation
that is not a label. Otherwise the first bad reference decides: undefined gives an error that names the label, not below gives a panic. -/
theorem C62_assembler_outcomes (b : Build) (prog : List Operation) :
    ((∃ code, compile b prog = .ok code ∧ code.length = instrs prog) ↔
      ∀ r ∈ allRefs prog, ¬ Undefined prog r ∧ (b.overflowChecks = true → ¬ Backward prog r)) ∧
    (∀ e, compile b prog = .err e ↔ ∃ front r back, allRefs prog = front ++ r :: back ∧ Undefined prog r ∧
      e = .UnknownLabelReference r.1 ∧ ∀ q ∈ front, ¬ Undefined prog q ∧ (b.overflowChecks = true → ¬ Backward prog q)) ∧
    (compile b prog = .panic ↔ b.overflowChecks = true ∧
      ∃ front r back, allRefs prog = front ++ r :: back ∧ Backward prog r ∧ ∀ q ∈ front, ¬ Undefined prog q) := by
  refine ⟨?_, C19_error_iff b prog, C19_panic_iff b prog⟩
  rw [← C19_success_iff]
  exact ⟨fun ⟨code, h, _⟩ => ⟨code, h⟩, fun ⟨code, h⟩ => ⟨code, h, C19_length b prog code h⟩⟩

/-- All three occur: a forward reference, an undefined label, a backward label in a checked build. -/
example : (∃ code, compile ⟨true⟩ [.JumpTo "a", .Label "a", .Return .Const 1] = .ok code) ∧
    compile ⟨true⟩ [.Label "a", .JumpTo "b"] = .err (.UnknownLabelReference "b") ∧
    compile ⟨true⟩ [.Label "a", .Load .IMM 1, .JumpTo "a"] = .panic := ⟨⟨_, rfl⟩, by decide +kernel, by decide +kernel⟩

/-! ## C63 -/

theorem usizeSub_cases (b : Build) (x y z : Nat) (h : usizeSub b x y = .ok z) :
    y ≤ x ∧ z = x - y ∨ x < y ∧ z = x + 2 ^ 64 - y := by
  unfold usizeSub at h
  split at h
  · injection h with h
    exact .inl ⟨by assumption, h.symm⟩
  · split at h
    · cases h
    · injection h with h
      exact .inr ⟨by omega, h.symm⟩

/-- The offset that the assembler computes, when it does, in both directions. -/
theorem jmpCalc_exact (b : Build) (prog before after : List Operation) (l : String) (hp : prog = before ++ .Label l :: after)
    (hl : Operation.Label l ∉ after) (n x : Nat) (hn : n < 2 ^ 64) (h : jmpCalc b (mapLabels prog) (some l) n = .ok x) :
    x = if n + 1 ≤ instrs before then instrs before - (n + 1) else instrs before + 2 ^ 64 - (n + 1) := by
  subst hp
  simp only [jmpCalc, mapLabels_last before after l hl] at h
  generalize instrs before = t at *
  cases h1 : usizeSub b t n with
  | err x => simp only [h1, Res.bind] at h; cases h
  | panic => simp only [h1, Res.bind] at h; cases h
  | ok d =>
    simp only [h1, Res.bind] at h
    have a := usizeSub_cases b t n d h1
    have c := usizeSub_cases b d 1 x h
    clear h h1
    revert a c hn
    generalize (2 : Nat) ^ 64 = m
    intro hn a c
    split <;> omega

/-- The offset in `w` bits is the true distance modulo `2 ^ w`. -/
theorem offset_mod (w : Nat) (hw : w ≤ 64) (t n x : Nat) (hn : n < 2 ^ 64)
    (hx : x = if n + 1 ≤ t then t - (n + 1) else t + 2 ^ 64 - (n + 1)) :
    ((BitVec.ofNat w x).toNat : Int) = ((t : Int) - (n + 1)) % (2 ^ w : Nat) := by
  rw [BitVec.toNat_ofNat, Int.natCast_emod]
  subst hx
  split
  · rw [Int.natCast_sub (by omega), Int.natCast_add]
    rfl
  · obtain ⟨q, hq⟩ : (2 ^ w : Nat) ∣ 2 ^ 64 := Nat.pow_dvd_pow 2 hw
    rw [Int.natCast_sub (by omega), Int.natCast_add, hq, Int.natCast_mul]
    rw [show ((t : Int) + ((2 ^ w : Nat) : Int) * q - ((n + 1 : Nat) : Int)) = ((t : Int) - (n + 1)) + ((2 ^ w : Nat) : Int) * q by
      rw [Int.natCast_add]; generalize ((2 ^ w : Nat) : Int) * q = z; omega]
    rw [Int.add_mul_emod_self_left]

/-- C63 for `JumpTo`, whatever the distance and the direction: the distance from the following instruction to the label is taken modulo
2^32. `before` is what precedes the last definition of the label. -/
theorem C63_jumpTo (b b' : Build) (pre rest before after : List Operation) (l : String)
    (hp : pre ++ .JumpTo l :: rest = before ++ .Label l :: after) (hl : Operation.Label l ∉ after)
    (code : List SockFilter) (hc : compile b (pre ++ .JumpTo l :: rest) = .ok code) (hsize : instrs (pre ++ .JumpTo l :: rest) < 2 ^ 64)
    (vm : VM) (data : RunData) (hprog : vm.prog = code) (hpc : vm.pc = instrs pre) :
    ∃ pc', vm.execute b' data = ({ vm with pc := pc' }, .ok none) ∧
      (pc' : Int) = instrs pre + 1 + ((instrs before : Int) - (instrs pre + 1)) % 2 ^ 32 := by
  obtain ⟨sf, h1, h2⟩ := compile_get b pre _ (.JumpTo l) rfl code hc
  simp only [toSockFilter] at h1
  cases hj : jmpCalc b (mapLabels (pre ++ .JumpTo l :: rest)) (some l) (instrs pre) with
  | err x => rw [hj] at h1; simp [Res.bind] at h1
  | panic => rw [hj] at h1; simp [Res.bind] at h1
  | ok x =>
    rw [hj] at h1
    simp only [Res.bind, Res.ok.injEq] at h1
    subst h1
    have hn : instrs pre < 2 ^ 64 := by rw [instrs_append] at hsize; omega
    rw [execute_eq b' vm data _ (by rw [hprog, hpc]; exact h2), ja_step]
    refine ⟨_, rfl, ?_⟩
    have := offset_mod 32 (by omega) _ _ x hn (jmpCalc_exact b _ before after l hp hl _ x hn hj)
    rw [Int.natCast_add, this, hpc, Int.natCast_add]
    rfl

/-- Not vacuous: a jump over one instruction. -/
example (vm : VM) := C63_jumpTo ⟨true⟩ ⟨true⟩ [] [.Return .Const 0, .Label "a", .Return .Const 1] [.JumpTo "a", .Return .Const 0]
  [.Return .Const 1] "a" rfl (by decide) _ rfl (by decide) { vm with prog := _, pc := 0 } [] rfl rfl

/-- C63 for conditional jumps, taken or not, whatever the distance and the direction: without a label the next instruction; with a
label, the distance from the following instruction is taken modulo 256. -/
theorem C63_conditional (b b' : Build) (pre rest : List Operation) (c : JmpOp) (hop : c ≠ .JA) (k : BitVec 32) (lt lf : Option String)
    (code : List SockFilter) (hc : compile b (pre ++ .Jump c k lt lf :: rest) = .ok code)
    (hsize : instrs (pre ++ .Jump c k lt lf :: rest) < 2 ^ 64)
    (vm : VM) (data : RunData) (hprog : vm.prog = code) (hpc : vm.pc = instrs pre)
    (lab : Option String) (hlab : holds c vm.acc k ∧ lab = lt ∨ ¬ holds c vm.acc k ∧ lab = lf) :
    ∃ pc', vm.execute b' data = ({ vm with pc := pc' }, .ok none) ∧
      (lab = none → pc' = instrs pre + 1) ∧
      (∀ l before after, lab = some l → pre ++ .Jump c k lt lf :: rest = before ++ .Label l :: after → .Label l ∉ after →
        (pc' : Int) = instrs pre + 1 + ((instrs before : Int) - (instrs pre + 1)) % 256) := by
  obtain ⟨sf, h1, h2⟩ := compile_get b pre _ (.Jump c k lt lf) rfl code hc
  simp only [toSockFilter] at h1
  have hn : instrs pre < 2 ^ 64 := by rw [instrs_append] at hsize; omega
  have key : ∀ (lab : Option String) (x : Nat), jmpCalc b (mapLabels (pre ++ .Jump c k lt lf :: rest)) lab (instrs pre) = .ok x →
      (lab = none → instrs pre + 1 + (BitVec.ofNat 8 x).toNat = instrs pre + 1) ∧
      (∀ l before after, lab = some l → pre ++ .Jump c k lt lf :: rest = before ++ .Label l :: after → .Label l ∉ after →
        ((instrs pre + 1 + (BitVec.ofNat 8 x).toNat : Nat) : Int) = instrs pre + 1 + ((instrs before : Int) - (instrs pre + 1)) % 256) := by
    intro lab x hj
    constructor
    · intro hl
      subst hl
      simp only [jmpCalc, Res.ok.injEq] at hj
      subst hj
      rfl
    · intro l before after hl hp hla
      subst hl
      have := offset_mod 8 (by omega) _ _ x hn (jmpCalc_exact b _ before after l hp hla _ x hn hj)
      rw [Int.natCast_add, this, Int.natCast_add]
      rfl
  cases hj : jmpCalc b (mapLabels (pre ++ .Jump c k lt lf :: rest)) lt (instrs pre) with
  | err x => rw [hj] at h1; simp [Res.bind] at h1
  | panic => rw [hj] at h1; simp [Res.bind] at h1
  | ok x =>
    cases hj' : jmpCalc b (mapLabels (pre ++ .Jump c k lt lf :: rest)) lf (instrs pre) with
    | err x => rw [hj, hj'] at h1; simp [Res.bind] at h1
    | panic => rw [hj, hj'] at h1; simp [Res.bind] at h1
    | ok y =>
      rw [hj, hj'] at h1
      simp only [Res.bind, Res.ok.injEq] at h1
      subst h1
      rw [execute_eq b' vm data _ (by rw [hprog, hpc]; exact h2)]
      rcases hlab with ⟨hh, rfl⟩ | ⟨hh, rfl⟩
      · rw [(jump_step b' { vm with pc := vm.pc + 1 } data c hop k _ _).1 hh]
        exact ⟨_, rfl, by simp only [hpc]; exact key _ x hj⟩
      · rw [(jump_step b' { vm with pc := vm.pc + 1 } data c hop k _ _).2 hh]
        exact ⟨_, rfl, by simp only [hpc]; exact key _ y hj'⟩

/-- A backward jump that compiles in an unchecked build: label at 0, jump at 1, so the distance −2 counts as 254. -/
example : ∃ code, compile ⟨false⟩ ([.Label "a", .Load .IMM 1] ++ .Jump .JEQ 1 (some "a") none :: [.Return .Const 0]) = .ok code ∧
    ((2 : Int) + ((0 : Int) - 2) % 256 = 256) := ⟨_, rfl, by decide⟩

end Props
