import Verif.Spec.Word
import Verif.Props.Actual

/-!
# C83: the exact meaning of every list of instruction words to the VM

C57 is false as a user expects it. Here is the complete behaviour of the VM, for all 65536 codes and all programs.
-/
set_option autoImplicit false

namespace Props
open Bpfvm Spec

/-- A field of a number, by mask and by division. -/
theorem and_field (x k n : Nat) : x &&& ((2 ^ n - 1) <<< k) = (x / 2 ^ k % 2 ^ n) * 2 ^ k := by
  rw [← Nat.and_two_pow_sub_one_eq_mod, ← Nat.shiftRight_eq_div_pow, ← Nat.shiftLeft_eq]
  apply Nat.eq_of_testBit_eq
  intro i
  simp only [Nat.testBit_and, Nat.testBit_shiftLeft, Nat.testBit_shiftRight]
  by_cases h : k ≤ i
  · simp [h]
  · simp [h]

theorem mask_field (c m : BitVec 16) (k n : Nat) (hm : m.toNat = (2 ^ n - 1) <<< k) :
    c &&& m = BitVec.ofNat 16 (c.toNat / 2 ^ k % 2 ^ n * 2 ^ k) := by
  apply BitVec.eq_of_toNat_eq
  rw [BitVec.toNat_and, hm, and_field, BitVec.toNat_ofNat, ← and_field, ← hm, ← BitVec.toNat_and, Nat.mod_eq_of_lt (BitVec.isLt _)]

theorem f_class (c : BitVec 16) : c &&& 7#16 = BitVec.ofNat 16 (c.toNat % 8) := by
  have := mask_field c 7#16 0 3 rfl
  simpa using this
theorem f_mode (c : BitVec 16) : c &&& 0xe0#16 = BitVec.ofNat 16 (c.toNat / 32 % 8 * 32) := mask_field c 0xe0#16 5 3 rfl
theorem f_size (c : BitVec 16) : c &&& 0x18#16 = BitVec.ofNat 16 (c.toNat / 8 % 4 * 8) := mask_field c 0x18#16 3 2 rfl
theorem f_op (c : BitVec 16) : c &&& 0xf0#16 = BitVec.ofNat 16 (c.toNat / 16 % 16 * 16) := mask_field c 0xf0#16 4 4 rfl
theorem f_src (c : BitVec 16) : c &&& 0x08#16 = BitVec.ofNat 16 (c.toNat / 8 % 2 * 8) := mask_field c 0x08#16 3 1 rfl

/-- One step of the VM on any word. -/
def Steps (b : Build) (vm : VM) (data : RunData) (s : St) (w : SockFilter) : Meaning → Prop
  | .does op => VM.executeInstr b vm data w = VM.executeInstr b vm data (word op) ∧ isPlain op = true ∧ OpOK [] op
  | .indirect e => VM.executeInstr b vm data w = (vm, if arith b .ADD s.idx w.k = none then .panic else .err e)
  | .goto => VM.executeInstr b vm data w = ({ vm with pc := vm.pc + w.k.toNat }, .ok none)
  | .branch c => VM.executeInstr b vm data w = VM.executeInstr b vm data (bpf_jmp c w.k w.jt w.jf) ∧ c ≠ .JA
  | .ret src => VM.executeInstr b vm data w = VM.executeInstr b vm data (bpf_ret src w.k)
  | .refused e => VM.executeInstr b vm data w = (vm, .err e)

theorem indirect_step (b : Build) (vm : VM) (data : RunData) (s : St) (hr : Rel vm s) (w : SockFilter) (e : Error)
    (h7 : w.code &&& 7#16 = 0#16) (hm : w.code &&& 0xe0#16 = 0x40#16)
    (he : ∀ off, fetchData data off (w.code &&& 0x18#16) = .err e) : Steps b vm data s w (.indirect e) := by
  have h1 := arith_eq b .ADD vm.idx w.k
  simp only [aluRes] at h1
  simp only [Steps, executeInstr_eq, h7, ldValue_eq, hm, BitVec.reduceEq, reduceIte]
  rw [h1, hr.idx]
  cases arith b .ADD s.idx w.k with
  | none => rfl
  | some x => simp only [Res.bind, he, reduceCtorEq, if_false]

theorem word_step (b : Build) (vm : VM) (data : RunData) (s : St) (hr : Rel vm s) (w : SockFilter) : Steps b vm data s w (meaning w) := by
  have h7 := f_class w.code
  have hmode := f_mode w.code
  have hsize := f_size w.code
  have hop := f_op w.code
  have hsrc := f_src w.code
  unfold meaning
  dsimp only
  have l7 : w.code.toNat % 8 < 8 := Nat.mod_lt _ (by omega)
  have lm : w.code.toNat / 32 % 8 < 8 := Nat.mod_lt _ (by omega)
  have ls : w.code.toNat / 8 % 4 < 4 := Nat.mod_lt _ (by omega)
  have lo : w.code.toNat / 16 % 16 < 16 := Nat.mod_lt _ (by omega)
  have lr : w.code.toNat / 8 % 2 < 2 := Nat.mod_lt _ (by omega)
  generalize w.code.toNat % 8 = c7 at *
  generalize w.code.toNat / 32 % 8 = cm at *
  generalize w.code.toNat / 8 % 4 = cs at *
  generalize w.code.toNat / 16 % 16 = co at *
  generalize w.code.toNat / 8 % 2 = cr at *
  rcases (show c7 = 0 ∨ c7 = 1 ∨ c7 = 2 ∨ c7 = 3 ∨ c7 = 4 ∨ c7 = 5 ∨ c7 = 6 ∨ c7 = 7 by omega) with rfl | rfl | rfl | rfl | rfl | rfl | rfl | rfl
  · rcases (show cm = 0 ∨ cm = 1 ∨ cm = 2 ∨ cm = 3 ∨ cm = 4 ∨ cm = 5 ∨ cm = 6 ∨ cm = 7 by omega) with
      rfl | rfl | rfl | rfl | rfl | rfl | rfl | rfl
    · refine ⟨?_, rfl, by simp [OpOK]⟩
      simp [executeInstr_eq, h7, ldValue_eq, hmode, word, ldw_IMM]
    · rcases (show cs = 0 ∨ cs = 1 ∨ cs = 2 ∨ cs = 3 by omega) with rfl | rfl | rfl | rfl
      · refine ⟨?_, rfl, by simp [OpOK]⟩
        simp [executeInstr_eq, h7, ldValue_eq, hmode, hsize, word, ldw_ABS]
      · show VM.executeInstr b vm data w = _
        simp [executeInstr_eq, h7, ldValue_eq, hmode, hsize, fetchData_eq, sizeError]
      · show VM.executeInstr b vm data w = _
        simp [executeInstr_eq, h7, ldValue_eq, hmode, hsize, fetchData_eq, sizeError]
      · show VM.executeInstr b vm data w = _
        simp [executeInstr_eq, h7, ldValue_eq, hmode, hsize, fetchData_eq, sizeError]
    · rcases (show cs = 0 ∨ cs = 1 ∨ cs = 2 ∨ cs = 3 by omega) with rfl | rfl | rfl | rfl
      · refine ⟨?_, rfl, by simp [OpOK]⟩
        simp [executeInstr_eq, h7, ldValue_eq, hmode, hsize, word, ldw_IND]
      · exact indirect_step b vm data s hr w _ h7 hmode (fun off => by rw [hsize, fetchData_eq]; rfl)
      · exact indirect_step b vm data s hr w _ h7 hmode (fun off => by rw [hsize, fetchData_eq]; rfl)
      · exact indirect_step b vm data s hr w _ h7 hmode (fun off => by rw [hsize, fetchData_eq]; rfl)
    · refine ⟨?_, rfl, by simp [OpOK]⟩
      simp [executeInstr_eq, h7, ldValue_eq, hmode, word, ldw_MEM]
    · refine ⟨?_, rfl, by simp [OpOK]⟩
      simp [executeInstr_eq, h7, ldValue_eq, hmode, word, ldw_LEN]
    all_goals
      show VM.executeInstr b vm data w = _
      simp [executeInstr_eq, h7, ldValue_eq, hmode]
  · rcases (show cm = 0 ∨ cm = 1 ∨ cm = 2 ∨ cm = 3 ∨ cm = 4 ∨ cm = 5 ∨ cm = 6 ∨ cm = 7 by omega) with
      rfl | rfl | rfl | rfl | rfl | rfl | rfl | rfl
    · refine ⟨?_, rfl, by simp [OpOK]⟩
      simp [executeInstr_eq, h7, ldxValue_eq, hmode, word, ldxw_IMM]
    · show VM.executeInstr b vm data w = _
      simp [executeInstr_eq, h7, ldxValue_eq, hmode]
    · show VM.executeInstr b vm data w = _
      simp [executeInstr_eq, h7, ldxValue_eq, hmode]
    · refine ⟨?_, rfl, by simp [OpOK]⟩
      simp [executeInstr_eq, h7, ldxValue_eq, hmode, word, ldxw_MEM]
    · refine ⟨?_, rfl, by simp [OpOK]⟩
      simp [executeInstr_eq, h7, ldxValue_eq, hmode, word, ldxw_LEN]
    all_goals
      show VM.executeInstr b vm data w = _
      simp [executeInstr_eq, h7, ldxValue_eq, hmode]
  · refine ⟨?_, rfl, by simp [OpOK]⟩
    have : word (.Store .IMM w.k) = ⟨0x02, 0, 0, w.k⟩ := rfl
    simp [executeInstr_eq, h7, this]
  · refine ⟨?_, rfl, by simp [OpOK]⟩
    have : word (.StoreIdx .IMM w.k) = ⟨0x03, 0, 0, w.k⟩ := rfl
    simp [executeInstr_eq, h7, this]
  · rcases (show co = 0 ∨ co = 1 ∨ co = 2 ∨ co = 3 ∨ co = 4 ∨ co = 5 ∨ co = 6 ∨ co = 7 ∨ co = 8 ∨ co = 9 ∨ co = 10 ∨ co = 11 ∨ co = 12 ∨
      co = 13 ∨ co = 14 ∨ co = 15 by omega) with
      rfl | rfl | rfl | rfl | rfl | rfl | rfl | rfl | rfl | rfl | rfl | rfl | rfl | rfl | rfl | rfl
    case inr.inr.inr.inr.inr.inr.inr.inr.inl =>
      show VM.executeInstr b vm data w = _
      simp [executeInstr_eq, h7, aluValue_eq, hop]
    all_goals first
      | show VM.executeInstr b vm data w = _
        simp [executeInstr_eq, h7, aluValue_eq, hop]
        done
      | rcases (show cr = 0 ∨ cr = 1 by omega) with rfl | rfl
        · refine ⟨?_, rfl, by simp [OpOK]⟩
          simp [executeInstr_eq, h7, aluValue_eq, hop, hsrc, word, aluw_ADD_Const, aluw_SUB_Const, aluw_MUL_Const, aluw_DIV_Const,
            aluw_OR_Const, aluw_AND_Const, aluw_LSH_Const, aluw_RSH_Const, aluw_MOD_Const, aluw_XOR_Const]
        · refine ⟨?_, rfl, by simp [OpOK]⟩
          simp [executeInstr_eq, h7, aluValue_eq, hop, hsrc, word, aluw_ADD_Idx, aluw_SUB_Idx, aluw_MUL_Idx, aluw_DIV_Idx,
            aluw_OR_Idx, aluw_AND_Idx, aluw_LSH_Idx, aluw_RSH_Idx, aluw_MOD_Idx, aluw_XOR_Idx]
  · rcases (show co = 0 ∨ co = 1 ∨ co = 2 ∨ co = 3 ∨ co = 4 ∨ co = 5 ∨ co = 6 ∨ co = 7 ∨ co = 8 ∨ co = 9 ∨ co = 10 ∨ co = 11 ∨ co = 12 ∨
      co = 13 ∨ co = 14 ∨ co = 15 by omega) with
      rfl | rfl | rfl | rfl | rfl | rfl | rfl | rfl | rfl | rfl | rfl | rfl | rfl | rfl | rfl | rfl
    · show VM.executeInstr b vm data w = _
      simp [executeInstr_eq, h7, jumpAmount_eq, hop]
    · refine ⟨?_, by decide⟩
      simp [executeInstr_eq, h7, jumpAmount_eq, hop, jmpw_JEQ]
    · refine ⟨?_, by decide⟩
      simp [executeInstr_eq, h7, jumpAmount_eq, hop, jmpw_JGT]
    · refine ⟨?_, by decide⟩
      simp [executeInstr_eq, h7, jumpAmount_eq, hop, jmpw_JGE]
    · refine ⟨?_, by decide⟩
      simp [executeInstr_eq, h7, jumpAmount_eq, hop, jmpw_JSET]
    all_goals
      show VM.executeInstr b vm data w = _
      simp [executeInstr_eq, h7, jumpAmount_eq, hop]
  · rcases (show cs = 0 ∨ cs = 1 ∨ cs = 2 ∨ cs = 3 by omega) with rfl | rfl | rfl | rfl
    · show VM.executeInstr b vm data w = _
      simp [executeInstr_eq, h7, fetchSrc_eq, hsize, retw_Const]
    · show VM.executeInstr b vm data w = _
      simp [executeInstr_eq, h7, fetchSrc_eq, hsize, retw_Idx]
    · show VM.executeInstr b vm data w = _
      simp [executeInstr_eq, h7, fetchSrc_eq, hsize, retw_Acc]
    · show VM.executeInstr b vm data w = _
      simp [executeInstr_eq, h7, fetchSrc_eq, hsize]
  · show VM.executeInstr b vm data w = _
    simp [executeInstr_eq, h7]

theorem wordRun_loop (b : Build) (prog : List SockFilter) (data : RunData) (n : Nat) (s : St) (r : Res Error (BitVec 32))
    (hrun : WordRun b data prog n s r) (vm : VM) (hprog : vm.prog = prog) (hpc : vm.pc = n) (hr : Rel vm s) :
    (vm.loop b data).map Prod.snd = some r := by
  have step : ∀ (n : Nat) (w : SockFilter) (s : St) (vm : VM), vm.prog = prog → vm.pc = n → Rel vm s → prog[n]? = some w →
      Rel { vm with pc := vm.pc + 1 } s ∧ Steps b { vm with pc := vm.pc + 1 } data s w (meaning w) :=
    fun n w s vm h1 h2 h3 _ => ⟨⟨h3.acc, h3.idx, h3.mem⟩, word_step b { vm with pc := vm.pc + 1 } data s ⟨h3.acc, h3.idx, h3.mem⟩ w⟩
  induction hrun generalizing vm with
  | off n s hn => rw [loop_done b vm data (by rw [hpc, hprog]; exact hn)]; rfl
  | does n w op s s' r hw hm he _ ih =>
    obtain ⟨hr1, hs⟩ := step n w s vm hprog hpc hr hw
    rw [hm] at hs
    obtain ⟨h1, h2, h3⟩ := hs
    have hst := plain_step b _ data s hr1 op [] h2 h3
    rw [he] at hst
    obtain ⟨vm', h4, h5, h6, h7⟩ := hst
    rw [loop_step b vm data w (by rw [hprog, hpc]; exact hw), h1, h4]
    exact ih vm' (by rw [h6]; exact hprog) (by rw [h5, hpc]) h7
  | panics n w op s hw hm he =>
    obtain ⟨hr1, hs⟩ := step n w s vm hprog hpc hr hw
    rw [hm] at hs
    obtain ⟨h1, h2, h3⟩ := hs
    have hst := plain_step b _ data s hr1 op [] h2 h3
    rw [he] at hst
    rw [loop_step b vm data w (by rw [hprog, hpc]; exact hw), h1, hst]
    rfl
  | overflow n w e s hw hm he =>
    obtain ⟨hr1, hs⟩ := step n w s vm hprog hpc hr hw
    rw [hm] at hs
    rw [loop_step b vm data w (by rw [hprog, hpc]; exact hw), hs, if_pos he]
    rfl
  | indirect n w e x s hw hm he =>
    obtain ⟨hr1, hs⟩ := step n w s vm hprog hpc hr hw
    rw [hm] at hs
    rw [loop_step b vm data w (by rw [hprog, hpc]; exact hw), hs, if_neg (by rw [he]; simp)]
    rfl
  | refused n w e s hw hm =>
    obtain ⟨hr1, hs⟩ := step n w s vm hprog hpc hr hw
    rw [hm] at hs
    rw [loop_step b vm data w (by rw [hprog, hpc]; exact hw), hs]
    rfl
  | ret n w src s hw hm =>
    obtain ⟨hr1, hs⟩ := step n w s vm hprog hpc hr hw
    rw [hm] at hs
    rw [loop_step b vm data w (by rw [hprog, hpc]; exact hw), hs, ret_step b _ data s hr1]
    rfl
  | goto n w s r hw hm _ ih =>
    obtain ⟨hr1, hs⟩ := step n w s vm hprog hpc hr hw
    rw [hm] at hs
    rw [loop_step b vm data w (by rw [hprog, hpc]; exact hw), hs]
    exact ih _ hprog (by simp only [hpc]) ⟨hr.acc, hr.idx, hr.mem⟩
  | taken n w c s r hw hm hh _ ih =>
    obtain ⟨hr1, hs⟩ := step n w s vm hprog hpc hr hw
    rw [hm] at hs
    rw [loop_step b vm data w (by rw [hprog, hpc]; exact hw), hs.1, (jump_step b _ data c hs.2 _ _ _).1 (by rw [hr.acc]; exact hh)]
    exact ih _ hprog (by simp only [hpc]) ⟨hr.acc, hr.idx, hr.mem⟩
  | notTaken n w c s r hw hm hh _ ih =>
    obtain ⟨hr1, hs⟩ := step n w s vm hprog hpc hr hw
    rw [hm] at hs
    rw [loop_step b vm data w (by rw [hprog, hpc]; exact hw), hs.1, (jump_step b _ data c hs.2 _ _ _).2 (by rw [hr.acc]; exact hh)]
    exact ih _ hprog (by simp only [hpc]) ⟨hr.acc, hr.idx, hr.mem⟩

theorem wordRun_exists (b : Build) (prog : List SockFilter) (data : RunData) (g n : Nat) (hg : prog.length ≤ n + g) (s : St) :
    ∃ r, WordRun b data prog n s r := by
  induction g generalizing n s with
  | zero => exact ⟨_, .off n s hg⟩
  | succ g ih =>
    by_cases hn : prog.length ≤ n
    · exact ⟨_, .off n s hn⟩
    have hw : prog[n]? = some prog[n] := List.getElem?_eq_getElem (by omega)
    generalize prog[n] = w at hw
    cases hm : meaning w with
    | does op =>
      cases he : effect b data s op with
      | none => exact ⟨_, .panics n w op s hw hm he⟩
      | some s' =>
        obtain ⟨r, hr⟩ := ih (n + 1) (by omega) s'
        exact ⟨r, .does n w op s s' r hw hm he hr⟩
    | indirect e =>
      cases he : arith b .ADD s.idx w.k with
      | none => exact ⟨_, .overflow n w e s hw hm he⟩
      | some x => exact ⟨_, .indirect n w e x s hw hm he⟩
    | refused e => exact ⟨_, .refused n w e s hw hm⟩
    | ret src => exact ⟨_, .ret n w src s hw hm⟩
    | goto =>
      obtain ⟨r, hr⟩ := ih (n + 1 + w.k.toNat) (by omega) s
      exact ⟨r, .goto n w s r hw hm hr⟩
    | branch c =>
      by_cases hh : holds c s.acc w.k
      · obtain ⟨r, hr⟩ := ih (n + 1 + w.jt.toNat) (by omega) s
        exact ⟨r, .taken n w c s r hw hm hh hr⟩
      · obtain ⟨r, hr⟩ := ih (n + 1 + w.jf.toNat) (by omega) s
        exact ⟨r, .notTaken n w c s r hw hm hh hr⟩

/-- C83: the result of the VM on any list of at most 65535 instruction words, for every data and in both build modes. -/
theorem C83_every_word (b : Build) (prog : List SockFilter) (hlen : prog.length ≤ 65535) (data : RunData) (r : Res Error (BitVec 32)) :
    runProg b prog data = some r ↔ WordRun b data prog 0 St.init r := by
  have key : ∀ r, WordRun b data prog 0 St.init r → runProg b prog data = some r := by
    intro r hr
    unfold runProg VM.new
    rw [if_neg (by omega)]
    exact wordRun_loop b prog data 0 St.init r hr _ rfl rfl ⟨rfl, rfl, fun j hj => by simp [VM.reset, St.init]⟩
  constructor
  · intro hr
    obtain ⟨r', hr'⟩ := wordRun_exists b prog data prog.length 0 (by omega) St.init
    have := key r' hr'
    rw [hr, Option.some.injEq] at this
    rwa [this]
  · exact key r

/-- Not vacuous: a program with a comparison with the index register. -/
example (r : Res Error (BitVec 32)) := C83_every_word ⟨true⟩ [⟨0x20, 0, 0, 0⟩, ⟨0x1d, 0, 1, 7⟩, ⟨0x06, 0, 0, 1⟩, ⟨0x06, 0, 0, 2⟩] (by decide) [5] r

/-- C83: longer lists are refused. -/
theorem C83_too_long (b : Build) (prog : List SockFilter) (hlen : 65535 < prog.length) (data : RunData) :
    runProg b prog data = some (.err (.ProgramTooLong prog.length)) := by
  unfold runProg VM.new
  rw [if_pos (by omega)]

/-- A comparison with the index register (0x1d) is one with the constant; a byte load (0x30) and NEG (0x84) are refused; the upper byte of a
code has no effect. -/
example : meaning ⟨0x1d, 1, 0, 7⟩ = .branch .JEQ ∧ meaning ⟨0x30, 0, 0, 7⟩ = .refused .UnsupportedDataOffset ∧
    meaning ⟨0x84, 0, 0, 7⟩ = .refused (.UnsupportedInstruction 0x80) ∧ meaning ⟨0xff04, 0, 0, 7⟩ = .does (.Alu .ADD .Const 7) :=
  ⟨rfl, rfl, rfl, rfl⟩

/-- A program with an index-register comparison: the data word 5 equals the index 5 but not the constant 7. -/
example (b : Build) : WordRun b [5] [⟨0x20, 0, 0, 0⟩, ⟨0x01, 0, 0, 5⟩, ⟨0x1d, 0, 1, 7⟩, ⟨0x06, 0, 0, 1⟩, ⟨0x06, 0, 0, 2⟩] 0 St.init (.ok 2) := by
  refine .does 0 _ (.Load .ABS 0) _ { St.init with acc := 5 } _ rfl rfl rfl ?_
  refine .does 1 _ (.LoadIdx .IMM 5) _ { St.init with acc := 5, idx := 5 } _ rfl rfl rfl ?_
  refine .notTaken 2 _ .JEQ _ _ rfl rfl (by simp [holds]) ?_
  exact .ret 4 ⟨0x06, 0, 0, 2⟩ .Const _ rfl rfl

end Props
