import Verif.Spec.Actual
import Verif.Props.Exact

/-!
# C81 and C82: equal instruction words, and what every assembled program does

C20, C21 and C23 fail or are restricted for some operations. Here is what holds without restriction.
-/
set_option autoImplicit false

namespace Props
open Bpfvm Spec

/-! ## C81 -/

theorem Insn.code_cases (i : Insn) : (i.regular = true) ∨ ∃ o v, i = .ALU o .Acc v := by
  cases i with
  | ALU op src v => cases src <;> first | exact .inl rfl | exact .inr ⟨_, _, rfl⟩
  | _ => exact .inl rfl

/-- The regular call with the same word as arithmetic on the accumulator, if there is one. -/
theorem acc_as (o o' : AluOp) (h : accAs o = some o') (v : BitVec 32) :
    (Insn.ALU o .Acc v).encode = (Insn.ALU o' .Const v).encode := by
  cases o <;> simp only [accAs, Option.some.injEq, reduceCtorEq] at h <;> subst h <;> rfl

theorem regular_xor (i : Insn) (h : i.regular = true) (v : BitVec 32) : i.encode ≠ (Insn.ALU .XOR .Acc v).encode := by
  intro he
  have h1 := Insn.decode_encode i h
  rw [he] at h1
  have : Insn.decode (Insn.ALU .XOR .Acc v).encode = none := rfl
  rw [this] at h1
  cases h1

/-- C81: two calls of the constructors give the same word exactly if they are the same call, or both are arithmetic with the same
constant, none has the index register as operand, and "with the accumulator" turns into the same operation. -/
theorem C81_same_word_iff (i j : Insn) : i.encode = j.encode ↔
    i = j ∨ (∃ o p v, i = .ALU o .Acc v ∧ j = .ALU p .Acc v ∧ accAs o = accAs p) ∨
    (∃ o p v, i = .ALU o .Acc v ∧ j = .ALU p .Const v ∧ accAs o = some p) ∨
    (∃ o p v, i = .ALU o .Const v ∧ j = .ALU p .Acc v ∧ accAs p = some o) := by
  constructor
  · intro h
    rcases Insn.code_cases i with hi | ⟨o, v, rfl⟩ <;> rcases Insn.code_cases j with hj | ⟨p, w, rfl⟩
    · exact .inl (C23_injective_partial i j hi hj h)
    · cases hp : accAs p with
      | none =>
        cases p <;> simp only [accAs, reduceCtorEq] at hp
        exact absurd h (regular_xor i hi w)
      | some q =>
        rw [acc_as p q hp w] at h
        have := C23_injective_partial i (.ALU q .Const w) hi rfl h
        exact .inr (.inr (.inr ⟨q, p, w, this, rfl, hp⟩))
    · cases ho : accAs o with
      | none =>
        cases o <;> simp only [accAs, reduceCtorEq] at ho
        exact absurd h.symm (regular_xor j hj v)
      | some q =>
        rw [acc_as o q ho v] at h
        have := C23_injective_partial (.ALU q .Const v) j rfl hj h
        exact .inr (.inr (.inl ⟨o, q, v, rfl, this.symm, ho⟩))
    · refine .inr (.inl ⟨o, p, v, rfl, ?_, ?_⟩)
      · have hk : v = w := congrArg SockFilter.k h
        rw [hk]
      · cases ho : accAs o with
        | none =>
          cases hp : accAs p with
          | none => rfl
          | some q =>
            cases o <;> simp only [accAs, reduceCtorEq] at ho
            rw [acc_as p q hp w] at h
            exact absurd h.symm (regular_xor _ rfl v)
        | some q =>
          rw [acc_as o q ho v] at h
          cases hp : accAs p with
          | none =>
            cases p <;> simp only [accAs, reduceCtorEq] at hp
            exact absurd h (regular_xor _ rfl w)
          | some q' =>
            rw [acc_as p q' hp w] at h
            have := C23_injective_partial _ _ rfl rfl h
            injection this with h1 h2 h3
            rw [h1]
  · rintro (rfl | ⟨o, p, v, rfl, rfl, h⟩ | ⟨o, p, v, rfl, rfl, h⟩ | ⟨o, p, v, rfl, rfl, h⟩)
    · rfl
    · cases ho : accAs o with
      | none =>
        rw [ho] at h
        cases o <;> simp only [accAs, reduceCtorEq] at ho
        cases p <;> simp only [accAs, reduceCtorEq] at h
        rfl
      | some q => rw [acc_as o q ho, acc_as p q (by rw [← h, ho])]
    · exact acc_as o p h v
    · exact (acc_as p o h v).symm

/-- Adding and subtracting the accumulator share a word with subtracting the constant; adding and multiplying do not. -/
example : (Insn.ALU .ADD .Acc 5).encode = (Insn.ALU .SUB .Acc 5).encode ∧ (Insn.ALU .ADD .Acc 5).encode = (Insn.ALU .SUB .Const 5).encode ∧
    (Insn.ALU .ADD .Acc 5).encode ≠ (Insn.ALU .MUL .Acc 5).encode ∧ (Insn.ALU .ADD .Acc 5).encode ≠ (Insn.ALU .ADD .Idx 5).encode := by
  decide

/-! ## C82 -/

/-- One operation on the VM, whatever it is. -/
theorem really_step (b : Build) (vm : VM) (data : RunData) (s : St) (hr : Rel vm s) (op : Operation) (hp : isPlain op = true) :
    match reallyDoes b data s op with
    | .ok s' => ∃ vm', vm.executeInstr b data (word op) = (vm', .ok none) ∧ vm'.pc = vm.pc ∧ vm'.prog = vm.prog ∧ Rel vm' s'
    | .err e => vm.executeInstr b data (word op) = (vm, .err e)
    | .panic => vm.executeInstr b data (word op) = (vm, .panic) := by
  have ok : ∀ op' : Operation, isPlain op' = true → OpOK [] op' →
      match (match effect b data s op' with | some s' => Res.ok (ε := Error) s' | none => .panic) with
      | .ok s' => ∃ vm', vm.executeInstr b data (word op') = (vm', .ok none) ∧ vm'.pc = vm.pc ∧ vm'.prog = vm.prog ∧ Rel vm' s'
      | .err e => vm.executeInstr b data (word op') = (vm, .err e)
      | .panic => vm.executeInstr b data (word op') = (vm, .panic) := by
    intro op' h1 h2
    have := plain_step b vm data s hr op' [] h1 h2
    cases he : effect b data s op' with
    | none => rw [he] at this; exact this
    | some s' => rw [he] at this; exact this
  cases op with
  | Alu o src v =>
    cases src with
    | Acc =>
      simp only [reallyDoes]
      cases ho : accAs o with
      | none =>
        cases o <;> simp only [accAs, reduceCtorEq] at ho
        exact C23_xor_acc b vm data v
      | some q =>
        have := ok (.Alu q .Const v) rfl (by simp [OpOK])
        have hw : word (.Alu o .Acc v) = word (.Alu q .Const v) := acc_as o q ho v
        rw [hw]
        exact this
    | Const => exact ok _ rfl (by simp [OpOK])
    | Idx => exact ok _ rfl (by simp [OpOK])
  | LoadIdx m v =>
    cases m with
    | ABS => exact (C23_ldx_refused b vm data v).1
    | IND => exact (C23_ldx_refused b vm data v).2
    | IMM => exact ok (.LoadIdx .IMM v) rfl (by simp [OpOK])
    | MEM => exact ok (.LoadIdx .MEM v) rfl (by simp [OpOK])
    | LEN => exact ok (.LoadIdx .LEN v) rfl (by simp [OpOK])
  | Load m v => exact ok _ rfl (by simp [OpOK])
  | Store m v => exact ok _ rfl (by simp [OpOK])
  | StoreIdx m v => exact ok _ rfl (by simp [OpOK])
  | _ => cases hp

/-- Where a jump that compiles goes. -/
theorem jumpsTo_iff (b : Build) (prog : List Operation) (n : Nat) (hn : n < 2 ^ 64) (lab : Option String) (x : Nat)
    (h : jmpCalc b (mapLabels prog) lab n = .ok x) (w : Nat) (hw : w ≤ 64) (m : Nat) :
    JumpsTo prog w n lab m ↔ m = n + 1 + (BitVec.ofNat w x).toNat := by
  cases lab with
  | none =>
    simp only [jmpCalc, Res.ok.injEq] at h
    subst h
    simp [JumpsTo]
  | some l =>
    have key : ∀ before after, prog = before ++ .Label l :: after → .Label l ∉ after →
        ((m : Int) = n + 1 + ((instrs before : Int) - (n + 1)) % (2 ^ w : Nat) ↔ m = n + 1 + (BitVec.ofNat w x).toNat) := by
      intro before after h1 h2
      rw [← offset_mod w hw _ _ x hn (jmpCalc_exact b prog before after l h1 h2 n x hn h)]
      omega
    simp only [JumpsTo]
    constructor
    · rintro ⟨before, after, h1, h2, h3⟩
      exact (key before after h1 h2).1 h3
    · intro h3
      have hd : Operation.Label l ∈ prog := by
        refine Classical.byContradiction fun hnd => ?_
        rw [← mapLabels_none] at hnd
        simp [jmpCalc, hnd] at h
      obtain ⟨before, after, h1, h2⟩ := last_def prog l hd
      exact ⟨before, after, h1, h2, (key before after h1 h2).2 h3⟩

/-- Jumps that compile, taken apart. -/
theorem jump_word (b : Build) (prog : List Operation) (code : List SockFilter) (hc : compile b prog = .ok code)
    (pre rest : List Operation) (c : JmpOp) (k : BitVec 32) (lt lf : Option String) (hp : prog = pre ++ .Jump c k lt lf :: rest) :
    ∃ x y, jmpCalc b (mapLabels prog) lt (instrs pre) = .ok x ∧ jmpCalc b (mapLabels prog) lf (instrs pre) = .ok y ∧
      code[instrs pre]? = some (bpf_jmp c k (BitVec.ofNat 8 x) (BitVec.ofNat 8 y)) := by
  have hc' := hc
  rw [hp] at hc'
  obtain ⟨sf, h1, h2⟩ := compile_get b pre rest _ rfl code hc'
  rw [← hp] at h1
  simp only [toSockFilter] at h1
  cases hx : jmpCalc b (mapLabels prog) lt (instrs pre) with
  | err e => rw [hx] at h1; simp [Res.bind] at h1
  | panic => rw [hx] at h1; simp [Res.bind] at h1
  | ok x =>
    cases hy : jmpCalc b (mapLabels prog) lf (instrs pre) with
    | err e => rw [hx, hy] at h1; simp [Res.bind] at h1
    | panic => rw [hx, hy] at h1; simp [Res.bind] at h1
    | ok y =>
      rw [hx, hy] at h1
      simp only [Res.bind, Res.ok.injEq] at h1
      subst h1
      exact ⟨x, y, rfl, rfl, h2⟩

theorem jumpTo_word (b : Build) (prog : List Operation) (code : List SockFilter) (hc : compile b prog = .ok code)
    (pre rest : List Operation) (l : String) (hp : prog = pre ++ .JumpTo l :: rest) :
    ∃ x, jmpCalc b (mapLabels prog) (some l) (instrs pre) = .ok x ∧
      code[instrs pre]? = some (bpf_jmp .JA (BitVec.ofNat 32 x) 0 0) := by
  have hc' := hc
  rw [hp] at hc'
  obtain ⟨sf, h1, h2⟩ := compile_get b pre rest _ rfl code hc'
  rw [← hp] at h1
  simp only [toSockFilter] at h1
  cases hx : jmpCalc b (mapLabels prog) (some l) (instrs pre) with
  | err e => rw [hx] at h1; simp [Res.bind] at h1
  | panic => rw [hx] at h1; simp [Res.bind] at h1
  | ok x =>
    rw [hx] at h1
    simp only [Res.bind, Res.ok.injEq] at h1
    subst h1
    exact ⟨x, rfl, h2⟩

theorem plain_word (b : Build) (prog : List Operation) (code : List SockFilter) (hc : compile b prog = .ok code)
    (pre rest : List Operation) (op : Operation) (hpl : isPlain op = true) (hp : prog = pre ++ op :: rest) :
    code[instrs pre]? = some (word op) := by
  have hop : op.isLabel = false := by cases op <;> first | rfl | cases hpl
  subst hp
  obtain ⟨sf, h1, h2⟩ := compile_get b pre rest op hop code hc
  rw [toSockFilter_plain b _ op _ hpl] at h1
  injection h1 with h1
  subst h1
  exact h2

theorem instrs_lt (prog pre rest : List Operation) (op : Operation) (hop : op.isLabel = false) (hp : prog = pre ++ op :: rest) :
    instrs pre < instrs prog := by
  rw [hp, instrs_append, instrs_cons op hop]; omega

/-- What the specification says is what the VM does. -/
theorem actual_loop (b b' : Build) (prog : List Operation) (code : List SockFilter) (hc : compile b' prog = .ok code)
    (hlen : instrs prog < 2 ^ 64) (data : RunData) (n : Nat) (s : St) (r : Res Error (BitVec 32)) (hrun : Actual b data prog n s r)
    (vm : VM) (hprog : vm.prog = code) (hpc : vm.pc = n) (hr : Rel vm s) : (vm.loop b data).map Prod.snd = some r := by
  induction hrun generalizing vm with
  | off n s hn =>
    rw [loop_done b vm data (by rw [hpc, hprog, compile_length b' prog code hc]; exact hn)]
    rfl
  | plain pre rest op s s' r hp hpl he _ ih =>
    have hst := really_step b { vm with pc := vm.pc + 1 } data s ⟨hr.acc, hr.idx, hr.mem⟩ op hpl
    rw [he] at hst
    obtain ⟨vm', h3, h4, h5, h6⟩ := hst
    rw [loop_step b vm data _ (by rw [hprog, hpc]; exact plain_word b' prog code hc pre rest op hpl hp), h3]
    exact ih vm' (by rw [h5]; exact hprog) (by rw [h4, hpc]) h6
  | fails pre rest op s e hp hpl he =>
    have hst := really_step b { vm with pc := vm.pc + 1 } data s ⟨hr.acc, hr.idx, hr.mem⟩ op hpl
    rw [he] at hst
    rw [loop_step b vm data _ (by rw [hprog, hpc]; exact plain_word b' prog code hc pre rest op hpl hp)]
    simp only [hst, Option.map_some]
  | panics pre rest op s hp hpl he =>
    have hst := really_step b { vm with pc := vm.pc + 1 } data s ⟨hr.acc, hr.idx, hr.mem⟩ op hpl
    rw [he] at hst
    rw [loop_step b vm data _ (by rw [hprog, hpc]; exact plain_word b' prog code hc pre rest op hpl hp)]
    simp only [hst, Option.map_some]
  | ret pre rest src v s hp =>
    subst hp
    obtain ⟨sf, h1, h2⟩ := compile_get b' pre rest (.Return src v) rfl code hc
    injection h1 with h1
    subst h1
    rw [loop_step b vm data _ (by rw [hprog, hpc]; exact h2), ret_step b { vm with pc := vm.pc + 1 } data s ⟨hr.acc, hr.idx, hr.mem⟩]
    rfl
  | jumpTo pre rest l m s r hp hj _ ih =>
    obtain ⟨x, h1, h2⟩ := jumpTo_word b' prog code hc pre rest l hp
    have hn := instrs_lt prog pre rest _ rfl hp
    rw [jumpsTo_iff b' prog _ (by omega) _ x h1 32 (by omega)] at hj
    rw [loop_step b vm data _ (by rw [hprog, hpc]; exact h2), ja_step]
    exact ih _ hprog (by simp only [hpc, hj]) ⟨hr.acc, hr.idx, hr.mem⟩
  | ja pre rest k lt lf s r hp _ ih =>
    obtain ⟨x, y, -, -, h2⟩ := jump_word b' prog code hc pre rest _ k lt lf hp
    rw [loop_step b vm data _ (by rw [hprog, hpc]; exact h2), ja_step]
    exact ih _ hprog (by simp only [hpc]) ⟨hr.acc, hr.idx, hr.mem⟩
  | taken pre rest c k lt lf m s r hp hja hh hj _ ih =>
    obtain ⟨x, y, h1, -, h2⟩ := jump_word b' prog code hc pre rest _ k lt lf hp
    have hn := instrs_lt prog pre rest _ rfl hp
    rw [jumpsTo_iff b' prog _ (by omega) _ x h1 8 (by omega)] at hj
    rw [loop_step b vm data _ (by rw [hprog, hpc]; exact h2), (jump_step b _ data c hja k _ _).1 (by rw [hr.acc]; exact hh)]
    exact ih _ hprog (by simp only [hpc, hj]) ⟨hr.acc, hr.idx, hr.mem⟩
  | notTaken pre rest c k lt lf m s r hp hja hh hj _ ih =>
    obtain ⟨x, y, -, h1, h2⟩ := jump_word b' prog code hc pre rest _ k lt lf hp
    have hn := instrs_lt prog pre rest _ rfl hp
    rw [jumpsTo_iff b' prog _ (by omega) _ y h1 8 (by omega)] at hj
    rw [loop_step b vm data _ (by rw [hprog, hpc]; exact h2), (jump_step b _ data c hja k _ _).2 (by rw [hr.acc]; exact hh)]
    exact ih _ hprog (by simp only [hpc, hj]) ⟨hr.acc, hr.idx, hr.mem⟩

/-- Every program that compiles has a run from everywhere. -/
theorem actual_exists (b b' : Build) (prog : List Operation) (code : List SockFilter) (hc : compile b' prog = .ok code)
    (hlen : instrs prog < 2 ^ 64) (data : RunData) (g n : Nat) (hg : instrs prog ≤ n + g) (s : St) :
    ∃ r, Actual b data prog n s r := by
  induction g generalizing n s with
  | zero => exact ⟨_, .off n s hg⟩
  | succ g ih =>
    by_cases hn : instrs prog ≤ n
    · exact ⟨_, .off n s hn⟩
    obtain ⟨op, hop⟩ : ∃ op, (prog.filter fun op => !op.isLabel)[n]? = some op :=
      ⟨_, List.getElem?_eq_getElem (by unfold instrs at hn; omega)⟩
    obtain ⟨pre, rest, hp, rfl, hl⟩ := filter_split prog n op hop
    have plain : isPlain op = true → ∃ r, Actual b data prog (instrs pre) s r := by
      intro hpl
      cases he : reallyDoes b data s op with
      | err e => exact ⟨_, .fails pre rest op s e hp hpl he⟩
      | panic => exact ⟨_, .panics pre rest op s hp hpl he⟩
      | ok s' =>
        obtain ⟨r, hr⟩ := ih (instrs pre + 1) (by omega) s'
        exact ⟨r, .plain pre rest op s s' r hp hpl he hr⟩
    cases op with
    | Label l => cases hl
    | Return src v => exact ⟨_, .ret pre rest src v s hp⟩
    | JumpTo l =>
      obtain ⟨x, h1, -⟩ := jumpTo_word b' prog code hc pre rest l hp
      obtain ⟨r, hr⟩ := ih (instrs pre + 1 + (BitVec.ofNat 32 x).toNat) (by omega) s
      exact ⟨r, .jumpTo pre rest l _ s r hp ((jumpsTo_iff b' prog _ (by omega) _ x h1 32 (by omega) _).2 rfl) hr⟩
    | Jump c k lt lf =>
      obtain ⟨x, y, h1, h2, -⟩ := jump_word b' prog code hc pre rest _ k lt lf hp
      by_cases hja : c = .JA
      · subst hja
        obtain ⟨r, hr⟩ := ih (instrs pre + 1 + k.toNat) (by omega) s
        exact ⟨r, .ja pre rest k lt lf s r hp hr⟩
      by_cases hh : holds c s.acc k
      · obtain ⟨r, hr⟩ := ih (instrs pre + 1 + (BitVec.ofNat 8 x).toNat) (by omega) s
        exact ⟨r, .taken pre rest c k lt lf _ s r hp hja hh ((jumpsTo_iff b' prog _ (by omega) _ x h1 8 (by omega) _).2 rfl) hr⟩
      · obtain ⟨r, hr⟩ := ih (instrs pre + 1 + (BitVec.ofNat 8 y).toNat) (by omega) s
        exact ⟨r, .notTaken pre rest c k lt lf _ s r hp hja hh ((jumpsTo_iff b' prog _ (by omega) _ y h2 8 (by omega) _).2 rfl) hr⟩
    | _ => exact plain rfl

/-- C82: the result of every program that compiles and that the VM takes, for every data, in both build modes of the compiler and of the
VM. No restriction on labels, distances, operands or modes. (Which programs compile: C62.) -/
theorem C82_every_program (b b' : Build) (prog : List Operation) (code : List SockFilter) (hc : compile b prog = .ok code)
    (hlen : instrs prog ≤ 65535) (data : RunData) (r : Res Error (BitVec 32)) :
    runProg b' code data = some r ↔ Actual b' data prog 0 St.init r := by
  have key : ∀ r, Actual b' data prog 0 St.init r → runProg b' code data = some r := by
    intro r hr
    unfold runProg VM.new
    rw [if_neg (by rw [compile_length b prog code hc]; omega)]
    exact actual_loop b' b prog code hc (by omega) data 0 St.init r hr _ rfl rfl ⟨rfl, rfl, fun j hj => by simp [VM.reset, St.init]⟩
  constructor
  · intro hr
    obtain ⟨r', hr'⟩ := actual_exists b' b prog code hc (by omega) data (instrs prog) 0 (by omega) St.init
    have := key r' hr'
    rw [hr, Option.some.injEq] at this
    rwa [this]
  · exact key r

/-- Not vacuous: a program with a backward jump. -/
example (r : Res Error (BitVec 32)) := C82_every_program ⟨false⟩ ⟨true⟩ [.Label "a", .Load .ABS 0, .JumpTo "a", .Return .Const 9] _ rfl (by decide) [7] r

/-- C82: it has exactly one result. -/
theorem C82_one_result (b b' : Build) (prog : List Operation) (code : List SockFilter) (hc : compile b prog = .ok code)
    (hlen : instrs prog ≤ 65535) (data : RunData) :
    ∃ r, Actual b' data prog 0 St.init r ∧ ∀ r', Actual b' data prog 0 St.init r' → r' = r := by
  obtain ⟨r, hr⟩ := actual_exists b' b prog code hc (by omega) data (instrs prog) 0 (by omega) St.init
  refine ⟨r, hr, fun r' hr' => ?_⟩
  have h1 := (C82_every_program b b' prog code hc hlen data r).2 hr
  have h2 := (C82_every_program b b' prog code hc hlen data r').2 hr'
  rw [h1, Option.some.injEq] at h2
  exact h2.symm

/-- Doubling the accumulator "by adding it to itself" subtracts the constant instead: from 7 it gives 2. And a backward jump, which only
an unchecked build compiles, leaves the program. -/
example : (∀ b, Actual b [7] [.Load .ABS 0, .Alu .ADD .Acc 5, .Return .Acc 0] 0 St.init (.ok 2)) ∧
    (∀ b, Actual b [7] [.Label "again", .Load .ABS 0, .JumpTo "again", .Return .Const 9] 0 St.init (.ok 0)) := by
  constructor
  · intro b
    refine .plain [] [.Alu .ADD .Acc 5, .Return .Acc 0] (.Load .ABS 0) _ { St.init with acc := 7 } _ rfl rfl rfl ?_
    refine .plain [.Load .ABS 0] [.Return .Acc 0] (.Alu .ADD .Acc 5) _ { St.init with acc := 2 } _ rfl rfl ?_ ?_
    · cases b with
      | mk c => cases c <;> rfl
    · exact .ret [.Load .ABS 0, .Alu .ADD .Acc 5] [] .Acc 0 _ rfl
  · intro b
    refine .plain [.Label "again"] [.JumpTo "again", .Return .Const 9] (.Load .ABS 0) _ { St.init with acc := 7 } _ rfl rfl rfl ?_
    refine .jumpTo [.Label "again", .Load .ABS 0] [.Return .Const 9] "again" (2 + 4294967294) _ _ rfl
      ⟨[], _, rfl, by simp, by simp [instrs, Operation.isLabel]⟩ (.off _ _ (by simp [instrs, Operation.isLabel]))

end Props
