import Verif.Proofs.Accept
import Verif.Props.VmKernel
import Verif.Proofs.KernelTotal
import Verif.Props.Asm

/-!
# C76, C77: assembled programs as filters

Which programs written for the assembler the kernel takes as a filter, and what it does with them: both read off the source.
-/
set_option autoImplicit false

namespace Props
open Pledge Bpfvm Spec Kernel

/-- A cut at an operation of the source. -/
theorem mem_cut {prog : List Operation} {op : Operation} (h : op ∈ prog) : ∃ pre rest, prog = pre ++ op :: rest :=
  List.append_of_mem h

/-- A jump operand and the instructions that follow its target. -/
theorem leads_room {prog rest : List Operation} {lab : Option String} {n : Nat} (h : Leads prog rest lab n) :
    (∀ t, Goes prog rest lab t → 1 ≤ instrs t) ↔ n < instrs rest := by
  obtain ⟨skip, target, h1, h2, h3, h4⟩ := h
  have e : instrs rest = n + instrs target := by rw [h2, instrs_append, h3]
  constructor
  · intro h; have := h target h1; omega
  · intro h t ht
    rw [h4 t ht]; omega

theorem word_like_kernel (rest : List Operation) (op : Operation) (hl : op.isLabel = false) (hj : isJump op = false) (ho : OpOK rest op)
    (hlen : ∀ v, op ≠ .Load .LEN v ∧ op ≠ .LoadIdx .LEN v) : (word op).code ∉ notLikeKernel ∨ ¬ OpTaken op := by
  cases op with
  | Label l => cases hl
  | JumpTo l => cases hj
  | Jump => cases hj
  | Load mode v =>
    cases mode with
    | LEN => exact absurd rfl (hlen v).1
    | _ => left; simp [word, ldw_IMM, ldw_ABS, ldw_IND, ldw_MEM, notLikeKernel]
  | LoadIdx mode v =>
    cases mode with
    | LEN => exact absurd rfl (hlen v).2
    | _ => left; simp [word, ldxw_IMM, ldxw_ABS, ldxw_IND, ldxw_MEM, notLikeKernel]
  | Store mode v =>
    cases mode with
    | IMM =>
      have e : bpf_st .IMM v = ⟨0x02#16, 0, 0, v⟩ := rfl
      left; simp [word, e, notLikeKernel]
    | _ => right; intro h; cases h.1
  | StoreIdx mode v =>
    cases mode with
    | IMM =>
      have e : bpf_stx .IMM v = ⟨0x03#16, 0, 0, v⟩ := rfl
      left; simp [word, e, notLikeKernel]
    | _ => right; intro h; cases h.1
  | Alu op src v =>
    left
    cases src with
    | Acc => exact absurd rfl ho
    | Const =>
      cases op <;> simp [word, aluw_ADD_Const, aluw_SUB_Const, aluw_MUL_Const, aluw_DIV_Const, aluw_OR_Const, aluw_AND_Const,
        aluw_LSH_Const, aluw_RSH_Const, aluw_MOD_Const, aluw_XOR_Const, notLikeKernel]
    | Idx =>
      cases op <;> simp [word, aluw_ADD_Idx, aluw_SUB_Idx, aluw_MUL_Idx, aluw_DIV_Idx, aluw_OR_Idx, aluw_AND_Idx,
        aluw_LSH_Idx, aluw_RSH_Idx, aluw_MOD_Idx, aluw_XOR_Idx, notLikeKernel]
  | Return src v => left; cases src <;> simp [word, retw_Const, retw_Idx, retw_Acc, notLikeKernel]

/-- C77: exactly when the kernel takes a well-formed assembly program as a filter. `Taken` is about the source only. -/
theorem C77_taken_iff (b : Build) (prog : List Operation) (h : WellFormed prog) :
    ∃ code, compile b prog = .ok code ∧ (accepts code = true ↔ Taken prog) := by
  obtain ⟨code, hc⟩ := compile_wellFormed b prog h
  have hl := compile_length b prog code hc
  refine ⟨code, hc, ?_⟩
  by_cases hsize : instrs prog ≤ 4096
  case neg =>
    constructor
    · intro ha
      simp only [accepts, Bool.and_eq_true, decide_eq_true_eq] at ha
      exact absurd (hl ▸ ha.1.1.1.1.2) hsize
    · intro ht
      exact absurd ht.size.2 hsize
  have hlt : code.length < 2 ^ 32 := by omega
  have cut : ∀ pre op rest, prog = pre ++ op :: rest → op.isLabel = false → instrs prog = instrs pre + (instrs rest + 1) := by
    intro pre op rest hp hop
    rw [hp, instrs_append, instrs_cons op hop]
  constructor
  · intro ha
    simp only [accepts, Bool.and_eq_true, decide_eq_true_eq, List.all_eq_true] at ha
    obtain ⟨⟨⟨⟨⟨h1, -⟩, h2⟩, h3⟩, h4⟩, h5⟩ := ha
    rw [classicFrom_iff] at h2
    simp only [Nat.zero_add] at h2
    have ops : ∀ op ∈ prog, OpTaken op := by
      intro op ho
      obtain ⟨pre, rest, hp⟩ := mem_cut ho
      by_cases hlab : op.isLabel = true
      · obtain ⟨l, rfl⟩ := (isLabel_iff op).1 hlab
        exact trivial
      · obtain ⟨sf, g1, g2⟩ := shape_of b prog h code hc hlt pre rest op hp (by simpa using hlab)
        cases g2 with
        | plain _ k1 k2 k3 =>
          exact (word_taken rest op k1 k2 k3 code.length (instrs pre)).1 ⟨h2 _ _ g1, h5 _ (List.mem_of_getElem? g1)⟩
        | jumpTo => exact trivial
        | jump => exact trivial
    refine ⟨⟨by omega, hsize⟩, ops, ?_, ?_, ?_⟩
    · unfold endsInRet at h3
      rw [List.getLast?_eq_getElem?] at h3
      cases hg : code[code.length - 1]? with
      | none => rw [hg] at h3; cases h3
      | some i =>
        rw [hg] at h3
        simp only [Bool.or_eq_true, beq_iff_eq] at h3
        obtain ⟨pre, op, rest, k1, k2, k3, k4⟩ := op_at b prog h code hc hlt _ i hg
        have hcut := cut pre op rest k1 k3
        cases k4 with
        | plain _ _ hj ho =>
          obtain ⟨src, v, rfl⟩ := (word_kind rest op k3 hj ho (ops op (by rw [k1]; simp))).2.2.2.2.1 h3
          exact ⟨pre, src, v, rest, k1, by omega⟩
        | jumpTo => exact absurd h3 (by simp)
        | jump _ _ _ _ c _ _ hcj =>
          exfalso
          simp only [condJumps, List.mem_cons, List.not_mem_nil, or_false] at hcj
          rcases hcj with rfl | rfl | rfl | rfl | rfl | rfl | rfl | rfl <;> simp at h3
    · intro op ho l hlr rest' ha
      obtain ⟨pre, rest, hp⟩ := mem_cut ho
      have hlab : op.isLabel = false := by cases op <;> first | rfl | cases hlr
      have hcut := cut pre op rest hp hlab
      obtain ⟨sf, g1, g2⟩ := shape_of b prog h code hc hlt pre rest op hp hlab
      have hi := h2 _ _ g1
      cases g2 with
      | plain _ _ hj =>
        exfalso
        cases op <;> first | (simp [refs] at hlr; done) | cases hj
      | jumpTo l' n hL hn =>
        simp only [refs, List.mem_singleton] at hlr
        subst hlr
        refine (leads_room hL).2 ?_ rest' ha
        simp only [instrOK, BitVec.toNat_ofNat, Nat.mod_eq_of_lt hn] at hi
        simp at hi
        omega
      | jump jop v lt lf c n m hcj _ hL hL' hn hm =>
        have hno : ∀ c ∈ condJumps, c ∉ [0x34#16, 0x94#16] ∧ c ∉ [0x64#16, 0x74#16] ∧ c ∉ [0x60#16, 0x61#16, 0x02#16, 0x03#16] ∧
            c ≠ 0x05#16 := ball_of_all _ _ (by decide)
        obtain ⟨n1, n2, n3, n4⟩ := hno _ hcj
        unfold instrOK at hi
        rw [Bool.and_eq_true] at hi
        have hi := hi.2
        simp only [if_neg n1, if_neg n2, if_neg n3, if_neg n4, if_pos hcj, Bool.and_eq_true, decide_eq_true_eq, BitVec.toNat_ofNat,
          Nat.mod_eq_of_lt (show n < 2 ^ 8 by omega), Nat.mod_eq_of_lt (show m < 2 ^ 8 by omega)] at hi
        simp only [refs, List.mem_append, Option.mem_toList] at hlr
        rcases hlr with rfl | rfl
        · exact (leads_room hL).2 (by omega) rest' ha
        · exact (leads_room hL').2 (by omega) rest' ha
    · intro op rest k hk hu
      have hk16 : ∀ i ∈ code, i.code ∈ [0x60#16, 0x61#16, 0x02#16, 0x03#16] → i.k.toNat < 16 := by
        intro i him hcode
        obtain ⟨n, hn⟩ := List.mem_iff_getElem?.1 him
        have := h2 n i hn
        simp only [List.mem_cons, List.not_mem_nil, or_false] at hcode
        rcases hcode with e | e | e | e <;> simpa [instrOK, e, classicCodes] using this
      rw [mem_iff code hk16] at h4
      obtain ⟨pre, hp, hu'⟩ := unset_unsetAt b prog h code hc hlt ops k _ hu
      have hlab : op.isLabel = false := by cases op <;> first | rfl | cases hk
      have hjmp : isJump op = false := by cases op <;> first | rfl | cases hk
      obtain ⟨sf, g1, g2⟩ := shape_of b prog h code hc hlt pre rest op hp hlab
      cases g2 with
      | plain _ _ _ ho =>
        obtain ⟨e1, e2⟩ := ((word_kind rest op hlab hjmp ho (ops op (by rw [hp]; simp))).2.2.2.1 k).2 hk
        exact h4 _ _ g1 e1 (by rw [e2]; exact hu')
      | jumpTo => cases hk
      | jump => cases hk
  · intro ht
    obtain ⟨⟨hs1, -⟩, ops, ⟨lpre, src, v, labels, hlast, hzero⟩, targets, hmem⟩ := ht
    -- what follows an operation that is not the last return
    have room : ∀ pre op rest, prog = pre ++ op :: rest → op.isLabel = false → (∀ src v, op ≠ .Return src v) → 1 ≤ instrs rest := by
      intro pre op rest hp hop hne
      have c1 := cut pre op rest hp hop
      have c2 := cut lpre _ labels hlast rfl
      by_cases hr : 1 ≤ instrs rest
      · exact hr
      · exfalso
        obtain ⟨ls, e1, e2⟩ := cut_same prog lpre (.Return src v :: labels) pre rest op hlast hp hop (by omega)
        cases ls with
        | nil => simp at e1; exact hne src v e1.1.symm
        | cons y ls =>
          simp at e1
          have := instrs_zero _ e2 y (by simp)
          rw [← e1.1] at this
          cases this
    have goes : ∀ pre op rest, prog = pre ++ op :: rest → op.isLabel = false → isJump op = true → ∀ lab : Option String,
        (∀ l ∈ lab, l ∈ refs op) → ∀ t, Goes prog rest lab t → 1 ≤ instrs t := by
      intro pre op rest hp hop hj lab hl t hg
      cases lab with
      | none =>
        have e : t = rest := hg
        subst e
        exact room pre op t hp hop (by rintro src v rfl; cases hj)
      | some l => exact targets op (by rw [hp]; simp) l (hl l rfl) t hg
    have checks : ∀ n i, code[n]? = some i → instrOK code.length n i = true ∧ seccompInstrOK i = true := by
      intro n i hn
      obtain ⟨pre, op, rest, k1, k2, k3, k4⟩ := op_at b prog h code hc hlt n i hn
      have hcut := cut pre op rest k1 k3
      cases k4 with
      | plain _ _ hj ho => exact (word_taken rest op k3 hj ho code.length n).2 (ops op (by rw [k1]; simp))
      | jumpTo l m hL hm =>
        have := (leads_room hL).1 (goes pre _ rest k1 k3 rfl (some l) (fun l' hl' => by cases hl'; simp [refs]))
        refine ⟨?_, rfl⟩
        simp only [instrOK, BitVec.toNat_ofNat, Nat.mod_eq_of_lt hm]
        simp [classicCodes]
        omega
      | jump jop v lt lf c m m' hcj hx hL hL' hm hm' =>
        have r1 := (leads_room hL).1 (goes pre _ rest k1 k3 rfl lt (fun l' hl' => by simp [refs]; exact .inl hl'))
        have r2 := (leads_room hL').1 (goes pre _ rest k1 k3 rfl lf (fun l' hl' => by simp [refs]; exact .inr hl'))
        have hno : ∀ c ∈ condJumps, c ∉ [0x34#16, 0x94#16] ∧ c ∉ [0x64#16, 0x74#16] ∧ c ∉ [0x60#16, 0x61#16, 0x02#16, 0x03#16] ∧
            c ≠ 0x05#16 ∧ c ≠ 0x20#16 := ball_of_all _ _ (by decide)
        obtain ⟨n1, n2, n3, n4, n5⟩ := hno _ hcj
        constructor
        · unfold instrOK
          rw [Bool.and_eq_true]
          refine ⟨by simp [classicCodes, hcj], ?_⟩
          simp only [if_neg n1, if_neg n2, if_neg n3, if_neg n4, if_pos hcj, Bool.and_eq_true, decide_eq_true_eq, BitVec.toNat_ofNat,
            Nat.mod_eq_of_lt (show m < 2 ^ 8 by omega), Nat.mod_eq_of_lt (show m' < 2 ^ 8 by omega)]
          omega
        · unfold seccompInstrOK
          rw [if_neg n5]
          simp [hcj]
    simp only [accepts, Bool.and_eq_true, decide_eq_true_eq, List.all_eq_true]
    refine ⟨⟨⟨⟨⟨by omega, by rw [hl]; exact hsize⟩, ?_⟩, ?_⟩, ?_⟩, ?_⟩
    · rw [classicFrom_iff]
      intro n i hn
      rw [Nat.zero_add]
      exact (checks n i hn).1
    · have hcut := cut lpre _ labels hlast rfl
      obtain ⟨sf, g1, g2⟩ := shape_of b prog h code hc hlt lpre labels _ hlast rfl
      unfold endsInRet
      rw [List.getLast?_eq_getElem?, show code.length - 1 = instrs lpre by omega, g1]
      cases g2 with
      | plain _ _ hj ho =>
        have := (word_kind labels _ rfl rfl ho (ops _ (by rw [hlast]; simp))).2.2.2.2.2 ⟨src, v, rfl⟩
        simpa using this
    · rw [mem_iff code]
      · intro n i hn hcode hu
        obtain ⟨pre, op, rest, k1, k2, k3, k4⟩ := op_at b prog h code hc hlt n i hn
        have hu' := unsetAt_unset b prog h code hc hlt ops _ n hu pre op rest k1 k3 k2
        cases k4 with
        | plain _ _ hj ho =>
          have := ((word_kind rest op k3 hj ho (ops op (by rw [k1]; simp))).2.2.2.1 _).1 ⟨hcode, rfl⟩
          exact hmem op rest _ this hu'
        | jumpTo => exact absurd (show (0x05#16) ∈ [0x60#16, 0x61#16] from hcode) (by decide)
        | jump jop v lt lf c m m' hcj =>
          have hno : ∀ c ∈ condJumps, c ∉ [0x60#16, 0x61#16] := ball_of_all _ _ (by decide)
          exact absurd hcode (hno _ hcj)
      · intro i him hcode
        obtain ⟨n, hn⟩ := List.mem_iff_getElem?.1 him
        have := (checks n i hn).1
        simp only [List.mem_cons, List.not_mem_nil, or_false] at hcode
        rcases hcode with e | e | e | e <;> simpa [instrOK, e, classicCodes] using this
    · intro i him
      obtain ⟨n, hn⟩ := List.mem_iff_getElem?.1 him
      exact (checks n i hn).2

/-- The value of a result; what does not end in a value counts as 0. -/
def valueOf : Res Error (BitVec 32) → BitVec 32
  | .ok v => v
  | _ => 0

/-- C76: as a filter such a program gives every call the value that the label-level reading of its source gives, with wrapping
arithmetic; a division by an index register of 0 ends the filter with 0. The initial content of the kernel's scratch memory has no
influence. Programs that load the record's length are excluded (the kernel says 64, the VM 16). -/
theorem C76_filter_meaning (b : Build) (prog : List Operation) (h : WellFormed prog) (ht : Taken prog)
    (hlen : ∀ v, .Load .LEN v ∉ prog ∧ .LoadIdx .LEN v ∉ prog) :
    ∃ code, compile b prog = .ok code ∧ accepts code = true ∧ ∀ (d : SeccompData) (m0 : Nat → BitVec 32),
      ∃ r, SrcRun ⟨false⟩ d.words prog prog St.init r ∧ Kernel.run m0 code d.words = some (valueOf r) := by
  obtain ⟨code, hc, hacc⟩ := C77_taken_iff b prog h
  have hacc := hacc.2 ht
  have hl := compile_length b prog code hc
  have hs := ht.size.2
  refine ⟨code, hc, hacc, fun d m0 => ?_⟩
  obtain ⟨code', hc', hrun⟩ := C21_source_semantics b prog h
  rw [hc] at hc'
  injection hc' with hc'
  subst hc'
  have hsup : ∀ i ∈ code, i.code ∉ notLikeKernel := by
    intro i him
    obtain ⟨n, hn⟩ := List.mem_iff_getElem?.1 him
    obtain ⟨pre, op, rest, k1, k2, k3, k4⟩ := op_at b prog h code hc (by omega) n i hn
    have hop : op ∈ prog := by rw [k1]; simp
    cases k4 with
    | plain _ _ hj ho =>
      rcases word_like_kernel rest op k3 hj ho
        (fun v => ⟨fun e => (hlen v).1 (e ▸ hop), fun e => (hlen v).2 (e ▸ hop)⟩) with h1 | h1
      · exact h1
      · exact absurd (ht.ops op hop) h1
    | jumpTo => show (0x05#16) ∉ notLikeKernel; decide
    | jump _ _ _ _ c _ _ hcj hx =>
      have : ∀ c ∈ condJumps, c &&& 8 = 0 → c ∉ notLikeKernel := ball_of_all _ _ (by decide)
      exact this c hcj hx
  obtain ⟨v, h1, h2⟩ := C18_unchecked_div ⟨false⟩ rfl code hacc hsup m0 d
  rcases h2 with h2 | ⟨h2, h3⟩
  · exact ⟨.ok v, (hrun (by omega) _ _ _).1 h2, h1⟩
  · exact ⟨.panic, (hrun (by omega) _ _ _).1 h2, by rw [h1, h3]; rfl⟩

/-! ### Cases -/

theorem wf_nil : WellFormed [] := by
  intro pre op rest h
  cases pre <;> cases h

theorem wf_cons {op : Operation} {rest : List Operation} (h : OpOK rest op) (hr : WellFormed rest) : WellFormed (op :: rest) := by
  intro pre op' rest' e
  cases pre with
  | nil => cases e; exact h
  | cons y pre =>
    simp only [List.cons_append, List.cons.injEq] at e
    exact hr pre op' rest' e.2

/-- A filter with a branch, scratch memory on one side, and a division by the index register. -/
def filterSource : List Operation :=
  [.Load .ABS 0, .Jump .JEQ 1 (some "write") none, .Store .IMM 3, .Load .ABS 16, .LoadIdx .MEM 3, .Alu .DIV .Idx 0, .Return .Acc 0,
   .Label "write", .Return .Const 0x7fff0000]

theorem filterSource_wf : WellFormed filterSource :=
  wf_cons trivial (wf_cons ⟨by decide, fun l hl => ⟨[.Store .IMM 3, .Load .ABS 16, .LoadIdx .MEM 3, .Alu .DIV .Idx 0, .Return .Acc 0],
    [.Return .Const 0x7fff0000], by cases hl; rfl, by cases hl; decide, by decide⟩, fun l hl => by cases hl⟩
    (wf_cons trivial (wf_cons trivial (wf_cons ⟨by decide, by decide⟩ (wf_cons (fun h => by cases h) (wf_cons trivial
      (wf_cons trivial (wf_cons trivial wf_nil))))))))

/-- The kernel takes it, and it meets all hypotheses of `C76_filter_meaning`. -/
example : WellFormed filterSource ∧ Taken filterSource ∧ ∀ v, .Load .LEN v ∉ filterSource ∧ .LoadIdx .LEN v ∉ filterSource := by
  refine ⟨filterSource_wf, ?_, ?_⟩
  · obtain ⟨code, h1, h2⟩ := C77_taken_iff ⟨true⟩ filterSource filterSource_wf
    have : code = [⟨0x20, 0, 0, 0⟩, ⟨0x15, 5, 0, 1⟩, ⟨0x02, 0, 0, 3⟩, ⟨0x20, 0, 0, 16⟩, ⟨0x61, 0, 0, 3⟩, ⟨0x3c, 0, 0, 0⟩,
        ⟨0x16, 0, 0, 0⟩, ⟨0x06, 0, 0, 0x7fff0000⟩] := by
      injection h1.symm.trans (show compile ⟨true⟩ filterSource = .ok _ from rfl)
    rw [this] at h2
    exact h2.1 (by decide)
  · intro v
    simp [filterSource]

/-- Call 0 divides by the call number it stored, 0: the label-level reading panics and the kernel's filter returns 0 (kill the
thread). Call 6 with first argument 30: both give 5. -/
example : SrcRun ⟨false⟩ (mkCall 0 []).words filterSource filterSource St.init .panic := by
  refine .plain _ _ _ ⟨0, 0, fun _ => 0⟩ _ rfl rfl (.notTaken _ _ _ _ _ _ _ _ (by simp [holds]) rfl
    (.plain _ _ _ ⟨0, 0, fun j => if j.val = 3 then 0 else 0⟩ _ rfl rfl (.plain _ _ _ ⟨0, 0, fun j => if j.val = 3 then 0 else 0⟩ _ rfl rfl
      (.plain _ _ _ ⟨0, 0, fun j => if j.val = 3 then 0 else 0⟩ _ rfl rfl (.panics _ _ _ rfl ?_)))))
  decide +kernel
example : SrcRun ⟨false⟩ (mkCall 6 [30]).words filterSource filterSource St.init (.ok 5) := by
  refine .plain _ _ _ ⟨6, 0, fun _ => 0⟩ _ rfl rfl (.notTaken _ _ _ _ _ _ _ _ (by simp [holds]) rfl
    (.plain _ _ _ ⟨6, 0, fun j => if j.val = 3 then 6 else 0⟩ _ rfl rfl (.plain _ _ _ ⟨30, 0, fun j => if j.val = 3 then 6 else 0⟩ _ rfl rfl
      (.plain _ _ _ ⟨30, 6, fun j => if j.val = 3 then 6 else 0⟩ _ rfl rfl
        (.plain _ _ _ ⟨5, 6, fun j => if j.val = 3 then 6 else 0⟩ _ rfl ?_ (.ret .Acc 0 _ _))))))
  rfl

/-- A program that stores a cell on one of two paths to its load is not taken. -/
def halfStored : List Operation :=
  [.Load .ABS 0, .Jump .JEQ 1 (some "join") none, .Store .IMM 3, .Label "join", .Load .MEM 3, .Return .Acc 0]

example : ¬ Taken halfStored := by
  intro h
  refine h.mem (.Load .MEM 3) [.Return .Acc 0] 3 rfl ?_
  exact .jump .JEQ 1 (some "join") none _ _ (.next _ _ .start rfl (by decide))
    (.inl ⟨⟨[.Load .ABS 0, .Jump .JEQ 1 (some "join") none, .Store .IMM 3], rfl⟩, by decide⟩)
/-- Nor is the example of C21, which the VM runs: it stores with `Mode::MEM`, a code the kernel does not know. -/
example : ¬ Taken sampleSource := by
  intro h
  exact absurd (h.ops (.Store .MEM 3) (by decide)).1 (by decide)

end Props
