import Verif.Spec.Accept
import Verif.Proofs.AsmRun
import Verif.Proofs.AcceptMem

/-!
# The kernel's checks on an assembled program, seen from the source
-/
set_option autoImplicit false

namespace Bpfvm
open Spec Kernel

/-- Where a jump operand leads: the offset counts the instructions skipped. -/
def Leads (prog rest : List Operation) (lab : Option String) (n : Nat) : Prop :=
  ∃ skip target, Goes prog rest lab target ∧ rest = skip ++ target ∧ instrs skip = n ∧
    ∀ t, Goes prog rest lab t → t = target

/-- The instruction word of the operation `op` followed by `rest`. -/
inductive Shape (prog rest : List Operation) : Operation → SockFilter → Prop
  | plain (op : Operation) : op.isLabel = false → isJump op = false → OpOK rest op → Shape prog rest op (word op)
  | jumpTo (l : String) (n : Nat) : Leads prog rest (some l) n → n < 2 ^ 32 →
      Shape prog rest (.JumpTo l) ⟨0x05, 0, 0, BitVec.ofNat 32 n⟩
  | jump (op : JmpOp) (v : BitVec 32) (lt lf : Option String) (c : BitVec 16) (n m : Nat) : c ∈ condJumps → c &&& 8 = 0 →
      Leads prog rest lt n → Leads prog rest lf m → n ≤ 255 → m ≤ 255 →
      Shape prog rest (.Jump op v lt lf) ⟨c, BitVec.ofNat 8 n, BitVec.ofNat 8 m, v⟩

theorem leads_of (b : Build) (prog pre rest : List Operation) (op : Operation) (hop : op.isLabel = false)
    (hprog : prog = pre ++ op :: rest) (lab : Option String) (far : Nat) (hb : ∀ l ∈ lab, Below far rest l) :
    ∃ n, jmpCalc b (mapLabels prog) lab (instrs pre) = .ok n ∧ n ≤ far ∧ n ≤ instrs rest ∧ Leads prog rest lab n := by
  obtain ⟨n, e, hn, hg⟩ := jmpCalc_opt b prog pre rest op hop hprog lab far hb
  have hex : ∃ target, Goes prog rest lab target := by
    cases lab with
    | none => exact ⟨rest, rfl⟩
    | some l =>
      obtain ⟨t, skip, h1, -⟩ := below_after prog pre rest op hprog l far (hb l rfl)
      exact ⟨t, h1⟩
  obtain ⟨target, ht⟩ := hex
  obtain ⟨skip, h1, h2⟩ := hg target ht
  refine ⟨n, e, hn, by rw [h1, instrs_append]; omega, skip, target, ht, h1, h2, fun t ht' => ?_⟩
  cases lab with
  | none => exact Eq.trans ht' (Eq.symm ht)
  | some l =>
    obtain ⟨s1, e1, -⟩ := after_below prog pre rest op hop hprog l far (hb l rfl) target ht
    obtain ⟨s2, e2, -⟩ := after_below prog pre rest op hop hprog l far (hb l rfl) t ht'
    have e3 : s1 ++ .Label l :: target = s2 ++ .Label l :: t := by rw [← e1, ← e2]
    rw [List.append_eq_append_iff] at e3
    rcases e3 with ⟨x, h6, h7⟩ | ⟨x, h6, h7⟩
    · cases x with
      | nil => simp at h7; exact h7.symm
      | cons y x =>
        simp only [List.cons_append, List.cons.injEq] at h7
        exact absurd (by rw [h7.2]; simp) ht.2
    · cases x with
      | nil => simp at h7; exact h7
      | cons y x =>
        simp only [List.cons_append, List.cons.injEq] at h7
        exact absurd (by rw [h7.2]; simp) ht'.2

theorem shape_of (b : Build) (prog : List Operation) (h : WellFormed prog) (code : List SockFilter) (hc : compile b prog = .ok code)
    (hlen : code.length < 2 ^ 32) (pre rest : List Operation) (op : Operation) (hp : prog = pre ++ op :: rest)
    (hop : op.isLabel = false) : ∃ sf, code[instrs pre]? = some sf ∧ Shape prog rest op sf := by
  have ho := h pre op rest hp
  have hl := compile_length b prog code hc
  have hil : instrs prog = instrs pre + (instrs rest + 1) := by rw [hp, instrs_append, instrs_cons op hop]
  have hc' := hc
  rw [hp] at hc'
  obtain ⟨sf, h1, h2⟩ := compile_get b pre rest op hop code hc'
  rw [← hp] at h1
  refine ⟨sf, h2, ?_⟩
  cases op with
  | Label l => cases hop
  | JumpTo l =>
    obtain ⟨far, hb⟩ := ho
    obtain ⟨n, e, -, hn, hL⟩ := leads_of b prog pre rest (.JumpTo l) rfl hp (some l) far (fun l' hl => by cases hl; exact hb)
    simp only [toSockFilter, e, Res.bind, Res.ok.injEq] at h1
    subst h1
    exact .jumpTo l n hL (by omega)
  | Jump op v lt lf =>
    obtain ⟨n, e, hn, -, hL⟩ := leads_of b prog pre rest (.Jump op v lt lf) rfl hp lt 255 ho.2.1
    obtain ⟨m, e', hm, -, hL'⟩ := leads_of b prog pre rest (.Jump op v lt lf) rfl hp lf 255 ho.2.2
    simp only [toSockFilter, e, e', Res.bind, Res.ok.injEq] at h1
    subst h1
    cases op with
    | JA => exact absurd rfl ho.1
    | JEQ => exact .jump _ v lt lf _ n m (by decide) (by decide) hL hL' hn hm
    | JGT => exact .jump _ v lt lf _ n m (by decide) (by decide) hL hL' hn hm
    | JGE => exact .jump _ v lt lf _ n m (by decide) (by decide) hL hL' hn hm
    | JSET => exact .jump _ v lt lf _ n m (by decide) (by decide) hL hL' hn hm
  | _ =>
    injection h1 with h1
    subst h1
    exact .plain _ rfl rfl ho

/-- The kernel's tests of a single instruction. -/
theorem word_taken (rest : List Operation) (op : Operation) (hl : op.isLabel = false) (hj : isJump op = false) (ho : OpOK rest op)
    (flen pc : Nat) : (instrOK flen pc (word op) = true ∧ seccompInstrOK (word op) = true) ↔ OpTaken op := by
  cases op with
  | Label l => cases hl
  | JumpTo l => cases hj
  | Jump => cases hj
  | Load mode v => cases mode <;> simp [word, ldw_IMM, ldw_ABS, ldw_IND, ldw_MEM, ldw_LEN, instrOK, seccompInstrOK, classicCodes,
      condJumps, OpTaken] <;> first
      | exact ⟨fun h => of_decide_eq_true h, fun h => decide_eq_true h⟩
      | exact ⟨fun h => ⟨of_decide_eq_true h.1, of_decide_eq_true h.2⟩, fun h => ⟨decide_eq_true h.1, decide_eq_true h.2⟩⟩
  | LoadIdx mode v => cases mode <;> simp [word, ldxw_IMM, ldxw_ABS, ldxw_IND, ldxw_MEM, ldxw_LEN, instrOK, seccompInstrOK,
      classicCodes, condJumps, OpTaken] <;> first
      | exact ⟨fun h => of_decide_eq_true h, fun h => decide_eq_true h⟩
      | exact ⟨fun h => ⟨of_decide_eq_true h.1, of_decide_eq_true h.2⟩, fun h => ⟨decide_eq_true h.1, decide_eq_true h.2⟩⟩
  | Store mode v =>
    have e : bpf_st mode v = ⟨match mode with | .IMM => 0x02#16 | .ABS => 0x22#16 | .IND => 0x42#16 | .MEM => 0x62#16 | .LEN => 0x82#16,
      0, 0, v⟩ := by cases mode <;> rfl
    rw [word, e]
    cases mode <;> simp [instrOK, seccompInstrOK, classicCodes, condJumps, OpTaken] <;> first
      | exact ⟨fun h => of_decide_eq_true h, fun h => decide_eq_true h⟩
      | exact ⟨fun h => ⟨of_decide_eq_true h.1, of_decide_eq_true h.2⟩, fun h => ⟨decide_eq_true h.1, decide_eq_true h.2⟩⟩
  | StoreIdx mode v =>
    have e : bpf_stx mode v = ⟨match mode with | .IMM => 0x03#16 | .ABS => 0x23#16 | .IND => 0x43#16 | .MEM => 0x63#16 | .LEN => 0x83#16,
      0, 0, v⟩ := by cases mode <;> rfl
    rw [word, e]
    cases mode <;> simp [instrOK, seccompInstrOK, classicCodes, condJumps, OpTaken] <;> first
      | exact ⟨fun h => of_decide_eq_true h, fun h => decide_eq_true h⟩
      | exact ⟨fun h => ⟨of_decide_eq_true h.1, of_decide_eq_true h.2⟩, fun h => ⟨decide_eq_true h.1, decide_eq_true h.2⟩⟩
  | Alu op src v =>
    cases src with
    | Acc => exact absurd rfl ho
    | Const =>
      cases op <;> simp [word, aluw_ADD_Const, aluw_SUB_Const, aluw_MUL_Const, aluw_DIV_Const, aluw_OR_Const, aluw_AND_Const,
        aluw_LSH_Const, aluw_RSH_Const, aluw_MOD_Const, aluw_XOR_Const, instrOK, seccompInstrOK, classicCodes, condJumps, OpTaken] <;> first
      | exact ⟨fun h => of_decide_eq_true h, fun h => decide_eq_true h⟩
      | exact ⟨fun h => ⟨of_decide_eq_true h.1, of_decide_eq_true h.2⟩, fun h => ⟨decide_eq_true h.1, decide_eq_true h.2⟩⟩
    | Idx =>
      cases op <;> simp [word, aluw_ADD_Idx, aluw_SUB_Idx, aluw_MUL_Idx, aluw_DIV_Idx, aluw_OR_Idx, aluw_AND_Idx,
        aluw_LSH_Idx, aluw_RSH_Idx, aluw_MOD_Idx, aluw_XOR_Idx, instrOK, seccompInstrOK, classicCodes, condJumps, OpTaken] <;> first
      | exact ⟨fun h => of_decide_eq_true h, fun h => decide_eq_true h⟩
      | exact ⟨fun h => ⟨of_decide_eq_true h.1, of_decide_eq_true h.2⟩, fun h => ⟨decide_eq_true h.1, decide_eq_true h.2⟩⟩
  | Return src v =>
    cases src <;> simp [word, retw_Const, retw_Idx, retw_Acc, instrOK, seccompInstrOK, classicCodes, condJumps, OpTaken] <;> first
      | exact ⟨fun h => of_decide_eq_true h, fun h => decide_eq_true h⟩
      | exact ⟨fun h => ⟨of_decide_eq_true h.1, of_decide_eq_true h.2⟩, fun h => ⟨decide_eq_true h.1, decide_eq_true h.2⟩⟩

/-- What the word of a plain operation that the kernel takes says about it. -/
theorem word_kind (rest : List Operation) (op : Operation) (hl : op.isLabel = false) (hj : isJump op = false) (ho : OpOK rest op)
    (ht : OpTaken op) :
    (word op).code ≠ 0x05#16 ∧ (word op).code ∉ condJumps ∧
    (∀ k, (word op).code ∈ [0x02#16, 0x03#16] ∧ (word op).k.toNat = k ↔ storesTo op = some k) ∧
    (∀ k, (word op).code ∈ [0x60#16, 0x61#16] ∧ (word op).k.toNat = k ↔ loadsFrom op = some k) ∧
    (((word op).code = 0x06#16 ∨ (word op).code = 0x16#16) ↔ ∃ src v, op = .Return src v) := by
  cases op with
  | Label l => cases hl
  | JumpTo l => cases hj
  | Jump => cases hj
  | Load mode v => cases mode <;> simp [word, ldw_IMM, ldw_ABS, ldw_IND, ldw_MEM, ldw_LEN, condJumps, storesTo, loadsFrom]
  | LoadIdx mode v => cases mode <;> simp [word, ldxw_IMM, ldxw_ABS, ldxw_IND, ldxw_MEM, ldxw_LEN, condJumps, storesTo, loadsFrom]
  | Store mode v =>
    obtain ⟨rfl, -⟩ := ht
    have e : bpf_st .IMM v = ⟨0x02#16, 0, 0, v⟩ := rfl
    simp [word, e, condJumps, storesTo, loadsFrom]
  | StoreIdx mode v =>
    obtain ⟨rfl, -⟩ := ht
    have e : bpf_stx .IMM v = ⟨0x03#16, 0, 0, v⟩ := rfl
    simp [word, e, condJumps, storesTo, loadsFrom]
  | Alu op src v =>
    cases src with
    | Acc => exact absurd rfl ho
    | Const =>
      cases op <;> simp [word, aluw_ADD_Const, aluw_SUB_Const, aluw_MUL_Const, aluw_DIV_Const, aluw_OR_Const, aluw_AND_Const,
        aluw_LSH_Const, aluw_RSH_Const, aluw_MOD_Const, aluw_XOR_Const, condJumps, storesTo, loadsFrom]
    | Idx =>
      cases op <;> simp [word, aluw_ADD_Idx, aluw_SUB_Idx, aluw_MUL_Idx, aluw_DIV_Idx, aluw_OR_Idx, aluw_AND_Idx,
        aluw_LSH_Idx, aluw_RSH_Idx, aluw_MOD_Idx, aluw_XOR_Idx, condJumps, storesTo, loadsFrom]
  | Return src v =>
    cases src with
    | Idx => exact absurd rfl ht
    | Const => simp [word, retw_Const, condJumps, storesTo, loadsFrom]
    | Acc => simp [word, retw_Acc, condJumps, storesTo, loadsFrom]

theorem classicFrom_iff (flen : Nat) (l : Prog) (pc : Nat) :
    classicFrom flen pc l = true ↔ ∀ n i, l[n]? = some i → instrOK flen (pc + n) i = true := by
  induction l generalizing pc with
  | nil => simp [classicFrom]
  | cons i l ih =>
    rw [classicFrom, Bool.and_eq_true, ih]
    constructor
    · rintro ⟨h1, h2⟩ n j hj
      cases n with
      | zero => cases hj; exact h1
      | succ n => have := h2 n j hj; rwa [Nat.add_assoc, Nat.add_comm 1] at this
    · intro h
      refine ⟨h 0 i rfl, fun n j hj => ?_⟩
      have := h (n + 1) j hj
      rwa [Nat.add_assoc, Nat.add_comm 1]

/-- The operation behind an instruction of the compiled program. -/
theorem op_at (b : Build) (prog : List Operation) (h : WellFormed prog) (code : List SockFilter) (hc : compile b prog = .ok code)
    (hlen : code.length < 2 ^ 32) (pc : Nat) (sf : SockFilter) (hs : code[pc]? = some sf) :
    ∃ pre op rest, prog = pre ++ op :: rest ∧ instrs pre = pc ∧ op.isLabel = false ∧ Shape prog rest op sf := by
  have hl := compile_length b prog code hc
  obtain ⟨hlt, -⟩ := List.getElem?_eq_some_iff.1 hs
  have hf : pc < (prog.filter fun op => !op.isLabel).length := by unfold instrs at hl; omega
  obtain ⟨pre, rest, h1, h2, h3⟩ := filter_split prog pc _ (List.getElem?_eq_getElem hf)
  obtain ⟨sf', h4, h5⟩ := shape_of b prog h code hc hlen pre rest _ h1 h3
  rw [h2, hs] at h4
  cases h4
  exact ⟨pre, _, rest, h1, h2, h3, h5⟩

theorem instrs_zero (ls : List Operation) (h : instrs ls = 0) : ∀ op ∈ ls, op.isLabel = true := by
  intro op ho
  by_cases hl : op.isLabel = true
  · exact hl
  · exfalso
    have : op ∈ ls.filter fun op => !op.isLabel := by simp [ho, hl]
    have := List.length_pos_of_mem this
    unfold instrs at h
    omega

theorem unset_labels (prog : List Operation) (k : Nat) (ls t : List Operation) (h : instrs ls = 0) (hu : Unset prog k (ls ++ t)) :
    Unset prog k t := by
  induction ls with
  | nil => exact hu
  | cons op ls ih =>
    have hl := instrs_zero _ h op (by simp)
    obtain ⟨l, rfl⟩ := (isLabel_iff op).1 hl
    rw [instrs_label] at h
    exact ih h (.next _ _ hu rfl (by simp [storesTo]))

/-- Two ways to cut a source at the same instruction differ by labels. -/
theorem cut_same (prog pre r pre' rest : List Operation) (op : Operation) (h1 : prog = pre ++ r) (h2 : prog = pre' ++ op :: rest)
    (hop : op.isLabel = false) (h3 : instrs pre = instrs pre') : ∃ ls, r = ls ++ op :: rest ∧ instrs ls = 0 := by
  have e : pre ++ r = pre' ++ op :: rest := by rw [← h1, h2]
  rw [List.append_eq_append_iff] at e
  rcases e with ⟨x, h6, h7⟩ | ⟨x, h6, h7⟩
  · refine ⟨x, h7, ?_⟩
    rw [h6, instrs_append] at h3
    omega
  · cases x with
    | nil => exact ⟨[], by simpa using h7.symm, rfl⟩
    | cons y x =>
      simp only [List.cons_append, List.cons.injEq] at h7
      rw [h6, ← h7.1, instrs_append, instrs_cons op hop] at h3
      omega

/-- Paths of the source are paths of the compiled program. -/
theorem unset_unsetAt (b : Build) (prog : List Operation) (h : WellFormed prog) (code : List SockFilter) (hc : compile b prog = .ok code)
    (hlen : code.length < 2 ^ 32) (ht : ∀ op ∈ prog, OpTaken op) (k : Nat) (rest : List Operation) (hu : Unset prog k rest) :
    ∃ pre, prog = pre ++ rest ∧ UnsetAt code k (instrs pre) := by
  induction hu with
  | start => exact ⟨[], rfl, .start⟩
  | next op rest _ hj hs ih =>
    obtain ⟨pre, hp, hu⟩ := ih
    refine ⟨pre ++ [op], by rw [hp]; simp, ?_⟩
    by_cases hl : op.isLabel = true
    · obtain ⟨l, rfl⟩ := (isLabel_iff op).1 hl
      rw [instrs_append, instrs_label]
      exact hu
    · have hl : op.isLabel = false := by simpa using hl
      obtain ⟨sf, h1, h2⟩ := shape_of b prog h code hc hlen pre rest op hp hl
      rw [instrs_append, instrs_cons op hl]
      cases h2 with
      | plain _ _ _ ho =>
        obtain ⟨g1, g2, g3, -⟩ := word_kind rest op hl hj ho (ht op (by rw [hp]; simp))
        exact .next _ _ hu h1 g1 g2 (fun hh => hs ((g3 k).1 hh))
      | jumpTo => cases hj
      | jump => cases hj
  | jumpTo l rest target _ ha ih =>
    obtain ⟨pre, hp, hu⟩ := ih
    obtain ⟨sf, h1, h2⟩ := shape_of b prog h code hc hlen pre rest _ hp rfl
    cases h2 with
    | plain _ _ hj => cases hj
    | jumpTo _ n hL hn =>
      obtain ⟨skip, t, -, g2, g3, g4⟩ := hL
      have := g4 target ha
      subst this
      refine ⟨pre ++ .JumpTo l :: skip, by rw [hp, g2]; simp, ?_⟩
      have := UnsetAt.ja _ _ hu h1 rfl
      simp only [BitVec.toNat_ofNat, Nat.mod_eq_of_lt hn] at this
      rw [instrs_append, instrs_cons _ rfl, g3]
      rwa [Nat.add_assoc, Nat.add_comm 1] at this
  | jump op v lt lf rest target _ hg ih =>
    obtain ⟨pre, hp, hu⟩ := ih
    obtain ⟨sf, h1, h2⟩ := shape_of b prog h code hc hlen pre rest _ hp rfl
    cases h2 with
    | plain _ _ hj => cases hj
    | jump _ _ _ _ c n m hcj _ hL hL' hn hm =>
      rcases hg with hg | hg
      · obtain ⟨skip, t, -, g2, g3, g4⟩ := hL
        have := g4 target hg
        subst this
        refine ⟨pre ++ .Jump op v lt lf :: skip, by rw [hp, g2]; simp, ?_⟩
        have := UnsetAt.cond _ _ _ hu h1 hcj (.inl rfl)
        simp only [BitVec.toNat_ofNat, Nat.mod_eq_of_lt (show n < 2 ^ 8 by omega)] at this
        rw [instrs_append, instrs_cons _ rfl, g3]
        rwa [Nat.add_assoc, Nat.add_comm 1] at this
      · obtain ⟨skip, t, -, g2, g3, g4⟩ := hL'
        have := g4 target hg
        subst this
        refine ⟨pre ++ .Jump op v lt lf :: skip, by rw [hp, g2]; simp, ?_⟩
        have := UnsetAt.cond _ _ _ hu h1 hcj (.inr rfl)
        simp only [BitVec.toNat_ofNat, Nat.mod_eq_of_lt (show m < 2 ^ 8 by omega)] at this
        rw [instrs_append, instrs_cons _ rfl, g3]
        rwa [Nat.add_assoc, Nat.add_comm 1] at this

/-- Paths of the compiled program are paths of the source. -/
theorem unsetAt_unset (b : Build) (prog : List Operation) (h : WellFormed prog) (code : List SockFilter) (hc : compile b prog = .ok code)
    (hlen : code.length < 2 ^ 32) (ht : ∀ op ∈ prog, OpTaken op) (k pc : Nat) (hu : UnsetAt code k pc) :
    ∀ pre op rest, prog = pre ++ op :: rest → op.isLabel = false → instrs pre = pc → Unset prog k (op :: rest) := by
  induction hu with
  | start =>
    intro pre op rest hp hl h0
    obtain ⟨ls, e1, e2⟩ := cut_same prog [] prog pre rest op rfl hp hl (by rw [h0]; rfl)
    exact unset_labels prog k ls _ e2 (by rw [← e1]; exact .start)
  | next q i _ hi c1 c2 c3 ih =>
    intro pre op rest hp hl h0
    obtain ⟨pre', op', rest', g1, g2, g3, g4⟩ := op_at b prog h code hc hlen q i hi
    have hu := ih pre' op' rest' g1 g3 g2
    cases g4 with
    | plain _ _ hj ho =>
      obtain ⟨-, -, w3, -⟩ := word_kind rest' op' g3 hj ho (ht op' (by rw [g1]; simp))
      have hu' : Unset prog k rest' := .next _ _ hu hj (fun e => c3 ((w3 k).2 e))
      obtain ⟨ls, e1, e2⟩ := cut_same prog (pre' ++ [op']) rest' pre rest op (by rw [g1]; simp) hp hl
        (by rw [instrs_append, instrs_cons _ g3, g2, h0]; rfl)
      exact unset_labels prog k ls _ e2 (by rw [← e1]; exact hu')
    | jumpTo => exact absurd rfl c1
    | jump _ _ _ _ _ _ _ hcj => exact absurd hcj c2
  | ja q i _ hi c1 ih =>
    intro pre op rest hp hl h0
    obtain ⟨pre', op', rest', g1, g2, g3, g4⟩ := op_at b prog h code hc hlen q i hi
    have hu := ih pre' op' rest' g1 g3 g2
    cases g4 with
    | plain _ _ hj ho =>
      exact absurd c1 (word_kind rest' op' g3 hj ho (ht op' (by rw [g1]; simp))).1
    | jumpTo l n hL hn =>
      obtain ⟨skip, t, w1, w2, w3, -⟩ := hL
      have hu' : Unset prog k t := .jumpTo l rest' t hu w1
      simp only [BitVec.toNat_ofNat, Nat.mod_eq_of_lt hn] at h0
      obtain ⟨ls, e1, e2⟩ := cut_same prog (pre' ++ .JumpTo l :: skip) t pre rest op (by rw [g1, w2]; simp) hp hl
        (by rw [instrs_append, instrs_cons _ rfl, g2, h0, w3]; omega)
      exact unset_labels prog k ls _ e2 (by rw [← e1]; exact hu')
    | jump _ _ _ _ c _ _ hcj =>
      have e : c = 0x05#16 := c1
      rw [e] at hcj
      exact absurd hcj (by decide)
  | cond q i t8 _ hi c1 c2 ih =>
    intro pre op rest hp hl h0
    obtain ⟨pre', op', rest', g1, g2, g3, g4⟩ := op_at b prog h code hc hlen q i hi
    have hu := ih pre' op' rest' g1 g3 g2
    cases g4 with
    | plain _ _ hj ho =>
      exact absurd c1 (word_kind rest' op' g3 hj ho (ht op' (by rw [g1]; simp))).2.1
    | jumpTo => exact absurd (show (0x05#16) ∈ condJumps from c1) (by decide)
    | jump jop v lt lf c n m hcj _ hL hL' hn hm =>
      have key : ∃ skip t, rest' = skip ++ t ∧ instrs skip = t8.toNat ∧ Unset prog k t := by
        rcases c2 with rfl | rfl
        · obtain ⟨skip, t, w1, w2, w3, -⟩ := hL
          refine ⟨skip, t, w2, ?_, .jump _ _ _ _ _ t hu (.inl w1)⟩
          simp only [BitVec.toNat_ofNat, Nat.mod_eq_of_lt (show n < 2 ^ 8 by omega)]
          exact w3
        · obtain ⟨skip, t, w1, w2, w3, -⟩ := hL'
          refine ⟨skip, t, w2, ?_, .jump _ _ _ _ _ t hu (.inr w1)⟩
          simp only [BitVec.toNat_ofNat, Nat.mod_eq_of_lt (show m < 2 ^ 8 by omega)]
          exact w3
      obtain ⟨skip, t, w2, w3, hu'⟩ := key
      obtain ⟨ls, e1, e2⟩ := cut_same prog (pre' ++ .Jump jop v lt lf :: skip) t pre rest op (by rw [g1, w2]; simp) hp hl
        (by rw [instrs_append, instrs_cons _ rfl, g2, h0, w3]; omega)
      exact unset_labels prog k ls _ e2 (by rw [← e1]; exact hu')

end Bpfvm
