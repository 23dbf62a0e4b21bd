import Verif.Spec.Express
import Verif.Env.Kernel
import Verif.Props.Exact
import Verif.Props.Asm
import Verif.Props.Accept

/-!
# C121: what can be written in the assembler
-/
set_option autoImplicit false

namespace Props
open Bpfvm Spec Kernel

/-! ## Words -/

/-- The operation is fine wherever it stands, or its code is excluded. -/
local macro "op_fine" h:ident : tactic =>
  `(tactic| first | (refine ⟨fun _ => ?_, rfl⟩; simp [OpOK]; done) | (exfalso; apply $h; simp))

/-- An operation without labels whose word does not depend on where it stands, for every word that is no jump. -/
theorem other_word (w : SockFilter) (h : w.code ∈ otherCodes) (h1 : w.jt = 0) (h2 : w.jf = 0) :
    ∃ op : Operation, op.isLabel = false ∧ (∀ b n L, toSockFilter b n op L = .ok w) ∧
      (w.code ∉ [0x21#16, 0x41#16, 0xb4#16] → (∀ rest, OpOK rest op) ∧ refs op = []) := by
  obtain ⟨c, jt, jf, k⟩ := w
  simp only at h h1 h2
  subst h1 h2
  simp only [otherCodes, List.mem_cons, List.not_mem_nil, or_false] at h
  rcases h with rfl | rfl | rfl | rfl | rfl | rfl | rfl | rfl | rfl | rfl | rfl | rfl | rfl | rfl | rfl | rfl | rfl | rfl | rfl | rfl |
    rfl | rfl | rfl | rfl | rfl | rfl | rfl | rfl | rfl | rfl | rfl | rfl | rfl | rfl | rfl | rfl | rfl | rfl | rfl | rfl |
    rfl | rfl | rfl | rfl
  · exact ⟨.Load .IMM k, rfl, fun _ _ _ => rfl, fun h => by op_fine h⟩
  · exact ⟨.Load .ABS k, rfl, fun _ _ _ => rfl, fun h => by op_fine h⟩
  · exact ⟨.Load .IND k, rfl, fun _ _ _ => rfl, fun h => by op_fine h⟩
  · exact ⟨.Load .MEM k, rfl, fun _ _ _ => rfl, fun h => by op_fine h⟩
  · exact ⟨.Load .LEN k, rfl, fun _ _ _ => rfl, fun h => by op_fine h⟩
  · exact ⟨.LoadIdx .IMM k, rfl, fun _ _ _ => rfl, fun h => by op_fine h⟩
  · exact ⟨.LoadIdx .ABS k, rfl, fun _ _ _ => rfl, fun h => by op_fine h⟩
  · exact ⟨.LoadIdx .IND k, rfl, fun _ _ _ => rfl, fun h => by op_fine h⟩
  · exact ⟨.LoadIdx .MEM k, rfl, fun _ _ _ => rfl, fun h => by op_fine h⟩
  · exact ⟨.LoadIdx .LEN k, rfl, fun _ _ _ => rfl, fun h => by op_fine h⟩
  · exact ⟨.Store .IMM k, rfl, fun _ _ _ => rfl, fun h => by op_fine h⟩
  · exact ⟨.Store .ABS k, rfl, fun _ _ _ => rfl, fun h => by op_fine h⟩
  · exact ⟨.Store .IND k, rfl, fun _ _ _ => rfl, fun h => by op_fine h⟩
  · exact ⟨.Store .MEM k, rfl, fun _ _ _ => rfl, fun h => by op_fine h⟩
  · exact ⟨.Store .LEN k, rfl, fun _ _ _ => rfl, fun h => by op_fine h⟩
  · exact ⟨.StoreIdx .IMM k, rfl, fun _ _ _ => rfl, fun h => by op_fine h⟩
  · exact ⟨.StoreIdx .ABS k, rfl, fun _ _ _ => rfl, fun h => by op_fine h⟩
  · exact ⟨.StoreIdx .IND k, rfl, fun _ _ _ => rfl, fun h => by op_fine h⟩
  · exact ⟨.StoreIdx .MEM k, rfl, fun _ _ _ => rfl, fun h => by op_fine h⟩
  · exact ⟨.StoreIdx .LEN k, rfl, fun _ _ _ => rfl, fun h => by op_fine h⟩
  · exact ⟨.Alu .ADD .Const k, rfl, fun _ _ _ => rfl, fun h => by op_fine h⟩
  · exact ⟨.Alu .SUB .Const k, rfl, fun _ _ _ => rfl, fun h => by op_fine h⟩
  · exact ⟨.Alu .MUL .Const k, rfl, fun _ _ _ => rfl, fun h => by op_fine h⟩
  · exact ⟨.Alu .DIV .Const k, rfl, fun _ _ _ => rfl, fun h => by op_fine h⟩
  · exact ⟨.Alu .OR .Const k, rfl, fun _ _ _ => rfl, fun h => by op_fine h⟩
  · exact ⟨.Alu .AND .Const k, rfl, fun _ _ _ => rfl, fun h => by op_fine h⟩
  · exact ⟨.Alu .LSH .Const k, rfl, fun _ _ _ => rfl, fun h => by op_fine h⟩
  · exact ⟨.Alu .RSH .Const k, rfl, fun _ _ _ => rfl, fun h => by op_fine h⟩
  · exact ⟨.Alu .MOD .Const k, rfl, fun _ _ _ => rfl, fun h => by op_fine h⟩
  · exact ⟨.Alu .XOR .Const k, rfl, fun _ _ _ => rfl, fun h => by op_fine h⟩
  · exact ⟨.Alu .ADD .Idx k, rfl, fun _ _ _ => rfl, fun h => by op_fine h⟩
  · exact ⟨.Alu .SUB .Idx k, rfl, fun _ _ _ => rfl, fun h => by op_fine h⟩
  · exact ⟨.Alu .MUL .Idx k, rfl, fun _ _ _ => rfl, fun h => by op_fine h⟩
  · exact ⟨.Alu .DIV .Idx k, rfl, fun _ _ _ => rfl, fun h => by op_fine h⟩
  · exact ⟨.Alu .OR .Idx k, rfl, fun _ _ _ => rfl, fun h => by op_fine h⟩
  · exact ⟨.Alu .AND .Idx k, rfl, fun _ _ _ => rfl, fun h => by op_fine h⟩
  · exact ⟨.Alu .LSH .Idx k, rfl, fun _ _ _ => rfl, fun h => by op_fine h⟩
  · exact ⟨.Alu .RSH .Idx k, rfl, fun _ _ _ => rfl, fun h => by op_fine h⟩
  · exact ⟨.Alu .MOD .Idx k, rfl, fun _ _ _ => rfl, fun h => by op_fine h⟩
  · exact ⟨.Alu .XOR .Idx k, rfl, fun _ _ _ => rfl, fun h => by op_fine h⟩
  · exact ⟨.Alu .XOR .Acc k, rfl, fun _ _ _ => rfl, fun h => by op_fine h⟩
  · exact ⟨.Return .Const k, rfl, fun _ _ _ => rfl, fun h => by op_fine h⟩
  · exact ⟨.Return .Idx k, rfl, fun _ _ _ => rfl, fun h => by op_fine h⟩
  · exact ⟨.Return .Acc k, rfl, fun _ _ _ => rfl, fun h => by op_fine h⟩

theorem mode_code (i : Instr) (hi : i ∈ [Instr.LD, .LDX, .ST, .STX]) (m : Mode) :
    ((i.toU32 ||| m.toU32 ||| WordSize.U32.toU32).setWidth 16) ∈ otherCodes := by
  revert i
  cases m <;> decide +kernel

theorem jump_op (c : BitVec 16) (h : c ∈ jumpCodes) : ∃ op : JmpOp, ∀ k jt jf, bpf_jmp op k jt jf = ⟨c, jt, jf, k⟩ := by
  simp only [jumpCodes, List.mem_cons, List.not_mem_nil, or_false] at h
  rcases h with rfl | rfl | rfl | rfl | rfl
  · exact ⟨.JA, fun _ _ _ => rfl⟩
  · exact ⟨.JEQ, fun _ _ _ => rfl⟩
  · exact ⟨.JGT, fun _ _ _ => rfl⟩
  · exact ⟨.JGE, fun _ _ _ => rfl⟩
  · exact ⟨.JSET, fun _ _ _ => rfl⟩

/-! ## From source to code -/

theorem jmpCalc_within (b : Build) (prog : List Operation) (lab : Option String) (i x n : Nat) (hi : i < 2 ^ 64)
    (hn : instrs prog = n) (h : jmpCalc b (mapLabels prog) lab i = .ok x) : Within b n i (BitVec.ofNat 8 x) := by
  cases lab with
  | none =>
    simp only [jmpCalc, Res.ok.injEq] at h
    subst h
    exact .inl rfl
  | some l =>
    by_cases hd : Operation.Label l ∈ prog
    · obtain ⟨before, after, rfl, hl⟩ := last_def prog l hd
      right
      refine ⟨instrs before, by rw [← hn, instrs_append]; omega, fun hb => ?_, ?_⟩
      · have hs : ∀ x y, usizeSub b x y = if y ≤ x then .ok (x - y) else .panic := fun x y => by simp only [usizeSub, hb, if_true]
        clear hi
        simp only [jmpCalc, mapLabels_last before after l hl, hs] at h
        by_cases h1 : i ≤ instrs before
        · rw [if_pos h1] at h
          simp only [Res.bind] at h
          by_cases h2 : 1 ≤ instrs before - i
          · omega
          · rw [if_neg h2] at h; cases h
        · rw [if_neg h1] at h; cases h
      · have h1 := offset_mod 8 (by omega) _ _ _ hi (jmpCalc_exact b _ before after l rfl hl i x hi h)
        have h2 : ((2 ^ 8 : Nat) : Int) = 256 := by decide
        rw [h2] at h1
        exact h1.symm
    · simp only [jmpCalc, (mapLabels_none prog l).2 hd] at h
      cases h

theorem toSock_ok (b : Build) (prog : List Operation) (op : Operation) (i n : Nat) (w : SockFilter) (hi : i < 2 ^ 64)
    (hn : instrs prog = n) (h : toSockFilter b i op (mapLabels prog) = .ok w) :
    Wordable w ∧ Within b n i w.jt ∧ Within b n i w.jf := by
  have z : Within b n i 0 := .inl rfl
  cases op with
  | JumpTo l =>
    simp only [toSockFilter] at h
    cases h1 : jmpCalc b (mapLabels prog) (some l) i with
    | ok x => simp only [h1, Res.bind, Res.ok.injEq] at h; subst h; exact ⟨.inl (by show (0x05#16) ∈ _; decide), z, z⟩
    | err e => simp only [h1, Res.bind] at h; cases h
    | panic => simp only [h1, Res.bind] at h; cases h
  | Jump o k lt lf =>
    simp only [toSockFilter] at h
    cases h1 : jmpCalc b (mapLabels prog) lt i with
    | err e => simp only [h1, Res.bind] at h; cases h
    | panic => simp only [h1, Res.bind] at h; cases h
    | ok x =>
      cases h2 : jmpCalc b (mapLabels prog) lf i with
      | err e => simp only [h1, h2, Res.bind] at h; cases h
      | panic => simp only [h1, h2, Res.bind] at h; cases h
      | ok y =>
        simp only [h1, h2, Res.bind, Res.ok.injEq] at h
        subst h
        refine ⟨.inl ?_, jmpCalc_within b prog lt i x n hi hn h1, jmpCalc_within b prog lf i y n hi hn h2⟩
        show ((Instr.JMP.toU32 ||| o.toU32).setWidth 16) ∈ jumpCodes
        cases o <;> decide
  | Label l => simp only [toSockFilter] at h; cases h
  | Load m v => simp only [toSockFilter, Res.ok.injEq] at h; subst h; exact ⟨.inr ⟨mode_code .LD (by simp) m, rfl, rfl⟩, z, z⟩
  | LoadIdx m v => simp only [toSockFilter, Res.ok.injEq] at h; subst h; exact ⟨.inr ⟨mode_code .LDX (by simp) m, rfl, rfl⟩, z, z⟩
  | Store m v => simp only [toSockFilter, Res.ok.injEq] at h; subst h; exact ⟨.inr ⟨mode_code .ST (by simp) m, rfl, rfl⟩, z, z⟩
  | StoreIdx m v => simp only [toSockFilter, Res.ok.injEq] at h; subst h; exact ⟨.inr ⟨mode_code .STX (by simp) m, rfl, rfl⟩, z, z⟩
  | Alu o s v =>
    simp only [toSockFilter, Res.ok.injEq] at h; subst h
    refine ⟨.inr ⟨?_, rfl, rfl⟩, z, z⟩
    show ((Instr.ALU.toU32 ||| o.toU32 ||| s.toU32 ||| WordSize.U32.toU32).setWidth 16) ∈ otherCodes
    cases o <;> cases s <;> decide
  | Return s v =>
    simp only [toSockFilter, Res.ok.injEq] at h; subst h
    refine ⟨.inr ⟨?_, rfl, rfl⟩, z, z⟩
    show ((Instr.RET.toU32 ||| s.toU32 ||| WordSize.U32.toU32).setWidth 16) ∈ otherCodes
    cases s <;> decide

/-! ## From code to source -/

/-- A name for every place. -/
def place (p : Nat) : String := String.ofList (List.replicate p 'a')

theorem place_inj (p q : Nat) (h : place p = place q) : p = q := by
  have := congrArg (fun s => s.toList.length) h
  simpa [place] using this

/-- The source with a label before every operation and one at the end. -/
def lay : Nat → List Operation → List Operation
  | k, [] => [.Label (place k)]
  | k, op :: rest => .Label (place k) :: op :: lay (k + 1) rest

theorem lay_filter (k : Nat) (ops : List Operation) (h : ∀ op ∈ ops, op.isLabel = false) :
    ((lay k ops).filter fun op => !op.isLabel) = ops := by
  induction ops generalizing k with
  | nil => rfl
  | cons op ops ih =>
    have h1 := h op (by simp)
    have h2 := ih (k + 1) fun o ho => h o (by simp [ho])
    simp only [lay]
    rw [List.filter_cons_of_neg (by simp [Operation.isLabel]), List.filter_cons_of_pos (by simp [h1]), h2]

theorem mapLabelsFrom_lay (k : Nat) (L : Labels) (op : Operation) (ops : List Operation) (h : op.isLabel = false) :
    mapLabelsFrom k L (lay k (op :: ops)) = mapLabelsFrom (k + 1) ((place k, k) :: L) (lay (k + 1) ops) := by
  cases op <;> first | rfl | cases h

theorem lay_keeps (k : Nat) (L : Labels) (ops : List Operation) (h : ∀ op ∈ ops, op.isLabel = false) (p : Nat) (hp : p < k) :
    (mapLabelsFrom k L (lay k ops)).get (place p) = L.get (place p) := by
  have hne : ∀ k, p < k → place k ≠ place p := fun k hk e => by have := place_inj _ _ e; omega
  induction ops generalizing k L with
  | nil => simp only [lay, mapLabelsFrom, Labels.get]; rw [if_neg (hne k hp)]
  | cons op ops ih =>
    rw [mapLabelsFrom_lay k L op ops (h op (by simp)), ih (k + 1) _ (fun o ho => h o (by simp [ho])) (by omega)]
    simp only [Labels.get]
    rw [if_neg (hne k hp)]

theorem lay_get (k : Nat) (L : Labels) (ops : List Operation) (h : ∀ op ∈ ops, op.isLabel = false) (p : Nat) (hk : k ≤ p)
    (hp : p ≤ k + ops.length) : (mapLabelsFrom k L (lay k ops)).get (place p) = some p := by
  induction ops generalizing k L with
  | nil =>
    have : k = p := by simp at hp; omega
    subst this
    simp only [lay, mapLabelsFrom, Labels.get, if_true]
  | cons op ops ih =>
    have h' : ∀ o ∈ ops, o.isLabel = false := fun o ho => h o (by simp [ho])
    rw [mapLabelsFrom_lay k L op ops (h op (by simp))]
    by_cases he : k = p
    · subst he
      rw [lay_keeps (k + 1) _ ops h' k (by omega)]
      simp only [Labels.get, if_true]
    · exact ih (k + 1) _ h' (by omega) (by simp only [List.length_cons] at hp; omega)

theorem sub_sub (sub : Nat → Nat → Res Error Nat) (c : Bool) (m : Nat)
    (hs : ∀ x y, sub x y = if y ≤ x then .ok (x - y) else if c = true then .panic else .ok (x + m - y)) (p i : Nat)
    (hb : c = true → i < p) (hi : i < m) :
    (sub p i).bind (fun d => sub d 1) = .ok (if i + 1 ≤ p then p - (i + 1) else p + m - (i + 1)) := by
  simp only [hs]
  by_cases h1 : i + 1 ≤ p
  · rw [if_pos (show i ≤ p by omega), if_pos h1]
    simp only [Res.bind]
    rw [if_pos (show 1 ≤ p - i by omega), show p - i - 1 = p - (i + 1) by omega]
  · have hf : c = false := by
      cases hc : c with
      | false => rfl
      | true => have := hb hc; omega
    simp only [hf]
    rw [if_neg h1]
    by_cases h2 : i ≤ p
    · have : p = i := by omega
      subst this
      rw [if_pos h2]
      simp only [Res.bind]
      rw [if_neg (show ¬ 1 ≤ p - p by omega)]
      simp only [Bool.false_eq_true, if_false]
      rw [show p - p + m - 1 = p + m - (p + 1) by omega]
    · rw [if_neg h2]
      simp only [Bool.false_eq_true, if_false, Res.bind]
      rw [if_pos (show 1 ≤ p + m - i by omega), show p + m - i - 1 = p + m - (i + 1) by omega]

theorem jmpCalc_at (b : Build) (L : Labels) (l : String) (p i : Nat) (hL : L.get l = some p) (hb : b.overflowChecks = true → i < p)
    (hi : i < 2 ^ 64) :
    jmpCalc b L (some l) i = .ok (if i + 1 ≤ p then p - (i + 1) else p + 2 ^ 64 - (i + 1)) := by
  have h : jmpCalc b L (some l) i = (usizeSub b p i).bind fun d => usizeSub b d 1 := by simp only [jmpCalc, hL]
  rw [h]
  exact sub_sub (usizeSub b) b.overflowChecks (2 ^ 64) (fun x y => by unfold usizeSub; rfl) p i hb hi

theorem within_label (b : Build) (n i : Nat) (hi : i < 2 ^ 64) (j : BitVec 8) (h : Within b n i j) :
    ∃ lab : Option String, ∀ L : Labels, (∀ p, p ≤ n → L.get (place p) = some p) →
      ∃ x, jmpCalc b L lab i = .ok x ∧ BitVec.ofNat 8 x = j := by
  rcases h with rfl | ⟨p, hp, hb, hd⟩
  · exact ⟨none, fun L _ => ⟨0, rfl, rfl⟩⟩
  · refine ⟨some (place p), fun L hL => ?_⟩
    have h1 := jmpCalc_at b L _ p i (hL p hp) hb hi
    have h3 := fun x => offset_mod 8 (by omega) p i x hi
    revert h1 h3
    generalize (if i + 1 ≤ p then p - (i + 1) else p + 2 ^ 64 - (i + 1)) = x
    intro h1 h3
    refine ⟨x, h1, BitVec.eq_of_toNat_eq ?_⟩
    have h4 := h3 x rfl
    have h2 : ((2 ^ 8 : Nat) : Int) = 256 := by decide
    rw [h2, hd] at h4
    exact Int.ofNat_inj.1 h4

theorem writable_op (b : Build) (n i : Nat) (hi : i < 2 ^ 64) (w : SockFilter) (h : Wordable w) (ht : Within b n i w.jt)
    (hf : Within b n i w.jf) : ∃ op : Operation, op.isLabel = false ∧
      ∀ L : Labels, (∀ p, p ≤ n → L.get (place p) = some p) → toSockFilter b i op L = .ok w := by
  rcases h with h | ⟨h, h1, h2⟩
  · obtain ⟨o, ho⟩ := jump_op w.code h
    obtain ⟨lt, h1⟩ := within_label b n i hi w.jt ht
    obtain ⟨lf, h2⟩ := within_label b n i hi w.jf hf
    refine ⟨.Jump o w.k lt lf, rfl, fun L hL => ?_⟩
    obtain ⟨x, hx, ex⟩ := h1 L hL
    obtain ⟨y, hy, ey⟩ := h2 L hL
    simp only [toSockFilter, hx, hy, Res.bind, ex, ey, ho]
  · obtain ⟨op, h3, h4, _⟩ := other_word w h h1 h2
    exact ⟨op, h3, fun L _ => h4 b i L⟩

theorem emit_of (b : Build) (n : Nat) (code : List SockFilter) (k : Nat)
    (h : ∀ i w, code[i]? = some w → ∃ op : Operation, op.isLabel = false ∧
      ∀ L : Labels, (∀ p, p ≤ n → L.get (place p) = some p) → toSockFilter b (k + i) op L = .ok w) :
    ∃ ops : List Operation, ops.length = code.length ∧ (∀ op ∈ ops, op.isLabel = false) ∧
      ∀ L : Labels, (∀ p, p ≤ n → L.get (place p) = some p) → emit b L k ops = .ok code := by
  induction code generalizing k with
  | nil => exact ⟨[], rfl, by simp, fun _ _ => rfl⟩
  | cons w code ih =>
    obtain ⟨op, h1, h2⟩ := h 0 w rfl
    obtain ⟨ops, h3, h4, h5⟩ := ih (k + 1) fun i w' hw => by
      have := h (i + 1) w' hw
      rwa [show k + (i + 1) = k + 1 + i by omega] at this
    refine ⟨op :: ops, by simp [h3], ?_, fun L hL => ?_⟩
    · intro o ho
      rcases List.mem_cons.1 ho with rfl | ho
      · exact h1
      · exact h4 o ho
    · have h6 : toSockFilter b k op L = .ok w := h2 L hL
      simp only [emit, h6, h5 L hL, Res.bind]

/-! ## C121 -/

/-- C121: the programs that can be written in the assembler are exactly those all of whose words have one of the codes of the constructors and
whose jumps have distances that lead to a place in the program. -/
theorem C121_written_iff (b : Build) (code : List SockFilter) (hn : code.length < 2 ^ 64) :
    (∃ src, compile b src = .ok code) ↔
      ∀ i w, code[i]? = some w → Wordable w ∧ Within b code.length i w.jt ∧ Within b code.length i w.jf := by
  constructor
  · rintro ⟨src, h⟩ i w hw
    obtain ⟨h1, h2⟩ := emit_get b _ 0 _ code h
    have hi : i < code.length := (List.getElem?_eq_some_iff.1 hw).1
    have hi2 : i < (src.filter fun op => !op.isLabel).length := by omega
    obtain ⟨sf, h3, h4⟩ := h2 i _ (List.getElem?_eq_getElem hi2)
    rw [hw] at h4
    cases h4
    rw [Nat.zero_add] at h3
    exact toSock_ok b src _ i code.length w (by omega) h1.symm h3
  · intro h
    obtain ⟨ops, h1, h2, h3⟩ := emit_of b code.length code 0 fun i w hw => by
      have hi : i < code.length := (List.getElem?_eq_some_iff.1 hw).1
      obtain ⟨a, c, d⟩ := h i w hw
      rw [Nat.zero_add]
      exact writable_op b _ i (by omega) w a c d
    refine ⟨lay 0 ops, ?_⟩
    unfold compile
    rw [lay_filter 0 ops h2]
    exact h3 _ fun p hp => lay_get 0 [] ops h2 p (by omega) (by omega)

/-- A jump to the label before itself comes out as one 255 words ahead; it can be written only without overflow checks. -/
example : (∃ src, compile ⟨false⟩ src = .ok [⟨0x15, 255, 0, 7⟩]) ∧ ¬ ∃ src, compile ⟨true⟩ src = .ok [⟨0x15, 255, 0, 7⟩] := by
  constructor
  · exact ⟨[.Label "a", .Jump .JEQ 7 (some "a") none], by decide +kernel⟩
  · rw [C121_written_iff _ _ (by decide)]
    intro h
    rcases (h 0 _ rfl).2.1 with h | ⟨p, h1, h2, h3⟩
    · revert h; decide
    · have := h2 rfl
      have : p = 1 := by simp at h1; omega
      subst this
      revert h3; decide

/-- C121: the words meant are exactly the ones the public constructors return. -/
theorem C121_words (w : SockFilter) : (∃ i : Insn, i.encode = w) ↔ Wordable w := by
  constructor
  · rintro ⟨i, rfl⟩
    cases i with
    | LD m v => exact .inr ⟨mode_code .LD (by simp) m, rfl, rfl⟩
    | LDX m v => exact .inr ⟨mode_code .LDX (by simp) m, rfl, rfl⟩
    | ST m v => exact .inr ⟨mode_code .ST (by simp) m, rfl, rfl⟩
    | STX m v => exact .inr ⟨mode_code .STX (by simp) m, rfl, rfl⟩
    | ALU o s v =>
      refine .inr ⟨?_, rfl, rfl⟩
      show ((Instr.ALU.toU32 ||| o.toU32 ||| s.toU32 ||| WordSize.U32.toU32).setWidth 16) ∈ otherCodes
      cases o <;> cases s <;> decide
    | RET s v =>
      refine .inr ⟨?_, rfl, rfl⟩
      show ((Instr.RET.toU32 ||| s.toU32 ||| WordSize.U32.toU32).setWidth 16) ∈ otherCodes
      cases s <;> decide
    | JMP o k jt jf =>
      refine .inl ?_
      show ((Instr.JMP.toU32 ||| o.toU32).setWidth 16) ∈ jumpCodes
      cases o <;> decide
  · rintro (h | ⟨h, h1, h2⟩)
    · obtain ⟨o, ho⟩ := jump_op w.code h
      exact ⟨.JMP o w.k w.jt w.jf, ho _ _ _⟩
    · obtain ⟨op, _, h4, _⟩ := other_word w h h1 h2
      have h5 := h4 ⟨false⟩ 0 []
      cases op with
      | Load m v => exact ⟨.LD m v, by simpa [toSockFilter, Insn.encode] using h5⟩
      | LoadIdx m v => exact ⟨.LDX m v, by simpa [toSockFilter, Insn.encode] using h5⟩
      | Store m v => exact ⟨.ST m v, by simpa [toSockFilter, Insn.encode] using h5⟩
      | StoreIdx m v => exact ⟨.STX m v, by simpa [toSockFilter, Insn.encode] using h5⟩
      | Alu o s v => exact ⟨.ALU o s v, by simpa [toSockFilter, Insn.encode] using h5⟩
      | Return s v => exact ⟨.RET s v, by simpa [toSockFilter, Insn.encode] using h5⟩
      | Label l => simp [toSockFilter] at h5
      | JumpTo l => simp [toSockFilter, jmpCalc, Labels.get] at h5
      | Jump o k lt lf =>
        cases lt <;> cases lf <;> simp [toSockFilter, jmpCalc, Labels.get] at h5
        exact ⟨.JMP o k 0 0, h5⟩

/-- A word of the constructors and one that is none of theirs (TAX). -/
example : Wordable ⟨0x20, 0, 0, 4⟩ ∧ ¬ Wordable ⟨0x07, 0, 0, 0⟩ := by
  simp only [Wordable]; decide +kernel

theorem classic_at (flen k : Nat) (p : List SockFilter) (h : classicFrom flen k p = true) (i : Nat) (w : SockFilter)
    (hw : p[i]? = some w) : instrOK flen (k + i) w = true := by
  induction p generalizing k i with
  | nil => simp at hw
  | cons x p ih =>
    simp only [classicFrom, Bool.and_eq_true] at h
    cases i with
    | zero => simp at hw; subst hw; exact h.1
    | succ i =>
      have := ih (k + 1) h.2 i hw
      rwa [show k + 1 + i = k + (i + 1) by omega] at this

/-- A test on each of the listed codes. -/
theorem codes_all (l : List (BitVec 16)) (P : BitVec 16 → Prop) [DecidablePred P] (h : (l.all fun c => decide (P c)) = true) (c : BitVec 16)
    (hc : c ∈ l) : P c := of_decide_eq_true (List.all_eq_true.1 h c hc)

theorem not_unwritable (c : BitVec 16) (h : c ∈ ([0x20, 0x80, 0x81, 0x06, 0x16, 0x04, 0x0c, 0x14, 0x1c, 0x24, 0x2c, 0x34, 0x3c, 0x44, 0x4c,
    0x54, 0x5c, 0x64, 0x6c, 0x74, 0x7c, 0xa4, 0xac, 0x84, 0x00, 0x01, 0x07, 0x87, 0x60, 0x61, 0x02, 0x03, 0x05] ++ condJumps :
      List (BitVec 16))) : (c ∈ jumpCodes ∨ c ∈ otherCodes) ↔ c ∉ unwritable :=
  codes_all _ (fun c => (c ∈ jumpCodes ∨ c ∈ otherCodes) ↔ c ∉ unwritable) (by decide +kernel) c h

/-- C121: a filter that the kernel takes, without stray numbers in the fields that mean nothing, can be written in the assembler exactly if it
has none of seven instructions: the conditional jumps that compare with the index register, NEG, TAX, TXA. -/
theorem C121_filters (b : Build) (p : List SockFilter) (ha : accepts p = true) (ht : NoStray p) :
    (∃ src, compile b src = .ok p) ↔ ∀ w ∈ p, w.code ∉ unwritable := by
  simp only [accepts, Bool.and_eq_true, decide_eq_true_eq, maxInsns] at ha
  obtain ⟨⟨⟨⟨⟨_, hlen⟩, hcl⟩, _⟩, _⟩, hall⟩ := ha
  have hcodes : ∀ w ∈ p, (w.code ∈ jumpCodes ∨ w.code ∈ otherCodes) ↔ w.code ∉ unwritable := by
    intro w hw
    apply not_unwritable
    have := List.all_eq_true.1 hall w hw
    unfold seccompInstrOK at this
    split at this
    · rename_i h; rw [h]; decide
    · exact List.mem_cons_of_mem _ (List.contains_iff_mem.1 this)
  have hlen' : p.length ≤ 4096 := of_decide_eq_true hlen
  rw [C121_written_iff b p (by omega)]
  constructor
  · intro h w hw
    obtain ⟨i, hi, rfl⟩ := List.getElem_of_mem hw
    rcases (h i _ (List.getElem?_eq_getElem hi)).1 with h1 | h1
    · exact (hcodes _ hw).1 (.inl h1)
    · exact (hcodes _ hw).1 (.inr h1.1)
  · intro h i w hw
    have hi : i < p.length := (List.getElem?_eq_some_iff.1 hw).1
    have hm : w ∈ p := List.mem_of_getElem? hw
    have hin := classic_at p.length 0 p hcl i w hw
    rw [Nat.zero_add] at hin
    have hc := (hcodes w hm).2 (h w hm)
    rcases ht w hm with ⟨h1, h2⟩ | hj
    · refine ⟨?_, .inl h1, .inl h2⟩
      rcases hc with hc | hc
      · exact .inl hc
      · exact .inr ⟨hc, h1, h2⟩
    · have hu := h w hm
      have hin2 : i + w.jt.toNat + 1 < p.length ∧ i + w.jf.toNat + 1 < p.length := by
        simp only [instrOK, Bool.and_eq_true] at hin
        have hin := hin.2
        have hne : ∀ c : BitVec 16, c ∈ ([0x15, 0x25, 0x35, 0x45, 0x1d, 0x2d, 0x3d, 0x4d] : List (BitVec 16)) →
            c ∉ [0x34#16, 0x94#16] ∧ c ∉ [0x64#16, 0x74#16] ∧ c ∉ [0x60#16, 0x61#16, 0x02#16, 0x03#16] ∧ c ≠ 0x05#16 ∧ c ∈ condJumps := fun c hc =>
          codes_all _ (fun c => c ∉ [0x34#16, 0x94#16] ∧ c ∉ [0x64#16, 0x74#16] ∧ c ∉ [0x60#16, 0x61#16, 0x02#16, 0x03#16] ∧ c ≠ 0x05#16 ∧
            c ∈ condJumps) (by decide +kernel) c hc
        obtain ⟨n1, n2, n3, n4, n5⟩ := hne _ hj
        rw [if_neg n1, if_neg n2, if_neg n3, if_neg n4, if_pos n5] at hin
        simpa using hin
      have hjc : ∀ c : BitVec 16, c ∈ ([0x15, 0x25, 0x35, 0x45, 0x1d, 0x2d, 0x3d, 0x4d] : List (BitVec 16)) → c ∉ unwritable →
          c ∈ jumpCodes := fun c hc => codes_all _ (fun c => c ∉ unwritable → c ∈ jumpCodes) (by decide +kernel) c hc
      have hw8 : ∀ j : BitVec 8, i + j.toNat + 1 < p.length → Within b p.length i j := fun j hj =>
        .inr ⟨i + 1 + j.toNat, by omega, fun _ => by omega, by have := j.isLt; omega⟩
      exact ⟨.inl (hjc _ hj hu), hw8 _ hin2.1, hw8 _ hin2.2⟩

/-- Not vacuous: a filter with a conditional jump, which can be written, and one with TAX, which cannot; the kernel takes both. -/
example : (∃ src, compile ⟨true⟩ src = .ok [⟨0x20, 0, 0, 0⟩, ⟨0x15, 0, 1, 59⟩, ⟨0x06, 0, 0, 0⟩, ⟨0x06, 0, 0, 0x7fff0000⟩]) ∧
    ¬ ∃ src, compile ⟨true⟩ src = .ok [⟨0x07, 0, 0, 0⟩, ⟨0x06, 0, 0, 0⟩] := by
  constructor
  · exact (C121_filters _ _ (by decide +kernel) (by simp only [NoStray]; decide +kernel)).2 (by decide +kernel)
  · rw [C121_filters _ _ (by decide +kernel) (by simp only [NoStray]; decide +kernel)]
    decide +kernel

/-! ### Well-formed sources -/

theorem lay_labels (k : Nat) (ops : List Operation) (h : ∀ op ∈ ops, op.isLabel = false) (q : Nat) (hq : .Label (place q) ∈ lay k ops) :
    k ≤ q := by
  induction ops generalizing k with
  | nil =>
    simp only [lay, List.mem_singleton, Operation.Label.injEq] at hq
    have := place_inj _ _ hq
    omega
  | cons op ops ih =>
    simp only [lay, List.mem_cons, Operation.Label.injEq] at hq
    rcases hq with hq | hq | hq
    · have := place_inj _ _ hq
      omega
    · have := h op (by simp)
      rw [← hq] at this
      cases this
    · have := ih (k + 1) (fun o ho => h o (by simp [ho])) hq
      omega

theorem lay_below (k : Nat) (ops : List Operation) (h : ∀ op ∈ ops, op.isLabel = false) (q : Nat) (hk : k ≤ q)
    (hq : q ≤ k + ops.length) : Below (q - k) (lay k ops) (place q) := by
  induction ops generalizing k with
  | nil =>
    have : k = q := by simp at hq; omega
    subst this
    exact ⟨[], [], rfl, by simp, by simp [instrs]⟩
  | cons op ops ih =>
    have h' : ∀ o ∈ ops, o.isLabel = false := fun o ho => h o (by simp [ho])
    by_cases he : k = q
    · subst he
      refine ⟨[], op :: lay (k + 1) ops, rfl, ?_, by simp [instrs]⟩
      intro hm
      rcases List.mem_cons.1 hm with hm | hm
      · have := h op (by simp)
        rw [← hm] at this
        cases this
      · have := lay_labels (k + 1) ops h' k hm
        omega
    · obtain ⟨skip, target, h1, h2, h3⟩ := ih (k + 1) h' (by omega) (by simp only [List.length_cons] at hq; omega)
      refine ⟨.Label (place k) :: op :: skip, target, by simp only [lay, h1, List.cons_append], h2, ?_⟩
      have h4 : instrs (.Label (place k) :: op :: skip) = instrs skip + 1 := by
        have h5 := h op (by simp)
        rw [instrs, List.filter_cons_of_neg (by simp [Operation.isLabel]), List.filter_cons_of_pos (by simp [h5])]
        rfl
      omega

theorem lay_split (k : Nat) (ops pre rest : List Operation) (op : Operation) (hop : op.isLabel = false)
    (he : lay k ops = pre ++ op :: rest) : ∃ i, ops[i]? = some op ∧ rest = lay (k + i + 1) (ops.drop (i + 1)) := by
  induction ops generalizing k pre with
  | nil =>
    simp only [lay] at he
    cases pre with
    | nil => simp only [List.nil_append, List.cons.injEq] at he; rw [← he.1] at hop; cases hop
    | cons x pre => simp at he
  | cons o ops ih =>
    simp only [lay] at he
    cases pre with
    | nil => simp only [List.nil_append, List.cons.injEq] at he; rw [← he.1] at hop; cases hop
    | cons x pre =>
      simp only [List.cons_append, List.cons.injEq] at he
      cases pre with
      | nil =>
        simp only [List.nil_append, List.cons.injEq] at he
        exact ⟨0, by rw [he.2.1]; rfl, he.2.2.symm⟩
      | cons y pre =>
        simp only [List.cons_append, List.cons.injEq] at he
        obtain ⟨i, h1, h2⟩ := ih (k + 1) pre he.2.2
        refine ⟨i + 1, h1, ?_⟩
        rw [h2, show k + 1 + i + 1 = k + (i + 1) + 1 by omega]
        rfl

/-- Every label the operation at line `i` refers to is that of a place below, within `far` instructions. -/
def GoodAt (n i : Nat) (op : Operation) : Prop :=
  (∀ rest, (∀ l ∈ refs op, ∃ far, Below far rest l) → (∀ o k lt lf, op = .Jump o k lt lf → ∀ l ∈ refs op, Below 255 rest l) → OpOK rest op) ∧
  ∀ l ∈ refs op, ∃ q, l = place q ∧ i < q ∧ q ≤ n ∧ ∀ o k lt lf, op = .Jump o k lt lf → q ≤ i + 256

theorem lay_wellFormed (ops : List Operation) (h : ∀ op ∈ ops, op.isLabel = false)
    (hg : ∀ i op, ops[i]? = some op → GoodAt ops.length i op) : WellFormed (lay 0 ops) := by
  intro pre op rest he
  cases hop : op.isLabel with
  | true => cases op <;> first | exact trivial | cases hop
  | false =>
    obtain ⟨i, h1, h2⟩ := lay_split 0 ops pre rest op hop he
    obtain ⟨g1, g2⟩ := hg i op h1
    have hi : i < ops.length := (List.getElem?_eq_some_iff.1 h1).1
    have hb : ∀ q, i < q → q ≤ ops.length → Below (q - (i + 1)) rest (place q) := by
      intro q hq1 hq2
      rw [h2, Nat.zero_add]
      exact lay_below (i + 1) _ (fun o ho => h o (List.mem_of_mem_drop ho)) q (by omega) (by simp only [List.length_drop]; omega)
    refine g1 rest (fun l hl => ?_) fun o k lt lf ho l hl => ?_
    · obtain ⟨q, rfl, h3, h4, _⟩ := g2 l hl
      exact ⟨_, hb q h3 h4⟩
    · obtain ⟨q, rfl, h3, h4, h5⟩ := g2 l hl
      obtain ⟨skip, target, a, c, d⟩ := hb q h3 h4
      exact ⟨skip, target, a, c, by have := h5 o k lt lf ho; omega⟩

theorem emit_good (n : Nat) (code : List SockFilter) (k : Nat)
    (h : ∀ i w, code[i]? = some w → ∃ op : Operation, op.isLabel = false ∧ GoodAt n (k + i) op ∧
      ∀ (b : Build) (L : Labels), (∀ p, p ≤ n → L.get (place p) = some p) → toSockFilter b (k + i) op L = .ok w) :
    ∃ ops : List Operation, ops.length = code.length ∧ (∀ op ∈ ops, op.isLabel = false) ∧
      (∀ i op, ops[i]? = some op → GoodAt n (k + i) op) ∧
      ∀ (b : Build) (L : Labels), (∀ p, p ≤ n → L.get (place p) = some p) → emit b L k ops = .ok code := by
  induction code generalizing k with
  | nil => exact ⟨[], rfl, by simp, by simp, fun _ _ _ => rfl⟩
  | cons w code ih =>
    obtain ⟨op, h1, hg, h2⟩ := h 0 w rfl
    obtain ⟨ops, h3, h4, h4g, h5⟩ := ih (k + 1) fun i w' hw => by
      have := h (i + 1) w' hw
      rwa [show k + (i + 1) = k + 1 + i by omega] at this
    refine ⟨op :: ops, by simp [h3], ?_, ?_, fun b L hL => ?_⟩
    · intro o ho
      rcases List.mem_cons.1 ho with rfl | ho
      · exact h1
      · exact h4 o ho
    · intro i o ho
      cases i with
      | zero => simp at ho; subst ho; exact hg
      | succ i =>
        have := h4g i o ho
        rwa [show k + 1 + i = k + (i + 1) by omega] at this
    · have h6 : toSockFilter b k op L = .ok w := h2 b L hL
      simp only [emit, h6, h5 b L hL, Res.bind]

theorem jmpCalc_ahead (b : Build) (L : Labels) (n i d : Nat) (hL : ∀ p, p ≤ n → L.get (place p) = some p) (hd : i + 1 + d ≤ n) :
    jmpCalc b L (some (place (i + 1 + d))) i = .ok d := by
  simp only [jmpCalc, hL _ hd, usizeSub]
  rw [if_pos (show i ≤ i + 1 + d by omega)]
  simp only [Res.bind]
  rw [if_pos (show 1 ≤ i + 1 + d - i by omega), show i + 1 + d - i - 1 = d by omega]

/-- C121: such a filter can even be written as a well-formed source, the same for both builds, so that C21 and C76 say what it means. -/
theorem C121_well_formed (p : List SockFilter) (ha : accepts p = true) (ht : NoStray p) (hu : ∀ w ∈ p, w.code ∉ unwritable) :
    ∃ src, WellFormed src ∧ ∀ b, compile b src = .ok p := by
  simp only [accepts, Bool.and_eq_true, maxInsns] at ha
  obtain ⟨⟨⟨⟨⟨_, hlen⟩, hcl⟩, _⟩, _⟩, hall⟩ := ha
  obtain ⟨ops, h1, h2, h3, h4⟩ := emit_good p.length p 0 fun i w hw => by
    have hi : i < p.length := (List.getElem?_eq_some_iff.1 hw).1
    have hm : w ∈ p := List.mem_of_getElem? hw
    have hin := classic_at p.length 0 p hcl i w hw
    have huw := hu w hm
    have hcode : w.code ∈ ([0x20, 0x80, 0x81, 0x06, 0x16, 0x04, 0x0c, 0x14, 0x1c, 0x24, 0x2c, 0x34, 0x3c, 0x44, 0x4c,
        0x54, 0x5c, 0x64, 0x6c, 0x74, 0x7c, 0xa4, 0xac, 0x84, 0x00, 0x01, 0x07, 0x87, 0x60, 0x61, 0x02, 0x03, 0x05] ++ condJumps :
        List (BitVec 16)) := by
      have := List.all_eq_true.1 hall w hm
      unfold seccompInstrOK at this
      split at this
      · rename_i h; rw [h]; decide
      · exact List.mem_cons_of_mem _ (List.contains_iff_mem.1 this)
    have hkind := codes_all _ (fun c => c ∉ unwritable → c = 0x05#16 ∨ c ∈ [0x15#16, 0x25#16, 0x35#16, 0x45#16] ∨
      c ∈ otherCodes ∧ c ∉ [0x21#16, 0x41#16, 0xb4#16] ∧ c ∉ [0x15#16, 0x25#16, 0x35#16, 0x45#16, 0x1d#16, 0x2d#16, 0x3d#16, 0x4d#16])
      (by decide +kernel) _ hcode huw
    rw [Nat.zero_add] at hin ⊢
    simp only [instrOK, Bool.and_eq_true] at hin
    have hin := hin.2
    rcases hkind with hc | hc | ⟨hc, hc2, hc3⟩
    · rw [hc] at hin
      simp at hin
      obtain ⟨z1, z2⟩ : w.jt = 0 ∧ w.jf = 0 := by
        rcases ht w hm with h | h
        · exact h
        · rw [hc] at h; exact absurd h (by decide)
      refine ⟨.JumpTo (place (i + 1 + w.k.toNat)), rfl, ⟨fun rest h _ => h _ (by simp [refs]), ?_⟩, fun b L hL => ?_⟩
      · intro l hl
        refine ⟨i + 1 + w.k.toNat, by simpa [refs] using hl, by omega, by omega, fun _ _ _ _ h => by cases h⟩
      · simp only [toSockFilter, jmpCalc_ahead b L p.length i _ hL (show i + 1 + w.k.toNat ≤ p.length by omega), Res.bind,
          BitVec.ofNat_toNat, BitVec.setWidth_eq]
        obtain ⟨c, jt, jf, k⟩ := w
        simp only at hc z1 z2
        subst hc z1 z2
        rfl
    · have hne := codes_all _ (fun c => c ∉ [0x34#16, 0x94#16] ∧ c ∉ [0x64#16, 0x74#16] ∧ c ∉ [0x60#16, 0x61#16, 0x02#16, 0x03#16] ∧
        c ≠ 0x05#16 ∧ c ∈ condJumps ∧ c ∈ jumpCodes) (by decide +kernel) _ hc
      obtain ⟨n1, n2, n3, n4, n5, n6⟩ := hne
      rw [if_neg n1, if_neg n2, if_neg n3, if_neg n4, if_pos n5] at hin
      have hin2 : i + w.jt.toNat + 1 < p.length ∧ i + w.jf.toNat + 1 < p.length := by simpa using hin
      obtain ⟨o, ho⟩ := jump_op w.code n6
      have hja : o ≠ .JA := by
        rintro rfl
        have := congrArg SockFilter.code (ho 0 0 0)
        exact n4 this.symm
      have l1 := w.jt.isLt
      have l2 := w.jf.isLt
      refine ⟨.Jump o w.k (some (place (i + 1 + w.jt.toNat))) (some (place (i + 1 + w.jf.toNat))), rfl, ⟨?_, ?_⟩, fun b L hL => ?_⟩
      · intro rest _ h
        have h := h _ _ _ _ rfl
        refine ⟨hja, fun l hl => h l ?_, fun l hl => h l ?_⟩
        · simp only [Option.mem_def, Option.some.injEq] at hl; simp [refs, hl]
        · simp only [Option.mem_def, Option.some.injEq] at hl; simp [refs, hl]
      · intro l hl
        simp only [refs, Option.toList_some, List.cons_append, List.nil_append, List.mem_cons, List.not_mem_nil, or_false] at hl
        rcases hl with rfl | rfl
        · exact ⟨_, rfl, by omega, by omega, fun _ _ _ _ _ => by omega⟩
        · exact ⟨_, rfl, by omega, by omega, fun _ _ _ _ _ => by omega⟩
      · simp only [toSockFilter, jmpCalc_ahead b L p.length i _ hL (show i + 1 + w.jt.toNat ≤ p.length by omega),
          jmpCalc_ahead b L p.length i _ hL (show i + 1 + w.jf.toNat ≤ p.length by omega), Res.bind, BitVec.ofNat_toNat,
          BitVec.setWidth_eq, ho]
    · obtain ⟨z1, z2⟩ : w.jt = 0 ∧ w.jf = 0 := by
        rcases ht w hm with h | h
        · exact h
        · exact absurd h hc3
      obtain ⟨op, g1, g2, g3⟩ := other_word w hc z1 z2
      obtain ⟨g4, g5⟩ := g3 hc2
      exact ⟨op, g1, ⟨fun rest _ _ => g4 rest, by rw [g5]; simp⟩, fun b L _ => g2 b i L⟩
  refine ⟨lay 0 ops, lay_wellFormed ops h2 (fun i op ho => by rw [h1]; have := h3 i op ho; rwa [Nat.zero_add] at this), fun b => ?_⟩
  unfold compile
  rw [lay_filter 0 ops h2]
  exact h4 b _ fun q hq => lay_get 0 [] ops h2 q (by omega) (by omega)

/-- Not vacuous: a filter with both kinds of jumps. -/
example := C121_well_formed [⟨0x20, 0, 0, 0⟩, ⟨0x15, 0, 1, 59⟩, ⟨0x05, 0, 0, 1⟩, ⟨0x06, 0, 0, 0⟩, ⟨0x06, 0, 0, 0x7fff0000⟩]
  (by decide +kernel) (by simp only [NoStray]; decide +kernel) (by decide +kernel)

/-- An instruction of the source gives a word of the program. -/
theorem compiled_mem {b : Build} {src : List Operation} {p : List SockFilter} (h : compile b src = .ok p) {op : Operation}
    (hm : op ∈ src) (hl : op.isLabel = false) : ∃ n w, w ∈ p ∧ toSockFilter b n op (mapLabels src) = .ok w := by
  have hf : op ∈ src.filter fun op => !op.isLabel := List.mem_filter.2 ⟨hm, by simp [hl]⟩
  obtain ⟨i, hi⟩ := List.getElem?_of_mem hf
  obtain ⟨w, h1, h2⟩ := (emit_get b _ 0 _ p h).2 i op hi
  exact ⟨_, w, List.mem_of_getElem? h2, h1⟩

/-- C121: on the virtual machine, for any data and in both builds, such a filter does what its source says; so it does in the kernel, for
every system call and whatever is in the scratch memory, if it does not load the length of the data. -/
theorem C121_meaning (p : List SockFilter) (ha : accepts p = true) (ht : NoStray p) (hu : ∀ w ∈ p, w.code ∉ unwritable) :
    ∃ src, WellFormed src ∧ (∀ b, compile b src = .ok p) ∧
      (∀ b data r, runProg b p data = some r ↔ SrcRun b data src src St.init r) ∧
      ((∀ w ∈ p, w.code ≠ 0x80 ∧ w.code ≠ 0x81) → ∀ (d : SeccompData) (m0 : Nat → BitVec 32),
        ∃ r, SrcRun ⟨false⟩ d.words src src St.init r ∧ Kernel.run m0 p d.words = some (valueOf r)) := by
  obtain ⟨src, hw, hc⟩ := C121_well_formed p ha ht hu
  refine ⟨src, hw, hc, fun b data r => ?_, fun hl d m0 => ?_⟩
  · obtain ⟨code, h1, h2⟩ := C21_source_semantics b src hw
    obtain rfl : p = code := by rw [hc b] at h1; exact Res.ok.inj h1
    refine h2 ?_ b data r
    simp only [accepts, Bool.and_eq_true, maxInsns] at ha
    obtain ⟨⟨⟨⟨⟨_, hlen⟩, _⟩, _⟩, _⟩, _⟩ := ha
    have := of_decide_eq_true hlen
    omega
  · obtain ⟨code, h1, h2⟩ := C77_taken_iff ⟨false⟩ src hw
    obtain rfl : p = code := by rw [hc] at h1; exact Res.ok.inj h1
    have hlen : ∀ v, .Load .LEN v ∉ src ∧ .LoadIdx .LEN v ∉ src := by
      intro v
      constructor
      · intro hm
        obtain ⟨_, _, h5, h6⟩ := compiled_mem (hc ⟨false⟩) hm rfl
        obtain rfl := Res.ok.inj h6
        exact (hl _ h5).1 rfl
      · intro hm
        obtain ⟨_, _, h5, h6⟩ := compiled_mem (hc ⟨false⟩) hm rfl
        obtain rfl := Res.ok.inj h6
        exact (hl _ h5).2 rfl
    obtain ⟨code, h3, _, h4⟩ := C76_filter_meaning ⟨false⟩ src hw (h2.1 ha) hlen
    obtain rfl : p = code := by rw [hc] at h3; exact Res.ok.inj h3
    exact h4 d m0

/-- Not vacuous: a filter with both kinds of jumps and no load of the length. -/
example : ∃ src, (∀ b, compile b src = .ok [⟨0x20, 0, 0, 0⟩, ⟨0x15, 0, 1, 59⟩, ⟨0x05, 0, 0, 1⟩, ⟨0x06, 0, 0, 0⟩, ⟨0x06, 0, 0, 0x7fff0000⟩]) ∧
    ∀ (d : SeccompData) (m0 : Nat → BitVec 32), ∃ r, SrcRun ⟨false⟩ d.words src src St.init r ∧
      Kernel.run m0 [⟨0x20, 0, 0, 0⟩, ⟨0x15, 0, 1, 59⟩, ⟨0x05, 0, 0, 1⟩, ⟨0x06, 0, 0, 0⟩, ⟨0x06, 0, 0, 0x7fff0000⟩] d.words = some (valueOf r) := by
  obtain ⟨src, _, h1, _, h2⟩ := C121_meaning [⟨0x20, 0, 0, 0⟩, ⟨0x15, 0, 1, 59⟩, ⟨0x05, 0, 0, 1⟩, ⟨0x06, 0, 0, 0⟩, ⟨0x06, 0, 0, 0x7fff0000⟩]
    (by decide +kernel) (by simp only [NoStray]; decide +kernel) (by decide +kernel)
  exact ⟨src, h1, h2 (by decide +kernel)⟩

end Props
