import Verif.Spec.Asm
import Verif.Proofs.VmStep

/-!
# The assembler: labels, offsets, emitted instructions
-/
set_option autoImplicit false

namespace Bpfvm
open Spec

theorem instrs_append (a c : List Operation) : instrs (a ++ c) = instrs a + instrs c := by simp [instrs]

theorem instrs_cons (op : Operation) (h : op.isLabel = false) (a : List Operation) : instrs (op :: a) = instrs a + 1 := by
  simp [instrs, h]

theorem instrs_label (l : String) (a : List Operation) : instrs (.Label l :: a) = instrs a := by
  simp [instrs, Operation.isLabel]

theorem isLabel_iff (op : Operation) : op.isLabel = true ↔ ∃ l, op = .Label l := by
  cases op <;> simp [Operation.isLabel]

/-- The last definition of a label. -/
theorem last_def (prog : List Operation) (l : String) (h : Operation.Label l ∈ prog) :
    ∃ pre rest, prog = pre ++ .Label l :: rest ∧ .Label l ∉ rest := by
  induction prog with
  | nil => simp at h
  | cons op prog ih =>
    by_cases h' : Operation.Label l ∈ prog
    · obtain ⟨pre, rest, rfl, h2⟩ := ih h'
      exact ⟨op :: pre, rest, rfl, h2⟩
    · rw [List.mem_cons] at h
      rcases h with rfl | h
      · exact ⟨[], prog, rfl, h'⟩
      · exact absurd h h'

theorem get_cons_ne (labels : Labels) (l l' : String) (n : Nat) (h : l' ≠ l) :
    Labels.get ((l', n) :: labels) l = labels.get l := by
  rw [Labels.get, if_neg h]

theorem mapLabelsFrom_not (prog : List Operation) (l : String) (h : Operation.Label l ∉ prog) (line : Nat) (labels : Labels) :
    (mapLabelsFrom line labels prog).get l = labels.get l := by
  induction prog generalizing line labels with
  | nil => rfl
  | cons op prog ih =>
    have h2 : Operation.Label l ∉ prog := fun h' => h (List.mem_cons_of_mem _ h')
    cases op with
    | Label l' =>
      have hne : l' ≠ l := fun e => h (by rw [e]; exact List.mem_cons_self)
      rw [mapLabelsFrom, ih h2, get_cons_ne _ _ _ _ hne]
    | _ => exact ih h2 _ _

theorem mapLabelsFrom_last (pre rest : List Operation) (l : String) (h : Operation.Label l ∉ rest) (line : Nat) (labels : Labels) :
    (mapLabelsFrom line labels (pre ++ .Label l :: rest)).get l = some (line + instrs pre) := by
  induction pre generalizing line labels with
  | nil =>
    show (mapLabelsFrom line ((l, line) :: labels) rest).get l = _
    rw [mapLabelsFrom_not rest l h, Labels.get, if_pos rfl]
    rfl
  | cons op pre ih =>
    cases op with
    | Label l' =>
      show (mapLabelsFrom line ((l', line) :: labels) (pre ++ .Label l :: rest)).get l = _
      rw [ih, instrs_label]
    | _ =>
      refine (ih (line + 1) labels).trans ?_
      rw [instrs_cons _ rfl]
      congr 1
      omega

theorem mapLabels_last (pre rest : List Operation) (l : String) (h : Operation.Label l ∉ rest) :
    (mapLabels (pre ++ .Label l :: rest)).get l = some (instrs pre) := by
  rw [mapLabels, mapLabelsFrom_last pre rest l h, Nat.zero_add]

theorem mapLabels_none (prog : List Operation) (l : String) :
    (mapLabels prog).get l = none ↔ Operation.Label l ∉ prog := by
  constructor
  · intro h hm
    obtain ⟨pre, rest, rfl, h2⟩ := last_def prog l hm
    rw [mapLabels_last pre rest l h2] at h
    cases h
  · intro h
    rw [mapLabels, mapLabelsFrom_not prog l h]
    rfl

/-! ## Emission -/

theorem emit_all (b : Build) (labels : Labels) (n : Nat) (ops : List Operation)
    (h : ∀ i op, ops[i]? = some op → ∃ sf, toSockFilter b (n + i) op labels = .ok sf) : ∃ code, emit b labels n ops = .ok code := by
  induction ops generalizing n with
  | nil => exact ⟨[], rfl⟩
  | cons op ops ih =>
    obtain ⟨sf, h1⟩ := h 0 op rfl
    obtain ⟨code, h2⟩ := ih (n + 1) fun i op' hi => by
      have := h (i + 1) op' hi
      rwa [show n + (i + 1) = n + 1 + i by omega] at this
    refine ⟨sf :: code, ?_⟩
    rw [Nat.add_zero] at h1
    simp only [emit, h1, h2, Res.bind]

theorem emit_get (b : Build) (labels : Labels) (n : Nat) (ops : List Operation) (code : List SockFilter)
    (h : emit b labels n ops = .ok code) :
    code.length = ops.length ∧
      ∀ i op, ops[i]? = some op → ∃ sf, toSockFilter b (n + i) op labels = .ok sf ∧ code[i]? = some sf := by
  induction ops generalizing n code with
  | nil =>
    simp only [emit, Res.ok.injEq] at h
    subst h
    exact ⟨rfl, by simp⟩
  | cons op ops ih =>
    simp only [emit] at h
    cases h1 : toSockFilter b n op labels with
    | err e => simp [h1, Res.bind] at h
    | panic => simp [h1, Res.bind] at h
    | ok sf =>
      cases h2 : emit b labels (n + 1) ops with
      | err e => simp [h1, h2, Res.bind] at h
      | panic => simp [h1, h2, Res.bind] at h
      | ok code' =>
        simp only [h1, h2, Res.bind, Res.ok.injEq] at h
        subst h
        obtain ⟨h3, h4⟩ := ih (n + 1) code' h2
        refine ⟨by simp [h3], fun i op' hi => ?_⟩
        cases i with
        | zero =>
          simp at hi
          subst hi
          exact ⟨sf, h1, rfl⟩
        | succ i =>
          obtain ⟨sf', h5, h6⟩ := h4 i op' hi
          exact ⟨sf', by rwa [show n + (i + 1) = n + 1 + i by omega], h6⟩

theorem filter_get (pre rest : List Operation) (op : Operation) (h : op.isLabel = false) :
    ((pre ++ op :: rest).filter fun op => !op.isLabel)[instrs pre]? = some op := by
  rw [List.filter_append, List.filter_cons_of_pos (by simp [h])]
  simp [instrs]

/-- Position of an instruction of the filtered source in the source. -/
theorem filter_split (prog : List Operation) (i : Nat) (op : Operation) (h : (prog.filter fun op => !op.isLabel)[i]? = some op) :
    ∃ pre rest, prog = pre ++ op :: rest ∧ instrs pre = i ∧ op.isLabel = false := by
  induction prog generalizing i with
  | nil => simp at h
  | cons a prog ih =>
    by_cases ha : a.isLabel = true
    · rw [List.filter_cons_of_neg (by simp [ha])] at h
      obtain ⟨pre, rest, rfl, h2, h3⟩ := ih i h
      obtain ⟨l, rfl⟩ := (isLabel_iff a).1 ha
      exact ⟨.Label l :: pre, rest, rfl, by rw [instrs_label, h2], h3⟩
    · have ha : a.isLabel = false := by simpa using ha
      rw [List.filter_cons_of_pos (by simp [ha])] at h
      cases i with
      | zero =>
        simp at h
        subst h
        exact ⟨[], prog, rfl, rfl, ha⟩
      | succ i =>
        obtain ⟨pre, rest, rfl, h2, h3⟩ := ih i (by simpa using h)
        exact ⟨a :: pre, rest, rfl, by rw [instrs_cons _ ha, h2], h3⟩

/-- The instruction compiled from an operation stands at the number of instructions before it. -/
theorem compile_get (b : Build) (pre rest : List Operation) (op : Operation) (h : op.isLabel = false) (code : List SockFilter)
    (hc : compile b (pre ++ op :: rest) = .ok code) :
    ∃ sf, toSockFilter b (instrs pre) op (mapLabels (pre ++ op :: rest)) = .ok sf ∧ code[instrs pre]? = some sf := by
  obtain ⟨-, h2⟩ := emit_get b _ 0 _ code hc
  have := h2 _ _ (filter_get pre rest op h)
  rwa [Nat.zero_add] at this

theorem compile_length (b : Build) (prog : List Operation) (code : List SockFilter) (hc : compile b prog = .ok code) :
    code.length = instrs prog := (emit_get b _ 0 _ code hc).1

theorem usizeSub_ok (b : Build) (x y : Nat) (h : y ≤ x) : usizeSub b x y = .ok (x - y) := by
  unfold usizeSub
  rw [if_pos h]

theorem jmpCalc_below (b : Build) (pre skip target : List Operation) (op : Operation) (hop : op.isLabel = false) (l : String)
    (h : Operation.Label l ∉ target) :
    jmpCalc b (mapLabels (pre ++ op :: (skip ++ .Label l :: target))) (some l) (instrs pre) = .ok (instrs skip) := by
  have e : pre ++ op :: (skip ++ .Label l :: target) = (pre ++ op :: skip) ++ .Label l :: target := by simp
  simp only [jmpCalc]
  rw [e, mapLabels_last _ _ _ h, instrs_append, instrs_cons op hop]
  simp only []
  rw [usizeSub_ok _ _ _ (by omega), Res.bind, usizeSub_ok _ _ _ (by omega)]
  congr 1
  omega

end Bpfvm
