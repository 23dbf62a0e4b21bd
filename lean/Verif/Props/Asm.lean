import Verif.Proofs.AsmRun

/-!
# C19 to C23: the assembler
-/
set_option autoImplicit false

namespace Props
open Bpfvm Spec

/-! ## C19 -/

/-- What a list of references does to compilation: the first reference that is undefined, or backward in a checked build. -/
noncomputable def checkRefs (b : Build) (prog : List Operation) : List (String × List Operation) → Res Error Unit
  | [] => .ok ()
  | r :: rs =>
    open Classical in
    if Undefined prog r then .err (.UnknownLabelReference r.1)
    else if b.overflowChecks = true ∧ Backward prog r then .panic
    else checkRefs b prog rs

theorem checkRefs_append (b : Build) (prog : List Operation) (xs ys : List (String × List Operation)) :
    checkRefs b prog (xs ++ ys) = (checkRefs b prog xs).bind fun _ => checkRefs b prog ys := by
  induction xs with
  | nil => rfl
  | cons r rs ih =>
    simp only [List.cons_append, checkRefs]
    split
    · rfl
    · split
      · rfl
      · exact ih

/-- Forget the value. -/
def kind {α : Type} (r : Res Error α) : Res Error Unit := r.bind fun _ => .ok ()

theorem kind_bind {α β : Type} (r : Res Error α) (f : α → Res Error β) (g : Res Error Unit) (h : ∀ a, kind (f a) = g) :
    kind (r.bind f) = (kind r).bind fun _ => g := by
  cases r with
  | ok a => exact h a
  | err e => rfl
  | panic => rfl

theorem jmpCalc_kind (b : Build) (prog pre rest : List Operation) (op : Operation) (hop : op.isLabel = false)
    (hp : prog = pre ++ op :: rest) (l : String) :
    kind (jmpCalc b (mapLabels prog) (some l) (instrs pre)) = checkRefs b prog [(l, rest)] := by
  simp only [checkRefs]
  by_cases hd : Operation.Label l ∈ prog
  · rw [if_neg (fun h : Undefined prog (l, rest) => h hd)]
    by_cases hr : Operation.Label l ∈ rest
    · rw [if_neg (fun h => h.2.2 hr)]
      obtain ⟨skip, t, h1, h2⟩ := last_def rest l hr
      rw [hp, h1, jmpCalc_below b pre skip t op hop l h2]
      rfl
    · -- the last definition is in pre
      have hpre : Operation.Label l ∈ pre := by
        rw [hp, List.mem_append, List.mem_cons] at hd
        rcases hd with hd | rfl | hd
        · exact hd
        · cases hop
        · exact absurd hd hr
      obtain ⟨p1, p2, h1, h2⟩ := last_def pre l hpre
      have e : prog = p1 ++ .Label l :: (p2 ++ op :: rest) := by rw [hp, h1]; simp
      have hn : Operation.Label l ∉ p2 ++ op :: rest := by
        rw [List.mem_append, List.mem_cons]
        rintro (h | rfl | h)
        · exact h2 h
        · cases hop
        · exact hr h
      simp only [jmpCalc]
      rw [e, mapLabels_last p1 _ l hn, ← e]
      have hle : instrs p1 ≤ instrs pre := by rw [h1, instrs_append]; omega
      cases hb : b.overflowChecks with
      | true =>
        rw [if_pos (show true = true ∧ Backward prog (l, rest) from ⟨rfl, hd, hr⟩)]
        by_cases heq : instrs pre ≤ instrs p1
        · have e1 : usizeSub b (instrs p1) (instrs pre) = .ok (instrs p1 - instrs pre) := if_pos heq
          have e2 : usizeSub b (instrs p1 - instrs pre) 1 = .panic := by
            rw [usizeSub, if_neg (by omega), if_pos hb]
          simp only [e1, e2, Res.bind, kind]
        · have e1 : usizeSub b (instrs p1) (instrs pre) = .panic := by
            rw [usizeSub, if_neg heq, if_pos hb]
          simp only [e1, Res.bind, kind]
      | false =>
        rw [if_neg (show ¬ (false = true ∧ Backward prog (l, rest)) from fun h => by cases h.1)]
        have e1 : ∀ x y, ∃ z, usizeSub b x y = .ok z := by
          intro x y
          unfold usizeSub
          by_cases hxy : y ≤ x
          · rw [if_pos hxy]; exact ⟨_, rfl⟩
          · rw [if_neg hxy, hb, if_neg Bool.false_ne_true]; exact ⟨_, rfl⟩
        obtain ⟨z, hz⟩ := e1 (instrs p1) (instrs pre)
        obtain ⟨z', hz'⟩ := e1 z 1
        simp only [hz, hz', Res.bind, kind]
  · rw [if_pos (show Undefined prog (l, rest) from hd)]
    simp only [jmpCalc]
    rw [(mapLabels_none prog l).2 hd]
    rfl

theorem emit_kind (b : Build) (prog pre rest : List Operation) (hp : prog = pre ++ rest) :
    kind (emit b (mapLabels prog) (instrs pre) (rest.filter fun op => !op.isLabel)) = checkRefs b prog (allRefs rest) := by
  induction rest generalizing pre with
  | nil => rfl
  | cons op rest ih =>
    have hp1 : prog = (pre ++ [op]) ++ rest := by rw [hp]; simp
    have ih := ih (pre ++ [op]) hp1
    by_cases hl : op.isLabel = true
    · obtain ⟨l, rfl⟩ := (isLabel_iff op).1 hl
      rw [List.filter_cons_of_neg (by simp [hl])]
      rw [instrs_append, instrs_label] at ih
      exact ih
    · have hl : op.isLabel = false := by simpa using hl
      rw [List.filter_cons_of_pos (by simp [hl])]
      rw [instrs_append, instrs_cons op hl, show instrs [] = 0 from rfl, Nat.zero_add] at ih
      simp only [emit, allRefs]
      rw [checkRefs_append, kind_bind _ _ (checkRefs b prog (allRefs rest)) (fun sf => by
        rw [kind_bind _ _ (.ok ()) (fun _ => rfl), ih]
        cases checkRefs b prog (allRefs rest) <;> rfl)]
      congr 1
      have key := jmpCalc_kind b prog pre rest op hl hp
      cases op with
      | Label l => cases hl
      | JumpTo l =>
        simp only [toSockFilter, refs, List.map_cons, List.map_nil]
        rw [kind_bind _ _ (.ok ()) (fun _ => rfl), key l]
        cases checkRefs b prog [(l, rest)] <;> rfl
      | Jump o k lt lf =>
        simp only [toSockFilter, refs, List.map_append]
        rw [checkRefs_append]
        have opt : ∀ lab : Option String, kind (jmpCalc b (mapLabels prog) lab (instrs pre)) =
            checkRefs b prog (lab.toList.map fun l => (l, rest)) := by
          intro lab
          cases lab with
          | none => rfl
          | some l => exact key l
        rw [← opt lt, ← opt lf, kind_bind _ _ (kind (jmpCalc b (mapLabels prog) lf (instrs pre))) (fun n => by
          rw [kind_bind _ _ (.ok ()) (fun _ => rfl)]
          cases jmpCalc b (mapLabels prog) lf (instrs pre) <;> rfl)]
      | _ => rfl

theorem compile_kind (b : Build) (prog : List Operation) : kind (compile b prog) = checkRefs b prog (allRefs prog) :=
  emit_kind b prog [] prog rfl

/-- Nothing wrong with this reference in this build. -/
def GoodRef (b : Build) (prog : List Operation) (r : String × List Operation) : Prop :=
  ¬ Undefined prog r ∧ ¬ (b.overflowChecks = true ∧ Backward prog r)

theorem checkRefs_ok (b : Build) (prog : List Operation) (rs : List (String × List Operation)) :
    checkRefs b prog rs = .ok () ↔ ∀ r ∈ rs, GoodRef b prog r := by
  induction rs with
  | nil => simp [checkRefs]
  | cons r rs ih =>
    simp only [checkRefs, List.mem_cons, forall_eq_or_imp]
    split
    · rename_i h; simp [GoodRef, h]
    · rename_i h
      split
      · rename_i h'; simp [GoodRef, h, h']
      · rename_i h'
        rw [ih]
        exact ⟨fun g => ⟨⟨h, h'⟩, g⟩, fun g => g.2⟩

theorem checkRefs_err (b : Build) (prog : List Operation) (rs : List (String × List Operation)) (e : Error) :
    checkRefs b prog rs = .err e ↔ ∃ front r back, rs = front ++ r :: back ∧ (∀ q ∈ front, GoodRef b prog q) ∧ Undefined prog r ∧
      e = .UnknownLabelReference r.1 := by
  induction rs with
  | nil => simp [checkRefs]
  | cons r rs ih =>
    simp only [checkRefs]
    have split_cons : ∀ (front : List (String × List Operation)) (q : String × List Operation) (back : List (String × List Operation)),
        r :: rs = front ++ q :: back → (front = [] ∧ q = r ∧ back = rs) ∨ (∃ f, front = r :: f ∧ rs = f ++ q :: back) := by
      intro front q back h
      cases front with
      | nil =>
        simp only [List.nil_append, List.cons.injEq] at h
        exact .inl ⟨rfl, h.1.symm, h.2.symm⟩
      | cons f fs =>
        simp only [List.cons_append, List.cons.injEq] at h
        exact .inr ⟨fs, by rw [h.1], h.2⟩
    split
    · rename_i h
      constructor
      · intro he
        injection he with he
        exact ⟨[], r, rs, rfl, by simp, h, he.symm⟩
      · rintro ⟨front, q, back, h1, h2, h3, rfl⟩
        rcases split_cons front q back h1 with ⟨-, rfl, -⟩ | ⟨f, rfl, -⟩
        · rfl
        · exact absurd h (h2 r (by simp)).1
    · rename_i h
      split
      · rename_i h'
        constructor
        · intro he; cases he
        · rintro ⟨front, q, back, h1, h2, h3, rfl⟩
          rcases split_cons front q back h1 with ⟨-, rfl, -⟩ | ⟨f, rfl, -⟩
          · exact absurd h3 h
          · exact absurd h' (h2 r (by simp)).2
      · rename_i h'
        rw [ih]
        constructor
        · rintro ⟨front, q, back, rfl, h2, h3, rfl⟩
          refine ⟨r :: front, q, back, rfl, ?_, h3, rfl⟩
          intro x hx
          rw [List.mem_cons] at hx
          rcases hx with rfl | hx
          · exact ⟨h, h'⟩
          · exact h2 x hx
        · rintro ⟨front, q, back, h1, h2, h3, rfl⟩
          rcases split_cons front q back h1 with ⟨-, rfl, -⟩ | ⟨f, rfl, rfl⟩
          · exact absurd h3 h
          · exact ⟨f, q, back, rfl, fun x hx => h2 x (by simp [hx]), h3, rfl⟩

theorem kind_ok {α : Type} (r : Res Error α) : kind r = .ok () ↔ ∃ a, r = .ok a := by
  cases r <;> simp [kind, Res.bind]

theorem kind_err {α : Type} (r : Res Error α) (e : Error) : kind r = .err e ↔ r = .err e := by
  cases r <;> simp [kind, Res.bind]

/-- C19: one instruction per non-label operation. -/
theorem C19_length (b : Build) (prog : List Operation) (code : List SockFilter) (h : compile b prog = .ok code) :
    code.length = instrs prog := compile_length b prog code h

/-- Not vacuous: two instructions and a label. -/
example := C19_length ⟨true⟩ [.JumpTo "a", .Label "a", .Return .Const 1] _ rfl

/-- C19: when compilation succeeds. -/
theorem C19_success_iff (b : Build) (prog : List Operation) :
    (∃ code, compile b prog = .ok code) ↔
      ∀ r ∈ allRefs prog, ¬ Undefined prog r ∧ (b.overflowChecks = true → ¬ Backward prog r) := by
  rw [← kind_ok, compile_kind, checkRefs_ok]
  exact forall_congr' fun r => imp_congr_right fun _ => and_congr_right fun _ => not_and

theorem allRefs_sub (prog : List Operation) (r : String × List Operation) (hr : r ∈ allRefs prog) : ∀ op ∈ r.2, op ∈ prog := by
  induction prog with
  | nil => simp [allRefs] at hr
  | cons a prog ih =>
    rw [allRefs, List.mem_append] at hr
    intro op hop
    rcases hr with hr | hr
    · rw [List.mem_map] at hr
      obtain ⟨l, -, rfl⟩ := hr
      exact List.mem_cons_of_mem _ hop
    · exact List.mem_cons_of_mem _ (ih hr op hop)

/-- C19: it succeeds, in both builds, when every referenced label is defined further down. -/
theorem C19_success_below (b : Build) (prog : List Operation) (h : ∀ r ∈ allRefs prog, Operation.Label r.1 ∈ r.2) :
    ∃ code, compile b prog = .ok code :=
  (C19_success_iff b prog).2 fun r hr => ⟨fun hu => hu (allRefs_sub prog r hr _ (h r hr)), fun _ hb => hb.2 (h r hr)⟩

/-- Not vacuous: a jump to a label below it. -/
example := C19_success_below ⟨true⟩ [.JumpTo "a", .Label "a", .Return .Const 1] (by decide)

/-- C19: the error names the first undefined label, provided (in a checked build) that no backward reference comes before it. -/
theorem C19_error_iff (b : Build) (prog : List Operation) (e : Error) :
    compile b prog = .err e ↔
      ∃ front r back, allRefs prog = front ++ r :: back ∧ Undefined prog r ∧ e = .UnknownLabelReference r.1 ∧
        ∀ q ∈ front, ¬ Undefined prog q ∧ (b.overflowChecks = true → ¬ Backward prog q) := by
  rw [← kind_err, compile_kind, checkRefs_err]
  constructor
  · rintro ⟨front, r, back, h1, h2, h3, h4⟩
    exact ⟨front, r, back, h1, h3, h4, fun q hq => ⟨(h2 q hq).1, fun hb hB => (h2 q hq).2 ⟨hb, hB⟩⟩⟩
  · rintro ⟨front, r, back, h1, h3, h4, h2⟩
    exact ⟨front, r, back, h1, fun q hq => ⟨(h2 q hq).1, fun hb => (h2 q hq).2 hb.1 hb.2⟩, h3, h4⟩

/-- C19: the remaining case. Compilation panics exactly when, in a checked build, a reference to a label that is not below comes
before any reference to an undefined label. -/
theorem C19_panic_iff (b : Build) (prog : List Operation) :
    compile b prog = .panic ↔ b.overflowChecks = true ∧
      ∃ front r back, allRefs prog = front ++ r :: back ∧ Backward prog r ∧ ∀ q ∈ front, ¬ Undefined prog q := by
  have hk : compile b prog = .panic ↔ checkRefs b prog (allRefs prog) = .panic := by
    rw [← compile_kind]
    cases compile b prog <;> simp [kind, Res.bind]
  rw [hk]
  generalize allRefs prog = rs
  induction rs with
  | nil => simp [checkRefs]
  | cons r rs ih =>
    simp only [checkRefs]
    by_cases h : Undefined prog r
    · rw [if_pos h]
      constructor
      · intro he; cases he
      · rintro ⟨-, front, q, back, h1, h2, h3⟩
        cases front with
        | nil =>
          simp only [List.nil_append, List.cons.injEq] at h1
          rw [h1.1] at h
          exact absurd h2.1 h
        | cons f fs =>
          simp only [List.cons_append, List.cons.injEq] at h1
          exact absurd (h1.1 ▸ h) (h3 f (by simp))
    · rw [if_neg h]
      by_cases h' : b.overflowChecks = true ∧ Backward prog r
      · rw [if_pos h']
        exact ⟨fun _ => ⟨h'.1, [], r, rs, rfl, h'.2, by simp⟩, fun _ => rfl⟩
      · rw [if_neg h']
        refine Iff.trans ih ?_
        constructor
        · rintro ⟨hb, front, q, back, rfl, h2, h3⟩
          refine ⟨hb, r :: front, q, back, rfl, h2, fun x hx => ?_⟩
          rw [List.mem_cons] at hx
          rcases hx with rfl | hx
          · exact h
          · exact h3 x hx
        · rintro ⟨hb, front, q, back, h1, h2, h3⟩
          cases front with
          | nil =>
            simp only [List.nil_append, List.cons.injEq] at h1
            exact absurd ⟨hb, h1.1 ▸ h2⟩ h'
          | cons f fs =>
            simp only [List.cons_append, List.cons.injEq] at h1
            exact ⟨hb, fs, q, back, h1.2, h2, fun x hx => h3 x (by simp [hx])⟩

/-- Full claim of C19 about failure: an error exactly when some jump names an undefined label; the error names the first one. -/
def C19_full : Prop := ∀ (b : Build) (prog : List Operation) (l : String),
  compile b prog = .err (.UnknownLabelReference l) ↔ ((allRefs prog).map Prod.fst).find? (fun l => !prog.contains (.Label l)) = some l

theorem find_first {α β : Type} (f : α → β) (p : β → Bool) (xs : List α) (y : β) :
    (xs.map f).find? p = some y ↔ ∃ front x back, xs = front ++ x :: back ∧ f x = y ∧ p y = true ∧ ∀ q ∈ front, p (f q) = false := by
  rw [List.find?_eq_some_iff_append]
  constructor
  · rintro ⟨h1, as, bs, h2, h3⟩
    obtain ⟨l1, l2, rfl, rfl, h4⟩ := List.map_eq_append_iff.1 h2
    obtain ⟨x, l3, rfl, rfl, rfl⟩ := List.map_eq_cons_iff.1 h4
    refine ⟨l1, x, l3, rfl, rfl, h1, fun q hq => ?_⟩
    have := h3 (f q) (List.mem_map_of_mem hq)
    simpa using this
  · rintro ⟨front, x, back, rfl, rfl, h1, h2⟩
    refine ⟨h1, front.map f, back.map f, by simp, fun a ha => ?_⟩
    rw [List.mem_map] at ha
    obtain ⟨q, hq, rfl⟩ := ha
    simp [h2 q hq]

theorem undefined_iff (prog : List Operation) (r : String × List Operation) :
    (!prog.contains (.Label r.1)) = true ↔ Undefined prog r := by
  simp [Undefined]

/-- C19 holds in full for unchecked builds, and in every build for programs without backward references. Missing: programs with
backward references in checked builds, where it is false. -/
theorem C19_error_partial (b : Build) (prog : List Operation)
    (h : b.overflowChecks = false ∨ ∀ r ∈ allRefs prog, ¬ Backward prog r) (l : String) :
    compile b prog = .err (.UnknownLabelReference l) ↔
      ((allRefs prog).map Prod.fst).find? (fun l => !prog.contains (.Label l)) = some l := by
  rw [C19_error_iff, find_first]
  constructor
  · rintro ⟨front, r, back, h1, h2, h3, h4⟩
    injection h3 with h3
    refine ⟨front, r, back, h1, h3.symm, by rw [h3]; exact (undefined_iff prog r).2 h2, fun q hq => ?_⟩
    have := (h4 q hq).1
    rw [← undefined_iff] at this
    simpa using this
  · rintro ⟨front, r, back, h1, h2, h3, h4⟩
    subst h2
    refine ⟨front, r, back, h1, (undefined_iff prog r).1 h3, rfl, fun q hq => ⟨?_, ?_⟩⟩
    · rw [← undefined_iff, h4 q hq]
      simp
    · intro hb
      rcases h with h | h
      · rw [hb] at h; cases h
      · exact h q (by rw [h1]; simp [hq])

/-- Not vacuous: an unknown label in an unchecked build. -/
example := C19_error_partial ⟨false⟩ [.JumpTo "a", .Label "b", .Return .Const 1] (.inl rfl) "a"

/-- In a checked build a jump back to "A" panics before the undefined "B" is looked at. -/
theorem C19_false_for_backward_labels : ¬ C19_full := by
  intro h
  have := (h ⟨true⟩ [.Label "A", .JumpTo "A", .JumpTo "B"] "B").2 (by decide)
  exact absurd this (by decide +kernel)

example : compile ⟨false⟩ [.Jump .JEQ 1 (some "A") (some "B"), .Label "A", .JumpTo "C"] = .err (.UnknownLabelReference "B") ∧
    (∃ code, compile ⟨true⟩ [.Jump .JEQ 1 (some "A") none, .Return .Const 0, .Label "A", .Return .Const 1] = .ok code) ∧
    compile ⟨true⟩ [.Label "A", .JumpTo "A", .JumpTo "B"] = .panic ∧
    compile ⟨false⟩ [.Label "A", .JumpTo "A", .JumpTo "B"] = .err (.UnknownLabelReference "B") :=
  ⟨by decide +kernel, ⟨_, rfl⟩, by decide +kernel, by decide +kernel⟩

/-! ## C20 -/

/-- Full claim of C20, for both kinds of jumps. In the compiled program the instruction of a jump stands behind those of `pre`;
executing it from there continues behind those of `before`, where the last definition of the label stands. -/
def C20_full : Prop := ∀ (b b' : Build) (pre rest before after : List Operation) (op : Operation) (l : String) (code : List SockFilter)
  (vm : VM) (data : RunData),
  (op = .JumpTo l ∨ ∃ c k lf, c ≠ .JA ∧ op = .Jump c k (some l) lf ∧ holds c vm.acc k) →
  pre ++ op :: rest = before ++ .Label l :: after → .Label l ∉ after → compile b (pre ++ op :: rest) = .ok code →
  code.length ≤ 65535 → vm.prog = code → vm.pc = instrs pre →
  vm.execute b' data = ({ vm with pc := instrs before }, .ok none)

theorem execute_eq (b : Build) (vm : VM) (data : RunData) (i : SockFilter) (h : vm.prog[vm.pc]? = some i) :
    vm.execute b data = VM.executeInstr b { vm with pc := vm.pc + 1 } data i := by
  unfold VM.execute
  rw [h]

theorem below_split (pre rest skip target : List Operation) (op : Operation) (l : String) (hr : rest = skip ++ .Label l :: target) :
    pre ++ op :: rest = (pre ++ op :: skip) ++ .Label l :: target := by rw [hr]; simp

/-- C20 for `JumpTo`: every distance. The label stands below. -/
theorem C20_jumpTo (b b' : Build) (pre skip target : List Operation) (l : String) (hl : Operation.Label l ∉ target)
    (code : List SockFilter) (hc : compile b (pre ++ .JumpTo l :: (skip ++ .Label l :: target)) = .ok code)
    (hlen : code.length ≤ 65535) (vm : VM) (data : RunData) (hprog : vm.prog = code) (hpc : vm.pc = instrs pre) :
    vm.execute b' data = ({ vm with pc := instrs (pre ++ .JumpTo l :: skip) }, .ok none) := by
  obtain ⟨sf, h1, h2⟩ := compile_get b pre _ (.JumpTo l) rfl code hc
  simp only [toSockFilter, jmpCalc_below b pre skip target (.JumpTo l) rfl l hl, Res.bind, Res.ok.injEq] at h1
  subst h1
  rw [execute_eq b' vm data _ (by rw [hprog, hpc]; exact h2), ja_step]
  have hn : instrs skip < 2 ^ 32 := by
    have := compile_length b _ code hc
    rw [instrs_append, instrs_cons _ rfl, instrs_append] at this
    omega
  congr 2
  rw [BitVec.toNat_ofNat, Nat.mod_eq_of_lt hn, instrs_append, instrs_cons _ rfl, hpc]
  simp only
  omega

/-- Not vacuous: a jump over one instruction. -/
example (vm : VM) := C20_jumpTo ⟨true⟩ ⟨true⟩ [] [.Return .Const 0] [.Return .Const 1] "a" (by decide) _ rfl (by decide)
  { vm with prog := _, pc := 0 } [] rfl rfl

/-- C20 (partial) for conditional jumps, taken and not taken: labels below, at most 255 instructions away. Missing: farther labels
and labels that are not below, for which it is false. -/
theorem C20_conditional_partial (b b' : Build) (pre skip target : List Operation) (l : String) (hl : Operation.Label l ∉ target)
    (c : JmpOp) (hop : c ≠ .JA) (k : BitVec 32) (other : Option String) (taken : Bool) (code : List SockFilter)
    (hc : compile b (pre ++ (if taken then .Jump c k (some l) other else .Jump c k other (some l)) :: (skip ++ .Label l :: target)) =
      .ok code)
    (hd : instrs skip ≤ 255) (vm : VM) (data : RunData) (hprog : vm.prog = code) (hpc : vm.pc = instrs pre)
    (hh : holds c vm.acc k ↔ taken = true) :
    vm.execute b' data = ({ vm with pc := instrs pre + 1 + instrs skip }, .ok none) := by
  have fst : ∀ (x y : Res Error Nat) (n : Nat) (f : Nat → Nat → SockFilter) (sf : SockFilter), x = .ok n →
      (x.bind fun lt => y.bind fun lf => .ok (f lt lf)) = .ok sf → ∃ m, sf = f n m := by
    intro x y n f sf hx h
    subst hx
    cases y with
    | ok m => simp only [Res.bind, Res.ok.injEq] at h; exact ⟨m, h.symm⟩
    | err e => simp [Res.bind] at h
    | panic => simp [Res.bind] at h
  have snd : ∀ (x y : Res Error Nat) (n : Nat) (f : Nat → Nat → SockFilter) (sf : SockFilter), y = .ok n →
      (x.bind fun lt => y.bind fun lf => .ok (f lt lf)) = .ok sf → ∃ m, sf = f m n := by
    intro x y n f sf hx h
    subst hx
    cases x with
    | ok m => simp only [Res.bind, Res.ok.injEq] at h; exact ⟨m, h.symm⟩
    | err e => simp [Res.bind] at h
    | panic => simp [Res.bind] at h
  have hmod : (BitVec.ofNat 8 (instrs skip)).toNat = instrs skip := by
    rw [BitVec.toNat_ofNat, Nat.mod_eq_of_lt (by omega)]
  cases taken with
  | true =>
    obtain ⟨sf, h1, h2⟩ := compile_get b pre _ _ rfl code hc
    simp only [toSockFilter, if_true] at h1
    obtain ⟨m, rfl⟩ := fst _ _ _ _ _ (jmpCalc_below b pre skip target (.Jump c k (some l) other) rfl l hl) h1
    rw [execute_eq b' vm data _ (by rw [hprog, hpc]; exact h2), (jump_step b' { vm with pc := vm.pc + 1 } data c hop k _ _).1 (hh.2 rfl), hmod, hpc]
  | false =>
    obtain ⟨sf, h1, h2⟩ := compile_get b pre _ _ rfl code hc
    simp only [toSockFilter, Bool.false_eq_true, if_false] at h1
    obtain ⟨m, rfl⟩ := snd _ _ _ _ _ (jmpCalc_below b pre skip target (.Jump c k other (some l)) rfl l hl) h1
    rw [execute_eq b' vm data _ (by rw [hprog, hpc]; exact h2),
      (jump_step b' { vm with pc := vm.pc + 1 } data c hop k _ _).2 (fun h => by cases hh.1 h), hmod, hpc]

/-- C20: what happens at every distance: the distance is taken modulo 256. So at 256 and more the jump never lands on its label. -/
theorem C20_distance_modulo (b b' : Build) (pre skip target : List Operation) (l : String) (hl : Operation.Label l ∉ target)
    (c : JmpOp) (hop : c ≠ .JA) (k : BitVec 32) (code : List SockFilter)
    (hc : compile b (pre ++ .Jump c k (some l) none :: (skip ++ .Label l :: target)) = .ok code)
    (vm : VM) (data : RunData) (hprog : vm.prog = code) (hpc : vm.pc = instrs pre) (hh : holds c vm.acc k) :
    vm.execute b' data = ({ vm with pc := instrs pre + 1 + instrs skip % 256 }, .ok none) := by
  obtain ⟨sf, h1, h2⟩ := compile_get b pre _ _ rfl code hc
  simp only [toSockFilter, jmpCalc_below b pre skip target (.Jump c k (some l) none) rfl l hl, Res.bind] at h1
  simp only [jmpCalc, Res.ok.injEq] at h1
  subst h1
  rw [execute_eq b' vm data _ (by rw [hprog, hpc]; exact h2), (jump_step b' { vm with pc := vm.pc + 1 } data c hop k _ _).1 hh, BitVec.toNat_ofNat, hpc]

/-- Not vacuous: a jump over one instruction, taken. -/
example (vm : VM) := C20_distance_modulo ⟨true⟩ ⟨true⟩ [] [.Return .Const 0] [.Return .Const 1] "a" (by decide) .JEQ (by decide) 7 _ rfl
  { vm with prog := _, pc := 0, acc := 7 } [] rfl rfl rfl

/-- C20: no label means the next instruction, whether the condition holds or not. -/
theorem C20_no_label (b b' : Build) (pre rest : List Operation) (c : JmpOp) (hop : c ≠ .JA) (k : BitVec 32) (code : List SockFilter)
    (hc : compile b (pre ++ .Jump c k none none :: rest) = .ok code) (vm : VM) (data : RunData) (hprog : vm.prog = code)
    (hpc : vm.pc = instrs pre) : vm.execute b' data = ({ vm with pc := instrs pre + 1 }, .ok none) := by
  obtain ⟨sf, h1, h2⟩ := compile_get b pre _ _ rfl code hc
  simp only [toSockFilter, Res.bind, jmpCalc, Res.ok.injEq] at h1
  subst h1
  rw [execute_eq b' vm data _ (by rw [hprog, hpc]; exact h2)]
  by_cases hh : holds c vm.acc k
  · rw [(jump_step b' { vm with pc := vm.pc + 1 } data c hop k _ _).1 hh]
    simp [hpc]
  · rw [(jump_step b' { vm with pc := vm.pc + 1 } data c hop k _ _).2 hh]
    simp [hpc]

/-- Not vacuous: a jump without labels. -/
example (vm : VM) := C20_no_label ⟨true⟩ ⟨true⟩ [] [.Return .Const 1] .JGT (by decide) 7 _ rfl { vm with prog := _, pc := 0 } [] rfl rfl

/-- C20: a jump to a label that is not below never lands there: a checked build does not compile it, and in an unchecked build
execution goes on further down. -/
theorem C20_backward_never_lands (b b' : Build) (before mid rest : List Operation) (l : String) (hl' : Operation.Label l ∉ rest) (op : Operation)
    (hop : op = .JumpTo l ∨ ∃ c k, c ≠ .JA ∧ op = .Jump c k (some l) (some l))
    (code : List SockFilter) (hc : compile b (before ++ .Label l :: (mid ++ op :: rest)) = .ok code)
    (vm : VM) (data : RunData) (hprog : vm.prog = code) (hpc : vm.pc = instrs before + instrs mid) :
    b.overflowChecks = false ∧ ∃ vm', vm.execute b' data = (vm', .ok none) ∧ instrs before < vm'.pc := by
  have hlab : op.isLabel = false := by
    rcases hop with rfl | ⟨c, k, -, rfl⟩ <;> rfl
  have hne : op ≠ .Label l := by
    intro h; rw [h] at hlab; cases hlab
  have e : before ++ .Label l :: (mid ++ op :: rest) = (before ++ .Label l :: mid) ++ op :: rest := by simp
  refine ⟨?_, ?_⟩
  · cases hb : b.overflowChecks with
    | false => rfl
    | true =>
      exfalso
      have h1 := (C19_success_iff b _).1 ⟨code, hc⟩ (l, rest) (by
        have key : ∀ (pre : List Operation), (l, rest) ∈ allRefs (pre ++ op :: rest) := by
          intro pre
          induction pre with
          | nil =>
            rw [List.nil_append, allRefs, List.mem_append]
            left
            rcases hop with rfl | ⟨c, k, -, rfl⟩ <;> simp [refs]
          | cons a pre ih => rw [List.cons_append, allRefs, List.mem_append]; exact .inr ih
        rw [e]
        exact key _)
      exact h1.2 hb ⟨by simp, hl'⟩
  · rw [e] at hc
    obtain ⟨sf, h1, h2⟩ := compile_get b (before ++ .Label l :: mid) rest op hlab code hc
    have hi : instrs (before ++ .Label l :: mid) = instrs before + instrs mid := by rw [instrs_append, instrs_label]
    rw [hi] at h2
    rw [execute_eq b' vm data _ (by rw [hprog, hpc]; exact h2)]
    rcases hop with rfl | ⟨c, k, hc', rfl⟩
    · simp only [toSockFilter] at h1
      cases hj : jmpCalc b (mapLabels ((before ++ .Label l :: mid) ++ .JumpTo l :: rest)) (some l) (instrs (before ++ .Label l :: mid)) with
      | err x => rw [hj] at h1; simp [Res.bind] at h1
      | panic => rw [hj] at h1; simp [Res.bind] at h1
      | ok n =>
        rw [hj] at h1
        simp only [Res.bind, Res.ok.injEq] at h1
        subst h1
        rw [ja_step]
        exact ⟨_, rfl, by simp only; omega⟩
    · simp only [toSockFilter] at h1
      cases hj : jmpCalc b (mapLabels ((before ++ .Label l :: mid) ++ .Jump c k (some l) (some l) :: rest)) (some l)
          (instrs (before ++ .Label l :: mid)) with
      | err x => rw [hj] at h1; simp [Res.bind] at h1
      | panic => rw [hj] at h1; simp [Res.bind] at h1
      | ok n =>
        rw [hj] at h1
        simp only [Res.bind, Res.ok.injEq] at h1
        subst h1
        by_cases hh : holds c vm.acc k
        · rw [(jump_step b' { vm with pc := vm.pc + 1 } data c hc' k _ _).1 hh]
          exact ⟨_, rfl, by simp only; omega⟩
        · rw [(jump_step b' { vm with pc := vm.pc + 1 } data c hc' k _ _).2 hh]
          exact ⟨_, rfl, by simp only; omega⟩

/-- Not vacuous: an unchecked build, a jump to the label just above it. -/
example (vm : VM) := C20_backward_never_lands ⟨false⟩ ⟨true⟩ [] [] [.Return .Const 1] "a" (by decide) (.JumpTo "a") (.inl rfl) _ rfl
  { vm with prog := _, pc := 0 } [] rfl rfl

/-- C20: from 256 instructions on a conditional jump misses its label. -/
theorem C20_far_misses (b b' : Build) (pre skip target : List Operation) (l : String) (hl : Operation.Label l ∉ target)
    (c : JmpOp) (hop : c ≠ .JA) (k : BitVec 32) (code : List SockFilter)
    (hc : compile b (pre ++ .Jump c k (some l) none :: (skip ++ .Label l :: target)) = .ok code) (hfar : 256 ≤ instrs skip)
    (vm : VM) (data : RunData) (hprog : vm.prog = code) (hpc : vm.pc = instrs pre) (hh : holds c vm.acc k) :
    ∃ vm', vm.execute b' data = (vm', .ok none) ∧ vm'.pc < instrs pre + 1 + instrs skip := by
  refine ⟨_, C20_distance_modulo b b' pre skip target l hl c hop k code hc vm data hprog hpc hh, ?_⟩
  have := Nat.mod_lt (instrs skip) (y := 256) (by omega)
  simp only
  omega

/-- A conditional jump over `n` instructions. -/
def farSkip (n : Nat) : List Operation := List.replicate n (.Load .IMM 1)

theorem instrs_farSkip (n : Nat) : instrs (farSkip n) = n := by
  unfold farSkip
  induction n with
  | zero => rfl
  | succ n ih => rw [List.replicate_succ, instrs_cons _ rfl, ih]

theorem farSkip_compiles (b : Build) (n : Nat) :
    ∃ code, compile b ([] ++ .Jump .JEQ 0 (some "far") none :: (farSkip n ++ .Label "far" :: [.Return .Const 7])) = .ok code := by
  apply C19_success_below
  intro r hr
  have h0 : ∀ n, allRefs (farSkip n ++ [.Label "far", .Return .Const 7]) = [] := by
    intro n
    induction n with
    | zero => rfl
    | succ n ih =>
      unfold farSkip at ih ⊢
      rw [List.replicate_succ, List.cons_append, allRefs, ih]
      rfl
  rw [List.nil_append, allRefs, h0] at hr
  simp only [refs, Option.toList, List.append_nil, List.map_cons, List.map_nil, List.mem_singleton] at hr
  subst hr
  simp

/-- Not vacuous: a jump over 300 instructions. -/
example (vm : VM) (h : vm.acc = 0) : ∃ code, (vm.prog = code → vm.pc = 0 →
    ∃ vm', vm.execute ⟨true⟩ [] = (vm', .ok none) ∧ vm'.pc < instrs ([] : List Operation) + 1 + instrs (farSkip 300)) := by
  obtain ⟨code, hc⟩ := farSkip_compiles ⟨true⟩ 300
  exact ⟨code, fun h1 h2 => C20_far_misses ⟨true⟩ ⟨true⟩ [] (farSkip 300) [.Return .Const 7] "far" (by simp) .JEQ (by decide) 0 code hc
    (by rw [instrs_farSkip]; omega) vm [] h1 h2 (by simp [holds, h])⟩

theorem C20_false_far : ¬ C20_full := by
  intro h
  obtain ⟨n, hn⟩ : ∃ n, n = 256 := ⟨_, rfl⟩
  obtain ⟨code, hc⟩ := farSkip_compiles ⟨true⟩ n
  have hlen := compile_length _ _ _ hc
  rw [List.nil_append, instrs_cons _ rfl, instrs_append, instrs_farSkip, instrs_label] at hlen
  have h1 := h ⟨true⟩ ⟨true⟩ [] (farSkip n ++ .Label "far" :: [.Return .Const 7])
    (.Jump .JEQ 0 (some "far") none :: farSkip n) [.Return .Const 7]
    (.Jump .JEQ 0 (some "far") none) "far" code
    ⟨0, 0, 0, Vector.replicate MEMSIZE 0, code⟩ [] (.inr ⟨.JEQ, 0, none, by decide, rfl, rfl⟩) (by simp) (by simp)
    hc
    (by rw [hlen, hn]; decide) rfl rfl
  obtain ⟨vm', h2, h3⟩ := C20_far_misses ⟨true⟩ ⟨true⟩ [] (farSkip n) [.Return .Const 7] "far" (by simp) .JEQ (by decide) 0
    code hc (by rw [instrs_farSkip, hn]; omega) ⟨0, 0, 0, Vector.replicate MEMSIZE 0, code⟩ [] rfl rfl rfl
  rw [h1] at h2
  simp only [Prod.mk.injEq, and_true] at h2
  rw [← h2, instrs_farSkip] at h3
  simp only [instrs_cons _ (show (Operation.Jump .JEQ 0 (some "far") none).isLabel = false from rfl), instrs_farSkip] at h3
  simp [instrs] at h3
  omega

/-- The hypotheses of `C20_conditional_partial` are met by a jump over 255 instructions. -/
example : ∃ code, compile ⟨true⟩ ([] ++ .Jump .JEQ 0 (some "far") none :: (farSkip 255 ++ .Label "far" :: [.Return .Const 7])) = .ok code ∧
    ∀ vm : VM, vm.prog = code → vm.pc = 0 → vm.acc = 0 → ∀ data, vm.execute ⟨true⟩ data = ({ vm with pc := 256 }, .ok none) := by
  obtain ⟨code, hc⟩ := farSkip_compiles ⟨true⟩ 255
  refine ⟨code, hc, fun vm h1 h2 h3 data => ?_⟩
  have := C20_conditional_partial ⟨true⟩ ⟨true⟩ [] (farSkip 255) [.Return .Const 7] "far" (by simp) .JEQ (by decide) 0 none true code
    (by rw [if_pos rfl]; exact hc)
    (by rw [instrs_farSkip]; omega) vm data h1 h2 (by simp [holds, h3])
  rw [this, instrs_farSkip]
  rfl

/-! ## C21 -/

/-- C21: a well-formed program compiles, and running it on the VM gives exactly what the label-level reading gives, for every data
and in both build modes (of the compiler and of the VM). `SrcRun` knows nothing of instruction words, offsets or the VM. -/
theorem C21_source_semantics (b : Build) (prog : List Operation) (h : WellFormed prog) :
    ∃ code, compile b prog = .ok code ∧ (code.length ≤ 65535 → ∀ b' data r, runProg b' code data = some r ↔
      SrcRun b' data prog prog St.init r) := by
  obtain ⟨code, hc⟩ := compile_wellFormed b prog h
  refine ⟨code, hc, fun hlen b' data r => ?_⟩
  have key : ∀ r, SrcRun b' data prog prog St.init r → runProg b' code data = some r := by
    intro r hr
    unfold runProg VM.new
    rw [if_neg (by omega)]
    exact srcRun_loop b' b prog h code hc (by omega) data prog St.init r hr [] rfl _ rfl rfl
      ⟨rfl, rfl, fun j hj => by simp [VM.reset, St.init]⟩
  constructor
  · intro hr
    obtain ⟨r', hr'⟩ := srcRun_exists b' data prog h prog.length [] prog (Nat.le_refl _) rfl St.init
    have := key r' hr'
    rw [hr, Option.some.injEq] at this
    rwa [this]
  · exact key r

/-- C21: the label-level reading of a well-formed program has exactly one result. -/
theorem C21_source_deterministic (b : Build) (prog : List Operation) (h : WellFormed prog) (hlen : instrs prog ≤ 65535) (data : RunData) :
    ∃ r, SrcRun b data prog prog St.init r ∧ ∀ r', SrcRun b data prog prog St.init r' → r' = r := by
  obtain ⟨code, hc, h1⟩ := C21_source_semantics b prog h
  obtain ⟨r, hr⟩ := srcRun_exists b data prog h prog.length [] prog (Nat.le_refl _) rfl St.init
  refine ⟨r, hr, fun r' hr' => ?_⟩
  have hl : code.length ≤ 65535 := by rw [compile_length b prog code hc]; exact hlen
  have e1 := (h1 hl b data r).2 hr
  have e2 := (h1 hl b data r').2 hr'
  rw [e1, Option.some.injEq] at e2
  exact e2.symm

/-- C21 for programs too long for the VM: the error the VM gives. -/
theorem C21_too_long (b b' : Build) (prog : List Operation) (code : List SockFilter) (hc : compile b prog = .ok code)
    (hlen : 65535 < instrs prog) (data : RunData) :
    runProg b' code data = some (.err (.ProgramTooLong (instrs prog))) := by
  rw [← compile_length b prog code hc] at hlen ⊢
  unfold runProg VM.new
  rw [if_pos (by omega)]

/-- Not vacuous: more than 65536 instructions. -/
example : ∃ prog code, compile ⟨true⟩ prog = .ok code ∧ 65535 < instrs prog := by
  obtain ⟨code, hc⟩ := farSkip_compiles ⟨true⟩ 65536
  refine ⟨_, code, hc, ?_⟩
  rw [List.nil_append, instrs_cons _ rfl, instrs_append, instrs_farSkip]
  omega

/-- A program with a two-way branch, a loop-free join, memory and arithmetic. -/
def sampleSource : List Operation :=
  [.Load .ABS 0, .Jump .JGT 10 (some "big") none, .Alu .ADD .Const 100, .JumpTo "out", .Label "big", .Store .MEM 3, .LoadIdx .MEM 3,
   .Alu .MUL .Idx 0, .Label "out", .Return .Acc 0]

/-- It is well-formed, and on 20 the label-level reading gives 400. -/
example : WellFormed sampleSource ∧ ∀ b, SrcRun b [20] sampleSource sampleSource St.init (.ok 400) := by
  constructor
  · intro pre op rest h
    have hpre : pre.length < 10 := by
      have := congrArg List.length h
      simp only [sampleSource, List.length_append, List.length_cons, List.length_nil] at this
      omega
    have e1 : op = sampleSource[pre.length]'hpre := by simp [h]
    have e2 : rest = sampleSource.drop (pre.length + 1) := by rw [h]; simp
    revert e1 e2
    generalize pre.length = n at hpre
    intro e1 e2
    subst e1 e2
    have : n = 0 ∨ n = 1 ∨ n = 2 ∨ n = 3 ∨ n = 4 ∨ n = 5 ∨ n = 6 ∨ n = 7 ∨ n = 8 ∨ n = 9 := by omega
    rcases this with rfl | rfl | rfl | rfl | rfl | rfl | rfl | rfl | rfl | rfl
    · exact True.intro
    · exact ⟨by decide, fun l hl => ⟨[.Alu .ADD .Const 100, .JumpTo "out"],
        [.Store .MEM 3, .LoadIdx .MEM 3, .Alu .MUL .Idx 0, .Label "out", .Return .Acc 0],
        by cases hl; rfl, by cases hl; decide, by decide⟩, fun l hl => by cases hl⟩
    · exact fun h => by cases h
    · exact ⟨3, [.Label "big", .Store .MEM 3, .LoadIdx .MEM 3, .Alu .MUL .Idx 0], [.Return .Acc 0], rfl, by decide, by decide⟩
    · exact True.intro
    · exact True.intro
    · exact ⟨by decide, by decide⟩
    · exact fun h => by cases h
    · exact True.intro
    · exact True.intro
  · intro b
    refine .plain _ _ _ ⟨20, 0, fun _ => 0⟩ _ rfl rfl ?_
    refine .taken _ _ _ _ _ [.Store .MEM 3, .LoadIdx .MEM 3, .Alu .MUL .Idx 0, .Label "out", .Return .Acc 0] _ _ (by simp [holds])
      ⟨⟨[.Load .ABS 0, .Jump .JGT 10 (some "big") none, .Alu .ADD .Const 100, .JumpTo "out"], rfl⟩, by decide⟩ ?_
    refine .plain _ _ _ ⟨20, 0, fun j => if j.val = 3 then 20 else 0⟩ _ rfl rfl ?_
    refine .plain _ _ _ ⟨20, 20, fun j => if j.val = 3 then 20 else 0⟩ _ rfl rfl ?_
    refine .plain _ _ _ ⟨400, 20, fun j => if j.val = 3 then 20 else 0⟩ _ rfl ?_ ?_
    · have : arith b .MUL 20 20 = some 400 := by
        cases b with
        | mk c => cases c <;> decide +kernel
      simp only [effect, St.src, this, Option.map_some]
    refine .label _ _ _ _ ?_
    exact .ret .Acc 0 _ _

/-! ## C22 -/

theorem jmpCalc_congr (b : Build) (l1 l2 : Labels) (h : ∀ l, l1.get l = l2.get l) (lab : Option String) (n : Nat) :
    jmpCalc b l1 lab n = jmpCalc b l2 lab n := by
  cases lab with
  | none => rfl
  | some l => simp only [jmpCalc]; rw [h l]

theorem toSockFilter_congr (b : Build) (l1 l2 : Labels) (h : ∀ l, l1.get l = l2.get l) (n : Nat) (op : Operation) :
    toSockFilter b n op l1 = toSockFilter b n op l2 := by
  cases op <;> simp only [toSockFilter, jmpCalc_congr b l1 l2 h]

theorem emit_congr (b : Build) (l1 l2 : Labels) (h : ∀ l, l1.get l = l2.get l) (n : Nat) (ops : List Operation) :
    emit b l1 n ops = emit b l2 n ops := by
  induction ops generalizing n with
  | nil => rfl
  | cons op ops ih => simp only [emit, toSockFilter_congr b l1 l2 h, ih]

/-- C22: all definitions of a label but the last can be deleted without changing the outcome of the assembler. -/
theorem C22_last_definition (b : Build) (pre mid post : List Operation) (l : String) :
    compile b (pre ++ .Label l :: (mid ++ .Label l :: post)) = compile b (pre ++ (mid ++ .Label l :: post)) := by
  unfold compile
  have e : (pre ++ .Label l :: (mid ++ .Label l :: post)).filter (fun op => !op.isLabel) =
      (pre ++ (mid ++ .Label l :: post)).filter (fun op => !op.isLabel) := by
    simp [Operation.isLabel]
  rw [e]
  apply emit_congr
  intro x
  by_cases hx : Operation.Label x ∈ mid ++ .Label l :: post
  · obtain ⟨p, r, h1, h2⟩ := last_def _ _ hx
    rw [h1, show pre ++ .Label l :: (p ++ .Label x :: r) = (pre ++ .Label l :: p) ++ .Label x :: r by simp,
      show pre ++ (p ++ .Label x :: r) = (pre ++ p) ++ .Label x :: r by simp, mapLabels_last _ _ _ h2, mapLabels_last _ _ _ h2,
      instrs_append, instrs_append, instrs_label]
  · have hne : x ≠ l := fun h => hx (by subst h; simp)
    by_cases hp : Operation.Label x ∈ pre
    · obtain ⟨p, r, h1, h2⟩ := last_def _ _ hp
      have n1 : Operation.Label x ∉ r ++ .Label l :: (mid ++ .Label l :: post) := by
        simp only [List.mem_append, List.mem_cons, not_or] at hx ⊢
        exact ⟨h2, fun h => hne (by injection h), hx⟩
      have n2 : Operation.Label x ∉ r ++ (mid ++ .Label l :: post) := by
        simp only [List.mem_append, List.mem_cons, not_or] at hx ⊢
        exact ⟨h2, hx⟩
      rw [h1, show p ++ .Label x :: r ++ .Label l :: (mid ++ .Label l :: post) =
          p ++ .Label x :: (r ++ .Label l :: (mid ++ .Label l :: post)) by simp,
        show p ++ .Label x :: r ++ (mid ++ .Label l :: post) = p ++ .Label x :: (r ++ (mid ++ .Label l :: post)) by simp,
        mapLabels_last _ _ _ n1, mapLabels_last _ _ _ n2]
    · rw [(mapLabels_none _ _).2, (mapLabels_none _ _).2]
      · simp only [List.mem_append, not_or] at hx ⊢
        exact ⟨hp, hx⟩
      · simp only [List.mem_append, List.mem_cons, not_or] at hx ⊢
        exact ⟨hp, fun h => hne (by injection h), hx⟩

/-- C22: deleting the *last* definition instead is not harmless. -/
example : compile ⟨true⟩ [.JumpTo "a", .Label "a", .Return .Const 1, .Label "a", .Return .Const 2] ≠
    compile ⟨true⟩ [.JumpTo "a", .Label "a", .Return .Const 1, .Return .Const 2] := by decide +kernel

/-! ## C23 -/

/-- What the seven constructors of instruction words can be called with. -/
inductive Insn where
  | LD (mode : Mode) (v : BitVec 32)
  | LDX (mode : Mode) (v : BitVec 32)
  | ST (mode : Mode) (v : BitVec 32)
  | STX (mode : Mode) (v : BitVec 32)
  | ALU (op : AluOp) (src : Src) (v : BitVec 32)
  | RET (src : Src) (v : BitVec 32)
  | JMP (op : JmpOp) (k : BitVec 32) (jt jf : BitVec 8)
  deriving DecidableEq

/-- The word the constructor returns. -/
def Insn.encode : Insn → SockFilter
  | .LD m v => bpf_ld m v
  | .LDX m v => bpf_ldx m v
  | .ST m v => bpf_st m v
  | .STX m v => bpf_stx m v
  | .ALU op src v => bpf_alu op src v
  | .RET src v => bpf_ret src v
  | .JMP op k jt jf => bpf_jmp op k jt jf

/-- Full claim of C23, first half. -/
def C23_injective_full : Prop := ∀ i j : Insn, i.encode = j.encode → i = j

/-- The constructor calls without those that name the accumulator as operand of an arithmetic instruction. -/
def Insn.regular : Insn → Bool
  | .ALU _ .Acc _ => false
  | _ => true

/-- Left inverse of `encode` on regular calls. -/
def Insn.table (v : BitVec 32) (jt jf : BitVec 8) : List Insn :=
  [.LD .IMM v, .LD .ABS v, .LD .IND v, .LD .MEM v, .LD .LEN v, .LDX .IMM v, .LDX .ABS v, .LDX .IND v, .LDX .MEM v, .LDX .LEN v,
   .ST .IMM v, .ST .ABS v, .ST .IND v, .ST .MEM v, .ST .LEN v, .STX .IMM v, .STX .ABS v, .STX .IND v, .STX .MEM v, .STX .LEN v] ++
  ([AluOp.ADD, .SUB, .MUL, .DIV, .OR, .AND, .LSH, .RSH, .MOD, .XOR].flatMap fun op => [.ALU op .Const v, .ALU op .Idx v]) ++
  [.RET .Const v, .RET .Idx v, .RET .Acc v, .JMP .JA v jt jf, .JMP .JEQ v jt jf, .JMP .JGT v jt jf, .JMP .JGE v jt jf, .JMP .JSET v jt jf]

def Insn.decode (w : SockFilter) : Option Insn := (Insn.table w.k w.jt w.jf).find? fun i => i.encode.code == w.code

theorem Insn.decode_encode (i : Insn) (h : i.regular = true) : Insn.decode i.encode = some i := by
  cases i with
  | ALU op src v => cases src <;> first | (cases h; done) | (cases op <;> rfl)
  | RET src v => cases src <;> rfl
  | JMP op k jt jf => cases op <;> rfl
  | _ m v => cases m <;> rfl

/-- C23 (partial): different constructor calls give different words, for all operands. Missing: arithmetic on the accumulator,
for which it is false. -/
theorem C23_injective_partial (i j : Insn) (hi : i.regular = true) (hj : j.regular = true) (h : i.encode = j.encode) : i = j := by
  have h1 := Insn.decode_encode i hi
  rw [h, Insn.decode_encode j hj, Option.some.injEq] at h1
  exact h1.symm

/-- Not vacuous: an addition of 5 is regular. -/
example := C23_injective_partial (.ALU .ADD .Const 5) (.ALU .ADD .Const 5) rfl rfl rfl

/-- C23: "add the accumulator" is encoded as "subtract the constant", for every constant. -/
theorem C23_injective_false : (∀ v, bpf_alu .ADD .Acc v = bpf_alu .SUB .Const v) ∧ ¬ C23_injective_full :=
  ⟨fun _ => rfl, fun h => by cases h (.ALU .ADD .Acc 0) (.ALU .SUB .Const 0) rfl⟩

/-- C23: what arithmetic on the accumulator is encoded as: always arithmetic with the constant; `ADD`, `MUL`, `OR` and `LSH` become
`SUB`, `DIV`, `AND` and `RSH`. -/
theorem C23_acc_collides (v : BitVec 32) :
    bpf_alu .ADD .Acc v = bpf_alu .SUB .Const v ∧ bpf_alu .SUB .Acc v = bpf_alu .SUB .Const v ∧
    bpf_alu .MUL .Acc v = bpf_alu .DIV .Const v ∧ bpf_alu .DIV .Acc v = bpf_alu .DIV .Const v ∧
    bpf_alu .OR .Acc v = bpf_alu .AND .Const v ∧ bpf_alu .AND .Acc v = bpf_alu .AND .Const v ∧
    bpf_alu .LSH .Acc v = bpf_alu .RSH .Const v ∧ bpf_alu .RSH .Acc v = bpf_alu .RSH .Const v ∧
    bpf_alu .MOD .Acc v = bpf_alu .MOD .Const v := ⟨rfl, rfl, rfl, rfl, rfl, rfl, rfl, rfl, rfl⟩

/-- C23: `XOR` with the accumulator is refused by the VM. -/
theorem C23_xor_acc (b : Build) (vm : VM) (data : RunData) (v : BitVec 32) :
    vm.executeInstr b data (bpf_alu .XOR .Acc v) = (vm, .err (.UnknownInstruction 4#16)) := by
  have : bpf_alu .XOR .Acc v = ⟨0xb4#16, 0, 0, v⟩ := rfl
  rw [this]
  simp only [executeInstr_eq, aluValue_eq, fetchSrc_eq, BitVec.reduceAnd, BitVec.reduceEq, reduceIte]

/-- Registers and memory of a VM. -/
def stOf (vm : VM) : St := ⟨vm.acc, vm.idx, fun j => vm.mem[j.val]'j.isLt⟩

theorem rel_stOf (vm : VM) : Rel vm (stOf vm) := ⟨rfl, rfl, fun _ _ => rfl⟩

theorem stOf_rel (vm : VM) (s : St) (h : Rel vm s) : stOf vm = s := by
  cases s with
  | mk a i m =>
    simp only [stOf, St.mk.injEq]
    exact ⟨h.acc, h.idx, funext fun j => h.mem j.val j.isLt⟩

/-- Full claim of C23, second half: executing the word of a load, store or arithmetic operation does to registers and memory what
the operation names (`effect`), and panics where that has no result. -/
def C23_decode_full : Prop := ∀ (op : Operation) (_ : isPlain op = true) (b b' : Build) (vm : VM) (data : RunData), ∃ w,
  compile b' [op] = .ok [w] ∧ match effect b data (stOf vm) op with
    | some s' => ∃ vm', vm.executeInstr b data w = (vm', .ok none) ∧ vm'.pc = vm.pc ∧ vm'.prog = vm.prog ∧ stOf vm' = s'
    | none => vm.executeInstr b data w = (vm, .panic)

theorem compile_plain (b : Build) (op : Operation) (h : isPlain op = true) : compile b [op] = .ok [word op] := by
  have hl : op.isLabel = false := by cases op <;> first | rfl | cases h
  simp only [compile, List.filter_cons, hl, List.filter_nil, Bool.not_false, if_true, emit, toSockFilter_plain b _ op _ h, Res.bind]

/-- C23 (partial): for all operations but arithmetic on the accumulator and data loads into the index register. -/
theorem C23_decode_partial (op : Operation) (hp : isPlain op = true) (ho : OpOK [] op) (b b' : Build) (vm : VM) (data : RunData) : ∃ w,
    compile b' [op] = .ok [w] ∧ match effect b data (stOf vm) op with
      | some s' => ∃ vm', vm.executeInstr b data w = (vm', .ok none) ∧ vm'.pc = vm.pc ∧ vm'.prog = vm.prog ∧ stOf vm' = s'
      | none => vm.executeInstr b data w = (vm, .panic) := by
  refine ⟨word op, compile_plain b' op hp, ?_⟩
  have h := plain_step b vm data (stOf vm) (rel_stOf vm) op [] hp ho
  cases he : effect b data (stOf vm) op with
  | none => rw [he] at h; exact h
  | some s' =>
    rw [he] at h
    obtain ⟨vm', h1, h2, h3, h4⟩ := h
    exact ⟨vm', h1, h2, h3, stOf_rel vm' s' h4⟩

/-- C23: a return gives the operand it names, for all three kinds of operands. -/
theorem C23_decode_return (src : Src) (v : BitVec 32) (b b' : Build) (vm : VM) (data : RunData) : ∃ w,
    compile b' [.Return src v] = .ok [w] ∧ vm.executeInstr b data w = (vm, .ok (some ((stOf vm).src src v))) :=
  ⟨bpf_ret src v, rfl, ret_step b vm data (stOf vm) (rel_stOf vm) src v⟩

/-- C23: a conditional jump tests the condition it names. -/
theorem C23_decode_jump (op : JmpOp) (hop : op ≠ .JA) (k : BitVec 32) (jt jf : BitVec 8) (b : Build) (vm : VM) (data : RunData) :
    (holds op vm.acc k → vm.executeInstr b data (bpf_jmp op k jt jf) = ({ vm with pc := vm.pc + jt.toNat }, .ok none)) ∧
    (¬ holds op vm.acc k → vm.executeInstr b data (bpf_jmp op k jt jf) = ({ vm with pc := vm.pc + jf.toNat }, .ok none)) :=
  jump_step b vm data op hop k jt jf

/-- Not vacuous: JEQ is not JA. -/
example (vm : VM) := C23_decode_jump .JEQ (by decide) 7 1 2 ⟨true⟩ vm []

/-- C23: `JA` written as a conditional jump ignores its labels and jumps as far as its constant says. -/
theorem C23_decode_ja (k : BitVec 32) (jt jf : BitVec 8) (b : Build) (vm : VM) (data : RunData) :
    vm.executeInstr b data (bpf_jmp .JA k jt jf) = ({ vm with pc := vm.pc + k.toNat }, .ok none) := ja_step b vm data k jt jf

/-- C23: the VM refuses data loads into the index register, although the constructor encodes them. -/
theorem C23_ldx_refused (b : Build) (vm : VM) (data : RunData) (v : BitVec 32) :
    vm.executeInstr b data (bpf_ldx .ABS v) = (vm, .err (.InvalidInstructionCode 0x21#16)) ∧
    vm.executeInstr b data (bpf_ldx .IND v) = (vm, .err (.InvalidInstructionCode 0x41#16)) := by
  have h1 : bpf_ldx .ABS v = ⟨0x21#16, 0, 0, v⟩ := rfl
  have h2 : bpf_ldx .IND v = ⟨0x41#16, 0, 0, v⟩ := rfl
  rw [h1, h2]
  simp only [executeInstr_eq, ldxValue_eq, BitVec.reduceAnd, BitVec.reduceEq, reduceIte, and_self]

theorem C23_decode_false : ¬ C23_decode_full := by
  intro h
  obtain ⟨w, h1, h2⟩ := h (.LoadIdx .ABS 0) rfl ⟨true⟩ ⟨true⟩ ⟨0, 0, 0, Vector.replicate MEMSIZE 0, []⟩ [1]
  have : w = bpf_ldx .ABS 0 := by
    have h3 : compile ⟨true⟩ [.LoadIdx .ABS 0] = .ok [bpf_ldx .ABS 0] := rfl
    rw [h3] at h1
    simp only [Res.ok.injEq, List.cons.injEq, and_true] at h1
    exact h1.symm
  subst this
  rw [(C23_ldx_refused _ _ _ _).1] at h2
  simp [effect, loaded, wordAt] at h2

/-- The hypotheses of `C23_decode_partial` are met; adding 5 to the accumulator. -/
example (b : Build) (vm : VM) (data : RunData) (h : vm.acc = 7) : ∃ w vm', compile b [.Alu .ADD .Const 5] = .ok [w] ∧
    vm.executeInstr b data w = (vm', .ok none) ∧ vm'.acc = 12 := by
  obtain ⟨w, h1, h2⟩ := C23_decode_partial (.Alu .ADD .Const 5) rfl (by simp [OpOK]) b b vm data
  have he : effect b data (stOf vm) (.Alu .ADD .Const 5) = some { stOf vm with acc := 12 } := by
    have : arith b .ADD 7 5 = some 12 := by
      cases b with
      | mk c => cases c <;> decide +kernel
    simp only [effect, St.src, stOf, h, this, Option.map_some]
  rw [he] at h2
  obtain ⟨vm', h3, -, -, h4⟩ := h2
  exact ⟨w, vm', h1, h3, congrArg St.acc h4⟩

end Props
