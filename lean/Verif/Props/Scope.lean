import Verif.Spec.Scope
import Verif.Proofs.Asm
import Verif.Proofs.Prog

/-!
# C99: labels are local names, and assembled code can be put one behind the other
-/
set_option autoImplicit false

namespace Props
open Bpfvm Spec

/-! ## Lemmas -/

theorem usizeSub_shift (b : Build) (x y k : Nat) : usizeSub b (x + k) (y + k) = usizeSub b x y := by
  unfold usizeSub
  by_cases h : y ≤ x
  · rw [if_pos h, if_pos (by omega)]; congr 1; omega
  · rw [if_neg h, if_neg (by omega)]
    split
    · rfl
    · congr 1; omega

/-- The outcome with the label renamed, for any result. -/
def renameRes {α : Type} (f : String → String) : Res Error α → Res Error α
  | .err (.UnknownLabelReference l) => .err (.UnknownLabelReference (f l))
  | r => r

theorem usizeSub_renameRes (b : Build) (x y : Nat) (f : String → String) : renameRes f (usizeSub b x y) = usizeSub b x y := by
  unfold usizeSub; repeat' split
  all_goals rfl

theorem renameRes_bind {α β : Type} (f : String → String) (r : Res Error α) (g : α → Res Error β) :
    renameRes f (r.bind g) = (renameRes f r).bind fun a => renameRes f (g a) := by
  cases r with
  | ok a => rfl
  | panic => rfl
  | err e => cases e <;> rfl

theorem jmpCalc_move (b : Build) (L1 L2 : Labels) (f : String → String) (k n : Nat) (lab : Option String)
    (h : ∀ l ∈ lab, L1.get (f l) = (L2.get l).map (· + k)) :
    jmpCalc b L1 (lab.map f) (n + k) = renameRes f (jmpCalc b L2 lab n) := by
  cases lab with
  | none => rfl
  | some l =>
    simp only [jmpCalc, Option.map_some]
    rw [h l rfl]
    cases hl : L2.get l with
    | none => rfl
    | some off =>
      simp only [Option.map_some]
      rw [usizeSub_shift, renameRes_bind, usizeSub_renameRes]
      congr 1; funext d; rw [usizeSub_renameRes]

theorem toSockFilter_move (b : Build) (L1 L2 : Labels) (f : String → String) (k n : Nat) (op : Operation)
    (h : ∀ l ∈ refs op, L1.get (f l) = (L2.get l).map (· + k)) :
    toSockFilter b (n + k) (renameOp f op) L1 = renameRes f (toSockFilter b n op L2) := by
  cases op with
  | JumpTo l =>
    have := jmpCalc_move b L1 L2 f k n (some l) (fun l' hl => h l' (by simpa [refs] using hl.symm))
    simp only [Option.map_some] at this
    simp only [toSockFilter, renameOp, this, renameRes_bind]
    rfl
  | Jump op cmp lt lf =>
    have h1 := jmpCalc_move b L1 L2 f k n lt (fun l' hl => h l' (by simp [refs]; exact .inl hl))
    have h2 := jmpCalc_move b L1 L2 f k n lf (fun l' hl => h l' (by simp [refs]; exact .inr hl))
    simp only [toSockFilter, renameOp, h1, h2, renameRes_bind]
    rfl
  | _ => rfl

theorem emit_move (b : Build) (L1 L2 : Labels) (f : String → String) (k n : Nat) (ops : List Operation)
    (h : ∀ op ∈ ops, ∀ l ∈ refs op, L1.get (f l) = (L2.get l).map (· + k)) :
    emit b L1 (n + k) (renameSrc f ops) = renameRes f (emit b L2 n ops) := by
  induction ops generalizing n with
  | nil => rfl
  | cons op ops ih =>
    have e := toSockFilter_move b L1 L2 f k n op (h op (List.mem_cons_self ..))
    have i := ih (n + 1) (fun o ho => h o (List.mem_cons_of_mem _ ho))
    rw [show n + 1 + k = n + k + 1 by omega] at i
    unfold renameSrc at i ⊢
    simp only [List.map_cons, emit, e, i, renameRes_bind]
    rfl

theorem emit_append (b : Build) (L : Labels) (n : Nat) (a c : List Operation) :
    emit b L n (a ++ c) = thenAlso (emit b L n a) (emit b L (n + a.length) c) := by
  induction a generalizing n with
  | nil =>
    simp only [List.nil_append, List.length_nil, Nat.add_zero, emit]
    cases emit b L n c <;> rfl
  | cons op a ih =>
    simp only [List.cons_append, emit, ih, List.length_cons, show n + (a.length + 1) = n + 1 + a.length by omega]
    cases toSockFilter b n op L with
    | ok sf =>
      simp only [Res.bind]
      cases emit b L (n + 1) a with
      | ok p => cases emit b L (n + 1 + a.length) c <;> rfl
      | err e => rfl
      | panic => rfl
    | err e => rfl
    | panic => rfl

theorem renameSrc_id (x : List Operation) : renameSrc id x = x := by
  unfold renameSrc
  rw [show renameOp id = id from ?_, List.map_id]
  funext op
  cases op <;> simp [renameOp]

theorem renameRes_id {α : Type} (r : Res Error α) : renameRes id r = r := by
  cases r with
  | ok a => rfl
  | panic => rfl
  | err e => cases e <;> rfl

theorem renameRes_out (f : String → String) (r : Res Error (List SockFilter)) : renameRes f r = renameOut f r := by
  cases r with
  | ok a => rfl
  | panic => rfl
  | err e => cases e <;> rfl

theorem mapLabels_append_right (x y : List Operation) (l : String) (h : .Label l ∈ y) :
    (mapLabels (x ++ y)).get l = ((mapLabels y).get l).map (· + instrs x) := by
  obtain ⟨p, r, rfl, hr⟩ := last_def y l h
  rw [← List.append_assoc, mapLabels_last _ _ _ hr, mapLabels_last _ _ _ hr, instrs_append, Option.map_some, Nat.add_comm]

theorem mapLabels_append_left (x y : List Operation) (l : String) (h : .Label l ∉ y) :
    (mapLabels (x ++ y)).get l = (mapLabels x).get l := by
  by_cases hx : Operation.Label l ∈ x
  · obtain ⟨p, r, rfl, hr⟩ := last_def x l hx
    rw [List.append_assoc, List.cons_append, mapLabels_last _ _ _ (by simp [hr, h]), mapLabels_last _ _ _ hr]
  · rw [(mapLabels_none x l).2 hx, (mapLabels_none _ l).2 (by simp [hx, h])]

theorem mem_filter_ops {x : List Operation} {op : Operation} (h : op ∈ x.filter fun op => !op.isLabel) : op ∈ x :=
  (List.mem_filter.1 h).1

theorem label_mem_rename (f : String → String) (x : List Operation) (l : String) (hf : ∀ l', NamesLabel x l' → f l' = f l → l' = l) :
    .Label (f l) ∈ renameSrc f x ↔ .Label l ∈ x := by
  unfold renameSrc
  rw [List.mem_map]
  constructor
  · rintro ⟨op, ho, he⟩
    cases op <;> simp only [renameOp, reduceCtorEq] at he
    rename_i l'
    injection he with he
    rw [← hf l' (.inl ho) he]; exact ho
  · exact fun h => ⟨_, h, rfl⟩

theorem isLabel_rename (f : String → String) (op : Operation) : (renameOp f op).isLabel = op.isLabel := by cases op <;> rfl

theorem instrs_rename (f : String → String) (x : List Operation) : instrs (renameSrc f x) = instrs x := by
  unfold instrs renameSrc
  rw [List.filter_map, List.length_map]
  congr 2; funext op; simp [isLabel_rename]

theorem mapLabels_rename (f : String → String) (x : List Operation) (l : String) (hf : ∀ l', NamesLabel x l' → f l' = f l → l' = l) :
    (mapLabels (renameSrc f x)).get (f l) = (mapLabels x).get l := by
  by_cases hx : Operation.Label l ∈ x
  · obtain ⟨p, r, rfl, hr⟩ := last_def x l hx
    have : Operation.Label (f l) ∉ renameSrc f r := by
      rw [label_mem_rename f r l]
      · exact hr
      · intro l' hm; apply hf
        rcases hm with hm | ⟨op, ho, hl⟩
        · exact .inl (by simp [hm])
        · exact .inr ⟨op, by simp [ho], hl⟩
    rw [show renameSrc f (p ++ .Label l :: r) = renameSrc f p ++ .Label (f l) :: renameSrc f r by simp [renameSrc, renameOp],
      mapLabels_last _ _ _ this, mapLabels_last _ _ _ hr, instrs_rename]
  · rw [(mapLabels_none x l).2 hx, (mapLabels_none _ _).2]
    rw [label_mem_rename f x l hf]; exact hx

/-! ## C99 -/

/-- C99: the names of labels do not matter. Renaming the labels of a source so that different ones stay different gives the same
instructions, or the same failure about the renamed label. -/
theorem C99_rename (b : Build) (f : String → String) (x : List Operation)
    (hf : ∀ l l', NamesLabel x l → NamesLabel x l' → f l = f l' → l = l') :
    compile b (renameSrc f x) = renameOut f (compile b x) := by
  have e : (renameSrc f x).filter (fun op => !op.isLabel) = renameSrc f (x.filter fun op => !op.isLabel) := by
    unfold renameSrc
    rw [List.filter_map]
    congr 2; funext op; simp [isLabel_rename]
  have := emit_move b (mapLabels (renameSrc f x)) (mapLabels x) f 0 0 (x.filter fun op => !op.isLabel) (by
    intro op ho l hl
    rw [mapLabels_rename]
    · cases (mapLabels x).get l <;> rfl
    · intro l' hm he
      exact hf l' l hm (.inr ⟨op, mem_filter_ops ho, hl⟩) he)
  unfold compile
  rw [e, ← renameRes_out]; exact this

/-- C99: two sources one behind the other assemble to the instructions of the first followed by those of the second, and fail as
the first of them that fails, when the first jumps to no label defined in the second and the second to no label defined only in
the first. -/
theorem C99_append (b : Build) (x y : List Operation)
    (hx : ∀ op ∈ x, ∀ l ∈ refs op, .Label l ∉ y)
    (hy : ∀ op ∈ y, ∀ l ∈ refs op, .Label l ∈ x → .Label l ∈ y) :
    compile b (x ++ y) = thenAlso (compile b x) (compile b y) := by
  unfold compile
  rw [List.filter_append, emit_append]
  congr 1
  · have := emit_move b (mapLabels (x ++ y)) (mapLabels x) id 0 0 (x.filter fun op => !op.isLabel) (by
      intro op ho l hl
      rw [id, mapLabels_append_left x y l (hx op (mem_filter_ops ho) l hl)]
      cases (mapLabels x).get l <;> rfl)
    rwa [renameSrc_id, renameRes_id] at this
  · have := emit_move b (mapLabels (x ++ y)) (mapLabels y) id (instrs x) 0 (y.filter fun op => !op.isLabel) (by
      intro op ho l hl
      rw [id]
      by_cases hm : Operation.Label l ∈ y
      · exact mapLabels_append_right x y l hm
      · have hn : Operation.Label l ∉ x := fun h => hm (hy op (mem_filter_ops ho) l hl h)
        rw [(mapLabels_none y l).2 hm, (mapLabels_none _ l).2 (by simp [hm, hn])]; rfl)
    rwa [renameSrc_id, renameRes_id] at this

/-- C99: a label no jump refers to can be put anywhere, or left out. -/
theorem C99_unused (b : Build) (x y : List Operation) (l : String) (h : ∀ op ∈ x ++ y, l ∉ refs op) :
    compile b (x ++ .Label l :: y) = compile b (x ++ y) := by
  unfold compile
  have e : (x ++ .Label l :: y).filter (fun op => !op.isLabel) = (x ++ y).filter (fun op => !op.isLabel) := by
    simp [Operation.isLabel]
  rw [e]
  have := emit_move b (mapLabels (x ++ .Label l :: y)) (mapLabels (x ++ y)) id 0 0 ((x ++ y).filter fun op => !op.isLabel) (by
    intro op ho l' hl
    have hne : l' ≠ l := fun he => h op (mem_filter_ops ho) (he ▸ hl)
    rw [id]
    have k : ∀ o : Option Nat, o.map (· + 0) = o := fun o => by cases o <;> rfl
    rw [k]
    by_cases hy : Operation.Label l' ∈ y
    · rw [show x ++ .Label l :: y = (x ++ [.Label l]) ++ y by simp, mapLabels_append_right _ _ _ hy, mapLabels_append_right _ _ _ hy,
        instrs_append]
      rfl
    · rw [mapLabels_append_left x y l' hy, mapLabels_append_left]
      simp [hy, hne])
  rwa [renameSrc_id, renameRes_id] at this

/-- Not vacuous: a label nobody refers to, between two instructions. -/
example : compile ⟨true⟩ ([.Load .ABS 0] ++ .Label "here" :: [.Return .Acc 0]) = compile ⟨true⟩ ([.Load .ABS 0] ++ [.Return .Acc 0]) :=
  C99_unused _ _ _ _ (by decide)

theorem mentions_rename {f : String → String} {x : List Operation} {op : Operation} {l : String} (ho : op ∈ renameSrc f x)
    (hl : l ∈ refs op ∨ op = .Label l) : ∃ l', l = f l' := by
  unfold renameSrc at ho
  obtain ⟨op', -, rfl⟩ := List.mem_map.1 ho
  cases op' <;> simp only [renameOp, refs, List.mem_append, List.mem_singleton, Option.mem_toList, Option.map_eq_some_iff,
    List.not_mem_nil, false_or, reduceCtorEq, Operation.Label.injEq, or_false] at hl
  · exact ⟨_, hl.symm⟩
  · exact ⟨_, hl⟩
  · rcases hl with ⟨l', -, h⟩ | ⟨l', -, h⟩ <;> exact ⟨l', h.symm⟩

theorem sideBySide_mentions {f : Nat → String → String} {i : Nat} {xs : List (List Operation)} {op : Operation} {l : String}
    (ho : op ∈ sideBySide f i xs) (hl : l ∈ refs op ∨ op = .Label l) : ∃ j l', i ≤ j ∧ l = f j l' := by
  induction xs generalizing i with
  | nil => cases ho
  | cons x xs ih =>
    rcases List.mem_append.1 ho with h | h
    · obtain ⟨l', e⟩ := mentions_rename h hl
      exact ⟨i, l', Nat.le_refl _, e⟩
    · obtain ⟨j, l', h1, h2⟩ := ih h
      exact ⟨j, l', by omega, h2⟩

/-- C99: sources assembled one by one and put one behind the other are the one source in which every piece has its own labels. -/
theorem C99_linked (b : Build) (f : Nat → String → String) (hf : ∀ i j l l', f i l = f j l' → i = j ∧ l = l')
    (xs : List (List Operation)) (ps : List (List SockFilter)) (h : xs.map (compile b) = ps.map .ok) (i : Nat) :
    compile b (sideBySide f i xs) = .ok ps.flatten := by
  induction xs generalizing ps i with
  | nil =>
    cases ps with
    | nil => rfl
    | cons p ps => simp at h
  | cons x xs ih =>
    cases ps with
    | nil => simp at h
    | cons p ps =>
      simp only [List.map_cons, List.cons.injEq] at h
      rw [sideBySide, C99_append, C99_rename, h.1, ih ps h.2 (i + 1)]
      · rfl
      · exact fun l l' _ _ he => (hf _ _ _ _ he).2
      · intro op ho l hl hm
        obtain ⟨l', rfl⟩ := mentions_rename ho (.inl hl)
        obtain ⟨j, l2, hj, he⟩ := sideBySide_mentions hm (.inr rfl)
        have := (hf _ _ _ _ he).1
        omega
      · intro op ho l hl hm
        obtain ⟨l', rfl⟩ := mentions_rename hm (.inr rfl)
        obtain ⟨j, l2, hj, he⟩ := sideBySide_mentions ho (.inl hl)
        have := (hf _ _ _ _ he).1
        omega

theorem compile_of_frag {b : Build} {x : List Operation} {p : List SockFilter} (h : Pledge.compileFrag b x = .ok p) :
    compile b x = .ok p := by
  unfold Pledge.compileFrag at h
  cases hx : compile b x with
  | ok q => rw [hx] at h; injection h with h; rw [h]
  | err e => rw [hx] at h; cases h
  | panic => rw [hx] at h; cases h

/-- C99: the filter the library makes by assembling its fragments one by one, all with the same few labels, is the one source in
which every fragment has labels of its own. -/
theorem C99_library (b : Build) (f : Nat → String → String) (hf : ∀ i j l l', f i l = f j l' → i = j ∧ l = l')
    (ids : Pledge.Ids) (fs : List Pledge.Filtered) (v : SeccompReturn) :
    ∃ code, Pledge.filtersToProg b ids fs v = .ok code ∧
      compile b (sideBySide f 0 ([Pledge.headerAsm] ++ fs.map (Pledge.filterAsm ids) ++ [Pledge.footerAsm v])) = .ok code := by
  refine ⟨([Pledge.header] ++ fs.map (Pledge.frag ids) ++ [[(⟨0x6, 0, 0, v.toU32⟩ : SockFilter)]]).flatten, ?_, ?_⟩
  · unfold Pledge.filtersToProg
    rw [Pledge.mapM_ok (Pledge.filterToBpf b ids) (Pledge.frag ids) (Pledge.filterToBpf_eq b ids), Pledge.bpfHeader_eq,
      Pledge.bpfFooter_eq]
    rfl
  · apply C99_linked b f hf
    simp only [List.map_append, List.map_map, List.map_cons, List.map_nil]
    rw [compile_of_frag (Pledge.bpfHeader_eq b), compile_of_frag (Pledge.bpfFooter_eq b v)]
    congr 2
    apply List.map_congr_left
    intro x _
    exact compile_of_frag (Pledge.filterToBpf_eq b ids x)

/-! ### Cases -/

/-- A source with a label of each kind. -/
def srcA : List Operation := [.Jump .JEQ 7 (some "yes") none, .JumpTo "no", .Label "yes", .Return .Const 1, .Label "no"]

/-- Another one that uses the same names. -/
def srcB : List Operation := [.JumpTo "no", .Return .Const 2, .Label "no", .Return .Const 3]

/-- Names with a number in front differ when the numbers or the names do (the number of `x`s before the first other letter). -/
def tag (i : Nat) (l : String) : String := String.ofList (List.replicate i 'x' ++ '.' :: l.toList)

theorem tag_inj (i j : Nat) (l l' : String) (h : tag i l = tag j l') : i = j ∧ l = l' := by
  unfold tag at h
  replace h := String.ofList_injective h
  induction i generalizing j with
  | zero =>
    cases j with
    | zero => simp at h; exact ⟨rfl, String.toList_injective h⟩
    | succ j => simp [List.replicate_succ] at h
  | succ i ih =>
    cases j with
    | zero => simp [List.replicate_succ] at h
    | succ j =>
      simp only [List.replicate_succ, List.cons_append, List.cons.injEq, true_and] at h
      have := ih j h
      exact ⟨by omega, this.2⟩

/-- C99: the naming scheme `tag` meets the hypothesis of `C99_linked` and `C99_library`. -/
example (b : Build) (ids : Pledge.Ids) (fs : List Pledge.Filtered) (v : SeccompReturn) :=
  C99_library b tag tag_inj ids fs v

/-- C99: sources that share names do not assemble to the two codes one behind the other, ... -/
example : compile ⟨true⟩ (srcA ++ srcB) ≠ thenAlso (compile ⟨true⟩ srcA) (compile ⟨true⟩ srcB) := by decide +kernel

/-- ... but they do when the names are kept apart, ... -/
example : compile ⟨true⟩ (renameSrc (tag 0) srcA ++ renameSrc (tag 1) srcB) =
    thenAlso (compile ⟨true⟩ srcA) (compile ⟨true⟩ srcB) := by decide +kernel

/-- ... which meets the hypotheses of `C99_append`. -/
example : (∀ op ∈ renameSrc (tag 0) srcA, ∀ l ∈ refs op, .Label l ∉ renameSrc (tag 1) srcB) ∧
    (∀ op ∈ renameSrc (tag 1) srcB, ∀ l ∈ refs op, .Label l ∈ renameSrc (tag 0) srcA → .Label l ∈ renameSrc (tag 1) srcB) := by
  decide +kernel

/-- C99: renaming two labels to one name changes the code, so the hypothesis of `C99_rename` is needed. -/
example : compile ⟨true⟩ (renameSrc (fun _ => "l") srcA) ≠ renameOut (fun _ => "l") (compile ⟨true⟩ srcA) := by decide +kernel

/-- C99: a label some jump refers to cannot be added freely. -/
example : compile ⟨true⟩ (srcA ++ [.Return .Const 4]) ≠ compile ⟨true⟩ (srcA ++ [.Return .Const 4, .Label "no"]) := by decide +kernel

end Props
