import Verif.Env.Cache
import Verif.Spec.Cache
import Verif.Props.Cost

/-!
# C115: the kernel's cache of allowed calls
-/
set_option autoImplicit false

namespace Props
open Spec Pledge Bpfvm Kernel

theorem const_run (d : SeccompData) (l pre : Prog) (p : Prog) (n : Nat) (r : Regs) (hp : p = pre ++ l) (hpc : r.pc = pre.length + n)
    (h : constAllow d.nr d.arch l n r.A = true) : runFrom p d.words r = some 0x7fff0000#32 := by
  induction l generalizing pre n r with
  | nil => simp [constAllow] at h
  | cons i rest ih =>
    have hp' : p = (pre ++ [i]) ++ rest := by simp [hp]
    cases n with
    | succ n => exact ih (pre ++ [i]) n r hp' (by simp [hpc]; omega) (by simpa only [constAllow] using h)
    | zero =>
      have hget : p[r.pc]? = some i := by simp [hp, hpc]
      rw [runFrom_step p _ r i hget]
      obtain ⟨code, jt, jf, k⟩ := i
      simp only [constAllow] at h
      by_cases h1 : code = 0x20#16
      · subst h1
        simp only [if_true] at h
        by_cases hk : k = 0#32
        · subst hk
          simp only [if_true] at h
          have := ih _ 0 { r with pc := r.pc + 1, A := d.nr } hp' (by simp [hpc]) h
          simpa [Kernel.step, SeccompData.words] using this
        · rw [if_neg hk] at h
          by_cases hk4 : k = 4#32
          · subst hk4
            simp only [if_true] at h
            have := ih _ 0 { r with pc := r.pc + 1, A := d.arch } hp' (by simp [hpc]) h
            simpa [Kernel.step, SeccompData.words] using this
          · simp [hk4] at h
      rw [if_neg h1] at h
      by_cases h2 : code = 0x06#16
      · subst h2
        simp only [if_true, decide_eq_true_eq] at h
        simp [Kernel.step, h]
      rw [if_neg h2] at h
      by_cases h3 : code = 0x05#16
      · subst h3
        simp only [if_true] at h
        have := ih _ k.toNat { r with pc := r.pc + 1 + k.toNat } hp' (by simp [hpc]) h
        simpa [Kernel.step] using this
      rw [if_neg h3] at h
      by_cases h4 : code = 0x15#16
      · subst h4
        simp only [if_true] at h
        have := ih _ _ { r with pc := r.pc + 1 + (if decide (r.A = k) then jt.toNat else jf.toNat) } hp' (by simp [hpc]) h
        simpa [Kernel.step, Kernel.cond] using this
      rw [if_neg h4] at h
      by_cases h5 : code = 0x35#16
      · subst h5
        simp only [if_true] at h
        have := ih _ _ { r with pc := r.pc + 1 + (if decide (k ≤ r.A) then jt.toNat else jf.toNat) } hp' (by simp [hpc]) h
        simpa [Kernel.step, Kernel.cond] using this
      rw [if_neg h5] at h
      by_cases h6 : code = 0x25#16
      · subst h6
        simp only [if_true] at h
        have := ih _ _ { r with pc := r.pc + 1 + (if decide (k < r.A) then jt.toNat else jf.toNat) } hp' (by simp [hpc]) h
        simpa [Kernel.step, Kernel.cond] using this
      rw [if_neg h6] at h
      by_cases h7 : code = 0x45#16
      · subst h7
        simp only [if_true] at h
        have := ih _ _ { r with pc := r.pc + 1 + (if decide (r.A &&& k ≠ 0) then jt.toNat else jf.toNat) } hp' (by simp [hpc]) h
        simpa [Kernel.step, Kernel.cond] using this
      rw [if_neg h7] at h
      by_cases h8 : code = 0x54#16
      · subst h8
        simp only [if_true] at h
        have := ih _ 0 { r with pc := r.pc + 1, A := r.A &&& k } hp' (by simp [hpc]) h
        simpa [Kernel.step, alu] using this
      rw [if_neg h8] at h
      cases h

/-- C115: a call whose bit is set is allowed by every filter of the stack, whatever its arguments, also by filters that this library did
not make. -/
theorem C115_sound (stack : List Prog) (d : SeccompData) (h : bitmap d.nr d.arch stack = true) :
    (∀ p ∈ stack, ∀ m0, Kernel.run m0 p d.words = some 0x7fff0000) ∧ outcome (runFilters stack d) = .executed := by
  have h1 : ∀ p ∈ stack, ∀ m0, Kernel.run m0 p d.words = some 0x7fff0000#32 := by
    induction stack with
    | nil => intro p hp; cases hp
    | cons q below ih =>
      simp only [bitmap, Bool.and_eq_true] at h
      intro p hp
      rcases List.mem_cons.1 hp with rfl | hp
      · intro m0; exact const_run d p [] p 0 _ rfl rfl h.2
      · exact ih h.1 p hp
  refine ⟨h1, ?_⟩
  have : runFilters stack d = 0x7fff0000#32 := by
    unfold runFilters
    clear h
    induction stack with
    | nil => rfl
    | cons q below ih =>
      rw [List.foldl_cons]
      simp only [h1 q (List.mem_cons_self ..), Option.getD_some]
      exact ih fun p hp => h1 p (List.mem_cons_of_mem _ hp)
  rw [this]; decide

/-- C115: the cache changes nothing, for any thread, whoever made its filters. -/
theorem C115_transparent (sizes : BitVec 32 → Nat) (t : Thread) (d : SeccompData) : enterCached sizes t d = enter t d := by
  unfold enterCached enter
  split
  · rename_i h
    simp only [cached, Bool.and_eq_true] at h
    exact (C115_sound _ _ h.2).2.symm
  · rfl

/-! ## Which calls are cached -/

theorem const_skip (nr arch : BitVec 32) (ids : Ids) (f : Filtered) (rest : Prog) (h : nr ≠ nrOf f) :
    constAllow nr arch (frag ids f ++ rest) 0 nr = constAllow nr arch rest 0 nr := by
  cases f <;> simp [nrOf] at h <;> simp [frag, constAllow, h]

theorem const_here (arch : BitVec 32) (ids : Ids) (f : Filtered) (rest : Prog) :
    constAllow (nrOf f) arch (frag ids f ++ rest) 0 (nrOf f) = isWhitelist f := by
  cases f <;> simp [nrOf, frag, constAllow, isWhitelist]

theorem const_body (nr arch v : BitVec 32) (ids : Ids) (fs : List Filtered) :
    constAllow nr arch (body ids fs ++ [⟨0x6, 0, 0, v⟩]) 0 nr = match fs.find? fun f => decide (nr = nrOf f) with
      | some f => isWhitelist f
      | none => decide (v = 0x7fff0000#32) := by
  induction fs with
  | nil => simp [body, constAllow]
  | cons f fs ih =>
    have : body ids (f :: fs) ++ [⟨0x6, 0, 0, v⟩] = frag ids f ++ (body ids fs ++ [⟨0x6, 0, 0, v⟩]) := by simp [body]
    rw [this]
    by_cases h : nr = nrOf f
    · subst h
      rw [const_here]; simp
    · rw [const_skip _ _ _ _ _ h, ih]; simp [h]

theorem match_nr (ids : Ids) (d : SeccompData) (f : Filtered) (h : Match ids d f) : d.nr = nrOf f := by
  cases f <;> simp only [Match] at h <;> first | exact h | exact h.1

theorem speaks_iff (p : Promise) (nr : BitVec 32) : Speaks p nr ↔ ∃ f ∈ filtersOf p, nr = nrOf f := by
  constructor
  · rintro ⟨ids, d, rfl, hp⟩
    obtain ⟨f, hf, hm⟩ := (match_iff ids d p).2 hp
    exact ⟨f, hf, match_nr ids d f hm⟩
  · rintro ⟨f, hf, rfl⟩
    exact ⟨⟨0, 0⟩, { mkCall 0 (fine f) with nr := nrOf f }, rfl, (match_iff _ _ p).1 ⟨f, hf, fine_matches f⟩⟩

theorem one_kind : (allPromises.all fun p => (filtersOf p).all fun f => (filtersOf p).all fun g =>
    decide (nrOf f = nrOf g → isWhitelist f = isWhitelist g)) = true := by decide +kernel

theorem frees_iff (ps : List Promise) (nr : BitVec 32) :
    FirstFrees ps nr ↔ ∃ f, (allFilters ps).find? (fun f => decide (nr = nrOf f)) = some f ∧ isWhitelist f = true := by
  have hk := one_kind
  simp only [List.all_eq_true, decide_eq_true_eq] at hk
  unfold FirstFrees allFilters
  generalize Promise.Default :: ps = l
  induction l with
  | nil =>
    constructor
    · rintro ⟨before, p, after, h, _⟩; simp at h
    · rintro ⟨f, h, _⟩; simp at h
  | cons q l ih =>
    rw [List.map_cons, List.flatten_cons, List.find?_append]
    cases hq : (filtersOf q).find? fun f => decide (nr = nrOf f) with
    | none =>
      have hs : ¬ Speaks q nr := by
        rw [speaks_iff]
        rintro ⟨f, hf, h⟩
        have := List.find?_eq_none.1 hq f hf
        simp [h] at this
      rw [Option.none_or]
      refine Iff.trans ?_ ih
      constructor
      · rintro ⟨before, p, after, h, hb, hf⟩
        cases before with
        | nil =>
          simp only [List.nil_append, List.cons.injEq] at h
          obtain ⟨rfl, rfl⟩ := h
          refine absurd ((speaks_iff _ _).2 ?_) hs
          obtain ⟨s, h1, h2⟩ := (free_iff _ _).2 hf
          exact ⟨_, h1, h2⟩
        | cons b before =>
          simp only [List.cons_append, List.cons.injEq] at h
          exact ⟨before, p, after, h.2, fun x hx => hb x (List.mem_cons_of_mem _ hx), hf⟩
      · rintro ⟨before, p, after, rfl, hb, hf⟩
        refine ⟨q :: before, p, after, rfl, ?_, hf⟩
        intro x hx
        rcases List.mem_cons.1 hx with rfl | hx
        · exact hs
        · exact hb x hx
    | some f =>
      have hf := List.mem_of_find?_eq_some hq
      have hn : nr = nrOf f := by simpa using List.find?_some hq
      have hs : Speaks q nr := (speaks_iff _ _).2 ⟨f, hf, hn⟩
      simp only [Option.some_or, Option.some.injEq]
      constructor
      · rintro ⟨before, p, after, h, hb, hfr⟩
        cases before with
        | nil =>
          simp only [List.nil_append, List.cons.injEq] at h
          obtain ⟨rfl, rfl⟩ := h
          obtain ⟨s, h1, h2⟩ := (free_iff _ _).2 hfr
          exact ⟨f, rfl, by rw [hk _ (mem_allPromises q) f hf _ h1 (by rw [← hn, h2]; rfl)]; rfl⟩
        | cons b before =>
          simp only [List.cons_append, List.cons.injEq] at h
          obtain ⟨rfl, _⟩ := h
          exact absurd hs (hb _ (List.mem_cons_self ..))
      · rintro ⟨g, rfl, hw⟩
        refine ⟨[], q, l, rfl, by simp, (free_iff _ _).1 ?_⟩
        cases f <;> simp [isWhitelist] at hw
        exact ⟨_, hf, hn⟩

theorem silent_iff (ps : List Promise) (nr : BitVec 32) :
    (∀ p, p = .Default ∨ p ∈ ps → ¬ Speaks p nr) ↔ (allFilters ps).find? (fun f => decide (nr = nrOf f)) = none := by
  rw [List.find?_eq_none]
  simp only [speaks_iff, allFilters, List.mem_flatten, List.mem_map, List.mem_cons, decide_eq_true_eq]
  constructor
  · rintro h f ⟨_, ⟨p, hp, rfl⟩, hf⟩ hn
    exact h p hp ⟨f, hf, hn⟩
  · rintro h p hp ⟨f, hf, hn⟩
    exact h f ⟨_, ⟨p, hp, rfl⟩, hf⟩ hn

theorem const_prog (nr : BitVec 32) (ids : Ids) (ps : List Promise) (v : BitVec 32) :
    constAllow nr X86_64 (progOf ids ps v) 0 0 = true ↔
    FirstFrees ps nr ∨ v = 0x7fff0000 ∧ ∀ p, p = .Default ∨ p ∈ ps → ¬ Speaks p nr := by
  have h : constAllow nr X86_64 (progOf ids ps v) 0 0 = constAllow nr X86_64 (body ids (allFilters ps) ++ [⟨0x6, 0, 0, v⟩]) 0 nr := by
    simp [progOf, header, constAllow, X86_64]
  rw [h, const_body, frees_iff, silent_iff]
  cases (allFilters ps).find? fun f => decide (nr = nrOf f) <;> simp

/-- C115, exactly: after pledges a native call is answered from the cache if and only if, for each pledge, the first of its promises that
says anything about the number permits it with any arguments, or none says anything and the violation is to allow. -/
theorem C115_exact (sizes : BitVec 32 → Nat) (t : Thread) (l : List Past) (hl : HasPledged t l) (hne : l ≠ []) (d : SeccompData)
    (ha : d.arch = X86_64) (hn : d.nr.toNat < sizes X86_64) :
    cached sizes t.filters d = true ↔
    ∀ p ∈ l, FirstFrees p.ps d.nr ∨ p.v.toU32 = 0x7fff0000 ∧ ∀ q, q = .Default ∨ q ∈ p.ps → ¬ Speaks q d.nr := by
  have hf := (hasPledged_iff _ _).1 hl
  unfold cached
  rw [ha, hf]
  have hb : ∀ l : List Past, bitmap d.nr X86_64 (l.map fun p => progOf p.ids p.ps p.v.toU32) = true ↔
      ∀ p ∈ l, FirstFrees p.ps d.nr ∨ p.v.toU32 = 0x7fff0000 ∧ ∀ q, q = .Default ∨ q ∈ p.ps → ¬ Speaks q d.nr := by
    intro l
    induction l with
    | nil => simp [bitmap]
    | cons p l ih =>
      simp only [List.map_cons, bitmap, Bool.and_eq_true, ih, const_prog, List.mem_cons, forall_eq_or_imp]
      exact and_comm
  cases l with
  | nil => exact absurd rfl hne
  | cons p l =>
    simp only [hn, decide_true, List.map_cons, List.isEmpty_cons, Bool.not_false, Bool.true_and]
    exact hb (p :: l)

/-- Not vacuous: write, on x86-64. -/
example := C115_exact (fun _ => 335) ({ thread0 with nnp := true, filters := [progOf ⟨100, 100⟩ [.StdIO] (.KillProcess : SeccompReturn).toU32] }) [⟨⟨100, 100⟩, [.StdIO], .KillProcess⟩] ((hasPledged_iff _ _).2 rfl) (by simp) (mkCall 1 []) rfl (by decide)

/-- C115: a call in the manner of another architecture is never answered from the cache after a pledge. -/
theorem C115_foreign (sizes : BitVec 32 → Nat) (t : Thread) (l : List Past) (hl : HasPledged t l) (hne : l ≠ []) (d : SeccompData)
    (ha : d.arch ≠ X86_64) : cached sizes t.filters d = false := by
  have hf := (hasPledged_iff _ _).1 hl
  cases l with
  | nil => exact absurd rfl hne
  | cons p l =>
    unfold cached
    rw [hf]
    have : constAllow d.nr d.arch (progOf p.ids p.ps p.v.toU32) 0 0 = false := by
      have ha' : ¬ d.arch = 3221225534#32 := ha
      simp [progOf, header, constAllow, ha']
    simp [bitmap]
    exact fun _ _ => this

/-- Not vacuous: an i386 call. -/
example := C115_foreign (fun _ => 335) ({ thread0 with nnp := true, filters := [progOf ⟨100, 100⟩ [.StdIO] (.KillProcess : SeccompReturn).toU32] }) [⟨⟨100, 100⟩, [.StdIO], .KillProcess⟩] ((hasPledged_iff _ _).2 rfl) (by simp) { mkCall 1 [] with arch := 0x40000003 } (by decide)

/-- The calls a native x86-64 kernel keeps bits for; 462 is the number of its system calls in version 6.9. -/
def sizes69 : BitVec 32 → Nat := fun arch => if arch = X86_64 then 462 else 0

/-- Not vacuous: read is cached after a pledge with StdIO, open is not after one with RPath, and what kill is depends on the order of
the promises, though both pledges allow it with any arguments. -/
example :
    let thread := fun ps : List Promise => { thread0 with filters := [progOf ⟨100, 100⟩ ps 0x80000000] }
    cached sizes69 (thread [.StdIO]).filters (mkCall 0 []) = true ∧
    cached sizes69 (thread [.RPath]).filters (mkCall 2 []) = false ∧
    cached sizes69 (thread [.Proc, .StdIO]).filters (mkCall 62 [5, 9]) = true ∧
    cached sizes69 (thread [.StdIO, .Proc]).filters (mkCall 62 [5, 9]) = false ∧
    Allowed ⟨100, 100⟩ [.StdIO, .Proc] (mkCall 62 [5, 9]) := by
  intro thread
  refine ⟨by decide +kernel, by decide +kernel, by decide +kernel, by decide +kernel, .inr ⟨.Proc, by decide, .inl ?_⟩⟩
  exact (free_iff .Proc 62#32).1 ⟨62#64, by decide +kernel, rfl⟩

end Props
