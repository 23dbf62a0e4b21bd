import Verif.Props.Verdict

/-!
# C29–C47, C58: what promises do and do not permit

`IsCall d n`: `d` records the native x86-64 call number `n`. `arg d i`: low half of argument `i`, counted from 0.
`Allows` / `Denies`: verdict of the filter (Spec/Observe.lean).
-/
set_option autoImplicit false

namespace Props
open Pledge Bpfvm Spec

/-! ### helpers -/

def argNumbers : List Nat := [72, 9, 10, 44, 16, 62, 200, 157, 56, 302, 2, 257, 85, 90, 91, 268, 41, 55]

theorem ruleAt_none {ids : Ids} {d : SeccompData} {p : Promise} {n : Nat} (h : n ∉ argNumbers) : ¬ ruleAt ids d p n := by
  unfold ruleAt
  split <;> first | exact id | exact absurd (by decide) h

/-- A call without argument rule is allowed exactly if one of the promises of its table row is given. -/
theorem allows_plain {ids : Ids} {ps : List Promise} {d : SeccompData} {n : Nat} (h : IsCall d n) (L : List Promise)
    (hf : freeOf n = L) (hr : n ∉ argNumbers) (h60 : n ≠ 60) : Allows ids ps d ↔ ∃ p ∈ ps, p ∈ L := by
  rw [allows_call h h60, hf]
  simp [ruleAt_none hr]

theorem denies_plain {ids : Ids} {ps : List Promise} {d : SeccompData} {n : Nat} (h : IsCall d n) (L : List Promise)
    (hf : freeOf n = L) (hr : n ∉ argNumbers) (h60 : n ≠ 60) (hp : ∀ p ∈ L, p ∉ ps) : Denies ids ps d := by
  rw [denies_call h, allows_plain h L hf hr h60]
  rintro ⟨p, h1, h2⟩
  exact hp p h2 h1

theorem denies_rule {ids : Ids} {ps : List Promise} {d : SeccompData} {n : Nat} (h : IsCall d n) (h60 : n ≠ 60)
    (hp : ∀ p ∈ ps, p ∉ freeOf n ∧ ¬ ruleAt ids d p n) : Denies ids ps d := by
  rw [denies_call h, allows_call h h60]
  rintro ⟨p, h1, h2 | h2⟩
  · exact (hp p h1).1 h2
  · exact (hp p h1).2 h2

/-! ## C29 -/

/-- C29: without ProtExec, mmap (9) and mprotect (10) with PROT_EXEC (bit 2 of argument 2) are denied, and pkey_mprotect (329)
is denied altogether. -/
theorem C29_no_exec_memory (ids : Ids) (ps : List Promise) (d : SeccompData) (hp : .ProtExec ∉ ps)
    (hd : (IsCall d 9 ∨ IsCall d 10) ∧ (arg d 2).getLsbD 2 = true ∨ IsCall d 329) : Denies ids ps d := by
  rcases hd with ⟨h | h, hx⟩ | h
  · refine denies_rule h (by decide) fun p hps => ?_
    have hf : freeOf 9 = [] := by decide +kernel
    refine ⟨by simp [hf], ?_⟩
    rintro (⟨rfl, h2, _⟩ | ⟨rfl, _⟩)
    · have := Nat.ge_two_pow_of_testBit hx
      omega
    · exact hp hps
  · refine denies_rule h (by decide) fun p hps => ?_
    have hf : freeOf 10 = [.ProtExec] := by decide +kernel
    refine ⟨by rw [hf]; simp; rintro rfl; exact hp hps, ?_⟩
    rintro ⟨rfl, h2⟩
    rw [h2 2 (by omega)] at hx
    cases hx
  · exact denies_plain h [] (by decide +kernel) (by decide) (by decide) (by simp)

/-- mmap(…, PROT_READ|PROT_EXEC, MAP_PRIVATE, …) under StdIO and RPath meets the hypotheses. -/
example : Promise.ProtExec ∉ [Promise.StdIO, .RPath] ∧ IsCall (mkCall 9 [0, 4096, 5, 2]) 9 ∧
    (arg (mkCall 9 [0, 4096, 5, 2]) 2).getLsbD 2 = true := ⟨by decide, ⟨rfl, rfl⟩, by decide⟩

/-- C29, the other direction: with ProtExec, executable mappings are available (mmap without LOCKED, NONBLOCK, HUGETLB; any
mprotect). -/
theorem C29_protexec_gives_exec (ids : Ids) (ps : List Promise) (d : SeccompData) (hp : .ProtExec ∈ ps)
    (hd : IsCall d 9 ∧ hasNone (arg d 3) [13, 16, 18] ∨ IsCall d 10) : Allows ids ps d := by
  rcases hd with ⟨h, h3⟩ | h
  · exact (allows_call h (by decide) _).2 ⟨_, hp, .inr (.inr ⟨rfl, h3⟩)⟩
  · exact (allows_call h (by decide) _).2 ⟨_, hp, .inl (by decide +kernel)⟩

example : IsCall (mkCall 9 [0, 4096, 5, 2]) 9 ∧ hasNone (arg (mkCall 9 [0, 4096, 5, 2]) 3) [13, 16, 18] :=
  ⟨⟨rfl, rfl⟩, by simp only [hasNone]; decide⟩

/-! ## C30 -/

/-- Full claim of C30 for mmap: every combination of PROT_READ and PROT_WRITE. -/
def C30_full : Prop :=
  ∀ (ids : Ids) (ps : List Promise) (d : SeccompData), .StdIO ∈ ps → IsCall d 9 →
    (∀ i, 2 ≤ i → (arg d 2).getLsbD i = false) → hasNone (arg d 3) [13, 15, 16, 18] → Allows ids ps d

/-- C30 (partial): mmap with PROT_NONE, PROT_READ or PROT_WRITE and none of the four flags is permitted; mprotect with any
combination of PROT_READ and PROT_WRITE is. Missing: mmap with PROT_READ|PROT_WRITE, where the claim is false
(`C30_false_for_read_write`). -/
theorem C30_stdio_mmap_partial (ids : Ids) (ps : List Promise) (d : SeccompData) (hp : .StdIO ∈ ps) :
    (IsCall d 9 → arg d 2 ∈ [0#32, 1#32, 2#32] → hasNone (arg d 3) [13, 15, 16, 18] → Allows ids ps d) ∧
    (IsCall d 10 → (∀ i, 2 ≤ i → (arg d 2).getLsbD i = false) → Allows ids ps d) := by
  constructor
  · intro h h2 h3
    refine (allows_call h (by decide) _).2 ⟨_, hp, .inr (.inl ⟨rfl, ?_, h3⟩)⟩
    simp only [List.mem_cons, List.not_mem_nil, or_false] at h2
    rcases h2 with h2 | h2 | h2 <;> rw [h2] <;> decide
  · intro h h2
    exact (allows_call h (by decide) _).2 ⟨_, hp, .inr ⟨rfl, h2⟩⟩

/-- Not vacuous: a list with StdIO. -/
example (ids : Ids) : Allows ids [.RPath, .StdIO] (mkCall 9 [0, 4096, 1, 2]) :=
  (C30_stdio_mmap_partial ids _ _ (by decide)).1 ⟨rfl, rfl⟩ (by decide) (by simp only [hasNone]; decide)

/-- C30 is false for PROT_READ|PROT_WRITE: the ordinary anonymous mapping of a memory allocator is denied under StdIO. -/
theorem C30_false_for_read_write : ¬ C30_full := by
  intro h
  have h1 := h ⟨1, 1⟩ [.StdIO] (mkCall 9 [0, 4096, 3, 0x22]) (by simp) ⟨rfl, rfl⟩ ?_ (by simp only [hasNone]; decide)
  · rw [allows_call (n := 9) ⟨rfl, rfl⟩ (by decide)] at h1
    obtain ⟨p, hp, h1 | h1⟩ := h1
    · have hf : freeOf 9 = [] := by decide +kernel
      simp [hf] at h1
    · rcases h1 with ⟨_, h2, _⟩ | ⟨rfl, _⟩
      · revert h2; decide
      · simp at hp
  · intro i hi
    have : arg (mkCall 9 [0, 4096, 3, 0x22]) 2 = 3#32 := by decide
    rw [this]
    apply Nat.testBit_lt_two_pow
    exact Nat.lt_of_lt_of_le (show 3 < 2 ^ 2 by decide) (Nat.pow_le_pow_right (by omega) hi)

/-- C30, exactly: what StdIO alone permits of mmap. -/
theorem C30_stdio_mmap_exact (ids : Ids) (d : SeccompData) (h : IsCall d 9) :
    Allows ids [.StdIO] d ↔ (arg d 2 = 0 ∨ arg d 2 = 1 ∨ arg d 2 = 2) ∧ hasNone (arg d 3) [13, 15, 16, 18] := by
  rw [allows_call h (by decide)]
  have hf : freeOf 9 = [] := by decide +kernel
  have h3 : (arg d 2).toNat ≤ 2 ↔ (arg d 2 = 0 ∨ arg d 2 = 1 ∨ arg d 2 = 2) := by
    constructor
    · intro h
      have : (arg d 2).toNat = 0 ∨ (arg d 2).toNat = 1 ∨ (arg d 2).toNat = 2 := by omega
      rcases this with h | h | h
      · exact .inl (BitVec.eq_of_toNat_eq h)
      · exact .inr (.inl (BitVec.eq_of_toNat_eq h))
      · exact .inr (.inr (BitVec.eq_of_toNat_eq h))
    · rintro (h | h | h) <;> rw [h] <;> decide
  simp [hf, ruleAt, h3]

/-- Not vacuous: a mapping for reading and writing is refused. -/
example (ids : Ids) : ¬ Allows ids [.StdIO] (mkCall 9 [0, 4096, 3, 2]) := by
  rw [C30_stdio_mmap_exact ids _ ⟨rfl, rfl⟩]; exact fun h => absurd h.1 (by decide)

/-! ## C31 -/

/-- O_RDONLY, and none of O_CREAT (bit 6), O_TRUNC (9), __O_TMPFILE (22). -/
def ReadOnlyFlags (flags : BitVec 32) : Prop := flags.setWidth 2 = 0#2 ∧ hasNone flags [6, 9, 22]

/-- creat, truncate, rename, link, symlink, mkdir, rmdir and their at-variants. -/
def modifyingCalls : List Nat := [85, 76, 82, 264, 316, 86, 265, 88, 266, 83, 258, 84]

theorem modifying_denied (ids : Ids) (ps : List Promise) (d : SeccompData) (hw : .WPath ∉ ps) (hc : .CPath ∉ ps) (n : Nat)
    (hn : n ∈ modifyingCalls) (h : IsCall d n) : Denies ids ps d := by
  simp only [modifyingCalls, List.mem_cons, List.not_mem_nil, or_false] at hn
  rcases hn with rfl | rfl | rfl | rfl | rfl | rfl | rfl | rfl | rfl | rfl | rfl | rfl
  · refine denies_rule h (by decide) fun p hps => ?_
    have hf : freeOf 85 = [] := by decide +kernel
    refine ⟨by simp [hf], ?_⟩
    rintro ⟨rfl, _⟩
    exact hc hps
  · exact denies_plain h [.WPath] (by decide +kernel) (by decide) (by decide) (by simpa using hw)
  all_goals exact denies_plain h [.CPath] (by decide +kernel) (by decide) (by decide) (by simpa using hc)

/-- Full claim of C31. -/
def C31_full : Prop :=
  ∀ (ids : Ids) (ps : List Promise) (d : SeccompData), .WPath ∉ ps → .CPath ∉ ps →
    (IsCall d 2 → Allows ids ps d → ReadOnlyFlags (arg d 1)) ∧
    (IsCall d 257 → Allows ids ps d → ReadOnlyFlags (arg d 2)) ∧
    (∀ n ∈ modifyingCalls, IsCall d n → Denies ids ps d) ∧
    (.TmpPath ∉ ps → IsCall d 87 ∨ IsCall d 263 → Denies ids ps d) ∧
    (.DPath ∉ ps → IsCall d 133 ∨ IsCall d 259 → Denies ids ps d)

/-- C31 (partial): everything but open(2). Missing: the flags of open, for which the claim is false (`C31_false_for_open`). -/
theorem C31_rpath_readonly_partial (ids : Ids) (ps : List Promise) (d : SeccompData) (hw : .WPath ∉ ps) (hc : .CPath ∉ ps) :
    (IsCall d 257 → Allows ids ps d → ReadOnlyFlags (arg d 2)) ∧
    (∀ n ∈ modifyingCalls, IsCall d n → Denies ids ps d) ∧
    (.TmpPath ∉ ps → IsCall d 87 ∨ IsCall d 263 → Denies ids ps d) ∧
    (.DPath ∉ ps → IsCall d 133 ∨ IsCall d 259 → Denies ids ps d) := by
  refine ⟨fun h ha => ?_, modifying_denied ids ps d hw hc, ?_, ?_⟩
  · rw [allows_call h (by decide)] at ha
    have hf : freeOf 257 = [] := by decide +kernel
    obtain ⟨p, hp, ha | ha⟩ := ha
    · simp [hf] at ha
    · rcases ha with ⟨_, h1, h2⟩ | ⟨rfl, _⟩ | ⟨rfl, _⟩
      · exact ⟨h1, h2⟩
      · exact absurd hp hw
      · exact absurd hp hc
  · rintro ht (h | h)
    · exact denies_plain h [.CPath, .TmpPath] (by decide +kernel) (by decide) (by decide) (by simp [hc, ht])
    · exact denies_plain h [.CPath, .TmpPath] (by decide +kernel) (by decide) (by decide) (by simp [hc, ht])
  · rintro ht (h | h)
    · exact denies_plain h [.DPath] (by decide +kernel) (by decide) (by decide) (by simp [ht])
    · exact denies_plain h [.DPath] (by decide +kernel) (by decide) (by decide) (by simp [ht])

/-- A promise list and an allowed read-only openat that meet the hypotheses. -/
example (ids : Ids) : Promise.WPath ∉ [Promise.StdIO, .RPath] ∧ Promise.CPath ∉ [Promise.StdIO, .RPath] ∧
    Allows ids [.StdIO, .RPath] (mkCall 257 [0xffffff9c, 0x1000, 0x80000]) :=
  ⟨by decide, by decide, (allows_call (n := 257) ⟨rfl, rfl⟩ (by decide) _).2
    ⟨.RPath, by simp, .inr (.inl ⟨by simp, by decide, by simp only [hasNone]; decide⟩)⟩⟩

/-- C31 is false for open(2): with only StdIO and RPath, open(path, O_WRONLY|O_CREAT|O_TRUNC, 0) is allowed, because the filter
looks at the mode argument instead of the flags. -/
theorem C31_false_for_open : ¬ C31_full := by
  intro h
  have h1 := (h ⟨1, 1⟩ [.StdIO, .RPath] (mkCall 2 [0x1000, 0x241, 0]) (by decide) (by decide)).1 ⟨rfl, rfl⟩ ?_
  · have h2 := h1.1
    revert h2; decide
  · rw [allows_call (n := 2) ⟨rfl, rfl⟩ (by decide)]
    exact ⟨.RPath, by simp, .inr (.inl ⟨rfl, by decide, by simp only [hasNone]; decide⟩)⟩

/-- What the filter really enforces for open(2) without WPath and CPath: RPath, and a condition on the mode argument. -/
theorem C31_open_actual (ids : Ids) (ps : List Promise) (d : SeccompData) (hw : .WPath ∉ ps) (hc : .CPath ∉ ps)
    (h : IsCall d 2) : Allows ids ps d ↔ .RPath ∈ ps ∧ ReadOnlyFlags (arg d 2) := by
  rw [allows_call h (by decide)]
  have hf : freeOf 2 = [] := by decide +kernel
  constructor
  · rintro ⟨p, hp, ha | ha⟩
    · simp [hf] at ha
    · rcases ha with ⟨rfl, h1, h2⟩ | ⟨rfl, _⟩ | ⟨rfl, _⟩
      · exact ⟨hp, h1, h2⟩
      · exact absurd hp hw
      · exact absurd hp hc
  · rintro ⟨hp, h1, h2⟩
    exact ⟨_, hp, .inr (.inl ⟨rfl, h1, h2⟩)⟩

/-- Not vacuous: RPath alone, O_WRONLY and mode 0. -/
example (ids : Ids) := C31_open_actual ids [.RPath] (mkCall 2 [0x1000, 1, 0]) (by decide) (by decide) ⟨rfl, rfl⟩

/-! ## C32 -/

/-- Full claim of C32. -/
def C32_full : Prop :=
  ∀ (ids : Ids) (ps : List Promise) (d : SeccompData), .CPath ∉ ps →
    (IsCall d 2 → Allows ids ps d → hasNone (arg d 1) [6, 22]) ∧
    (IsCall d 257 → Allows ids ps d → hasNone (arg d 2) [6, 22]) ∧
    (IsCall d 85 → Denies ids ps d) ∧
    (.RPath ∉ ps → .Dns ∉ ps → IsCall d 2 → Allows ids ps d → (arg d 1).setWidth 2 ∈ [1#2, 2#2]) ∧
    (.RPath ∉ ps → .Dns ∉ ps → IsCall d 257 → Allows ids ps d → (arg d 2).setWidth 2 ∈ [1#2, 2#2])

/-- C32 (partial): openat and creat. Missing: open, for which the claim is false (`C32_false_for_open`). -/
theorem C32_wpath_no_create_partial (ids : Ids) (ps : List Promise) (d : SeccompData) (hc : .CPath ∉ ps) :
    (IsCall d 257 → Allows ids ps d → hasNone (arg d 2) [6, 22]) ∧
    (IsCall d 85 → Denies ids ps d) ∧
    (.RPath ∉ ps → .Dns ∉ ps → IsCall d 257 → Allows ids ps d → (arg d 2).setWidth 2 ∈ [1#2, 2#2]) := by
  have hf : freeOf 257 = [] := by decide +kernel
  refine ⟨fun h ha => ?_, fun h => ?_, fun hr hdns h ha => ?_⟩
  · rw [allows_call h (by decide)] at ha
    obtain ⟨p, hp, ha | ha⟩ := ha
    · simp [hf] at ha
    · rcases ha with ⟨_, _, h2⟩ | ⟨_, _, h2⟩ | ⟨rfl, _⟩
      · intro i hi
        exact h2 i (by simp at hi ⊢; omega)
      · exact h2
      · exact absurd hp hc
  · refine denies_rule h (by decide) fun p hps => ?_
    have hf : freeOf 85 = [] := by decide +kernel
    refine ⟨by simp [hf], ?_⟩
    rintro ⟨rfl, _⟩
    exact hc hps
  · rw [allows_call h (by decide)] at ha
    obtain ⟨p, hp, ha | ha⟩ := ha
    · simp [hf] at ha
    · rcases ha with ⟨hm, _⟩ | ⟨_, h2, _⟩ | ⟨rfl, _⟩
      · simp only [List.mem_cons, List.not_mem_nil, or_false] at hm
        rcases hm with rfl | rfl
        · exact absurd hp hr
        · exact absurd hp hdns
      · exact h2
      · exact absurd hp hc

example (ids : Ids) : Promise.CPath ∉ [Promise.WPath] ∧ Allows ids [.WPath] (mkCall 257 [0, 0x1000, 0x202]) :=
  ⟨by decide, (allows_call (n := 257) ⟨rfl, rfl⟩ (by decide) _).2
    ⟨.WPath, by simp, .inr (.inr (.inl ⟨rfl, by decide, by simp only [hasNone]; decide⟩))⟩⟩

/-- C32 is false for open(2): with WPath alone, open(path, O_RDWR|O_CREAT, 1) is allowed. -/
theorem C32_false_for_open : ¬ C32_full := by
  intro h
  have h1 := (h ⟨1, 1⟩ [.WPath] (mkCall 2 [0x1000, 0x42, 1]) (by decide)).1 ⟨rfl, rfl⟩ ?_
  · have := h1 6 (by simp)
    revert this; decide
  · rw [allows_call (n := 2) ⟨rfl, rfl⟩ (by decide)]
    exact ⟨.WPath, by simp, .inr (.inr (.inl ⟨rfl, by decide, by simp only [hasNone]; decide⟩))⟩

/-- Conversely, the usual open(path, O_WRONLY|O_TRUNC) with mode 0 is denied under WPath alone. -/
theorem C32_plain_open_denied (ids : Ids) : Denies ids [.WPath] (mkCall 2 [0x1000, 0x201, 0]) := by
  refine denies_rule (n := 2) ⟨rfl, rfl⟩ (by decide) fun p hp => ?_
  have hf : freeOf 2 = [] := by decide +kernel
  refine ⟨by simp [hf], ?_⟩
  simp at hp
  subst hp
  rintro (⟨h, _⟩ | ⟨_, h, _⟩ | ⟨h, _⟩)
  · cases h
  · revert h; decide
  · cases h

/-! ## C33 -/

/-- One of S_ISVTX (bit 9), S_ISGID (10), S_ISUID (11). -/
def SpecialMode (m : BitVec 32) : Prop := ¬ hasNone m [9, 10, 11]
/-- O_CREAT (bit 6) or __O_TMPFILE (22). -/
def Creates (flags : BitVec 32) : Prop := ¬ hasNone flags [6, 22]

/-- Full claim of C33. -/
def C33_full : Prop :=
  ∀ (ids : Ids) (ps : List Promise) (d : SeccompData),
    (IsCall d 90 ∨ IsCall d 91 ∨ IsCall d 85 → SpecialMode (arg d 1) → Denies ids ps d) ∧
    (IsCall d 268 → SpecialMode (arg d 2) → Denies ids ps d) ∧
    (IsCall d 2 → Creates (arg d 1) → SpecialMode (arg d 2) → Denies ids ps d) ∧
    (IsCall d 257 → Creates (arg d 2) → SpecialMode (arg d 3) → Denies ids ps d)

/-- C33 (partial): chmod, fchmod, creat and openat. Missing: fchmodat and open, for which the claim is false
(`C33_false_for_fchmodat`, `C33_false_for_open`). -/
theorem C33_no_special_bits_partial (ids : Ids) (ps : List Promise) (d : SeccompData) :
    (IsCall d 90 ∨ IsCall d 91 ∨ IsCall d 85 → SpecialMode (arg d 1) → Denies ids ps d) ∧
    (IsCall d 257 → Creates (arg d 2) → SpecialMode (arg d 3) → Denies ids ps d) := by
  constructor
  · rintro (h | h | h) hm
    · refine denies_rule h (by decide) fun p _ => ⟨?_, fun h2 => hm h2.2⟩
      have hf : freeOf 90 = [] := by decide +kernel
      simp [hf]
    · refine denies_rule h (by decide) fun p _ => ⟨?_, fun h2 => hm h2.2⟩
      have hf : freeOf 91 = [] := by decide +kernel
      simp [hf]
    · refine denies_rule h (by decide) fun p _ => ⟨?_, fun h2 => hm h2.2⟩
      have hf : freeOf 85 = [] := by decide +kernel
      simp [hf]
  · intro h hc hm
    have hf : freeOf 257 = [] := by decide +kernel
    refine denies_rule h (by decide) fun p _ => ⟨by simp [hf], ?_⟩
    rintro (⟨_, _, h2⟩ | ⟨_, _, h2⟩ | ⟨_, h2 | h2⟩)
    · exact hc fun i hi => h2 i (by simp at hi ⊢; omega)
    · exact hc h2
    · exact hc h2
    · exact hm h2

example : SpecialMode (arg (mkCall 90 [0x1000, 0o4755]) 1) := by
  intro h; have := h 11 (by simp); revert this; decide

/-- C33 is false for fchmodat: under FAttr, fchmodat(dirfd, path, 04755) is allowed for a suitably aligned path pointer. -/
theorem C33_false_for_fchmodat :
    Allows ⟨1, 1⟩ [.FAttr] (mkCall 268 [0xffffff9c, 0x7fff1000, 0o4755]) ∧
    SpecialMode (arg (mkCall 268 [0xffffff9c, 0x7fff1000, 0o4755]) 2) := by
  constructor
  · rw [allows_call (n := 268) ⟨rfl, rfl⟩ (by decide)]
    exact ⟨.FAttr, by simp, .inr ⟨by simp, by simp only [hasNone]; decide⟩⟩
  · intro h; have := h 11 (by simp); revert this; decide

/-- C33 is false for open: under CPath, open(path, O_WRONLY|O_CREAT, 04755) is allowed, whatever follows in the fourth argument
register as long as bits 9-11 of it are clear. -/
theorem C33_false_for_open :
    Allows ⟨1, 1⟩ [.CPath] (mkCall 2 [0x1000, 0x41, 0o4755, 0]) ∧ Creates (arg (mkCall 2 [0x1000, 0x41, 0o4755, 0]) 1) ∧
    SpecialMode (arg (mkCall 2 [0x1000, 0x41, 0o4755, 0]) 2) := by
  refine ⟨?_, ?_, ?_⟩
  · rw [allows_call (n := 2) ⟨rfl, rfl⟩ (by decide)]
    exact ⟨.CPath, by simp, .inr (.inr (.inr ⟨rfl, .inr (by simp only [hasNone]; decide)⟩))⟩
  · intro h; have := h 6 (by simp); revert this; decide
  · intro h; have := h 11 (by simp); revert this; decide

theorem C33_full_false : ¬ C33_full := by
  intro h
  obtain ⟨h1, h2⟩ := C33_false_for_fchmodat
  have := (h ⟨1, 1⟩ [.FAttr] _).2.1 ⟨rfl, rfl⟩ h2
  exact (denies_iff_not_allows rfl).1 this h1

/-! ## C34 -/

/-- C34: execve (59) and execveat (322) are allowed exactly with Exec. -/
theorem C34_exec (ids : Ids) (ps : List Promise) (d : SeccompData) (h : IsCall d 59 ∨ IsCall d 322) :
    (Allows ids ps d ↔ .Exec ∈ ps) ∧ (Denies ids ps d ↔ .Exec ∉ ps) := by
  have key : Allows ids ps d ↔ .Exec ∈ ps := by
    rcases h with h | h
    · rw [allows_plain h [.Exec] (by decide +kernel) (by decide) (by decide)]; simp
    · rw [allows_plain h [.Exec] (by decide +kernel) (by decide) (by decide)]; simp
  have ha : d.arch = X86_64 := by rcases h with h | h <;> exact h.1
  exact ⟨key, by rw [denies_iff_not_allows ha, key]⟩

example : IsCall (mkCall 59 [0x1000, 0, 0]) 59 := ⟨rfl, rfl⟩

/-! ## C35 -/

/-- Namespace flags of clone: NEWNS 17, NEWCGROUP 25, NEWUTS 26, NEWIPC 27, NEWUSER 28, NEWPID 29, NEWNET 30. -/
def namespaceBits : List Nat := [17, 25, 26, 27, 28, 29, 30]

/-- Full claim of C35. -/
def C35_full : Prop :=
  ∀ (ids : Ids) (ps : List Promise) (d : SeccompData),
    (.Proc ∉ ps → IsCall d 57 ∨ IsCall d 58 → Denies ids ps d) ∧ (IsCall d 435 → Denies ids ps d) ∧
    (.Proc ∉ ps → IsCall d 56 → Allows ids ps d → hasAll (arg d 0) [8, 9, 10, 11, 16]) ∧
    (IsCall d 56 → Allows ids ps d → hasNone (arg d 0) ([13, 23] ++ namespaceBits))

/-- C35 (partial): everything but the namespace flags other than NEWNS. Missing: those flags, for which the claim is false
(`C35_false_for_newuser`). -/
theorem C35_process_creation_partial (ids : Ids) (ps : List Promise) (d : SeccompData) :
    (.Proc ∉ ps → IsCall d 57 ∨ IsCall d 58 → Denies ids ps d) ∧ (IsCall d 435 → Denies ids ps d) ∧
    (.Proc ∉ ps → IsCall d 56 → Allows ids ps d → hasAll (arg d 0) [8, 9, 10, 11, 16]) ∧
    (IsCall d 56 → Allows ids ps d → hasNone (arg d 0) [13, 17, 23]) := by
  have hf : freeOf 56 = [] := by decide +kernel
  refine ⟨?_, fun h => ?_, fun hp h ha => ?_, fun h ha => ?_⟩
  · rintro hp (h | h)
    · exact denies_plain h [.Proc] (by decide +kernel) (by decide) (by decide) (by simpa using hp)
    · exact denies_plain h [.Proc] (by decide +kernel) (by decide) (by decide) (by simpa using hp)
  · exact denies_plain h [] (by decide +kernel) (by decide) (by decide) (by simp)
  · rw [allows_call h (by decide)] at ha
    obtain ⟨p, hps, ha | ha⟩ := ha
    · simp [hf] at ha
    · rcases ha with ⟨_, h2, _⟩ | ⟨rfl, _⟩
      · exact h2
      · exact absurd hps hp
  · rw [allows_call h (by decide)] at ha
    obtain ⟨p, hps, ha | ha⟩ := ha
    · simp [hf] at ha
    · rcases ha with ⟨_, _, h2⟩ | ⟨_, h2⟩ <;> exact h2

/-- The flags that the C library uses for a thread are allowed under StdIO. -/
example (ids : Ids) : Promise.Proc ∉ [Promise.StdIO] ∧ Allows ids [.StdIO] (mkCall 56 [0x3d0f00]) :=
  ⟨by decide, (allows_call (n := 56) ⟨rfl, rfl⟩ (by decide) _).2 ⟨.StdIO, by simp, .inr (.inl ⟨rfl,
    by simp only [hasAll]; decide, by simp only [hasNone]; decide⟩)⟩⟩

/-- C35 is false for CLONE_NEWUSER under Proc (and, with the thread flags, even under StdIO). -/
theorem C35_false_for_newuser : ¬ C35_full := by
  intro h
  have h1 := (h ⟨1, 1⟩ [.Proc] (mkCall 56 [0x10000011])).2.2.2 ⟨rfl, rfl⟩ ?_
  · have := h1 28 (by decide)
    revert this; decide
  · rw [allows_call (n := 56) ⟨rfl, rfl⟩ (by decide)]
    exact ⟨.Proc, by simp, .inr (.inr ⟨rfl, by simp only [hasNone]; decide⟩)⟩

/-- C35: clone exactly. -/
theorem C35_clone_exact (ids : Ids) (ps : List Promise) (d : SeccompData) (h : IsCall d 56) :
    Allows ids ps d ↔ hasNone (arg d 0) [13, 17, 23] ∧
      (.Proc ∈ ps ∨ .StdIO ∈ ps ∧ hasAll (arg d 0) [8, 9, 10, 11, 16]) := by
  rw [allows_call h (by decide)]
  have hf : freeOf 56 = [] := by decide +kernel
  constructor
  · rintro ⟨p, hp, ha | ha⟩
    · simp [hf] at ha
    · rcases ha with ⟨rfl, h1, h2⟩ | ⟨rfl, h2⟩
      · exact ⟨h2, .inr ⟨hp, h1⟩⟩
      · exact ⟨h2, .inl hp⟩
  · rintro ⟨h2, hp | ⟨hp, h1⟩⟩
    · exact ⟨_, hp, .inr (.inr ⟨rfl, h2⟩)⟩
    · exact ⟨_, hp, .inr (.inl ⟨rfl, h1, h2⟩)⟩

/-- Not vacuous: the flags of a fork. -/
example (ids : Ids) := C35_clone_exact ids [.Proc] (mkCall 56 [0x1200011]) ⟨rfl, rfl⟩

/-! ## C36 -/

/-- C36: socket (41), exactly. -/
theorem C36_socket (ids : Ids) (ps : List Promise) (d : SeccompData) (h : IsCall d 41) :
    Allows ids ps d ↔
      (.Inet ∈ ps ∨ .Dns ∈ ps) ∧ (arg d 0 = 2 ∨ arg d 0 = 10) ∧ (isSockType (arg d 1) 1 ∨ isSockType (arg d 1) 2) ∧
        (arg d 2 = 0 ∨ arg d 2 = 1 ∨ arg d 2 = 6 ∨ arg d 2 = 17) ∨
      .Unix ∈ ps ∧ arg d 0 = 1 ∧ (isSockType (arg d 1) 1 ∨ isSockType (arg d 1) 2) ∧ arg d 2 = 0 := by
  rw [allows_call h (by decide)]
  have hf : freeOf 41 = [] := by decide +kernel
  constructor
  · rintro ⟨p, hp, ha | ha⟩
    · simp [hf] at ha
    · rcases ha with ⟨hm, h1, h2, h3⟩ | ⟨rfl, h1, h2, h3⟩
      · left
        simp only [List.mem_cons, List.not_mem_nil, or_false] at hm h1 h3
        refine ⟨?_, h1, h2, h3⟩
        rcases hm with rfl | rfl
        · exact .inl hp
        · exact .inr hp
      · exact .inr ⟨hp, h1, h2, h3⟩
  · rintro (⟨hp, h1, h2, h3⟩ | ⟨hp, h1, h2, h3⟩)
    · have h1' : arg d 0 ∈ [2#32, 10#32] := by simpa using h1
      have h3' : arg d 2 ∈ [0#32, 1#32, 6#32, 17#32] := by simpa using h3
      rcases hp with hp | hp
      · exact ⟨_, hp, .inr (.inl ⟨by simp, h1', h2, h3'⟩)⟩
      · exact ⟨_, hp, .inr (.inl ⟨by simp, h1', h2, h3'⟩)⟩
    · exact ⟨_, hp, .inr (.inr ⟨rfl, h1, h2, h3⟩)⟩

/-- C36: no network promise, no socket. -/
theorem C36_no_promise_no_socket (ids : Ids) (ps : List Promise) (d : SeccompData) (h : IsCall d 41) (hi : .Inet ∉ ps)
    (hd : .Dns ∉ ps) (hu : .Unix ∉ ps) : Denies ids ps d := by
  rw [denies_call h, C36_socket ids ps d h]
  simp [hi, hd, hu]

example (ids : Ids) : Allows ids [.Inet] (mkCall 41 [2, 0x80801, 6]) :=
  (C36_socket ids _ _ ⟨rfl, rfl⟩).2 (.inl ⟨by simp, .inl rfl, .inl ⟨0x80800, by simp, by decide⟩, .inr (.inr (.inl rfl))⟩)

/-! ## C37 -/

/-- C37: without Proc, kill (62) and tkill (200) reach only the pledging process and thread, and only under StdIO; tgkill (234),
rt_sigqueueinfo (129), rt_tgsigqueueinfo (297), pidfd_send_signal (424) are denied. -/
theorem C37_signals (ids : Ids) (ps : List Promise) (d : SeccompData) (hp : .Proc ∉ ps) :
    (IsCall d 62 → (Allows ids ps d ↔ .StdIO ∈ ps ∧ arg d 0 = ids.pid)) ∧
    (IsCall d 200 → (Allows ids ps d ↔ .StdIO ∈ ps ∧ arg d 0 = ids.tid)) ∧
    (IsCall d 234 ∨ IsCall d 129 ∨ IsCall d 297 ∨ IsCall d 424 → Denies ids ps d) := by
  refine ⟨fun h => ?_, fun h => ?_, ?_⟩
  · rw [allows_call h (by decide)]
    have hf : freeOf 62 = [.Proc] := by decide +kernel
    constructor
    · rintro ⟨p, hps, ha | ha⟩
      · rw [hf] at ha; simp at ha; subst ha; exact absurd hps hp
      · obtain ⟨rfl, ha⟩ := ha; exact ⟨hps, ha⟩
    · rintro ⟨hs, ha⟩; exact ⟨_, hs, .inr ⟨rfl, ha⟩⟩
  · rw [allows_call h (by decide)]
    have hf : freeOf 200 = [.Proc] := by decide +kernel
    constructor
    · rintro ⟨p, hps, ha | ha⟩
      · rw [hf] at ha; simp at ha; subst ha; exact absurd hps hp
      · obtain ⟨rfl, ha⟩ := ha; exact ⟨hps, ha⟩
    · rintro ⟨hs, ha⟩; exact ⟨_, hs, .inr ⟨rfl, ha⟩⟩
  · rintro (h | h | h | h)
    · exact denies_plain h [.Proc] (by decide +kernel) (by decide) (by decide) (by simpa using hp)
    · exact denies_plain h [] (by decide +kernel) (by decide) (by decide) (by simp)
    · exact denies_plain h [] (by decide +kernel) (by decide) (by decide) (by simp)
    · exact denies_plain h [] (by decide +kernel) (by decide) (by decide) (by simp)

/-- Not vacuous: kill of the own process under StdIO. -/
example : Allows ⟨7, 8⟩ [.StdIO] (mkCall 62 [7, 15]) := ((C37_signals _ _ _ (by decide)).1 ⟨rfl, rfl⟩).2 ⟨by decide, rfl⟩

/-- C37, with Proc: kill, tkill and tgkill are unrestricted. -/
theorem C37_proc_signals (ids : Ids) (ps : List Promise) (d : SeccompData) (hp : .Proc ∈ ps)
    (h : IsCall d 62 ∨ IsCall d 200 ∨ IsCall d 234) : Allows ids ps d := by
  rcases h with h | h | h
  · exact (allows_call h (by decide) _).2 ⟨_, hp, .inl (by decide +kernel)⟩
  · exact (allows_call h (by decide) _).2 ⟨_, hp, .inl (by decide +kernel)⟩
  · exact (allows_call h (by decide) _).2 ⟨_, hp, .inl (by decide +kernel)⟩

example : Promise.Proc ∉ [Promise.StdIO, .Exec] ∧ IsCall (mkCall 62 [4711, 9]) 62 := ⟨by decide, ⟨rfl, rfl⟩⟩

/-! ## C38–C40 -/

/-- C38: fcntl (72), exactly. -/
theorem C38_fcntl (ids : Ids) (ps : List Promise) (d : SeccompData) (h : IsCall d 72) :
    Allows ids ps d ↔
      .StdIO ∈ ps ∧ ((arg d 1).toNat ≤ 4 ∨ (arg d 1).toNat = 1030) ∨
      .FLock ∈ ps ∧ (5 ≤ (arg d 1).toNat ∧ (arg d 1).toNat ≤ 7) := by
  rw [allows_call h (by decide)]
  have hf : freeOf 72 = [] := by decide +kernel
  have h1 : arg d 1 = 1030 ↔ (arg d 1).toNat = 1030 :=
    ⟨fun h => by rw [h]; rfl, fun h => BitVec.eq_of_toNat_eq h⟩
  have h2 : arg d 1 ∈ [5#32, 6#32, 7#32] ↔ (5 ≤ (arg d 1).toNat ∧ (arg d 1).toNat ≤ 7) := by
    simp only [List.mem_cons, List.not_mem_nil, or_false]
    constructor
    · rintro (h | h | h) <;> rw [h] <;> decide
    · rintro ⟨ha, hb⟩
      have : (arg d 1).toNat = 5 ∨ (arg d 1).toNat = 6 ∨ (arg d 1).toNat = 7 := by omega
      rcases this with h | h | h
      · exact .inl (BitVec.eq_of_toNat_eq h)
      · exact .inr (.inl (BitVec.eq_of_toNat_eq h))
      · exact .inr (.inr (BitVec.eq_of_toNat_eq h))
  constructor
  · rintro ⟨p, hp, ha | ha⟩
    · simp [hf] at ha
    · rcases ha with ⟨rfl, ha⟩ | ⟨rfl, ha⟩
      · exact .inl ⟨hp, by rwa [h1] at ha⟩
      · exact .inr ⟨hp, h2.1 ha⟩
  · rintro (⟨hp, ha⟩ | ⟨hp, ha⟩)
    · exact ⟨_, hp, .inr (.inl ⟨rfl, by rwa [h1]⟩)⟩
    · exact ⟨_, hp, .inr (.inr ⟨rfl, h2.2 ha⟩)⟩

example (ids : Ids) : Allows ids [.StdIO] (mkCall 72 [3, 1030]) ∧ Denies ids [.StdIO] (mkCall 72 [3, 6]) := by
  rw [denies_call (n := 72) ⟨rfl, rfl⟩, C38_fcntl ids _ _ ⟨rfl, rfl⟩, C38_fcntl ids _ _ ⟨rfl, rfl⟩]
  decide

/-- C39: ioctl (16), exactly. -/
theorem C39_ioctl (ids : Ids) (ps : List Promise) (d : SeccompData) (h : IsCall d 16) :
    Allows ids ps d ↔
      .StdIO ∈ ps ∧ arg d 1 ∈ [0x541B#32, 0x5421#32, 0x5451#32, 0x5450#32] ∨
      .Inet ∈ ps ∧ arg d 1 = 0x8905 ∨
      .Tty ∈ ps ∧ arg d 1 ∈ [0x5401#32, 0x5402#32, 0x5403#32, 0x5404#32, 0x5413#32, 0x5410#32, 0x540F#32,
        0x5414#32, 0x540B#32, 0x540A#32, 0x5409#32, 0x5427#32] := by
  rw [allows_call h (by decide)]
  have hf : freeOf 16 = [] := by decide +kernel
  constructor
  · rintro ⟨p, hp, ha | ha⟩
    · simp [hf] at ha
    · rcases ha with ⟨rfl, ha⟩ | ⟨rfl, ha⟩ | ⟨rfl, ha⟩
      · exact .inl ⟨hp, ha⟩
      · exact .inr (.inl ⟨hp, ha⟩)
      · exact .inr (.inr ⟨hp, ha⟩)
  · rintro (⟨hp, ha⟩ | ⟨hp, ha⟩ | ⟨hp, ha⟩)
    · exact ⟨_, hp, .inr (.inl ⟨rfl, ha⟩)⟩
    · exact ⟨_, hp, .inr (.inr (.inl ⟨rfl, ha⟩))⟩
    · exact ⟨_, hp, .inr (.inr (.inr ⟨rfl, ha⟩))⟩

/-- Not vacuous: FIONBIO under StdIO. -/
example (ids : Ids) : Allows ids [.StdIO] (mkCall 16 [3, 0x5421]) := (C39_ioctl ids _ _ ⟨rfl, rfl⟩).2 (.inl ⟨by decide, by decide⟩)

/-- C39: TIOCSTI (0x5412) and TIOCLINUX (0x541C) are never allowed. -/
theorem C39_no_tiocsti (ids : Ids) (ps : List Promise) (d : SeccompData) (h : IsCall d 16)
    (ha : arg d 1 = 0x5412 ∨ arg d 1 = 0x541C) : Denies ids ps d := by
  rw [denies_call h, C39_ioctl ids ps d h]
  rcases ha with ha | ha <;> rw [ha] <;> simp

example : IsCall (mkCall 16 [0, 0x5412, 0x1000]) 16 ∧ arg (mkCall 16 [0, 0x5412, 0x1000]) 1 = 0x5412 := ⟨⟨rfl, rfl⟩, by decide⟩

/-- C40: prctl (157), exactly. -/
theorem C40_prctl (ids : Ids) (ps : List Promise) (d : SeccompData) (h : IsCall d 157) :
    Allows ids ps d ↔ .StdIO ∈ ps ∧ arg d 0 ∈ [15#32, 16#32, 21#32, 22#32, 23#32, 24#32, 38#32] := by
  rw [allows_call h (by decide)]
  have hf : freeOf 157 = [] := by decide +kernel
  constructor
  · rintro ⟨p, hp, ha | ha⟩
    · simp [hf] at ha
    · obtain ⟨rfl, ha⟩ := ha; exact ⟨hp, ha⟩
  · rintro ⟨hp, ha⟩; exact ⟨_, hp, .inr ⟨rfl, ha⟩⟩

example (ids : Ids) : Allows ids [.StdIO] (mkCall 157 [38, 1]) ∧ Denies ids [.StdIO] (mkCall 157 [4, 1]) := by
  rw [denies_call (n := 157) ⟨rfl, rfl⟩, C40_prctl ids _ _ ⟨rfl, rfl⟩, C40_prctl ids _ _ ⟨rfl, rfl⟩]
  decide

/-! ## C41, C42 -/

/-- Full claim of C41. -/
def C41_full : Prop :=
  ∀ (ids : Ids) (ps : List Promise) (d : SeccompData), .Proc ∉ ps → .Id ∉ ps →
    (IsCall d 302 → Allows ids ps d → .StdIO ∈ ps ∧ d.args 2 = 0) ∧ (IsCall d 160 → Denies ids ps d)

/-- C41 (partial): only the low half of the pointer is known to be zero. Missing: the upper half, for which the claim is false
(`C41_false_for_high_pointer`). -/
theorem C41_rlimits_partial (ids : Ids) (ps : List Promise) (d : SeccompData) (hp : .Proc ∉ ps) (hi : .Id ∉ ps) :
    (IsCall d 302 → (Allows ids ps d ↔ .StdIO ∈ ps ∧ (d.args 2).setWidth 32 = 0)) ∧ (IsCall d 160 → Denies ids ps d) := by
  constructor
  · intro h
    rw [allows_call h (by decide)]
    have hf : freeOf 302 = [.Proc, .Id] := by decide +kernel
    constructor
    · rintro ⟨p, hps, ha | ha⟩
      · rw [hf] at ha; simp at ha
        rcases ha with rfl | rfl
        · exact absurd hps hp
        · exact absurd hps hi
      · obtain ⟨rfl, ha⟩ := ha; exact ⟨hps, ha⟩
    · rintro ⟨hs, ha⟩; exact ⟨_, hs, .inr ⟨rfl, ha⟩⟩
  · intro h
    exact denies_plain h [.Proc, .Id] (by decide +kernel) (by decide) (by decide) (by simp [hp, hi])

/-- C41 is false: a new_limit structure at an address that is a multiple of 4 GiB passes the filter. -/
theorem C41_false_for_high_pointer : ¬ C41_full := by
  intro h
  have h1 := (h ⟨1, 1⟩ [.StdIO] (mkCall 302 [0, 7, 0x700000000000, 0]) (by decide) (by decide)).1 ⟨rfl, rfl⟩
    (((C41_rlimits_partial _ _ _ (by decide) (by decide)).1 ⟨rfl, rfl⟩).2 ⟨by simp, by decide⟩)
  have := h1.2
  revert this; decide

example (ids : Ids) : Allows ids [.StdIO] (mkCall 302 [0, 7, 0, 0x1000]) :=
  ((C41_rlimits_partial ids _ _ (by decide) (by decide)).1 ⟨rfl, rfl⟩).2 ⟨by simp, by decide⟩

/-- C42: sendto (44) without a network promise: exactly under StdIO with a NULL destination. -/
theorem C42_sendto (ids : Ids) (ps : List Promise) (d : SeccompData) (h : IsCall d 44) (h1 : .Inet ∉ ps) (h2 : .Unix ∉ ps)
    (h3 : .Dns ∉ ps) : Allows ids ps d ↔ .StdIO ∈ ps ∧ d.args 4 = 0 := by
  rw [allows_call h (by decide)]
  have hf : freeOf 44 = [.Inet, .Unix, .Dns] := by decide +kernel
  constructor
  · rintro ⟨p, hps, ha | ha⟩
    · rw [hf] at ha; simp at ha
      rcases ha with rfl | rfl | rfl <;> contradiction
    · obtain ⟨rfl, ha⟩ := ha; exact ⟨hps, ha⟩
  · rintro ⟨hs, ha⟩; exact ⟨_, hs, .inr ⟨rfl, ha⟩⟩

/-- Not vacuous: a send on a connected socket under StdIO. -/
example (ids : Ids) : Allows ids [.StdIO] (mkCall 44 [3, 0x1000, 5, 0, 0, 0]) :=
  (C42_sendto ids _ _ ⟨rfl, rfl⟩ (by decide) (by decide) (by decide)).2 ⟨by decide, by decide⟩

/-- C42, with a network promise: unrestricted. -/
theorem C42_sendto_network (ids : Ids) (ps : List Promise) (d : SeccompData) (h : IsCall d 44)
    (hp : .Inet ∈ ps ∨ .Unix ∈ ps ∨ .Dns ∈ ps) : Allows ids ps d := by
  rcases hp with hp | hp | hp
  · exact (allows_call h (by decide) _).2 ⟨_, hp, .inl (by decide +kernel)⟩
  · exact (allows_call h (by decide) _).2 ⟨_, hp, .inl (by decide +kernel)⟩
  · exact (allows_call h (by decide) _).2 ⟨_, hp, .inl (by decide +kernel)⟩

example : Promise.Inet ∉ [Promise.StdIO] ∧ (mkCall 44 [3, 0x1000, 5, 0, 0, 0]).args 4 = 0 := ⟨by decide, by decide⟩

/-! ## C43 -/

/-- Documented levels and options of getsockopt (src/seccomp.rs, comment above getsockopt_restrict). -/
def getsockoptDoc (d : SeccompData) : Prop :=
  arg d 1 ∈ [1#32, 6#32] ∧ arg d 2 ∈ [2#32, 3#32, 4#32, 9#32, 15#32, 20#32, 21#32]
/-- Documented levels and options of setsockopt (comment above setsockopt_restrict). -/
def setsockoptDoc (d : SeccompData) : Prop :=
  arg d 1 ∈ [0#32, 1#32, 6#32] ∧
  arg d 2 ∈ [1#32, 2#32, 3#32, 4#32, 5#32, 9#32, 11#32, 12#32, 15#32, 20#32, 21#32, 23#32, 30#32]

/-- Full claim of C43. -/
def C43_full : Prop :=
  ∀ (ids : Ids) (ps : List Promise) (d : SeccompData), .Inet ∈ ps ∨ .Unix ∈ ps →
    (IsCall d 55 → (Allows ids ps d ↔ getsockoptDoc d)) ∧ (IsCall d 54 → (Allows ids ps d ↔ setsockoptDoc d))

/-- C43 (partial): the documented getsockopt calls are allowed; getsockopt is allowed exactly for the documented getsockopt *or*
setsockopt options and only with Inet or Unix; setsockopt is never allowed. Missing: the two documented exact sets, for which
the claim is false (`C43_false`). -/
theorem C43_sockopt_partial (ids : Ids) (ps : List Promise) (d : SeccompData) :
    (IsCall d 55 → (Allows ids ps d ↔ (.Inet ∈ ps ∨ .Unix ∈ ps) ∧ (getsockoptDoc d ∨ setsockoptDoc d))) ∧
    (IsCall d 54 → Denies ids ps d) := by
  constructor
  · intro h
    rw [allows_call h (by decide)]
    have hf : freeOf 55 = [] := by decide +kernel
    constructor
    · rintro ⟨p, hps, ha | ha⟩
      · simp [hf] at ha
      · obtain ⟨hm, ha⟩ := ha
        refine ⟨?_, ha⟩
        simp only [List.mem_cons, List.not_mem_nil, or_false] at hm
        rcases hm with rfl | rfl
        · exact .inl hps
        · exact .inr hps
    · rintro ⟨hs | hs, ha⟩
      · exact ⟨_, hs, .inr ⟨by simp, ha⟩⟩
      · exact ⟨_, hs, .inr ⟨by simp, ha⟩⟩
  · intro h
    exact denies_plain h [] (by decide +kernel) (by decide) (by decide) (by simp)

/-- C43 is false: setsockopt(fd, SOL_SOCKET, SO_REUSEADDR) is denied under Inet (the filter tests getsockopt's number twice). -/
theorem C43_false : ¬ C43_full := by
  intro h
  have h1 := ((h ⟨1, 1⟩ [.Inet] (mkCall 54 [3, 1, 2]) (.inl (by simp))).2 ⟨rfl, rfl⟩).2 (by simp only [setsockoptDoc]; decide)
  exact (denies_iff_not_allows rfl).1 ((C43_sockopt_partial _ _ _).2 ⟨rfl, rfl⟩) h1

/-- And getsockopt is allowed for an undocumented level and option, SOL_IP / 1. -/
theorem C43_getsockopt_too_wide : Allows ⟨1, 1⟩ [.Inet] (mkCall 55 [3, 0, 1]) ∧ ¬ getsockoptDoc (mkCall 55 [3, 0, 1]) :=
  ⟨((C43_sockopt_partial _ _ _).1 ⟨rfl, rfl⟩).2 ⟨.inl (by simp), .inr (by simp only [setsockoptDoc]; decide)⟩,
    by simp only [getsockoptDoc]; decide⟩

/-! ## C44 -/

/-- Full claim of C44: recvmsg 47, recvmmsg 299, sendmsg 46, sendmmsg 307. -/
def C44_full : Prop :=
  ∀ (ids : Ids) (ps : List Promise) (d : SeccompData),
    (IsCall d 47 ∨ IsCall d 299 → (Allows ids ps d ↔ .RecvFd ∈ ps)) ∧
    (IsCall d 46 ∨ IsCall d 307 → (Allows ids ps d ↔ .SendFd ∈ ps))

/-- C44 (partial): RecvFd allows receiving messages; without both promises nothing of the four is allowed. Missing: SendFd gives
receiving instead of sending, so the claim is false (`C44_false`). -/
theorem C44_fd_passing_partial (ids : Ids) (ps : List Promise) (d : SeccompData) :
    (IsCall d 47 ∨ IsCall d 299 → (Allows ids ps d ↔ .RecvFd ∈ ps ∨ .SendFd ∈ ps)) ∧
    (IsCall d 46 ∨ IsCall d 307 → Denies ids ps d) := by
  constructor
  · rintro (h | h)
    · rw [allows_plain h [.RecvFd, .SendFd] (by decide +kernel) (by decide) (by decide)]
      simp only [List.mem_cons, List.not_mem_nil, or_false]
      constructor
      · rintro ⟨p, hp, rfl | rfl⟩
        · exact .inl hp
        · exact .inr hp
      · rintro (hp | hp)
        · exact ⟨_, hp, .inl rfl⟩
        · exact ⟨_, hp, .inr rfl⟩
    · rw [allows_plain h [.RecvFd, .SendFd] (by decide +kernel) (by decide) (by decide)]
      simp only [List.mem_cons, List.not_mem_nil, or_false]
      constructor
      · rintro ⟨p, hp, rfl | rfl⟩
        · exact .inl hp
        · exact .inr hp
      · rintro (hp | hp)
        · exact ⟨_, hp, .inl rfl⟩
        · exact ⟨_, hp, .inr rfl⟩
  · rintro (h | h)
    · exact denies_plain h [] (by decide +kernel) (by decide) (by decide) (by simp)
    · exact denies_plain h [] (by decide +kernel) (by decide) (by decide) (by simp)

/-- C44 is false: sendmsg is denied even with SendFd. -/
theorem C44_false : ¬ C44_full := by
  intro h
  have h1 := ((h ⟨1, 1⟩ [.SendFd] (mkCall 46 [3])).2 (.inl ⟨rfl, rfl⟩)).2 (by simp)
  exact (denies_iff_not_allows rfl).1 ((C44_fd_passing_partial _ _ _).2 (.inl ⟨rfl, rfl⟩)) h1

/-! ## C45 -/

/-- Privileged operations and the one promise each needs: set*id, setgroups; chown family; clock; mknod; landlock; flock;
utime family. -/
def privileged : List (Nat × Promise) :=
  [(105, .Id), (106, .Id), (113, .Id), (114, .Id), (116, .Id), (117, .Id), (119, .Id), (122, .Id), (123, .Id),
   (92, .Chown), (93, .Chown), (94, .Chown), (260, .Chown),
   (164, .SetTime), (305, .SetTime), (133, .DPath), (259, .DPath),
   (444, .Unveil), (445, .Unveil), (446, .Unveil), (73, .FLock),
   (132, .FAttr), (235, .FAttr), (261, .FAttr), (280, .FAttr)]

/-- C45: each is allowed exactly with its promise, and otherwise denied. -/
theorem C45_privileged (ids : Ids) (ps : List Promise) (d : SeccompData) (n : Nat) (q : Promise) (hq : (n, q) ∈ privileged)
    (h : IsCall d n) : (Allows ids ps d ↔ q ∈ ps) ∧ (Denies ids ps d ↔ q ∉ ps) := by
  have hall : ∀ r ∈ privileged, freeOf r.1 = [r.2] ∧ r.1 ∉ argNumbers ∧ r.1 ≠ 60 := by decide +kernel
  obtain ⟨h1, h2, h3⟩ := hall _ hq
  have key : Allows ids ps d ↔ q ∈ ps := by
    rw [allows_plain h [q] h1 h2 h3]; simp
  exact ⟨key, by rw [denies_call h, key]⟩

example : (105, Promise.Id) ∈ privileged ∧ IsCall (mkCall 105 [0]) 105 := ⟨by decide, ⟨rfl, rfl⟩⟩

/-! ## C46 -/

/-- ptrace 101, process_vm_readv/writev 310 311, mount 165, umount2 166, pivot_root 155, chroot 161, unshare 272, setns 308,
bpf 321, perf_event_open 298, kexec_load 246, kexec_file_load 320, init_module 175, finit_module 313, delete_module 176,
reboot 169, swapon 167, swapoff 168, iopl 172, ioperm 173, userfaultfd 323, io_uring 425-427, keyctl 250, add_key 248,
request_key 249, personality 135, seccomp 317, clone3 435, openat2 437, open_by_handle_at 304, move_mount 429, open_tree 428,
fsopen 430, fsmount 432, mount_setattr 442, syslog 103, acct 163, quotactl 179, nfsservctl 180, sethostname 170,
setdomainname 171, clock_settime 227, adjtimex 159, modify_ldt 154, lookup_dcookie 212, vhangup 153, pidfd_getfd 438,
process_madvise 440, kcmp 312, pkey_mprotect 329. -/
def dangerous : List Nat :=
  [101, 310, 311, 165, 166, 155, 161, 272, 308, 321, 298, 246, 320, 175, 313, 176, 169, 167, 168, 172, 173, 323, 425, 426, 427,
   250, 248, 249, 135, 317, 435, 437, 304, 429, 428, 430, 432, 442, 103, 163, 179, 180, 170, 171, 227, 159, 154, 212, 153, 438,
   440, 312, 329]

/-- C46: none of them is ever allowed. -/
theorem C46_dangerous (ids : Ids) (ps : List Promise) (d : SeccompData) (n : Nat) (hn : n ∈ dangerous) (h : IsCall d n) :
    Denies ids ps d := by
  have hall : ∀ n ∈ dangerous, freeOf n = [] ∧ n ∉ argNumbers ∧ n ≠ 60 := by decide +kernel
  obtain ⟨h1, h2, h3⟩ := hall n hn
  exact denies_plain h [] h1 h2 h3 (by simp)

example : 101 ∈ dangerous ∧ IsCall (mkCall 101 [16, 1]) 101 := ⟨by decide, ⟨rfl, rfl⟩⟩

/-! ## C47 -/

/-- System calls permitted with a condition on the arguments: number, name, promises (apart from those that permit it
unconditionally). -/
def argTable : List (Nat × String × List Promise) := [
  (2, "open", [.RPath, .WPath, .CPath]), (9, "mmap", [.StdIO, .ProtExec]), (10, "mprotect", [.StdIO]),
  (16, "ioctl", [.StdIO, .Inet, .Tty]), (41, "socket", [.Inet, .Unix, .Dns]), (44, "sendto", [.StdIO]),
  (55, "getsockopt", [.Inet, .Unix]), (56, "clone", [.StdIO, .Proc]), (62, "kill", [.StdIO]), (72, "fcntl", [.StdIO, .FLock]),
  (85, "creat", [.CPath]), (90, "chmod", [.WPath, .FAttr]), (91, "fchmod", [.WPath, .FAttr]), (157, "prctl", [.StdIO]),
  (200, "tkill", [.StdIO]), (257, "openat", [.RPath, .Dns, .WPath, .CPath]), (268, "fchmodat", [.WPath, .FAttr]),
  (302, "prlimit64", [.StdIO])]

/-- Promise `p` has a conditional entry for number `n`. -/
def Conditional (n : Nat) (p : Promise) : Prop := ∃ name ps, (n, name, ps) ∈ argTable ∧ p ∈ ps

def condOf (n : Nat) : List Promise := (argTable.filter (fun r => r.1 == n)).flatMap (fun r => r.2.2)

theorem conditional_iff (n : Nat) (p : Promise) : Conditional n p ↔ p ∈ condOf n := by
  simp only [Conditional, condOf, List.mem_flatMap, List.mem_filter, beq_iff_eq]
  constructor
  · rintro ⟨name, ps, h, hp⟩; exact ⟨(n, name, ps), ⟨h, rfl⟩, hp⟩
  · rintro ⟨⟨n', name, ps⟩, ⟨h, rfl⟩, hp⟩; exact ⟨name, ps, h, hp⟩

/-- A record with the given number on which no conditional rule applies (for ids 1/1). -/
def badCall (n : Nat) : SeccompData :=
  match n with
  | 9 => mkCall 9 [0, 0, 7, 0x52000]
  | 10 => mkCall 10 [0, 0, 4]
  | 41 => mkCall 41 [99]
  | 44 => mkCall 44 [0, 0, 0, 0, 1]
  | 56 => mkCall 56 [0x20000]
  | 72 => mkCall 72 [0, 9]
  | 2 => mkCall 2 [0, 0, 0x400243, 0xe00]
  | 257 => mkCall 257 [0, 0, 0x400243, 0xe00]
  | 85 => mkCall 85 [0, 0xe00]
  | 90 => mkCall 90 [0, 0xe00]
  | 91 => mkCall 91 [0, 0xe00]
  | 268 => mkCall 268 [0, 0xe00]
  | 302 => mkCall 302 [0, 0, 1]
  | n => mkCall n []

theorem bad_not_rule (p : Promise) (n : Nat) : ¬ ruleAt ⟨1, 1⟩ (badCall n) p n := by
  unfold ruleAt
  split
  · rintro (⟨_, h⟩ | ⟨_, h⟩) <;> revert h <;> decide
  · rintro (⟨_, h, _⟩ | ⟨_, h⟩)
    · revert h; decide
    · have := h 13 (by simp); revert this; decide
  · rintro ⟨_, h⟩; have := h 2 (by simp); revert this; decide
  · rintro ⟨_, h⟩; revert h; decide
  · rintro (⟨_, h⟩ | ⟨_, h⟩ | ⟨_, h⟩) <;> revert h <;> decide
  · rintro ⟨_, h⟩; revert h; decide
  · rintro ⟨_, h⟩; revert h; decide
  · rintro ⟨_, h⟩; revert h; decide
  · rintro (⟨_, _, h⟩ | ⟨_, h⟩) <;> have := h 17 (by simp) <;> revert this <;> decide
  · rintro ⟨_, h⟩; revert h; decide
  · rintro (⟨_, h, _⟩ | ⟨_, h, _⟩ | ⟨_, h | h⟩)
    · revert h; decide
    · revert h; decide
    · have := h 6 (by simp); revert this; decide
    · have := h 9 (by simp); revert this; decide
  · rintro (⟨_, h, _⟩ | ⟨_, h, _⟩ | ⟨_, h | h⟩)
    · revert h; decide
    · revert h; decide
    · have := h 6 (by simp); revert this; decide
    · have := h 9 (by simp); revert this; decide
  · rintro ⟨_, h⟩; have := h 9 (by simp); revert this; decide
  · rintro ⟨_, h⟩; have := h 9 (by simp); revert this; decide
  · rintro ⟨_, h⟩; have := h 9 (by simp); revert this; decide
  · rintro ⟨_, h⟩; have := h 9 (by simp); revert this; decide
  · rintro (⟨_, h, _⟩ | ⟨_, h, _⟩) <;> revert h <;> decide
  · rintro ⟨_, ⟨_, h⟩ | ⟨_, h⟩⟩ <;> revert h <;> decide
  · exact id

theorem badCall_isCall (n : Nat) (hn : n < 2 ^ 32) : IsCall (badCall n) n := by
  unfold badCall
  split <;> refine ⟨rfl, ?_⟩ <;> simp [mkCall]
  omega

/-- C47, unconditional part: promise `p` alone permits number `n` with all arguments (to all threads) exactly if the published
table `freeTable` has the entry (exit apart, which is always permitted). -/
theorem C47_unconditional (p : Promise) (n : Nat) (hn : n < 2 ^ 32) (h60 : n ≠ 60) :
    (∀ ids d, IsCall d n → Allows ids [p] d) ↔ Free n p := by
  constructor
  · intro h
    have h1 := h ⟨1, 1⟩ (badCall n) (badCall_isCall n hn)
    rw [allows_call (badCall_isCall n hn) h60] at h1
    obtain ⟨q, hq, h1 | h1⟩ := h1
    · simp at hq; subst hq; exact (free_iff_mem _ _).2 h1
    · exact absurd h1 (bad_not_rule q n)
  · intro h ids d hd
    exact (allows_call hd h60 _).2 ⟨p, by simp, .inl ((free_iff_mem _ _).1 h)⟩

/-- Not vacuous: read, which StdIO permits unconditionally. -/
example (ids : Ids) (d : SeccompData) (h : IsCall d 0) : Allows ids [.StdIO] d :=
  (C47_unconditional .StdIO 0 (by decide) (by decide)).2 ⟨"read", [.StdIO, .Dns], by decide +kernel, by decide⟩ ids d h

theorem ruleAt_cond (ids : Ids) (d : SeccompData) (p : Promise) (n : Nat) (h : ruleAt ids d p n) : p ∈ condOf n := by
  unfold ruleAt at h
  split at h
  · rcases h with ⟨rfl, _⟩ | ⟨rfl, _⟩ <;> decide
  · rcases h with ⟨rfl, _⟩ | ⟨rfl, _⟩ <;> decide
  · obtain ⟨rfl, _⟩ := h; decide
  · obtain ⟨rfl, _⟩ := h; decide
  · rcases h with ⟨rfl, _⟩ | ⟨rfl, _⟩ | ⟨rfl, _⟩ <;> decide
  · obtain ⟨rfl, _⟩ := h; decide
  · obtain ⟨rfl, _⟩ := h; decide
  · obtain ⟨rfl, _⟩ := h; decide
  · rcases h with ⟨rfl, _⟩ | ⟨rfl, _⟩ <;> decide
  · obtain ⟨rfl, _⟩ := h; decide
  · rcases h with ⟨rfl, _⟩ | ⟨rfl, _⟩ | ⟨rfl, _⟩ <;> decide
  · rcases h with ⟨hm, _⟩ | ⟨rfl, _⟩ | ⟨rfl, _⟩
    · simp only [List.mem_cons, List.not_mem_nil, or_false] at hm; rcases hm with rfl | rfl <;> decide
    · decide
    · decide
  · obtain ⟨rfl, _⟩ := h; decide
  · have hm := h.1; simp only [List.mem_cons, List.not_mem_nil, or_false] at hm; rcases hm with rfl | rfl <;> decide
  · have hm := h.1; simp only [List.mem_cons, List.not_mem_nil, or_false] at hm; rcases hm with rfl | rfl <;> decide
  · have hm := h.1; simp only [List.mem_cons, List.not_mem_nil, or_false] at hm; rcases hm with rfl | rfl <;> decide
  · rcases h with ⟨hm, _⟩ | ⟨rfl, _⟩
    · simp only [List.mem_cons, List.not_mem_nil, or_false] at hm; rcases hm with rfl | rfl <;> decide
    · decide
  · have hm := h.1; simp only [List.mem_cons, List.not_mem_nil, or_false] at hm; rcases hm with rfl | rfl <;> decide
  · exact h.elim

/-- A record with the given number that satisfies the rule of promise `p` (for ids 1/1). -/
def goodCall (p : Promise) (n : Nat) : SeccompData :=
  match n with
  | 16 => mkCall 16 [0, match p with | .StdIO => 0x541B | .Inet => 0x8905 | _ => 0x5401]
  | 41 => mkCall 41 (match p with | .Unix => [1, 1, 0] | _ => [2, 1, 0])
  | 56 => mkCall 56 [0x10f00]
  | 62 => mkCall 62 [1]
  | 200 => mkCall 200 [1]
  | 55 => mkCall 55 [0, 1, 2]
  | 72 => mkCall 72 [0, match p with | .StdIO => 0 | _ => 5]
  | 157 => mkCall 157 [38]
  | 2 => mkCall 2 [0, 0, match p with | .WPath => 1 | _ => 0]
  | 257 => mkCall 257 [0, 0, match p with | .WPath => 1 | _ => 0]
  | n => mkCall n []

theorem goodCall_isCall (p : Promise) (n : Nat) (hn : n < 2 ^ 32) : IsCall (goodCall p n) n := by
  unfold goodCall
  split <;> refine ⟨rfl, ?_⟩ <;> simp [mkCall]
  omega

theorem good_rule (p : Promise) (n : Nat) (h : p ∈ condOf n) : ruleAt ⟨1, 1⟩ (goodCall p n) p n := by
  obtain ⟨name, ps, h, hp⟩ := (conditional_iff n p).2 h
  simp only [argTable, List.mem_cons, List.not_mem_nil, or_false, Prod.mk.injEq] at h
  rcases h with ⟨rfl, _, rfl⟩ | ⟨rfl, _, rfl⟩ | ⟨rfl, _, rfl⟩ | ⟨rfl, _, rfl⟩ | ⟨rfl, _, rfl⟩ | ⟨rfl, _, rfl⟩ |
    ⟨rfl, _, rfl⟩ | ⟨rfl, _, rfl⟩ | ⟨rfl, _, rfl⟩ | ⟨rfl, _, rfl⟩ | ⟨rfl, _, rfl⟩ | ⟨rfl, _, rfl⟩ | ⟨rfl, _, rfl⟩ |
    ⟨rfl, _, rfl⟩ | ⟨rfl, _, rfl⟩ | ⟨rfl, _, rfl⟩ | ⟨rfl, _, rfl⟩ | ⟨rfl, _, rfl⟩ <;>
    simp only [List.mem_cons, List.not_mem_nil, or_false] at hp
  · rcases hp with rfl | rfl | rfl
    · exact .inl ⟨rfl, by decide, by simp only [hasNone]; decide⟩
    · exact .inr (.inl ⟨rfl, by decide, by simp only [hasNone]; decide⟩)
    · exact .inr (.inr ⟨rfl, .inl (by simp only [hasNone]; decide)⟩)
  · rcases hp with rfl | rfl
    · exact .inl ⟨rfl, by decide, by simp only [hasNone]; decide⟩
    · exact .inr ⟨rfl, by simp only [hasNone]; decide⟩
  · subst hp
    refine ⟨rfl, fun i _ => ?_⟩
    have : arg (goodCall .StdIO 10) 2 = 0 := by decide
    rw [this]; simp
  · rcases hp with rfl | rfl | rfl
    · exact .inl ⟨rfl, by decide⟩
    · exact .inr (.inl ⟨rfl, by decide⟩)
    · exact .inr (.inr ⟨rfl, by decide⟩)
  · rcases hp with rfl | rfl | rfl
    · exact .inl ⟨by simp, by decide, .inl ⟨0, by simp, by decide⟩, by decide⟩
    · exact .inr ⟨rfl, by decide, .inl ⟨0, by simp, by decide⟩, by decide⟩
    · exact .inl ⟨by simp, by decide, .inl ⟨0, by simp, by decide⟩, by decide⟩
  · subst hp; exact ⟨rfl, by decide⟩
  · rcases hp with rfl | rfl
    · exact ⟨by simp, .inl (by decide)⟩
    · exact ⟨by simp, .inl (by decide)⟩
  · rcases hp with rfl | rfl
    · exact .inl ⟨rfl, by simp only [hasAll]; decide, by simp only [hasNone]; decide⟩
    · exact .inr ⟨rfl, by simp only [hasNone]; decide⟩
  · subst hp; exact ⟨rfl, by decide⟩
  · rcases hp with rfl | rfl
    · exact .inl ⟨rfl, by decide⟩
    · exact .inr ⟨rfl, by decide⟩
  · subst hp; exact ⟨rfl, by simp only [hasNone]; decide⟩
  · exact ⟨by simpa using hp, by rcases hp with rfl | rfl <;> simp only [hasNone] <;> decide⟩
  · exact ⟨by simpa using hp, by rcases hp with rfl | rfl <;> simp only [hasNone] <;> decide⟩
  · subst hp; exact ⟨rfl, by decide⟩
  · subst hp; exact ⟨rfl, by decide⟩
  · rcases hp with rfl | rfl | rfl | rfl
    · exact .inl ⟨by simp, by decide, by simp only [hasNone]; decide⟩
    · exact .inl ⟨by simp, by decide, by simp only [hasNone]; decide⟩
    · exact .inr (.inl ⟨rfl, by decide, by simp only [hasNone]; decide⟩)
    · exact .inr (.inr ⟨rfl, .inl (by simp only [hasNone]; decide)⟩)
  · exact ⟨by simpa using hp, by rcases hp with rfl | rfl <;> simp only [hasNone] <;> decide⟩
  · subst hp; exact ⟨rfl, by decide⟩

/-- C47, conditional part: promise `p` alone permits number `n` for some arguments but not for all exactly if `argTable` has the
entry (and `freeTable` has not); every other number is never permitted. -/
theorem C47_conditional (p : Promise) (n : Nat) (hn : n < 2 ^ 32) (h60 : n ≠ 60) :
    (∃ ids d, IsCall d n ∧ Allows ids [p] d) ↔ Free n p ∨ Conditional n p := by
  rw [free_iff_mem, conditional_iff]
  constructor
  · rintro ⟨ids, d, hd, h⟩
    rw [allows_call hd h60] at h
    obtain ⟨q, hq, h | h⟩ := h
    · simp at hq; subst hq; exact .inl h
    · simp at hq; subst hq; exact .inr (ruleAt_cond _ _ _ _ h)
  · rintro (h | h)
    · exact ⟨⟨1, 1⟩, badCall n, badCall_isCall n hn, (allows_call (badCall_isCall n hn) h60 _).2 ⟨p, by simp, .inl h⟩⟩
    · exact ⟨⟨1, 1⟩, goodCall p n, goodCall_isCall p n hn,
        (allows_call (goodCall_isCall p n hn) h60 _).2 ⟨p, by simp, .inr (good_rule p n h)⟩⟩

/-- Not vacuous: ioctl, which StdIO permits with some arguments. -/
example := C47_conditional .StdIO 16 (by decide) (by decide)

/-- The two tables do not overlap, so "unconditional" and "conditional" are exclusive. -/
theorem C47_tables_disjoint (n : Nat) (p : Promise) : ¬ (Free n p ∧ Conditional n p) := by
  rintro ⟨⟨name, ps, h, hp⟩, h2⟩
  rw [conditional_iff] at h2
  have : ∀ r ∈ freeTable, ∀ p ∈ r.2.2, p ∉ condOf r.1 := by decide +kernel
  exact this _ h p hp h2

example : Free 59 .Exec ∧ Conditional 41 .Dns := by
  rw [free_iff_mem, conditional_iff]; decide +kernel

/-! ## C58 -/

/-- C58: VmInfo adds nothing to StdIO; Default adds nothing to any list. -/
theorem C58_redundant (b : Build) (ids : Ids) (ps : List Promise) (v : SeccompReturn) (d : SeccompData) :
    (.StdIO ∈ ps → filterVerdict b ids (.VmInfo :: ps) v d = filterVerdict b ids ps v d) ∧
    filterVerdict b ids (.Default :: ps) v d = filterVerdict b ids ps v d := by
  rw [filterVerdict_eq, filterVerdict_eq, filterVerdict_eq]
  constructor
  · intro hs
    rw [verdict_congr rfl]
    constructor
    · rintro (h | ⟨p, hp, h⟩)
      · exact .inl h
      · simp only [List.mem_cons] at hp
        rcases hp with rfl | hp
        · refine .inr ⟨.StdIO, hs, ?_⟩
          rw [permits_iff rfl] at h ⊢
          rcases h with h | h
          · left
            have hall : ∀ r ∈ freeTable, .VmInfo ∈ r.2.2 → .StdIO ∈ r.2.2 := by decide +kernel
            obtain ⟨name, qs, h, hq⟩ := (free_iff_mem _ _).2 h
            exact (free_iff_mem _ _).1 ⟨name, qs, h, hall _ h hq⟩
          · have := ruleAt_cond _ _ _ _ h
            have hall : ∀ r ∈ argTable, .VmInfo ∉ r.2.2 := by decide +kernel
            obtain ⟨name, qs, h, hq⟩ := (conditional_iff _ _).2 this
            exact absurd hq (hall _ h)
        · exact .inr ⟨p, hp, h⟩
    · rintro (h | ⟨p, hp, h⟩)
      · exact .inl h
      · exact .inr ⟨p, by simp [hp], h⟩
  · rw [verdict_congr rfl]
    constructor
    · rintro (h | ⟨p, hp, h⟩)
      · exact .inl h
      · simp only [List.mem_cons] at hp
        rcases hp with rfl | hp
        · exact .inl h
        · exact .inr ⟨p, hp, h⟩
    · rintro (h | ⟨p, hp, h⟩)
      · exact .inl h
      · exact .inr ⟨p, by simp [hp], h⟩

/-- C58: RecvFd and SendFd grant exactly the same. -/
theorem C58_recvfd_sendfd (b : Build) (ids : Ids) (ps : List Promise) (v : SeccompReturn) (d : SeccompData) :
    filterVerdict b ids (.RecvFd :: ps) v d = filterVerdict b ids (.SendFd :: ps) v d := by
  rw [filterVerdict_eq, filterVerdict_eq, verdict_congr rfl]
  have key : Permits ids .RecvFd d ↔ Permits ids .SendFd d := by
    rw [permits_iff rfl, permits_iff rfl]
    have hall : ∀ r ∈ freeTable, (.RecvFd ∈ r.2.2 ↔ .SendFd ∈ r.2.2) := by decide +kernel
    have hall2 : ∀ r ∈ argTable, .RecvFd ∉ r.2.2 ∧ .SendFd ∉ r.2.2 := by decide +kernel
    constructor
    · rintro (h | h)
      · obtain ⟨name, qs, h, hq⟩ := (free_iff_mem _ _).2 h
        exact .inl ((free_iff_mem _ _).1 ⟨name, qs, h, (hall _ h).1 hq⟩)
      · obtain ⟨name, qs, h, hq⟩ := (conditional_iff _ _).2 (ruleAt_cond _ _ _ _ h)
        exact absurd hq (hall2 _ h).1
    · rintro (h | h)
      · obtain ⟨name, qs, h, hq⟩ := (free_iff_mem _ _).2 h
        exact .inl ((free_iff_mem _ _).1 ⟨name, qs, h, (hall _ h).2 hq⟩)
      · obtain ⟨name, qs, h, hq⟩ := (conditional_iff _ _).2 (ruleAt_cond _ _ _ _ h)
        exact absurd hq (hall2 _ h).2
  simp only [Allowed, List.mem_cons, exists_eq_or_imp, key]

/-- C58: what FAttr permits of chmod (90), fchmod (91) and fchmodat (268), WPath permits too. -/
theorem C58_fattr_wpath (ids : Ids) (ps : List Promise) (d : SeccompData) (h : IsCall d 90 ∨ IsCall d 91 ∨ IsCall d 268)
    (hw : .WPath ∈ ps) : Allows ids (.FAttr :: ps) d ↔ Allows ids ps d := by
  have key : ∀ n, n ∈ [90, 91, 268] → IsCall d n → (Allows ids (.FAttr :: ps) d ↔ Allows ids ps d) := by
    intro n hn h
    have h60 : n ≠ 60 := by simp at hn; omega
    have hf : freeOf n = [] := by
      have : ∀ n ∈ [90, 91, 268], freeOf n = [] := by decide +kernel
      exact this n hn
    rw [allows_call h h60, allows_call h h60]
    constructor
    · rintro ⟨p, hp, ha | ha⟩
      · simp [hf] at ha
      · simp only [List.mem_cons] at hp
        rcases hp with rfl | hp
        · refine ⟨_, hw, .inr ?_⟩
          simp only [List.mem_cons, List.not_mem_nil, or_false] at hn
          rcases hn with rfl | rfl | rfl <;> exact ⟨by simp, ha.2⟩
        · exact ⟨p, hp, .inr ha⟩
    · rintro ⟨p, hp, ha⟩; exact ⟨p, by simp [hp], ha⟩
  rcases h with h | h | h
  · exact key 90 (by simp) h
  · exact key 91 (by simp) h
  · exact key 268 (by simp) h

example : IsCall (mkCall 90 [0x1000, 0o644]) 90 ∧ Promise.WPath ∈ [Promise.StdIO, .WPath] := ⟨⟨rfl, rfl⟩, by decide⟩

end Props
