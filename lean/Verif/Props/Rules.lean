import Verif.Props.Policy

/-!
# C72: the exact rule for every call whose arguments matter

For each of the eighteen calls with an argument rule: for every promise list, when the call is allowed. `arg d i` is the low half
of argument `i`, counted from 0; `hasNone x bits`: none of these bits of `x` is set; `hasAll`: all of them are.
-/
set_option autoImplicit false

namespace Props
open Pledge Bpfvm Spec

theorem some_of (ps : List Promise) (q : Promise) (X : Prop) : (∃ p ∈ ps, p = q ∧ X) ↔ q ∈ ps ∧ X :=
  ⟨fun ⟨_, h1, h2, h3⟩ => ⟨h2 ▸ h1, h3⟩, fun ⟨h1, h2⟩ => ⟨q, h1, rfl, h2⟩⟩

theorem some_or (ps : List Promise) (F G : Promise → Prop) :
    (∃ p ∈ ps, F p ∨ G p) ↔ (∃ p ∈ ps, F p) ∨ (∃ p ∈ ps, G p) :=
  ⟨fun ⟨p, h, h'⟩ => h'.elim (fun x => .inl ⟨p, h, x⟩) (fun x => .inr ⟨p, h, x⟩),
   fun h => h.elim (fun ⟨p, h, x⟩ => ⟨p, h, .inl x⟩) (fun ⟨p, h, x⟩ => ⟨p, h, .inr x⟩)⟩

theorem some_nil (ps : List Promise) : (∃ p ∈ ps, p ∈ ([] : List Promise)) ↔ False := by simp

theorem some_in (ps : List Promise) (q : Promise) (qs : List Promise) :
    (∃ p ∈ ps, p ∈ q :: qs) ↔ q ∈ ps ∨ ∃ p ∈ ps, p ∈ qs := by
  simp only [List.mem_cons]
  rw [some_or]
  exact or_congr ⟨fun ⟨_, h1, h2⟩ => h2 ▸ h1, fun h => ⟨q, h, rfl⟩⟩ Iff.rfl

theorem some_two (ps : List Promise) (q r : Promise) (X : Prop) :
    (∃ p ∈ ps, p ∈ [q, r] ∧ X) ↔ (q ∈ ps ∨ r ∈ ps) ∧ X := by
  constructor
  · rintro ⟨p, h1, h2, h3⟩
    refine ⟨?_, h3⟩
    rcases List.mem_cons.1 h2 with rfl | h2
    · exact .inl h1
    · rw [List.mem_singleton] at h2; exact .inr (h2 ▸ h1)
  · rintro ⟨h | h, h3⟩
    · exact ⟨q, h, by simp, h3⟩
    · exact ⟨r, h, by simp, h3⟩

/-! ## Files -/

/-- C72: open (2). The rules read the third argument, the mode, as if it were the flags, and the fourth, which open has not, as
if it were the mode. -/
theorem C72_open (ids : Ids) (ps : List Promise) (d : SeccompData) (h : IsCall d 2) :
    Allows ids ps d ↔
      (.RPath ∈ ps ∧ (arg d 2).setWidth 2 = 0#2 ∧ hasNone (arg d 2) [6, 9, 22]) ∨
      (.WPath ∈ ps ∧ (arg d 2).setWidth 2 ∈ [1#2, 2#2] ∧ hasNone (arg d 2) [6, 22]) ∨
      (.CPath ∈ ps ∧ (hasNone (arg d 2) [6, 22] ∨ hasNone (arg d 3) [9, 10, 11])) := by
  have hf : freeOf 2 = [] := by decide +kernel
  rw [allows_call h (by decide), hf]
  simp only [ruleAt, some_or, some_of, some_nil, false_or]

/-- C72: openat (257). -/
theorem C72_openat (ids : Ids) (ps : List Promise) (d : SeccompData) (h : IsCall d 257) :
    Allows ids ps d ↔
      ((.RPath ∈ ps ∨ .Dns ∈ ps) ∧ (arg d 2).setWidth 2 = 0#2 ∧ hasNone (arg d 2) [6, 9, 22]) ∨
      (.WPath ∈ ps ∧ (arg d 2).setWidth 2 ∈ [1#2, 2#2] ∧ hasNone (arg d 2) [6, 22]) ∨
      (.CPath ∈ ps ∧ (hasNone (arg d 2) [6, 22] ∨ hasNone (arg d 3) [9, 10, 11])) := by
  have hf : freeOf 257 = [] := by decide +kernel
  rw [allows_call h (by decide), hf]
  simp only [ruleAt, some_or, some_of, some_two, some_nil, false_or]

/-- Not vacuous: such a call. -/
example (ids : Ids) := C72_openat ids [.StdIO, .RPath] (mkCall 257 [0, 0, 0]) ⟨rfl, rfl⟩

/-- C72: creat (85). -/
theorem C72_creat (ids : Ids) (ps : List Promise) (d : SeccompData) (h : IsCall d 85) :
    Allows ids ps d ↔ .CPath ∈ ps ∧ hasNone (arg d 1) [9, 10, 11] := by
  have hf : freeOf 85 = [] := by decide +kernel
  rw [allows_call h (by decide), hf]
  simp only [ruleAt, some_or, some_of, some_nil, false_or]

/-- Not vacuous: such a call. -/
example (ids : Ids) := C72_creat ids [.StdIO, .RPath] (mkCall 85 [0, 0x1ff]) ⟨rfl, rfl⟩

/-- C72: chmod (90), fchmod (91) and fchmodat (268). All three test the second argument, which for fchmodat is the path. -/
theorem C72_chmod (ids : Ids) (ps : List Promise) (d : SeccompData) (h : IsCall d 90 ∨ IsCall d 91 ∨ IsCall d 268) :
    Allows ids ps d ↔ (.WPath ∈ ps ∨ .FAttr ∈ ps) ∧ hasNone (arg d 1) [9, 10, 11] := by
  have hf : freeOf 90 = [] ∧ freeOf 91 = [] ∧ freeOf 268 = [] := by decide +kernel
  rcases h with h | h | h
  · rw [allows_call h (by decide), hf.1]
    simp only [ruleAt, some_or, some_two, some_nil, false_or]
  · rw [allows_call h (by decide), hf.2.1]
    simp only [ruleAt, some_or, some_two, some_nil, false_or]
  · rw [allows_call h (by decide), hf.2.2]
    simp only [ruleAt, some_or, some_two, some_nil, false_or]

/-- Not vacuous: such a call. -/
example (ids : Ids) := C72_chmod ids [.StdIO, .RPath] (mkCall 90 [0, 0x1ff]) (.inl ⟨rfl, rfl⟩)

/-- C72: fcntl (72). -/
theorem C72_fcntl (ids : Ids) (ps : List Promise) (d : SeccompData) (h : IsCall d 72) :
    Allows ids ps d ↔
      (.StdIO ∈ ps ∧ ((arg d 1).toNat ≤ 4 ∨ (arg d 1).toNat = 1030)) ∨
      (.FLock ∈ ps ∧ 5 ≤ (arg d 1).toNat ∧ (arg d 1).toNat ≤ 7) := by
  have hf : freeOf 72 = [] := by decide +kernel
  rw [allows_call h (by decide), hf]
  simp only [ruleAt, some_or, some_of, some_nil, false_or]
  have e1 : arg d 1 = 1030 ↔ (arg d 1).toNat = 1030 := BitVec.toNat_inj.symm
  have e2 : arg d 1 ∈ [5#32, 6#32, 7#32] ↔ 5 ≤ (arg d 1).toNat ∧ (arg d 1).toNat ≤ 7 := by
    simp only [List.mem_cons, List.not_mem_nil, or_false, ← BitVec.toNat_inj, BitVec.toNat_ofNat]
    omega
  rw [e1, e2]

/-- Not vacuous: such a call. -/
example (ids : Ids) := C72_fcntl ids [.StdIO, .RPath] (mkCall 72 [3, 1]) ⟨rfl, rfl⟩

/-- C72: ioctl (16). -/
theorem C72_ioctl (ids : Ids) (ps : List Promise) (d : SeccompData) (h : IsCall d 16) :
    Allows ids ps d ↔
      (.StdIO ∈ ps ∧ arg d 1 ∈ [0x541B#32, 0x5421#32, 0x5450#32, 0x5451#32]) ∨
      (.Inet ∈ ps ∧ arg d 1 = 0x8905) ∨
      (.Tty ∈ ps ∧ arg d 1 ∈ [0x5401#32, 0x5402#32, 0x5403#32, 0x5404#32, 0x5409#32, 0x540A#32, 0x540B#32, 0x540F#32,
        0x5410#32, 0x5413#32, 0x5414#32, 0x5427#32]) := by
  have hf : freeOf 16 = [] := by decide +kernel
  rw [allows_call h (by decide), hf]
  simp only [ruleAt, some_or, some_of, some_nil, false_or]
  have e1 : arg d 1 ∈ [0x541B#32, 0x5421#32, 0x5451#32, 0x5450#32] ↔ arg d 1 ∈ [0x541B#32, 0x5421#32, 0x5450#32, 0x5451#32] := by
    simp only [List.mem_cons, List.not_mem_nil, or_false]
    constructor <;> (rintro (h | h | h | h) <;> simp [h])
  have e2 : arg d 1 ∈ [0x5401#32, 0x5402#32, 0x5403#32, 0x5404#32, 0x5413#32, 0x5410#32, 0x540F#32,
      0x5414#32, 0x540B#32, 0x540A#32, 0x5409#32, 0x5427#32] ↔ arg d 1 ∈ [0x5401#32, 0x5402#32, 0x5403#32, 0x5404#32, 0x5409#32,
      0x540A#32, 0x540B#32, 0x540F#32, 0x5410#32, 0x5413#32, 0x5414#32, 0x5427#32] := by
    simp only [List.mem_cons, List.not_mem_nil, or_false]
    constructor <;> (rintro (h | h | h | h | h | h | h | h | h | h | h | h) <;> simp [h])
  rw [e1, e2]

/-- Not vacuous: such a call. -/
example (ids : Ids) := C72_ioctl ids [.StdIO, .RPath] (mkCall 16 [3, 0x5421]) ⟨rfl, rfl⟩

/-! ## Memory -/

/-- C72: mmap (9). -/
theorem C72_mmap (ids : Ids) (ps : List Promise) (d : SeccompData) (h : IsCall d 9) :
    Allows ids ps d ↔
      (.StdIO ∈ ps ∧ (arg d 2).toNat ≤ 2 ∧ hasNone (arg d 3) [13, 15, 16, 18]) ∨
      (.ProtExec ∈ ps ∧ hasNone (arg d 3) [13, 16, 18]) := by
  have hf : freeOf 9 = [] := by decide +kernel
  rw [allows_call h (by decide), hf]
  simp only [ruleAt, some_or, some_of, some_nil, false_or]

/-- Not vacuous: such a call. -/
example (ids : Ids) := C72_mmap ids [.StdIO, .RPath] (mkCall 9 [0, 4096, 1, 2]) ⟨rfl, rfl⟩

/-- C72: mprotect (10): any protection with ProtExec, at most PROT_READ and PROT_WRITE with StdIO. -/
theorem C72_mprotect (ids : Ids) (ps : List Promise) (d : SeccompData) (h : IsCall d 10) :
    Allows ids ps d ↔ .ProtExec ∈ ps ∨ (.StdIO ∈ ps ∧ (arg d 2).toNat ≤ 3) := by
  have hf : freeOf 10 = [.ProtExec] := by decide +kernel
  rw [allows_call h (by decide), hf]
  have e : (∀ i, 2 ≤ i → (arg d 2).getLsbD i = false) ↔ (arg d 2).toNat ≤ 3 := by
    constructor
    · intro hb
      have h4 : (arg d 2).toNat < 2 ^ 2 := Nat.lt_pow_two_of_testBit _ hb
      omega
    · intro hl i hi
      refine Nat.testBit_lt_two_pow ?_
      have := Nat.pow_le_pow_right (n := 2) (by decide) hi
      omega
  simp only [ruleAt, some_or, some_of, some_in, some_nil, or_false]
  rw [e]

/-- Not vacuous: such a call. -/
example (ids : Ids) := C72_mprotect ids [.StdIO, .RPath] (mkCall 10 [0, 4096, 1]) ⟨rfl, rfl⟩

/-! ## Processes and signals -/

/-- C72: clone (56). -/
theorem C72_clone (ids : Ids) (ps : List Promise) (d : SeccompData) (h : IsCall d 56) :
    Allows ids ps d ↔ hasNone (arg d 0) [13, 17, 23] ∧ (.Proc ∈ ps ∨ .StdIO ∈ ps ∧ hasAll (arg d 0) [8, 9, 10, 11, 16]) := by
  have hf : freeOf 56 = [] := by decide +kernel
  rw [allows_call h (by decide), hf]
  simp only [ruleAt, some_or, some_of, some_nil, false_or]
  constructor
  · rintro (⟨h1, h2, h3⟩ | ⟨h1, h2⟩)
    · exact ⟨h3, .inr ⟨h1, h2⟩⟩
    · exact ⟨h2, .inl h1⟩
  · rintro ⟨h1, h2 | ⟨h2, h3⟩⟩
    · exact .inr ⟨h2, h1⟩
    · exact .inl ⟨h2, h3, h1⟩

/-- Not vacuous: such a call. -/
example (ids : Ids) := C72_clone ids [.StdIO, .RPath] (mkCall 56 [0x3d0f00]) ⟨rfl, rfl⟩

/-- C72: kill (62). -/
theorem C72_kill (ids : Ids) (ps : List Promise) (d : SeccompData) (h : IsCall d 62) :
    Allows ids ps d ↔ .Proc ∈ ps ∨ (.StdIO ∈ ps ∧ arg d 0 = ids.pid) := by
  have hf : freeOf 62 = [.Proc] := by decide +kernel
  rw [allows_call h (by decide), hf]
  simp only [ruleAt, some_or, some_of, some_in, some_nil, or_false]

/-- Not vacuous: such a call. -/
example (ids : Ids) := C72_kill ids [.StdIO, .RPath] (mkCall 62 [1, 15]) ⟨rfl, rfl⟩

/-- C72: tkill (200). -/
theorem C72_tkill (ids : Ids) (ps : List Promise) (d : SeccompData) (h : IsCall d 200) :
    Allows ids ps d ↔ .Proc ∈ ps ∨ (.StdIO ∈ ps ∧ arg d 0 = ids.tid) := by
  have hf : freeOf 200 = [.Proc] := by decide +kernel
  rw [allows_call h (by decide), hf]
  simp only [ruleAt, some_or, some_of, some_in, some_nil, or_false]

/-- Not vacuous: such a call. -/
example (ids : Ids) := C72_tkill ids [.StdIO, .RPath] (mkCall 200 [1, 15]) ⟨rfl, rfl⟩

/-- C72: prctl (157). -/
theorem C72_prctl (ids : Ids) (ps : List Promise) (d : SeccompData) (h : IsCall d 157) :
    Allows ids ps d ↔ .StdIO ∈ ps ∧ arg d 0 ∈ [15#32, 16#32, 21#32, 22#32, 23#32, 24#32, 38#32] := by
  have hf : freeOf 157 = [] := by decide +kernel
  rw [allows_call h (by decide), hf]
  simp only [ruleAt, some_or, some_of, some_nil, false_or]

/-- Not vacuous: such a call. -/
example (ids : Ids) := C72_prctl ids [.StdIO, .RPath] (mkCall 157 [38, 1]) ⟨rfl, rfl⟩

/-- C72: prlimit64 (302): with StdIO only the low half of the new limit's address has to be zero. -/
theorem C72_prlimit (ids : Ids) (ps : List Promise) (d : SeccompData) (h : IsCall d 302) :
    Allows ids ps d ↔ .Proc ∈ ps ∨ .Id ∈ ps ∨ (.StdIO ∈ ps ∧ (d.args 2).toNat % 2 ^ 32 = 0) := by
  have hf : freeOf 302 = [.Proc, .Id] := by decide +kernel
  rw [allows_call h (by decide), hf]
  have e : arg d 2 = 0 ↔ (d.args 2).toNat % 2 ^ 32 = 0 := by
    rw [← BitVec.toNat_inj]
    simp [arg, BitVec.toNat_setWidth]
  simp only [ruleAt, some_or, some_of, some_in, some_nil, or_false]
  rw [e, or_assoc]

/-! ## Network -/

/-- C72: sendto (44): with StdIO all 64 bits of the address have to be zero. -/
theorem C72_sendto (ids : Ids) (ps : List Promise) (d : SeccompData) (h : IsCall d 44) :
    Allows ids ps d ↔ .Inet ∈ ps ∨ .Unix ∈ ps ∨ .Dns ∈ ps ∨ (.StdIO ∈ ps ∧ d.args 4 = 0) := by
  have hf : freeOf 44 = [.Inet, .Unix, .Dns] := by decide +kernel
  rw [allows_call h (by decide), hf]
  simp only [ruleAt, some_or, some_of, some_in, some_nil, or_false]
  rw [or_assoc, or_assoc]

/-- Not vacuous: such a call. -/
example (ids : Ids) := C72_sendto ids [.StdIO, .RPath] (mkCall 44 [3, 0, 0, 0, 0, 0]) ⟨rfl, rfl⟩

/-- C72: socket (41). -/
theorem C72_socket (ids : Ids) (ps : List Promise) (d : SeccompData) (h : IsCall d 41) :
    Allows ids ps d ↔ (isSockType (arg d 1) 1 ∨ isSockType (arg d 1) 2) ∧
      ((.Inet ∈ ps ∨ .Dns ∈ ps) ∧ arg d 0 ∈ [2#32, 10#32] ∧ arg d 2 ∈ [0#32, 1#32, 6#32, 17#32] ∨
       .Unix ∈ ps ∧ arg d 0 = 1 ∧ arg d 2 = 0) := by
  have hf : freeOf 41 = [] := by decide +kernel
  rw [allows_call h (by decide), hf]
  simp only [ruleAt, some_or, some_of, some_two, some_nil, false_or]
  constructor
  · rintro (⟨h1, h2, h3, h4⟩ | ⟨h1, h2, h3, h4⟩)
    · exact ⟨h3, .inl ⟨h1, h2, h4⟩⟩
    · exact ⟨h3, .inr ⟨h1, h2, h4⟩⟩
  · rintro ⟨h3, ⟨h1, h2, h4⟩ | ⟨h1, h2, h4⟩⟩
    · exact .inl ⟨h1, h2, h3, h4⟩
    · exact .inr ⟨h1, h2, h3, h4⟩

/-- Not vacuous: such a call. -/
example (ids : Ids) := C72_socket ids [.StdIO, .RPath] (mkCall 41 [2, 1, 6]) ⟨rfl, rfl⟩

/-- C72: getsockopt (55): the options documented for setsockopt are readable at the levels IP, SOCKET and TCP. -/
theorem C72_getsockopt (ids : Ids) (ps : List Promise) (d : SeccompData) (h : IsCall d 55) :
    Allows ids ps d ↔ (.Inet ∈ ps ∨ .Unix ∈ ps) ∧ arg d 1 ∈ [0#32, 1#32, 6#32] ∧
      arg d 2 ∈ [1#32, 2#32, 3#32, 4#32, 5#32, 9#32, 11#32, 12#32, 15#32, 20#32, 21#32, 23#32, 30#32] := by
  have hf : freeOf 55 = [] := by decide +kernel
  rw [allows_call h (by decide), hf]
  simp only [ruleAt, some_or, some_two, some_nil, false_or]
  refine and_congr Iff.rfl ⟨?_, fun h => .inr h⟩
  rintro (⟨h1, h2⟩ | h)
  · refine ⟨List.mem_cons_of_mem _ h1, ?_⟩
    simp only [List.mem_cons, List.not_mem_nil, or_false] at h2 ⊢
    rcases h2 with h | h | h | h | h | h | h <;> simp [h]
  · exact h

/-- Not vacuous: such a call. -/
example (ids : Ids) := C72_getsockopt ids [.StdIO, .RPath] (mkCall 55 [3, 1, 4]) ⟨rfl, rfl⟩

/-- C72: every other number: whether it is allowed does not depend on any argument. -/
theorem C72_no_other_rule (ids ids' : Ids) (ps : List Promise) (d e : SeccompData) (n : Nat) (hd : IsCall d n) (he : IsCall e n)
    (hn : n ∉ [2, 9, 10, 16, 41, 44, 55, 56, 62, 72, 85, 90, 91, 157, 200, 257, 268, 302]) :
    Allows ids ps d ↔ Allows ids' ps e := by
  by_cases h60 : n = 60
  · subst h60
    exact ⟨fun _ => C07_exit ids' ps e he, fun _ => C07_exit ids ps d hd⟩
  · have hr : n ∉ argNumbers := by
      intro h
      apply hn
      have : ∀ m ∈ argNumbers, m ∈ [2, 9, 10, 16, 41, 44, 55, 56, 62, 72, 85, 90, 91, 157, 200, 257, 268, 302] := by decide
      exact this n h
    rw [allows_plain hd _ rfl hr h60, allows_plain he _ rfl hr h60]

example : Allows ⟨5, 6⟩ [.WPath] (mkCall 2 [0x1000, 0, 1]) :=
  (C72_open _ _ _ ⟨rfl, rfl⟩).2 (.inr (.inl ⟨by decide, by decide, by simp only [hasNone]; decide⟩))

example : ¬ Allows ⟨5, 6⟩ [.StdIO, .Inet] (mkCall 302 [0, 7, 1]) := fun h => by
  have := (C72_prlimit _ _ _ ⟨rfl, rfl⟩).1 h
  revert this; decide

end Props
