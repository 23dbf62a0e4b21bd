import Verif.Proofs.Policy

/-!
# C01–C09, C12, C25, C27: the verdict of a pledge filter
-/
set_option autoImplicit false

namespace Props
open Pledge Bpfvm Spec

/-! ## C01 -/

/-- C01, in the kernel: the filter built by `pledge_override` gives every record exactly the verdict of `Spec.verdict`, with any
previous content of the interpreter's scratch memory. -/
theorem C01_kernel_verdict (b : Build) (ids : Ids) (ps : List Promise) (v : SeccompReturn) :
    ∃ prog, promisesToProg b ids ps v = .ok prog ∧
      ∀ (m0 : Nat → BitVec 32) (d : SeccompData), Kernel.run m0 prog d.words = some (verdict ids ps v.toU32 d) :=
  ⟨_, promisesToProg_eq b ids ps v, fun m0 d => Kernel.run_progOf m0 ids ps v.toU32 d⟩

/-- C01, in the bundled VM: same verdict, for every program the VM takes (at most 65535 instructions); a longer one is refused
with `ProgramTooLong`. -/
theorem C01_vm_verdict (b b' : Build) (ids : Ids) (ps : List Promise) (v : SeccompReturn) (d : SeccompData) :
    ∃ prog, promisesToProg b ids ps v = .ok prog ∧
      runProg b' prog d.words =
        some (if prog.length ≤ 65535 then .ok (verdict ids ps v.toU32 d) else .err (.ProgramTooLong prog.length)) := by
  refine ⟨_, promisesToProg_eq b ids ps v, ?_⟩
  split
  · rename_i h
    exact runProg_of_ev b' _ _ h _ (ev_prog_verdict ids d ps v.toU32)
  · rename_i h
    unfold runProg VM.new
    rw [if_pos (by omega)]

/-- The verdict of C01 spelled out, without `verdict`. -/
theorem C01_exact (b : Build) (ids : Ids) (ps : List Promise) (v : SeccompReturn) (d : SeccompData) :
    (d.arch ≠ X86_64 → filterVerdict b ids ps v d = some 0x80000000) ∧
    (d.arch = X86_64 → Permits ids .Default d ∨ (∃ p ∈ ps, Permits ids p d) → filterVerdict b ids ps v d = some 0x7fff0000) ∧
    (d.arch = X86_64 → ¬ (Permits ids .Default d ∨ ∃ p ∈ ps, Permits ids p d) → filterVerdict b ids ps v d = some v.toU32) := by
  rw [filterVerdict_eq]
  refine ⟨fun h => ?_, fun h ha => ?_, fun h ha => ?_⟩
  · rw [verdict_foreign h]
  · rw [verdict_allowed h ha]
  · rw [verdict_denied h ha]

/-- The three cases of C01 all occur: a foreign record, a permitted call (read under StdIO) and a forbidden one (ptrace). -/
example : ({ mkCall 0 [] with arch := 0x40000003 } : SeccompData).arch ≠ X86_64 := by decide
example (ids : Ids) : Allowed ids [.StdIO, .RPath] (mkCall 0 [3]) :=
  (allowed_iff (n := 0) rfl (by decide) _).2 ⟨.StdIO, by simp, .inl (by decide +kernel)⟩
example (ids : Ids) : ¬ Allowed ids [.StdIO, .RPath] (mkCall 101 []) := by
  rw [allowed_iff (n := 101) rfl (by decide)]
  rintro ⟨p, _, h | h⟩
  · have : freeOf 101 = [] := by decide +kernel
    simp [this] at h
  · exact h

/-! ## C02 -/

/-- A number is mentioned by a promise if the promise permits some call with that number to some thread. -/
def Mentions (p : Promise) (nr : BitVec 32) : Prop := ∃ (ids : Ids) (d : SeccompData), d.nr = nr ∧ Permits ids p d

/-- C02: a native call whose number neither Default nor any given promise mentions gets the violation, whatever the
arguments. -/
theorem C02_default_deny (ids : Ids) (ps : List Promise) (d : SeccompData) (ha : d.arch = X86_64)
    (hn : ∀ p, p = .Default ∨ p ∈ ps → ¬ Mentions p d.nr) : Denies ids ps d := by
  rw [denies_iff]
  refine ⟨ha, ?_⟩
  rintro (h | ⟨p, hp, h⟩)
  · exact hn _ (.inl rfl) ⟨ids, d, rfl, h⟩
  · exact hn p (.inr hp) ⟨ids, d, rfl, h⟩

/-- execve (59) is mentioned by neither StdIO nor Default; socket (41) is mentioned by Inet although not every socket call is
permitted. -/
example : ∀ p, p = .Default ∨ p ∈ [Promise.StdIO] → ¬ Mentions p 59#32 := by
  rintro p hp ⟨ids, d, hd, h⟩
  rw [permits_iff (n := 59) (by rw [hd]; rfl)] at h
  have hf : freeOf 59 = [.Exec] := by decide +kernel
  rcases h with h | h
  · rw [hf] at h; simp at h; subst h; simp at hp
  · exact h
example : Mentions .Inet 41#32 :=
  ⟨⟨1, 1⟩, mkCall 41 [2, 1, 6], rfl, (permits_iff (n := 41) rfl _).2 (.inr (.inl ⟨by simp, by decide,
    .inl ⟨0, by simp, by decide⟩, by decide⟩))⟩

/-! ## C03 -/

/-- C03: a record of another architecture always gets KILL_PROCESS. -/
theorem C03_foreign_arch (b : Build) (ids : Ids) (ps : List Promise) (v : SeccompReturn) (d : SeccompData)
    (h : d.arch ≠ X86_64) : filterVerdict b ids ps v d = some 0x80000000 := by
  rw [filterVerdict_eq, verdict_foreign h]

/-- A 32-bit call (AUDIT_ARCH_I386) is such a record, also for exit and with violation Log. -/
example : filterVerdict ⟨true⟩ ⟨1, 1⟩ [.StdIO] .Log { mkCall 60 [] with arch := 0x40000003 } = some 0x80000000 :=
  C03_foreign_arch _ _ _ _ _ (by decide)

/-! ## C04 -/

theorem free_le (n : Nat) (p : Promise) (h : p ∈ freeOf n) : n ≤ 446 := by
  obtain ⟨name, ps, h, _⟩ := (free_iff_mem n p).2 h
  have : ∀ r ∈ freeTable, r.1 ≤ 446 := by decide +kernel
  exact this _ h

theorem rule_le (ids : Ids) (d : SeccompData) (p : Promise) (n : Nat) (h : ruleAt ids d p n) : n ≤ 446 := by
  unfold ruleAt at h
  split at h <;> first | omega | exact h.elim

/-- C04: no number above 446 is ever allowed. -/
theorem C04_no_large_number (ids : Ids) (ps : List Promise) (d : SeccompData) (ha : d.arch = X86_64)
    (hn : 446 < d.nr.toNat) : Denies ids ps d := by
  rw [denies_iff, allowed_iff rfl (by omega)]
  refine ⟨ha, ?_⟩
  rintro ⟨p, _, h | h⟩
  · have := free_le _ _ h; omega
  · have := rule_le _ _ _ _ h; omega

/-- Not vacuous: the first number behind the table. -/
example := C04_no_large_number ⟨1, 1⟩ [.StdIO] (mkCall 447 []) rfl (by decide)

/-- C04, for numbers with the x32 bit (bit 30) or the sign bit (bit 31). -/
theorem C04_no_x32 (ids : Ids) (ps : List Promise) (d : SeccompData) (ha : d.arch = X86_64)
    (hn : d.nr.getLsbD 30 = true ∨ d.nr.getLsbD 31 = true) : Denies ids ps d := by
  apply C04_no_large_number ids ps d ha
  rcases hn with hn | hn
  · have := Nat.ge_two_pow_of_testBit hn; omega
  · have := Nat.ge_two_pow_of_testBit hn; omega

/-- x32 read: 0x40000000. -/
example : (mkCall 0x40000000 []).nr.getLsbD 30 = true ∧ (mkCall 0x40000000 []).arch = X86_64 := by decide

/-! ## C05, C06 -/

/-- C05: only the set of promises matters. -/
theorem C05_order_irrelevant (b b' : Build) (ids : Ids) (ps qs : List Promise) (v : SeccompReturn) (d : SeccompData)
    (h : ∀ p, p ∈ ps ↔ p ∈ qs) : filterVerdict b ids ps v d = filterVerdict b' ids qs v d := by
  have hA : Allowed ids ps d ↔ Allowed ids qs d := by simp only [Allowed, h]
  rw [filterVerdict_eq, filterVerdict_eq, verdict_congr rfl hA]

example : ∀ p, p ∈ [Promise.StdIO, .RPath, .StdIO] ↔ p ∈ [Promise.RPath, .StdIO] := by intro p; cases p <;> decide

/-- C06: the concatenation of two lists allows exactly what one of them allows. -/
theorem C06_union (ids : Ids) (ps qs : List Promise) (d : SeccompData) :
    Allows ids (ps ++ qs) d ↔ Allows ids ps d ∨ Allows ids qs d := by
  simp only [allows_iff, Allowed, List.mem_append]
  constructor
  · rintro ⟨ha, h | ⟨p, hp | hp, h⟩⟩
    · exact .inl ⟨ha, .inl h⟩
    · exact .inl ⟨ha, .inr ⟨p, hp, h⟩⟩
    · exact .inr ⟨ha, .inr ⟨p, hp, h⟩⟩
  · rintro (⟨ha, h | ⟨p, hp, h⟩⟩ | ⟨ha, h | ⟨p, hp, h⟩⟩)
    · exact ⟨ha, .inl h⟩
    · exact ⟨ha, .inr ⟨p, .inl hp, h⟩⟩
    · exact ⟨ha, .inl h⟩
    · exact ⟨ha, .inr ⟨p, .inr hp, h⟩⟩

/-- C06, monotone: more promises never remove a permission. -/
theorem C06_monotone (ids : Ids) (ps qs : List Promise) (d : SeccompData) (hs : ∀ p ∈ ps, p ∈ qs) (h : Allows ids ps d) :
    Allows ids qs d := by
  rw [allows_iff] at *
  refine ⟨h.1, ?_⟩
  rcases h.2 with h | ⟨p, hp, h⟩
  · exact .inl h
  · exact .inr ⟨p, hs p hp, h⟩

example (ids : Ids) : Allows ids [.StdIO] (mkCall 1 [1, 2, 3]) :=
  (allows_call (n := 1) ⟨rfl, rfl⟩ (by decide) _).2 ⟨.StdIO, by simp, .inl (by decide +kernel)⟩

/-! ## C07 -/

/-- C07: exit(2) is always allowed. -/
theorem C07_exit (ids : Ids) (ps : List Promise) (d : SeccompData) (h : IsCall d 60) : Allows ids ps d := by
  rw [allows_iff]
  exact ⟨h.1, .inl ((default_only_exit ids d).2 h.2)⟩

/-- Not vacuous: exit(1) with RPath only. -/
example := C07_exit ⟨1, 1⟩ [.RPath] (mkCall 60 [1]) ⟨rfl, rfl⟩

/-- C07, the rest of `Default`: with no promise at all, exit is the only call allowed. -/
theorem C07_exit_only (ids : Ids) (d : SeccompData) : Allows ids [] d ↔ IsCall d 60 := by
  rw [allows_iff]
  simp [Allowed, default_only_exit, IsCall]

example : IsCall (mkCall 60 [1]) 60 := ⟨rfl, rfl⟩

/-! ## C08 -/

/-- C08: changing the violation leaves foreign and permitted records alone and changes exactly the rest. -/
theorem C08_violation_scope (b : Build) (ids : Ids) (ps : List Promise) (v v' : SeccompReturn) (d : SeccompData) :
    (d.arch ≠ X86_64 ∨ Allows ids ps d → filterVerdict b ids ps v d = filterVerdict b ids ps v' d) ∧
    (¬ (d.arch ≠ X86_64 ∨ Allows ids ps d) →
      filterVerdict b ids ps v d = some v.toU32 ∧ filterVerdict b ids ps v' d = some v'.toU32) := by
  constructor
  · rintro (h | h)
    · rw [C03_foreign_arch b ids ps v d h, C03_foreign_arch b ids ps v' d h]
    · rw [h b v, h b v']
  · intro h
    rw [not_or, Classical.not_not] at h
    have := (denies_iff_not_allows h.1).2 h.2
    exact ⟨this b v, this b v'⟩

/-- C08: `pledge` is `pledge_override` with KillProcess. -/
theorem C08_pledge_default (b : Build) (env : Env) (t : Kernel.Thread) (ps : List Promise) :
    pledge b env t ps = pledgeOverride b env t ps .KillProcess := rfl

example (ids : Ids) : ¬ ((mkCall 59 []).arch ≠ X86_64 ∨ Allows ids [.StdIO] (mkCall 59 [])) := by
  rw [allows_call (n := 59) ⟨rfl, rfl⟩ (by decide)]
  have hf : freeOf 59 = [.Exec] := by decide +kernel
  simp [hf, ruleAt, mkCall]

/-! ## C09 -/

/-- The payload, if any, fits in the sixteen data bits. -/
def PayloadFits : SeccompReturn → Prop
  | .Errno e => e.toNat < 2 ^ 16
  | .Trace t => t.toNat < 2 ^ 16
  | _ => True

/-- The constructor of the violation, as the fate of the call in a kernel without tracer. -/
def requested : SeccompReturn → Kernel.Outcome
  | .KillProcess => .killProcess
  | .KillThread => .killThread
  | .Trap => .trap
  | .Errno e => .errno (min e.toNat 4095)
  | .Trace _ => .errno 38
  | .Log => .executed
  | .Allow => .executed

theorem hi_mask (i : Nat) (hi : i < 32) : (0xffff0000#32).getLsbD i = decide (16 ≤ i) := by
  have : ∀ i, i < 32 → (0xffff0000#32).getLsbD i = decide (16 ≤ i) := by decide
  exact this i hi

theorem lo_mask (i : Nat) (hi : i < 32) : (0xffff#32).getLsbD i = decide (i < 16) := by
  have : ∀ i, i < 32 → (0xffff#32).getLsbD i = decide (i < 16) := by decide
  exact this i hi

theorem small_bits (e : BitVec 32) (he : e.toNat < 2 ^ 16) (i : Nat) (hi : 16 ≤ i) : e.getLsbD i = false := by
  apply Nat.testBit_lt_two_pow
  exact Nat.lt_of_lt_of_le he (Nat.pow_le_pow_right (by omega) hi)

theorem or_hi (c e : BitVec 32) (he : e.toNat < 2 ^ 16) : (c ||| e) &&& 0xffff0000#32 = c &&& 0xffff0000#32 := by
  apply BitVec.eq_of_getLsbD_eq
  intro i hi
  simp only [BitVec.getLsbD_and, BitVec.getLsbD_or, hi_mask i hi]
  by_cases h : 16 ≤ i
  · simp [small_bits e he i h]
  · simp [h]

theorem or_lo (c e : BitVec 32) (he : e.toNat < 2 ^ 16) (hc : c &&& 0xffff#32 = 0) : (c ||| e) &&& 0xffff#32 = e := by
  apply BitVec.eq_of_getLsbD_eq
  intro i hi
  have hci : (c &&& 0xffff#32).getLsbD i = false := by rw [hc]; simp
  simp only [BitVec.getLsbD_and, BitVec.getLsbD_or, lo_mask i hi] at *
  by_cases h : 16 ≤ i
  · simp [small_bits e he i h, show ¬ i < 16 by omega]
  · simp only [show i < 16 by omega, decide_true, Bool.and_true] at hci
    simp [hci, show i < 16 by omega]

theorem lo_small (e : BitVec 32) : (e &&& 0xffff#32).toNat < 2 ^ 16 := by
  have : (e &&& 0xffff#32).toNat ≤ (0xffff#32).toNat := by
    rw [BitVec.toNat_and]; exact Nat.and_le_right
  exact Nat.lt_succ_of_le this

theorem outcome_of_fits (v : SeccompReturn) (h : PayloadFits v) : Kernel.outcome v.toU32 = requested v := by
  cases v with
  | Errno e =>
    have h1 := or_hi 0x00050000#32 e h
    have h2 := or_lo 0x00050000#32 e h (by decide)
    simp only [SeccompReturn.toU32, SECCOMP_RET_ERRNO, Kernel.outcome, requested, h1, h2]
    simp
  | Trace e =>
    have h1 := or_hi 0x7ff00000#32 e h
    simp only [SeccompReturn.toU32, SECCOMP_RET_TRACE, Kernel.outcome, requested, h1]
    simp
  | _ => decide

/-- C09 (partial: payloads of at most sixteen bits): the verdict of every denied call decodes to the violation, and the kernel
does what the violation asks for; the call is executed only under Allow or Log.
Missing: payloads of more than sixteen bits, for which the claim is false (`C09_false_for_wide_payloads`). -/
theorem C09_denied_gets_violation_partial (b : Build) (ids : Ids) (ps : List Promise) (v : SeccompReturn) (d : SeccompData)
    (hv : PayloadFits v) (hd : Denies ids ps d) :
    ∃ r, filterVerdict b ids ps v d = some r ∧ SeccompReturn.tryFrom r = .ok v ∧ Kernel.outcome r = requested v ∧
      (Kernel.outcome r = .executed ↔ v = .Allow ∨ v = .Log) := by
  refine ⟨v.toU32, hd b v, ?_, outcome_of_fits v hv, ?_⟩
  · cases v with
    | Errno e =>
      have h1 := or_hi 0x00050000#32 e hv
      have h2 := or_lo 0x00050000#32 e hv (by decide)
      simp only [SeccompReturn.toU32, SECCOMP_RET_ERRNO, SeccompReturn.tryFrom, SECCOMP_RET_ACTION_FULL, SECCOMP_RET_DATA,
        h1, h2]
      rfl
    | Trace e =>
      have h1 := or_hi 0x7ff00000#32 e hv
      have h2 := or_lo 0x7ff00000#32 e hv (by decide)
      simp only [SeccompReturn.toU32, SECCOMP_RET_TRACE, SeccompReturn.tryFrom, SECCOMP_RET_ACTION_FULL, SECCOMP_RET_DATA,
        h1, h2]
      rfl
    | _ => decide
  · rw [outcome_of_fits v hv]
    cases v <;> simp [requested]

/-- Not vacuous: number 447 under StdIO, violation Errno(1). -/
example := C09_denied_gets_violation_partial ⟨true⟩ ⟨1, 1⟩ [.StdIO] (.Errno 1) (mkCall 447 []) (by simp [PayloadFits])
  (C04_no_large_number _ _ _ rfl (by decide))

/-- Full claim of C09, for all violations. -/
def C09_full : Prop :=
  ∀ (b : Build) (ids : Ids) (ps : List Promise) (v : SeccompReturn) (d : SeccompData), Denies ids ps d →
    ∃ r, filterVerdict b ids ps v d = some r ∧ SeccompReturn.tryFrom r = .ok v ∧
      (Kernel.outcome r = .executed ↔ v = .Allow ∨ v = .Log)

theorem denies_execve (ids : Ids) : Denies ids [.StdIO] (mkCall 59 []) := by
  rw [denies_call (n := 59) ⟨rfl, rfl⟩, allows_call (n := 59) ⟨rfl, rfl⟩ (by decide)]
  have hf : freeOf 59 = [.Exec] := by decide +kernel
  simp [hf, ruleAt]

/-- C09 is false for wide payloads: with violation `Errno(0x7fff0000)` a forbidden execve is executed. -/
theorem C09_false_for_wide_payloads : ¬ C09_full := by
  intro h
  obtain ⟨r, h1, -, h3⟩ := h ⟨false⟩ ⟨1, 1⟩ [.StdIO] (.Errno 0x7fff0000) (mkCall 59 []) (denies_execve _)
  rw [denies_execve _ _ _, Option.some.injEq] at h1
  subst h1
  have : Kernel.outcome (SeccompReturn.Errno 0x7fff0000).toU32 = .executed := by decide
  have := h3.1 this
  simp at this

/-- Exactly the violations whose payload fits survive the encoding. -/
theorem C09_decodes_iff_fits (v : SeccompReturn) : SeccompReturn.tryFrom v.toU32 = .ok v ↔ PayloadFits v := by
  constructor
  · intro h
    cases v with
    | Errno e =>
      have : SECCOMP_RET_DATA = 0xffff#32 := rfl
      simp only [SeccompReturn.tryFrom, this] at h
      have hb := lo_small (SeccompReturn.toU32 (.Errno e))
      repeat' split at h
      all_goals simp at h
      rw [← h]; exact hb
    | Trace e =>
      have : SECCOMP_RET_DATA = 0xffff#32 := rfl
      simp only [SeccompReturn.tryFrom, this] at h
      have hb := lo_small (SeccompReturn.toU32 (.Trace e))
      repeat' split at h
      all_goals simp at h
      rw [← h]; exact hb
    | _ => trivial
  · intro h
    obtain ⟨r, h1, h2, _⟩ := C09_denied_gets_violation_partial ⟨true⟩ ⟨1, 1⟩ [.StdIO] v (mkCall 59 []) h (denies_execve _)
    rw [denies_execve _ _ _, Option.some.injEq] at h1
    rw [h1]; exact h2

example : PayloadFits (.Errno 1) ∧ PayloadFits .Trap ∧ ¬ PayloadFits (.Trace 0x10000) := by
  simp [PayloadFits]

/-! ## C12 -/

/-- C12: building the filter always succeeds. -/
theorem C12_generation_total (b : Build) (ids : Ids) (ps : List Promise) (v : SeccompReturn) :
    ∃ prog, promisesToProg b ids ps v = .ok prog := ⟨_, promisesToProg_eq b ids ps v⟩

/-- C12: the two build modes give the same program. -/
theorem C12_build_independent (b b' : Build) (ids : Ids) (ps : List Promise) (v : SeccompReturn) :
    promisesToProg b ids ps v = promisesToProg b' ids ps v := by
  rw [promisesToProg_eq, promisesToProg_eq]

/-! ## C25 -/

/-- Two records agree on number, architecture, the low halves of all arguments, and on the whole of argument 4 if the call is
sendto (44). -/
def AgreeVisible (d e : SeccompData) : Prop :=
  d.nr = e.nr ∧ d.arch = e.arch ∧ (∀ i, (d.args i).setWidth 32 = (e.args i).setWidth 32) ∧
  (d.nr = 44 → d.args 4 = e.args 4)

theorem ruleAt_congr (ids : Ids) (d e : SeccompData) (p : Promise) (h : AgreeVisible d e) :
    ruleAt ids d p d.nr.toNat ↔ ruleAt ids e p e.nr.toNat := by
  obtain ⟨h1, _, h3, h4⟩ := h
  have ha : ∀ i, arg d i = arg e i := h3
  by_cases hs : d.nr = 44
  · have h5 := h4 hs
    rw [← h1, hs]
    simp only [ruleAt, BitVec.reduceToNat, h5]
  · have hn : e.nr.toNat ≠ 44 := fun h => hs (by rw [h1]; exact nr_eq h)
    rw [h1]
    unfold ruleAt
    simp only [ha]
    split <;> first | exact Iff.rfl | (rename_i h; exact absurd h hn)

/-- C25: the verdict depends on nothing else. -/
theorem C25_visible_part (b : Build) (ids : Ids) (ps : List Promise) (v : SeccompReturn) (d e : SeccompData)
    (h : AgreeVisible d e) : filterVerdict b ids ps v d = filterVerdict b ids ps v e := by
  have hp : ∀ p, Permits ids p d ↔ Permits ids p e := fun p => by
    rw [permits_iff rfl, permits_iff rfl, ruleAt_congr ids d e p h, h.1]
  have hA : Allowed ids ps d ↔ Allowed ids ps e := by simp only [Allowed, hp]
  rw [filterVerdict_eq, filterVerdict_eq, verdict_congr h.2.1 hA]

/-- Two records that differ in the instruction pointer and in upper halves agree in this sense. -/
example : AgreeVisible (mkCall 2 [0, 1, 0]) { mkCall 2 [0x500000000, 1, 0x100000000] with instructionPointer := 77 } := by
  refine ⟨rfl, rfl, ?_, by decide⟩
  decide

/-- The exception is real: the upper half of sendto's argument 4 does matter under StdIO. -/
theorem C25_sendto_exception :
    Allows ⟨1, 1⟩ [.StdIO] (mkCall 44 [3, 0, 0, 0, 0, 0]) ∧ Denies ⟨1, 1⟩ [.StdIO] (mkCall 44 [3, 0, 0, 0, 0x100000000, 0]) := by
  have hf : freeOf 44 = [.Inet, .Unix, .Dns] := by decide +kernel
  constructor
  · rw [allows_call (n := 44) ⟨rfl, rfl⟩ (by decide)]
    exact ⟨.StdIO, by simp, .inr ⟨rfl, by decide⟩⟩
  · rw [denies_call (n := 44) ⟨rfl, rfl⟩, allows_call (n := 44) ⟨rfl, rfl⟩ (by decide)]
    rw [hf]
    simp [ruleAt]
    decide

/-! ## C27 -/

/-- C27: the VM returns a value on every generated filter (of a length it takes) and record: no error, no panic, no
divergence, in either build. -/
theorem C27_vm_value (b b' : Build) (ids : Ids) (ps : List Promise) (v : SeccompReturn) (d : SeccompData)
    (prog : List SockFilter) (hp : promisesToProg b ids ps v = .ok prog) (hl : prog.length ≤ 65535) :
    ∃ r, runProg b' prog d.words = some (.ok r) := by
  obtain ⟨prog', h1, h2⟩ := C01_vm_verdict b b' ids ps v d
  rw [hp] at h1
  injection h1 with h1
  subst h1
  exact ⟨_, by rw [h2, if_pos hl]⟩

/-- Every list of at most two hundred promises stays within the VM's length limit. -/
theorem C27_short_lists (b : Build) (ids : Ids) (ps : List Promise) (v : SeccompReturn) (h : ps.length ≤ 200) :
    ∃ prog, promisesToProg b ids ps v = .ok prog ∧ prog.length ≤ 65535 := by
  refine ⟨_, promisesToProg_eq b ids ps v, ?_⟩
  rw [Kernel.progOf_length]
  have hmax : ∀ p, Kernel.promiseLen p ≤ 290 := by intro p; cases p <;> decide +kernel
  have hsum : ∀ l : List Promise, (l.map Kernel.promiseLen).sum ≤ 290 * l.length := by
    intro l
    induction l with
    | nil => simp
    | cons p l ih => have := hmax p; simp only [List.map_cons, List.sum_cons, List.length_cons]; omega
  have := hsum ps
  have := hmax .Default
  omega

/-- Not vacuous: two promises; the program meets the hypotheses of `C27_vm_value`. -/
example (d : SeccompData) : ∃ prog r, promisesToProg ⟨true⟩ ⟨1, 1⟩ [.StdIO, .RPath] .Log = .ok prog ∧ runProg ⟨false⟩ prog d.words = some (.ok r) :=
  let ⟨p, h, hl⟩ := C27_short_lists ⟨true⟩ ⟨1, 1⟩ [.StdIO, .RPath] .Log (by decide)
  let ⟨r, hr⟩ := C27_vm_value ⟨true⟩ ⟨false⟩ ⟨1, 1⟩ [.StdIO, .RPath] .Log d p h hl
  ⟨p, r, h, hr⟩

end Props
