import Verif.Props.Verdict

/-!
# C10, C11, C24: return values and field offsets
-/
set_option autoImplicit false

namespace Props
open Bpfvm

/-! ## C10 -/

/-- C10: decoding an encoded value gives it back when the payload fits in sixteen bits. -/
theorem C10_decode_encode (v : SeccompReturn) (h : PayloadFits v) : SeccompReturn.tryFrom v.toU32 = .ok v :=
  (C09_decodes_iff_fits v).2 h

example : PayloadFits (.Errno 13) := by simp [PayloadFits]

theorem hi_toNat (r : BitVec 32) : (r &&& 0xffff0000#32).toNat = r.toNat / 2 ^ 16 * 2 ^ 16 := by
  have h : r &&& 0xffff0000#32 = (r >>> 16) <<< 16 := by
    apply BitVec.eq_of_getLsbD_eq
    intro i hi
    rw [BitVec.getLsbD_and, hi_mask i hi, BitVec.getLsbD_shiftLeft, BitVec.getLsbD_ushiftRight]
    by_cases h : 16 ≤ i
    · simp [h, hi, show ¬ i < 16 by omega, show 16 + (i - 16) = i by omega]
    · simp [h, show i < 16 by omega]
  rw [h, BitVec.toNat_shiftLeft, BitVec.toNat_ushiftRight, Nat.shiftRight_eq_div_pow, Nat.shiftLeft_eq]
  have := r.isLt
  omega

theorem lo_toNat (r : BitVec 32) : (r &&& 0xffff#32).toNat = r.toNat % 2 ^ 16 := by
  rw [BitVec.toNat_and]
  exact Nat.and_two_pow_sub_one_eq_mod r.toNat 16

theorem hi_eq_iff (r c : BitVec 32) (hc : c.toNat % 2 ^ 16 = 0) : r &&& 0xffff0000#32 = c ↔ r.toNat / 2 ^ 16 = c.toNat / 2 ^ 16 := by
  constructor
  · intro h
    have := congrArg BitVec.toNat h
    rw [hi_toNat] at this
    omega
  · intro h
    apply BitVec.eq_of_toNat_eq
    rw [hi_toNat]
    omega

/-! ## C11 -/

/-- What each upper half means; the payload is the lower half. -/
def meaning (upper : Nat) (data : BitVec 32) : Option SeccompReturn :=
  match upper with
  | 0x8000 => some .KillProcess
  | 0x0000 => some .KillThread
  | 0x0003 => some .Trap
  | 0x0005 => some (.Errno data)
  | 0x7ff0 => some (.Trace data)
  | 0x7ffc => some .Log
  | 0x7fff => some .Allow
  | _ => none

/-- C11: decoding looks at the upper sixteen bits for the action, at the lower sixteen for the payload, and reports every other
word whole. -/
theorem C11_decode_exact (r : BitVec 32) :
    SeccompReturn.tryFrom r =
      match meaning (r.toNat / 2 ^ 16) (BitVec.ofNat 32 (r.toNat % 2 ^ 16)) with
      | some s => .ok s
      | none => .err (.UnsupportedReturn r) := by
  have hlo : r &&& 0xffff#32 = BitVec.ofNat 32 (r.toNat % 2 ^ 16) := by
    apply BitVec.eq_of_toNat_eq; rw [lo_toNat]; simp; omega
  unfold SeccompReturn.tryFrom
  simp only [SECCOMP_RET_ACTION_FULL, SECCOMP_RET_DATA, SECCOMP_RET_KILL_PROCESS, SECCOMP_RET_KILL_THREAD, SECCOMP_RET_TRAP,
    SECCOMP_RET_ERRNO, SECCOMP_RET_TRACE, SECCOMP_RET_LOG, SECCOMP_RET_ALLOW, hlo]
  simp only [hi_eq_iff r 0x80000000#32 (by decide), hi_eq_iff r 0x00000000#32 (by decide), hi_eq_iff r 0x00030000#32 (by decide),
    hi_eq_iff r 0x00050000#32 (by decide), hi_eq_iff r 0x7ff00000#32 (by decide), hi_eq_iff r 0x7ffc0000#32 (by decide),
    hi_eq_iff r 0x7fff0000#32 (by decide)]
  simp only [BitVec.reduceToNat, Nat.reducePow, Nat.reduceDiv]
  generalize r.toNat / 65536 = u
  generalize (BitVec.ofNat 32 (r.toNat % 65536)) = dd
  by_cases h1 : u = 0x8000
  · subst h1; rfl
  by_cases h2 : u = 0
  · subst h2; rfl
  by_cases h3 : u = 3
  · subst h3; rfl
  by_cases h4 : u = 5
  · subst h4; rfl
  by_cases h5 : u = 0x7ff0
  · subst h5; rfl
  by_cases h6 : u = 0x7ffc
  · subst h6; rfl
  by_cases h7 : u = 0x7fff
  · subst h7; rfl
  have hm : meaning u dd = none := by unfold meaning; split <;> first | omega | rfl
  simp only [h1, h2, h3, h4, h5, h6, h7, if_false, hm]

/-- C11: success exactly on the seven known upper halves. -/
theorem C11_success_iff (r : BitVec 32) :
    (∃ s, SeccompReturn.tryFrom r = .ok s) ↔ r.toNat / 2 ^ 16 ∈ [0x8000, 0x0000, 0x0003, 0x0005, 0x7ff0, 0x7ffc, 0x7fff] := by
  rw [C11_decode_exact]
  unfold meaning
  split <;> rename_i h <;> split at h <;> simp_all

/-- Both outcomes occur. -/
example : SeccompReturn.tryFrom 0x0005000d = .ok (.Errno 13) ∧
    SeccompReturn.tryFrom 0x12340007 = .err (.UnsupportedReturn 0x12340007) := by decide

/-- C10: re-encoding a decoded word gives the same action, and the very same word for Errno and Trace. -/
theorem C10_encode_decode (r : BitVec 32) (s : SeccompReturn) (h : SeccompReturn.tryFrom r = .ok s) :
    s.toU32.toNat / 2 ^ 16 = r.toNat / 2 ^ 16 ∧
    ((∃ e, s = .Errno e) ∨ (∃ t, s = .Trace t) → s.toU32 = r) := by
  have hd := h
  rw [C11_decode_exact] at h
  have hor : ∀ c : BitVec 32, c.toNat % 2 ^ 16 = 0 → r.toNat / 2 ^ 16 = c.toNat / 2 ^ 16 →
      c ||| BitVec.ofNat 32 (r.toNat % 2 ^ 16) = r := by
    intro c hc hu
    have hlo : BitVec.ofNat 32 (r.toNat % 2 ^ 16) = r &&& 0xffff#32 := by
      apply BitVec.eq_of_toNat_eq; rw [lo_toNat]; simp; omega
    rw [hlo, ← (hi_eq_iff r c hc).2 hu]
    apply BitVec.eq_of_getLsbD_eq
    intro i hi
    simp only [BitVec.getLsbD_or, BitVec.getLsbD_and, hi_mask i hi, lo_mask i hi]
    by_cases h : 16 ≤ i
    · simp [h, show ¬ i < 16 by omega]
    · simp [h, show i < 16 by omega]
  generalize hu : r.toNat / 2 ^ 16 = u at h
  unfold meaning at h
  split at h <;> rename_i hm <;> split at hm <;> simp at hm h <;> subst hm <;> subst h
  · simp [SeccompReturn.toU32, SECCOMP_RET_KILL_PROCESS]
  · simp [SeccompReturn.toU32, SECCOMP_RET_KILL_THREAD]
  · simp [SeccompReturn.toU32, SECCOMP_RET_TRAP]
  · have := hor 0x00050000#32 (by decide) (by rw [hu]; rfl)
    have h2 : SeccompReturn.toU32 (.Errno (BitVec.ofNat 32 (r.toNat % 2 ^ 16))) = r := this
    exact ⟨by rw [h2, hu], fun _ => h2⟩
  · have := hor 0x7ff00000#32 (by decide) (by rw [hu]; rfl)
    have h2 : SeccompReturn.toU32 (.Trace (BitVec.ofNat 32 (r.toNat % 2 ^ 16))) = r := this
    exact ⟨by rw [h2, hu], fun _ => h2⟩
  · simp [SeccompReturn.toU32, SECCOMP_RET_LOG]
  · simp [SeccompReturn.toU32, SECCOMP_RET_ALLOW]

example : SeccompReturn.tryFrom 0x7ff000ff = .ok (.Trace 0xff) := by decide

/-! ## C24 -/

/-- The 32-bit half of the record that a field offset names; argument numbers above 5 name nothing. -/
def fieldOf (d : SeccompData) : FieldOffset → Option (BitVec 32)
  | .Syscall => some d.nr
  | .Arch => some d.arch
  | .InstrPointerLower => some (d.instructionPointer.setWidth 32)
  | .InstrPointerUpper => some ((d.instructionPointer >>> 32).setWidth 32)
  | .ArgLower a => if h : a.toNat < 6 then some ((d.args ⟨a.toNat, h⟩).setWidth 32) else none
  | .ArgUpper a => if h : a.toNat < 6 then some ((d.args ⟨a.toNat, h⟩ >>> 32).setWidth 32) else none

/-- A field that exists: an argument number from 0 to 5, where there is one. -/
def ValidField : FieldOffset → Prop
  | .ArgLower a => a.toNat < 6
  | .ArgUpper a => a.toNat < 6
  | _ => True

theorem lo_eq (x : BitVec 64) : lo x = x.setWidth 32 := by
  apply BitVec.eq_of_toNat_eq; simp [lo]
theorem hi_eq (x : BitVec 64) : hi x = (x >>> 32).setWidth 32 := by
  apply BitVec.eq_of_toNat_eq; simp [hi]

theorem arg_cases (a : BitVec 32) (h : a.toNat < 6) : a = 0 ∨ a = 1 ∨ a = 2 ∨ a = 3 ∨ a = 4 ∨ a = 5 := by
  have h' : a.toNat = 0 ∨ a.toNat = 1 ∨ a.toNat = 2 ∨ a.toNat = 3 ∨ a.toNat = 4 ∨ a.toNat = 5 := by omega
  rcases h' with h | h | h | h | h | h
  · exact .inl (BitVec.eq_of_toNat_eq h)
  · exact .inr (.inl (BitVec.eq_of_toNat_eq h))
  · exact .inr (.inr (.inl (BitVec.eq_of_toNat_eq h)))
  · exact .inr (.inr (.inr (.inl (BitVec.eq_of_toNat_eq h))))
  · exact .inr (.inr (.inr (.inr (.inl (BitVec.eq_of_toNat_eq h)))))
  · exact .inr (.inr (.inr (.inr (.inr (BitVec.eq_of_toNat_eq h)))))

/-- C24: the word load at the offset of an existing field gives that half of that field, in the VM and in the kernel. -/
theorem C24_offset_loads_field (b : Build) (d : SeccompData) (f : FieldOffset) (h : ValidField f) (vm : VM)
    (r : Kernel.Regs) :
    ∃ w, fieldOf d f = some w ∧
      VM.executeInstr b vm d.words (bpf_ld .ABS f.offset) = ({ vm with acc := w }, .ok none) ∧
      Kernel.step d.words (bpf_ld .ABS f.offset) r = .next { r with pc := r.pc + 1, A := w } := by
  cases f with
  | Syscall => exact ⟨_, rfl, rfl, rfl⟩
  | Arch => exact ⟨_, rfl, rfl, rfl⟩
  | InstrPointerLower => exact ⟨_, rfl, by rw [← lo_eq]; rfl, by rw [← lo_eq]; rfl⟩
  | InstrPointerUpper => exact ⟨_, rfl, by rw [← hi_eq]; rfl, by rw [← hi_eq]; rfl⟩
  | ArgLower a =>
    have h6 : a.toNat < 6 := h
    refine ⟨(d.args ⟨a.toNat, h6⟩).setWidth 32, by simp [fieldOf, h6], ?_⟩
    rcases arg_cases a h6 with rfl | rfl | rfl | rfl | rfl | rfl <;>
      exact ⟨by rw [← lo_eq]; rfl, by rw [← lo_eq]; rfl⟩
  | ArgUpper a =>
    have h6 : a.toNat < 6 := h
    refine ⟨(d.args ⟨a.toNat, h6⟩ >>> 32).setWidth 32, by simp [fieldOf, h6], ?_⟩
    rcases arg_cases a h6 with rfl | rfl | rfl | rfl | rfl | rfl <;>
      exact ⟨by rw [← hi_eq]; rfl, by rw [← hi_eq]; rfl⟩

/-- Not vacuous: the upper half of the last argument. -/
example (vm : VM) (r : Kernel.Regs) := C24_offset_loads_field ⟨true⟩ ⟨2, 0xC000003E, 0, fun _ => 7⟩ (.ArgUpper 5) (by simp [ValidField]) vm r

theorem offset_lower (a : BitVec 32) : (FieldOffset.ArgLower a).offset.toNat = (16 + a.toNat * 8) % 2 ^ 32 := by
  simp [FieldOffset.offset, BitVec.toNat_add, BitVec.toNat_mul]
theorem offset_upper (a : BitVec 32) : (FieldOffset.ArgUpper a).offset.toNat = (20 + a.toNat * 8) % 2 ^ 32 := by
  simp [FieldOffset.offset, BitVec.toNat_add, BitVec.toNat_mul]; omega

/-- Argument numbers below 2^29 - 2: the offset computation does not overflow. -/
def NoOverflow : FieldOffset → Prop
  | .ArgLower a => a.toNat < 2 ^ 29 - 2
  | .ArgUpper a => a.toNat < 2 ^ 29 - 2
  | _ => True

/-- C24: different fields have different offsets (as long as the computation does not overflow). -/
theorem C24_offset_injective (f g : FieldOffset) (hf : NoOverflow f) (hg : NoOverflow g) (h : f.offset = g.offset) : f = g := by
  have h' := congrArg BitVec.toNat h
  have e0 : FieldOffset.Syscall.offset.toNat = 0 := rfl
  have e1 : FieldOffset.Arch.offset.toNat = 4 := rfl
  have e2 : FieldOffset.InstrPointerLower.offset.toNat = 8 := rfl
  have e3 : FieldOffset.InstrPointerUpper.offset.toNat = 12 := rfl
  cases f <;> cases g <;> simp only [NoOverflow, e0, e1, e2, e3, offset_lower, offset_upper] at * <;>
    first
    | rfl
    | omega
    | (congr 1; apply BitVec.eq_of_toNat_eq; omega)

/-- Not vacuous: the upper half of the last argument. -/
example := C24_offset_injective (.ArgUpper 5) (.ArgUpper 5) (by simp [NoOverflow]) (by simp [NoOverflow]) rfl

/-- C24: offsets are 4-aligned, and inside the 64-byte record exactly for existing fields (without overflow). -/
theorem C24_offset_in_record (f : FieldOffset) :
    f.offset.toNat % 4 = 0 ∧ (NoOverflow f → (f.offset.toNat < 64 ↔ ValidField f)) := by
  cases f with
  | ArgLower a => simp only [offset_lower, NoOverflow, ValidField]; omega
  | ArgUpper a => simp only [offset_upper, NoOverflow, ValidField]; omega
  | _ => simp [FieldOffset.offset, ValidField]

/-- Without the overflow guard the claim is false in an unchecked build: argument number 2^29 - 2 aliases the system call
number. -/
theorem C24_overflow_aliases : (FieldOffset.ArgLower 0x1ffffffe#32).offset = FieldOffset.Syscall.offset := by decide

/-- C24: in an unchecked build `offset` is the wrapping computation; in a checked build it panics exactly when the computation
overflows. In particular both builds agree on existing fields. -/
theorem C24_offset_builds (b : Build) (f : FieldOffset) :
    (b.overflowChecks = false ∨ NoOverflow f → f.offsetIn b = .ok f.offset) ∧
    (b.overflowChecks = true ∧ ¬ NoOverflow f → f.offsetIn b = .panic) ∧ (ValidField f → NoOverflow f) := by
  have e8 : (8#32).toNat = 8 := rfl
  have e16 : (16#32).toNat = 16 := rfl
  have e4 : (4#32).toNat = 4 := rfl
  have e : (4#32 + 4#32 + 8#32) = 16#32 := rfl
  have hm : ∀ a : BitVec 32, (a * 8#32).toNat = a.toNat * 8 % 2 ^ 32 := fun a => by rw [BitVec.toNat_mul]; rfl
  have hs : ∀ a : BitVec 32, (16#32 + a).toNat = (16 + a.toNat) % 2 ^ 32 := fun a => by rw [BitVec.toNat_add]; rfl
  have hc : ∀ a : BitVec 32, 16#32 + a * 8#32 + 4#32 = 4#32 + 4#32 + 8#32 + a * 8#32 + 4#32 := fun a => by rw [e]
  cases b with | mk o =>
  cases f with
  | ArgLower a =>
    have := a.isLt
    simp only [NoOverflow, ValidField, FieldOffset.offsetIn, FieldOffset.offset, mulU32, BitVec.ofNat_eq_ofNat, e, e8]
    refine ⟨?_, ?_, by omega⟩
    · intro h
      rw [if_neg (by intro h'; rcases h with h | h <;> simp_all; omega)]
      simp only [Res.bind, addU32]
      rw [if_neg]
      rintro ⟨h', h2⟩
      rw [hm, e16] at h2
      rcases h with h | h
      · rw [h] at h'; cases h'
      · omega
    · rintro ⟨ho, h⟩
      simp only [ho, true_and]
      split
      · rfl
      · simp only [Res.bind, addU32]
        rw [if_pos]
        rw [hm, e16]
        exact ⟨trivial, by omega⟩
  | ArgUpper a =>
    have := a.isLt
    simp only [NoOverflow, ValidField, FieldOffset.offsetIn, FieldOffset.offset, mulU32, BitVec.ofNat_eq_ofNat, e, e8]
    refine ⟨?_, ?_, by omega⟩
    · intro h
      rw [if_neg (by intro h'; rcases h with h | h <;> simp_all; omega)]
      simp only [Res.bind, addU32]
      rw [if_neg]
      · simp only
        rw [if_neg]
        rintro ⟨h', h2⟩
        rw [hs, hm, e4] at h2
        rcases h with h | h
        · rw [h] at h'; cases h'
        · omega
      rintro ⟨h', h2⟩
      rw [hm, e16] at h2
      rcases h with h | h
      · rw [h] at h'; cases h'
      · omega
    · rintro ⟨ho, h⟩
      simp only [ho, true_and]
      split
      · rfl
      · simp only [Res.bind, addU32]
        rw [if_pos]
        rw [hm, e16]
        exact ⟨trivial, by omega⟩
  | _ => simp [NoOverflow, ValidField, FieldOffset.offsetIn, FieldOffset.offset]

/-- Both outcomes occur. -/
example : FieldOffset.offsetIn ⟨true⟩ (.ArgUpper 0x1ffffffd) = .ok 0xfffffffc ∧
    FieldOffset.offsetIn ⟨true⟩ (.ArgUpper 0x1ffffffe) = .panic := by decide

example : ValidField (.ArgUpper 5) ∧ NoOverflow (.ArgUpper 5) ∧ ¬ ValidField (.ArgLower 6) := by
  simp [ValidField, NoOverflow]

end Props
