import Verif.Proofs.Agree
import Verif.Props.VmKernel

/-!
# C89: exactly where the VM departs from the kernel
-/
set_option autoImplicit false

namespace Props
open Bpfvm Spec Kernel

/-- C89, one instruction: with the same registers and memory, and given what the kernel's checks guarantee, `execute` does what the kernel does
exactly if the table shows no departure. -/
theorem C89_step (b : Build) (d : SeccompData) (rest : List (BitVec 32)) (flen : Nat) (i : SockFilter) (vm : VM) (r : Regs)
    (h1 : instrOK flen r.pc i = true) (h2 : seccompInstrOK i = true) (hs : SameState vm r) (hi : vm.prog[vm.pc]? = some i) :
    SameStep (vm.execute b (d.words ++ rest)) (step d.words i r) ↔ departure b (d.words ++ rest).length i r.A r.X = none := by
  have hx : vm.execute b (d.words ++ rest) = VM.executeInstr b { vm with pc := vm.pc + 1 } (d.words ++ rest) i := by
    unfold VM.execute
    rw [hi]
  rw [hx]
  have hstop := departs_stop b (d.words ++ rest) i vm
  rw [show departure b (d.words ++ rest).length i vm.acc vm.idx = departure b (d.words ++ rest).length i r.A r.X by
    rw [hs.acc, hs.idx]] at hstop
  constructor
  · intro h
    have stop : ∀ x, (VM.executeInstr b { vm with pc := vm.pc + 1 } (d.words ++ rest) i).2 = x → x = .panic ∨ (∃ e, x = .err e) → False := by
      intro x hx hx'
      cases hk : step d.words i r with
      | next r' =>
        rw [hk] at h
        rw [← hx, h.1] at hx'
        rcases hx' with hx' | ⟨e, hx'⟩ <;> cases hx'
      | done v =>
        rw [hk] at h
        rw [← hx, show _ = _ from h] at hx'
        rcases hx' with hx' | ⟨e, hx'⟩ <;> cases hx'
      | bad => rw [hk] at h; exact h
    cases hd : departure b (d.words ++ rest).length i r.A r.X with
    | none => rfl
    | some dep =>
      exfalso
      cases dep with
      | error e => exact stop _ (hstop.1 e hd) (.inr ⟨e, rfl⟩)
      | panic => exact stop _ (hstop.2 hd) (.inl rfl)
      | otherState => exact departs_other b _ d.words i vm r hs hd h
  · intro hd
    have hok : StepOK i (~~~0#16) := by
      unfold instrOK at h1
      rw [Bool.and_eq_true] at h1
      have h1 := h1.2
      have hcell : i.code ∈ [0x60#16, 0x61#16, 0x02#16, 0x03#16] → i.k.toNat < 16 := by
        intro h
        have hn : i.code ∉ [0x34#16, 0x94#16] ∧ i.code ∉ [0x64#16, 0x74#16] :=
          ball_of_all _ (fun c => c ∉ [0x34#16, 0x94#16] ∧ c ∉ [0x64#16, 0x74#16]) (by decide) _ h
        rw [if_neg hn.1, if_neg hn.2, if_pos h, decide_eq_true_eq] at h1
        exact h1
      refine ⟨h2, fun h => by simpa [h] using h1, hcell, fun h => ?_⟩
      have := hcell (ball_of_all _ (fun c => c ∈ [0x60#16, 0x61#16, 0x02#16, 0x03#16]) (by decide) _ h)
      rw [BitVec.getLsbD_not]
      simp [this]
    rcases agree_step b (d.words ++ rest) d.words
        (fun j hj => by rw [List.getElem?_append_left (by exact hj)]) (Nat.le_refl 16) i _ hok vm r
        ⟨hs.pc, hs.acc, hs.idx, fun j hj _ => hs.mem j hj⟩ hd with ⟨v, vm', e1, e2⟩ | ⟨r', vm', e1, e2, e3⟩
    · rw [e1, e2]; rfl
    · rw [e1, e2]
      refine ⟨rfl, e3.pc, e3.acc, e3.idx, fun j hj => e3.mem j hj ?_⟩
      unfold storedAfter
      split
      · rw [BitVec.getLsbD_or, BitVec.getLsbD_not]
        simp [hj]
      · rw [BitVec.getLsbD_not]
        simp [hj]

/-- Runs: the kernel always returns a value; the VM returns the same if nothing departs on the kernel's way, and otherwise the first
departure decides if it is an error or a panic. -/
theorem runs (b : Build) (p : List SockFilter) (hacc : accepts p = true) (m0 : Nat → BitVec 32) (d : SeccompData) (rest : List (BitVec 32)) :
    (NoDeparture b (d.words ++ rest).length p d.words (startRegs m0) →
      ∃ v, Kernel.run m0 p d.words = some v ∧ runProg b p (d.words ++ rest) = some (.ok v)) ∧
    (∀ rd dep, FirstDeparture b (d.words ++ rest).length p d.words (startRegs m0) rd dep →
      (∀ e, dep = .error e → runProg b p (d.words ++ rest) = some (.err e)) ∧
      (dep = .panic → runProg b p (d.words ++ rest) = some .panic)) := by
  have hacc' := hacc
  simp only [accepts, Bool.and_eq_true, decide_eq_true_eq] at hacc'
  obtain ⟨⟨⟨⟨⟨hl, hl'⟩, -⟩, -⟩, hm⟩, -⟩ := hacc'
  have hlen : ¬ p.length > 65535 := by unfold maxInsns at hl'; omega
  have hrun : runProg b p (d.words ++ rest) = (VM.loop b ⟨0, 0, 0, Vector.replicate MEMSIZE 0, p⟩ (d.words ++ rest)).map Prod.snd := by
    unfold runProg VM.new
    rw [if_neg hlen]
    rfl
  rw [hrun]
  exact agree_run b p (d.words ++ rest) d.words hacc (fun j hj => by rw [List.getElem?_append_left (by exact hj)]) (Nat.le_refl 16)
    p.length ⟨0, 0, 0, Vector.replicate MEMSIZE 0, p⟩ (startRegs m0) (by simp)
    ⟨fun _ => ~~~0, 0, hl, rfl, hm, rfl, rfl, rfl, fun j _ h => by simp at h⟩

/-- C89: on every program the kernel accepts, whatever else it contains, if no instruction that the kernel executes on this record departs,
the VM returns what the kernel returns. The slice may be longer than the record. -/
theorem C89_agrees (b : Build) (p : List SockFilter) (hacc : accepts p = true) (m0 : Nat → BitVec 32) (d : SeccompData)
    (rest : List (BitVec 32)) (h : NoDeparture b (d.words ++ rest).length p d.words (startRegs m0)) :
    ∃ v, Kernel.run m0 p d.words = some v ∧ runProg b p (d.words ++ rest) = some (.ok v) :=
  (runs b p hacc m0 d rest).1 h

/-- C89: if the first departure is an unsupported instruction, the VM reports exactly that error; if it is a division by zero or (in a
checked build) an overflow, it panics. -/
theorem C89_first (b : Build) (p : List SockFilter) (hacc : accepts p = true) (m0 : Nat → BitVec 32) (d : SeccompData)
    (rest : List (BitVec 32)) (rd : Regs) (dep : Departure)
    (h : FirstDeparture b (d.words ++ rest).length p d.words (startRegs m0) rd dep) :
    (∀ e, dep = .error e → runProg b p (d.words ++ rest) = some (.err e)) ∧
    (dep = .panic → runProg b p (d.words ++ rest) = some .panic) :=
  (runs b p hacc m0 d rest).2 rd dep h

/-- C89, exact: unless some executed instruction takes the VM to another state, the VM returns the kernel's value exactly if no executed
instruction departs. -/
theorem C89_iff (b : Build) (p : List SockFilter) (hacc : accepts p = true) (m0 : Nat → BitVec 32) (d : SeccompData)
    (rest : List (BitVec 32))
    (ho : ∀ rd, ¬ DepartsAt b (d.words ++ rest).length p d.words (startRegs m0) rd .otherState) :
    (∃ v, Kernel.run m0 p d.words = some v ∧ runProg b p (d.words ++ rest) = some (.ok v)) ↔
      NoDeparture b (d.words ++ rest).length p d.words (startRegs m0) := by
  refine ⟨fun h => ?_, C89_agrees b p hacc m0 d rest⟩
  apply Classical.byContradiction
  intro hn
  obtain ⟨rd, dep, hf⟩ := first_exists _ _ _ _ _ hn
  obtain ⟨v, -, hv⟩ := h
  obtain ⟨h1, h2⟩ := C89_first b p hacc m0 d rest rd dep hf
  cases dep with
  | error e => rw [h1 e rfl] at hv; cases hv
  | panic => rw [h2 rfl] at hv; cases hv
  | otherState => exact ho rd hf.1

/-- C89 through `any_to_data`: the slice is four times too long (C26), 64 words, and so the VM's count of words is the kernel's count of
bytes: loads of the length agree. -/
theorem C89_length (b : Build) (d : SeccompData) (beyond : Nat → BitVec 32) (i : SockFilter) (a x : BitVec 32)
    (h : i.code = 0x80#16 ∨ i.code = 0x81#16) :
    departure b (anyToData d.words beyond).length i a x = none ∧ departure b d.words.length i a x = some .otherState := by
  have hl : (anyToData d.words beyond).length = 64 := by
    unfold anyToData anyToDataLen
    simp only [List.length_append, List.length_map, List.length_range]
    have : d.words.length = 16 := rfl
    omega
  have hl' : d.words.length = 16 := rfl
  rw [hl, hl']
  rcases h with h | h <;> simp [departure, h]

/-- Not vacuous: the load of the length. -/
example (d : SeccompData) (beyond : Nat → BitVec 32) := C89_length ⟨true⟩ d beyond ⟨0x80, 0, 0, 0⟩ 0 0 (.inl rfl)

/-- So in an unchecked build every accepted program without register jumps, NEG, TAX, TXA and division by X, loads of the length included,
gives through `any_to_data` the kernel's value. -/
theorem C89_any_to_data (b : Build) (hb : b.overflowChecks = false) (p : List SockFilter) (hacc : accepts p = true)
    (hsup : ∀ i ∈ p, i.code ∉ [0x1d#16, 0x2d#16, 0x3d#16, 0x4d#16, 0x84#16, 0x07#16, 0x87#16, 0x3c#16])
    (m0 : Nat → BitVec 32) (d : SeccompData) (beyond : Nat → BitVec 32) :
    ∃ v, Kernel.run m0 p d.words = some v ∧ runProg b p (anyToData d.words beyond) = some (.ok v) := by
  unfold anyToData
  refine C89_agrees b p hacc m0 d _ ?_
  rintro r dep ⟨-, i, hi, hd⟩
  have hl := C89_length b d beyond i r.A r.X
  unfold anyToData at hl
  have hs := hsup i (List.mem_of_getElem? hi)
  simp only [List.mem_cons, List.not_mem_nil, or_false, not_or] at hs
  obtain ⟨s1, s2, s3, s4, s5, s6, s7, s8⟩ := hs
  by_cases hc : i.code = 0x80#16 ∨ i.code = 0x81#16
  · rw [(hl hc).1] at hd; cases hd
  · unfold departure at hd
    rw [if_neg s5, if_neg (by simp [s6, s7]), if_neg hc, if_neg s1, if_neg s2, if_neg s3, if_neg s4, if_neg s8, if_neg (by simp [hb])] at hd
    cases hd

/-! ### Cases -/

/-- ld [0]; jeq #39, 0, 2; tax; ret #1; (else) ret #2: one way meets TAX. -/
def taxSample : List SockFilter := [⟨0x20, 0, 0, 0⟩, ⟨0x15, 0, 2, 39⟩, ⟨0x07, 0, 0, 0⟩, ⟨0x06, 0, 0, 1⟩, ⟨0x06, 0, 0, 2⟩]

example : accepts taxSample = true := by decide +kernel

/-- Call number 1: TAX is in the program, but not on the kernel's way. -/
example (b : Build) (m0 : Nat → BitVec 32) (rest : List (BitVec 32)) :
    NoDeparture b ((mkCall 1 []).words ++ rest).length taxSample (mkCall 1 []).words (startRegs m0) := by
  rintro r dep ⟨hv, i, hi, hd⟩
  rcases visits_cases _ _ _ _ hv with rfl | ⟨j, r1, e1, e2, hv⟩
  · cases hi
    simp [departure, overflows] at hd
  · cases e1; cases e2
    rcases visits_cases _ _ _ _ hv with rfl | ⟨j, r2, e1, e2, hv⟩
    · cases hi
      simp [departure, overflows] at hd
    · cases e1; cases e2
      rcases visits_cases _ _ _ _ hv with rfl | ⟨j, r3, e1, e2, hv⟩
      · cases hi
        simp [departure, overflows] at hd
      · cases e1; cases e2

/-- Call number 39: the first departure is TAX, so the VM reports it. -/
example (b : Build) (m0 : Nat → BitVec 32) (rest : List (BitVec 32)) :
    FirstDeparture b ((mkCall 39 []).words ++ rest).length taxSample (mkCall 39 []).words (startRegs m0) ⟨2, 39, 0, m0⟩
      (.error (.UnsupportedInstruction 7)) := by
  have h0 : Visits taxSample (mkCall 39 []).words (startRegs m0) ⟨2, 39, 0, m0⟩ :=
    .next ⟨1, 39, 0, m0⟩ _ ⟨0x15, 0, 2, 39⟩ (.next (startRegs m0) _ ⟨0x20, 0, 0, 0⟩ .start rfl rfl) rfl rfl
  refine ⟨⟨h0, _, rfl, by simp [departure]⟩, ?_⟩
  rintro r dep ⟨hv, i, hi, hd⟩
  rcases visits_cases _ _ _ _ hv with rfl | ⟨j, r1, e1, e2, hv⟩
  · cases hi
    simp [departure, overflows] at hd
  · cases e1; cases e2
    rcases visits_cases _ _ _ _ hv with rfl | ⟨j, r2, e1, e2, hv⟩
    · cases hi
      simp [departure, overflows] at hd
    · cases e1; cases e2
      exact visits_pc taxSample (mkCall 39 []).words (by decide +kernel) (Nat.le_refl 16) _ _ hv

/-- An instruction that takes the VM to another state need not change the result: the hypothesis of `C89_iff` cannot be dropped. -/
example (b : Build) (m0 : Nat → BitVec 32) (d : SeccompData) :
    accepts [⟨0x80, 0, 0, 0⟩, ⟨0x06, 0, 0, 1⟩] = true ∧
    Kernel.run m0 [⟨0x80, 0, 0, 0⟩, ⟨0x06, 0, 0, 1⟩] d.words = some 1 ∧
    runProg b [⟨0x80, 0, 0, 0⟩, ⟨0x06, 0, 0, 1⟩] (d.words ++ []) = some (.ok 1) ∧
    DepartsAt b (d.words ++ []).length [⟨0x80, 0, 0, 0⟩, ⟨0x06, 0, 0, 1⟩] d.words (startRegs m0) (startRegs m0) .otherState := by
  refine ⟨by decide, runFrom_fuel _ _ 3 _ _ rfl, ?_, .start, _, rfl, ?_⟩
  · rw [runProg_fuel b _ _ (by decide)]
    cases b with | mk o => cases o <;> rfl
  · have : (d.words ++ []).length = 16 := rfl
    rw [this]
    simp [departure]

/-- The hypotheses of `C89_step` are met by the division by X, where it says that the two differ exactly for X = 0. -/
example : instrOK 2 0 ⟨0x3c, 0, 0, 0⟩ = true ∧ seccompInstrOK ⟨0x3c, 0, 0, 0⟩ = true ∧
    SameState ⟨0, 8, 2, Vector.replicate MEMSIZE 0, [⟨0x3c, 0, 0, 0⟩, ⟨0x16, 0, 0, 0⟩]⟩ ⟨0, 8, 2, fun _ => 0⟩ ∧
    (∀ (b : Build) (len : Nat) (a x : BitVec 32), departure b len ⟨0x3c, 0, 0, 0⟩ a x = none ↔ x ≠ 0) := by
  refine ⟨by decide, by decide, ⟨rfl, rfl, rfl, fun j hj => by simp⟩, fun b len a x => ?_⟩
  by_cases h : x = 0#32 <;> simp [departure, h]

/-- A program with a load of the length, for `C89_any_to_data`: it returns 64. -/
example : accepts [⟨0x80, 0, 0, 0⟩, ⟨0x16, 0, 0, 0⟩] = true ∧
    ∀ i ∈ ([⟨0x80, 0, 0, 0⟩, ⟨0x16, 0, 0, 0⟩] : List SockFilter),
      i.code ∉ [0x1d#16, 0x2d#16, 0x3d#16, 0x4d#16, 0x84#16, 0x07#16, 0x87#16, 0x3c#16] := by decide

end Props
