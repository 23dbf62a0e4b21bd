import Verif.Env.Kernel
import Verif.Model.Vm

/-!
# Specification: where the bundled VM departs from the kernel

The kernel accepts 41 instruction codes. For each of them this table says in which registers the VM does not do what the kernel does, and
what it does instead. `len` is the number of words of the slice the VM was given.
-/
set_option autoImplicit false

namespace Spec
open Bpfvm Kernel

/-- How the VM departs from the kernel at one instruction. -/
inductive Departure where
  /-- `run` returns this error. -/
  | error (e : Error)
  /-- `run` panics. -/
  | panic
  /-- The VM goes on with another register value or at another instruction. -/
  | otherState
  deriving DecidableEq

/-- Arithmetic whose result does not fit, on numbers; shifts by 32 or more. -/
def overflows (code : BitVec 16) (a s : Nat) : Prop :=
  code ∈ [0x04#16, 0x0c#16] ∧ 2 ^ 32 ≤ a + s ∨ code ∈ [0x14#16, 0x1c#16] ∧ a < s ∨ code ∈ [0x24#16, 0x2c#16] ∧ 2 ^ 32 ≤ a * s ∨
    code ∈ [0x64#16, 0x6c#16, 0x74#16, 0x7c#16] ∧ 32 ≤ s

instance (code : BitVec 16) (a s : Nat) : Decidable (overflows code a s) := by unfold overflows; infer_instance

/-- The operand of an arithmetic instruction: the codes with bit 3 take it from the index register. -/
def operand (i : SockFilter) (x : BitVec 32) : BitVec 32 :=
  if i.code ∈ [0x0c#16, 0x1c#16, 0x2c#16, 0x6c#16, 0x7c#16] then x else i.k

/-- The departure at instruction `i` with `a` in the accumulator and `x` in the index register, if any. -/
def departure (b : Build) (len : Nat) (i : SockFilter) (a x : BitVec 32) : Option Departure :=
  -- negation and the two register transfers
  if i.code = 0x84#16 then some (.error (.UnsupportedInstruction 0x80))
  else if i.code = 0x07#16 ∨ i.code = 0x87#16 then some (.error (.UnsupportedInstruction 7))
  -- the length of the record: the kernel counts 64 bytes, the VM counts words
  else if i.code = 0x80#16 ∨ i.code = 0x81#16 then if BitVec.ofNat 32 len = 64#32 then none else some .otherState
  -- conditional jumps on the index register: the VM compares with the constant
  else if i.code = 0x1d#16 then if i.jt = i.jf ∨ (a = x ↔ a = i.k) then none else some .otherState
  else if i.code = 0x2d#16 then if i.jt = i.jf ∨ (x < a ↔ i.k < a) then none else some .otherState
  else if i.code = 0x3d#16 then if i.jt = i.jf ∨ (x ≤ a ↔ i.k ≤ a) then none else some .otherState
  else if i.code = 0x4d#16 then if i.jt = i.jf ∨ (a &&& x = 0#32 ↔ a &&& i.k = 0#32) then none else some .otherState
  -- division by the index register: the kernel ends with 0
  else if i.code = 0x3c#16 then if x = 0#32 then some .panic else none
  -- overflow checks
  else if b.overflowChecks = true ∧ overflows i.code a.toNat (operand i x).toNat then some .panic
  else none

/-- The registers the kernel goes through when it runs `p` on the record `w` from `r0`. -/
inductive Visits (p : Prog) (w : List (BitVec 32)) (r0 : Regs) : Regs → Prop
  | start : Visits p w r0 r0
  | next (r r' : Regs) (i : SockFilter) : Visits p w r0 r → p[r.pc]? = some i → step w i r = .next r' → Visits p w r0 r'

/-- What the kernel starts with. -/
def startRegs (m0 : Nat → BitVec 32) : Regs := { pc := 0, A := 0, X := 0, M := m0 }

/-- The kernel, running `p` on `w`, executes `i` in registers `r`, and there the VM departs by `dep`. -/
def DepartsAt (b : Build) (len : Nat) (p : Prog) (w : List (BitVec 32)) (r0 r : Regs) (dep : Departure) : Prop :=
  Visits p w r0 r ∧ ∃ i, p[r.pc]? = some i ∧ departure b len i r.A r.X = some dep

/-- No departure during the whole run. -/
def NoDeparture (b : Build) (len : Nat) (p : Prog) (w : List (BitVec 32)) (r0 : Regs) : Prop :=
  ∀ r dep, ¬ DepartsAt b len p w r0 r dep

/-- The first departure of a run. -/
def FirstDeparture (b : Build) (len : Nat) (p : Prog) (w : List (BitVec 32)) (r0 r : Regs) (dep : Departure) : Prop :=
  DepartsAt b len p w r0 r dep ∧ ∀ r' dep', DepartsAt b len p w r0 r' dep' → r.pc ≤ r'.pc

/-- The VM's machine and the kernel's registers say the same. -/
structure SameState (vm : VM) (r : Regs) : Prop where
  pc : vm.pc = r.pc
  acc : vm.acc = r.A
  idx : vm.idx = r.X
  mem : ∀ j (hj : j < 16), vm.mem[j]'hj = r.M j

/-- The VM's call of `execute` did what the kernel's step did. -/
def SameStep (v : VM × Res Error (Option (BitVec 32))) : Step → Prop
  | .next r' => v.2 = .ok none ∧ SameState v.1 r'
  | .done x => v.2 = .ok (some x)
  | .bad => False

end Spec
