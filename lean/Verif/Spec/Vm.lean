import Verif.Model.Vm

/-!
# Specification: executions and histories of the VM, in terms of its public methods

`execute`, `run`, `reset` and the public fields are the API of `BpfVM` (bpfvm/src/vm.rs:26-32, 66, 80, 106, 263).
-/
set_option autoImplicit false

namespace Spec
open Bpfvm

/-- A maximal execution from machine `vm`: repeated calls of `execute` as long as the pc is inside the program, until one of them
gives a value, fails or panics. `trace` lists the positions of the instructions executed, in order. -/
inductive Exec (b : Build) (data : RunData) : VM → List Nat → VM → Res Error (BitVec 32) → Prop
  | off (vm : VM) : vm.prog.length ≤ vm.pc → Exec b data vm [] vm (.ok 0)
  | value (vm vm' : VM) (r : BitVec 32) : vm.pc < vm.prog.length → vm.execute b data = (vm', .ok (some r)) →
      Exec b data vm [vm.pc] vm' (.ok r)
  | error (vm vm' : VM) (e : Error) : vm.pc < vm.prog.length → vm.execute b data = (vm', .err e) →
      Exec b data vm [vm.pc] vm' (.err e)
  | panics (vm vm' : VM) : vm.pc < vm.prog.length → vm.execute b data = (vm', .panic) → Exec b data vm [vm.pc] vm' .panic
  | next (vm vm' vm'' : VM) (trace : List Nat) (r : Res Error (BitVec 32)) : vm.pc < vm.prog.length →
      vm.execute b data = (vm', .ok none) → Exec b data vm' trace vm'' r → Exec b data vm (vm.pc :: trace) vm'' r

/-- One use of a VM: a public method, or an assignment to the public registers. -/
inductive VmUse where
  | run (b : Build) (data : RunData)
  | execute (b : Build) (data : RunData)
  | reset
  | assign (pc : Nat) (acc idx : BitVec 32) (mem : Vector (BitVec 32) MEMSIZE)

/-- The machine afterwards (also if the method failed or panicked and the panic was caught). -/
def VmUse.apply (vm : VM) : VmUse → VM
  | .run b data => ((vm.run b data).map Prod.fst).getD vm
  | .execute b data => (vm.execute b data).1
  | .reset => vm.reset
  | .assign pc acc idx mem => { vm with pc := pc, acc := acc, idx := idx, mem := mem }

/-- A machine after a history of uses. -/
def useAll (vm : VM) (uses : List VmUse) : VM := uses.foldl VmUse.apply vm

/-! ## Arithmetic -/

/-- The operation on numbers below 2^32, without any bound on the result. -/
def aluInt (op : AluOp) (a s : Nat) : Int :=
  match op with
  | .ADD => a + s
  | .SUB => a - s
  | .MUL => a * s
  | .DIV => (a / s : Nat)
  | .OR => (a ||| s : Nat)
  | .AND => (a &&& s : Nat)
  | .LSH => (a * 2 ^ (s % 32) : Nat)
  | .RSH => (a / 2 ^ (s % 32) : Nat)
  | .MOD => (a % s : Nat)
  | .XOR => (a ^^^ s : Nat)

/-- Division and remainder by zero. -/
def aluByZero (op : AluOp) (s : Nat) : Prop := (op = .DIV ∨ op = .MOD) ∧ s = 0

/-- Rust's overflow: the result of +, -, * is not a 32-bit number, or the amount of a shift is 32 or more. -/
def aluOverflows (op : AluOp) (a s : Nat) : Prop :=
  match op with
  | .ADD | .SUB | .MUL => ¬ (0 ≤ aluInt op a s ∧ aluInt op a s < 2 ^ 32)
  | .LSH | .RSH => 32 ≤ s
  | _ => False

instance (op : AluOp) (s : Nat) : Decidable (aluByZero op s) := by unfold aluByZero; infer_instance
instance (op : AluOp) (a s : Nat) : Decidable (aluOverflows op a s) := by unfold aluOverflows; split <;> infer_instance

end Spec
