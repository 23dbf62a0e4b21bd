import Verif.Model.Vm

/-!
# Specification: what a run of the VM looks at

Independent of the model's decoder: by the numbers of the instruction codes. Bits 0-2 of a code are the class (0: load the accumulator,
1: load the index register), bits 3-4 the size of a load (0: a word), bits 5-7 its mode (0x20: absolute, 0x40: relative to the index
register, 0x80: the length of the data).
-/
set_option autoImplicit false

namespace Spec
open Bpfvm

/-- A look at the data: at a word, or at the number of words. -/
inductive Look where
  | word (w : Nat)
  | length
  deriving DecidableEq

/-- The look that the next instruction of a machine takes, if any. An index that leaves the 32 bits wraps, or panics with overflow checks
before anything is looked at. -/
def nextLook (b : Build) (vm : VM) : Option Look :=
  match vm.prog[vm.pc]? with
  | none => none
  | some i =>
    let cls := i.code.toNat % 8
    let size := i.code.toNat / 8 % 4
    let mode := i.code.toNat / 32 % 8
    let pos := vm.idx.toNat + i.k.toNat
    if (cls = 0 ∨ cls = 1) ∧ mode = 4 then some .length
    else if cls = 0 ∧ size = 0 ∧ mode = 1 then some (.word (i.k.toNat / 4))
    else if cls = 0 ∧ size = 0 ∧ mode = 2 ∧ ¬ (b.overflowChecks = true ∧ 2 ^ 32 ≤ pos) then some (.word (pos % 2 ^ 32 / 4))
    else none

/-- The execution of machine `vm` on `data`, by repeated calls of `execute`, takes this look. -/
inductive Looks (b : Build) (data : RunData) : VM → Look → Prop
  | now (vm : VM) (l : Look) : vm.pc < vm.prog.length → nextLook b vm = some l → Looks b data vm l
  | later (vm vm' : VM) (l : Look) : vm.pc < vm.prog.length → vm.execute b data = (vm', .ok none) → Looks b data vm' l → Looks b data vm l

/-- Two data agree as far as a look can tell. -/
def AgreeAt (data data' : RunData) : Look → Prop
  | .word w => data[w]? = data'[w]?
  | .length => data.length = data'.length

/-- The machine after at most `n` calls of `execute` (it stays what it is once the execution has ended). -/
def afterSteps (b : Build) (data : RunData) : Nat → VM → VM
  | 0, vm => vm
  | n + 1, vm =>
    if vm.pc < vm.prog.length then
      match vm.execute b data with
      | (vm', .ok none) => afterSteps b data n vm'
      | (vm', _) => vm'
    else vm

end Spec
