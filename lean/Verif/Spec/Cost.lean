import Verif.Env.Kernel
import Verif.Spec.History

/-!
# Specification: what a filter costs
-/
set_option autoImplicit false

namespace Spec
open Pledge Bpfvm Kernel

/-- The kernel's interpreter (`Kernel.runFrom`) with a count of the instructions that it executes. -/
def countFrom (p : Prog) (w : List (BitVec 32)) (r : Regs) : Option (BitVec 32 × Nat) :=
  match p[r.pc]? with
  | none => none
  | some i =>
    match Kernel.step w i r with
    | .next r' => do
      let x ← countFrom p w r'
      return (x.1, x.2 + 1)
    | .done v => some (v, 1)
    | .bad => none
partial_fixpoint

/-- The number of instructions that the kernel executes in filter `p` for system call `d`; `m0` is what was in the scratch memory. -/
def cost (m0 : Nat → BitVec 32) (p : Prog) (d : SeccompData) : Option Nat := (countFrom p d.words ⟨0, 0, 0, m0⟩).map Prod.snd

/-- The same for all filters of a thread: the kernel runs each of them for each system call. -/
def costAll (stack : List Prog) (d : SeccompData) : Nat := (stack.map fun p => (cost (fun _ => 0) p d).getD 0).sum

/-- What a promise adds to the cost of a system call whose number it does not mention. -/
def idleCost : Promise → Nat
  | .Default => 1
  | .StdIO => 123
  | .RPath => 18
  | .WPath => 20
  | .CPath => 18
  | .DPath => 2
  | .FLock => 3
  | .FAttr => 10
  | .Inet => 16
  | .Unix => 14
  | .Dns => 11
  | .Tty => 2
  | .RecvFd => 2
  | .SendFd => 2
  | .Proc => 23
  | .Id => 13
  | .Chown => 4
  | .SetTime => 2
  | .ProtExec => 3
  | .Exec => 2
  | .VmInfo => 1
  | .TmpPath => 3
  | .Unveil => 3

/-- What a promise adds at most to the cost of any system call. -/
def worstCost : Promise → Nat
  | .Default => 1
  | .StdIO => 132
  | .RPath => 24
  | .WPath => 27
  | .CPath => 27
  | .DPath => 2
  | .FLock => 8
  | .FAttr => 13
  | .Inet => 50
  | .Unix => 48
  | .Dns => 24
  | .Tty => 16
  | .RecvFd => 2
  | .SendFd => 2
  | .Proc => 26
  | .Id => 13
  | .Chown => 4
  | .SetTime => 2
  | .ProtExec => 6
  | .Exec => 2
  | .VmInfo => 1
  | .TmpPath => 3
  | .Unveil => 3

end Spec
