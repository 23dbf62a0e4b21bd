import Verif.Env.Handlers
import Verif.Spec.Traced

/-!
# Specification: signal handlers of a pledged thread
-/
set_option autoImplicit false

namespace Spec
open Pledge Bpfvm Kernel

/-- In state `s` the thread makes, by `x`, a system call that the filters trap. -/
def Traps (s : Minded) : Doing → Bool
  | .call d _ _ _ => decide (enter s.thread d = .trap)
  | .ret ip junk _ => decide (enter s.thread (sigreturn ip junk) = .trap) && !s.frames.isEmpty
  | _ => false

/-- The number of system calls during `xs` that are trapped by the filters and that the thread survives. -/
def survivedTraps (s : Minded) : List Doing → Nat
  | [] => 0
  | x :: xs =>
    (if s.thread.alive && !s.lost && Traps s x && (s.step x).thread.alive then 1 else 0) + survivedTraps (s.step x) xs

/-- No handler of SIGSYS during `xs` is entered with SIGSYS not blocked. -/
def NoNodefer (xs : List Doing) : Prop :=
  ∀ x ∈ xs, match x with
    | .call _ dp _ _ | .ret _ _ dp => dp.nodefer = false
    | _ => True

/-- One of the filters of `t`, on whatever place of the stack and among whatever other filters, comes from the pledge `p`. -/
def Among (p : Past) (t : Thread) : Prop := ∃ prog ∈ t.filters, ∃ b, promisesToProg b p.ids p.ps p.v = .ok prog

end Spec
