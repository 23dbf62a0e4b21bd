import Verif.Env.Kernel
import Verif.Spec.Observe
import Verif.Spec.Size
import Verif.Spec.Log
import Verif.Spec.Agree
import Verif.Spec.Cost

/-!
# Specification: the way through a filter
-/
set_option autoImplicit false

namespace Spec
open Pledge Bpfvm Kernel

/-- The kernel, running `p` on the record `w` from the registers `r`, executes the instructions at these addresses, in this order, and then
returns this value. -/
inductive Walk (p : Prog) (w : List (BitVec 32)) : Regs → List Nat → BitVec 32 → Prop
  | done (r : Regs) (i : SockFilter) (v : BitVec 32) : p[r.pc]? = some i → Kernel.step w i r = .done v → Walk p w r [r.pc] v
  | next (r r' : Regs) (i : SockFilter) (l : List Nat) (v : BitVec 32) : p[r.pc]? = some i → Kernel.step w i r = .next r' →
      Walk p w r' l v → Walk p w r (r.pc :: l) v

/-- The lines that announce the instructions at these addresses of `p`. -/
def announced (p : Prog) (path : List Nat) : List Line :=
  path.filterMap fun a => p[a]?.map fun i => ⟨.debug, "Executing line 0x" ++ hex a ++ ": " ++ i.debug⟩

/-- The announcing lines in the log of `BpfVM::new(p)?.run(data)`, if there is a VM. -/
def shown (b : Build) (p : Prog) (data : RunData) : Option (List Line) :=
  match VM.new p with
  | .ok vm => some ((runLog b vm data).filter announces)
  | _ => none

/-- Addresses of the code that a filter has for its promises: number 0 is the code for exit, which every filter has, number `i + 1` the
code for the promise at position `i` of the list. From the first (included) to the second (excluded). -/
def block (ps : List Promise) : Nat → Nat × Nat
  | 0 => (4, 6)
  | i + 1 => (filterSize (ps.take i) - 1, filterSize (ps.take (i + 1)) - 1)

/-- The shortest part of the list, from its beginning, that allows the call has length `i`: promise number `i` is what lets it pass (number
0: the call is exit, which needs no promise). -/
def AdmittedBy (ids : Ids) (ps : List Promise) (d : SeccompData) (i : Nat) : Prop :=
  i ≤ ps.length ∧ Allows ids (ps.take i) d ∧ ∀ j < i, ¬ Allows ids (ps.take j) d

end Spec
