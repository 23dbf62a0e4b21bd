import Verif.Spec.Full

/-!
# Specification: the promise table in the model with everything at once
-/
set_option autoImplicit false

namespace Spec
open Pledge Bpfvm Kernel

/-- Nobody has pledged yet: no calls in progress, no table made or being made. -/
def Unmade (c : World) : Prop := (∀ w ∈ c.hands, w.errands = [] ∧ w.mem < c.cells.length) ∧ ∀ x ∈ c.cells, x = .idle

/-- The thread is making the table, possibly interrupted by a handler at the moment. -/
def Making (w : Hand) : Prop := ∃ f ∈ w.errands, f.site = .init

/-- The table of memory `m` is marked as being made, and no living thread is making it. -/
def Abandoned (c : World) (m : Nat) : Prop :=
  c.cells[m]? = some .running ∧ ∀ w ∈ c.hands, w.mem = m → w.thread.alive = true → ¬ Making w

end Spec
