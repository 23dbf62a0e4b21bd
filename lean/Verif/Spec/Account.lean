import Verif.Spec.Full
import Verif.Model.Alloc

/-!
# Specification: what the combined model has to do with the simple ones
-/
set_option autoImplicit false

namespace Spec
open Pledge Bpfvm Kernel

/-- The death, if any, in the end of a call of `pledge_override`; an allocator that gives up ends the process. -/
def deathIn : Ending → Option Outcome
  | .own (.died o) => some o
  | .own _ => none
  | .died o => some o
  | .aborted => some .killProcess

/-- Something thread `i` itself does in a call of `pledge_override`: its steps, system calls of the allocator (those in `P`), which the
handler of the program answers or not, and the end of the process if the allocator gives up. -/
def OwnStep (i : Nat) (handler : Bool) (P : MemCall → Prop) (m : Happening) : Prop :=
  m = .go i ∨ (∃ c, P c ∧ ∃ x, m = .other (.call i c.d (if handler then some x else none))) ∨ m = .other (.crash i true)

/-- A world in which no living thread is in a call, all living threads have their hash keys and their promise tables are made. -/
def AtRest (c : World) : Prop :=
  ∀ w ∈ c.hands, w.thread.alive = true → w.errands = [] ∧ w.keys = true ∧ c.cells[w.mem]? = some .ready

/-- The calls of `pledge_override` in a run: thread, build, environment, promises and violation. -/
def callsIn (hs : List Happening) : List (Nat × Build × Env × List Promise × SeccompReturn) :=
  hs.filterMap fun
    | .enter i b env _ _ ps v => some (i, b, env, ps, v)
    | _ => none

/-- The calls of `pledge_override` in a history. -/
def pledgesIn (ops : List Op) : List (Nat × Build × Env × List Promise × SeccompReturn) :=
  ops.filterMap fun
    | .pledge i b env ps v => some (i, b, env, ps, v)
    | _ => none

end Spec
