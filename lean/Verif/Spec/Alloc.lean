import Verif.Spec.Steered
import Verif.Model.Alloc

/-!
# Specification: which system call inside a pledge ends it
-/
set_option autoImplicit false

namespace Spec
open Pledge Bpfvm Kernel

/-- A system call with this outcome is the thread's last. -/
def Fatal (handler : Bool) (o : Outcome) : Prop := o = .killThread ∨ o = .killProcess ∨ (o = .trap ∧ handler = false)

/-- The allocator's call `c` by the thread `t` ends the pledge with `e`: the thread does not survive the call, or the allocator gives up
because of the answer. -/
def EndsWith (handler : Bool) (t : Thread) (c : MemCall) (e : Pledge.Ending) : Prop :=
  (Fatal handler (enter t c.d) ∧ e = .died (enter t c.d)) ∨
  (¬ Fatal handler (enter t c.d) ∧ e = .aborted ∧
    ((enter t c.d = .executed ∧ c.executed = .givesUp) ∨ (enter t c.d ≠ .executed ∧ c.refused = .givesUp)))

/-- The allocator gets along with the answer to its call. -/
def Copes (handler : Bool) (t : Thread) (c : MemCall) : Prop := ∀ e, ¬ EndsWith handler t c e

/-- One of the allocator's calls `cs` ends the pledge with `e`; those before it do not. -/
def FirstEnds (handler : Bool) (t : Thread) (cs : List MemCall) (e : Pledge.Ending) : Prop :=
  ∃ before c after, cs = before ++ c :: after ∧ (∀ x ∈ before, Copes handler t x) ∧ EndsWith handler t c e

/-- The query for an id that piece `k` of the program needs, if any. -/
def queryAt (q : Nat → Query) (ps : List Promise) (k : Nat) : Option SeccompData :=
  match (pieces ps)[k]? with
  | some .KillSelf => some (q k).getpid
  | some .TkillSelf => some (q k).gettid
  | _ => none

/-- The making of the program gets as far as the allocator's calls for piece `k`. -/
def GetsTo (handler : Bool) (q : Nat → Query) (mem : Nat → List MemCall) (t : Thread) (ps : List Promise) (k : Nat) : Prop :=
  ∀ j, j < k → (∀ c ∈ mem j, Copes handler t c) ∧ ∀ d, queryAt q ps j = some d → ¬ Fatal handler (enter t d)

end Spec
