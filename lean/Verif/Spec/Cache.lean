import Verif.Spec.Policy

/-!
# Specification: calls that are allowed without a look at their arguments
-/
set_option autoImplicit false

namespace Spec
open Pledge Bpfvm

/-- A promise says something about the call with this number: it permits it, for some arguments and some ids. -/
def Speaks (p : Promise) (nr : BitVec 32) : Prop := ∃ (ids : Ids) (d : SeccompData), d.nr = nr ∧ Permits ids p d

/-- Of the promises, `Default` first and then in the order in which they are given, the first that says anything about this number permits
it with any arguments. -/
def FirstFrees (ps : List Promise) (nr : BitVec 32) : Prop :=
  ∃ before p after, .Default :: ps = before ++ p :: after ∧ (∀ q ∈ before, ¬ Speaks q nr) ∧ Free nr.toNat p

end Spec
