import Verif.Model.Trapped
import Verif.Spec.Observe

/-!
# Specification: a pledge whose system calls are trapped
-/
set_option autoImplicit false

namespace Spec
open Pledge Bpfvm Kernel

/-- How a call of `pledge_override` ends whose system calls are all trapped, as far as it depends on the `k`-th call: the rest of the
story `next` is told with SIGSYS blocked or not. -/
def thenNext (w : Watch) (handler : Bool) (k : Fin 4) (blocked : Bool) (next : Bool → Option PledgeRes) : Option PledgeRes :=
  if handler = false ∨ blocked = true then some (.died .trap)
  else match w.how k with
    | .leaves => none
    | .returns => if w.nodefer then none else some (.died .trap)
    | .resumes => next !w.nodefer

/-- The same for a call whose result is looked at. -/
def thenCheck (stale : Nat) (v : Int) (next : Option PledgeRes) : Option PledgeRes :=
  match reported stale v with
  | some e => some (.err (.SysErr e))
  | none => next

end Spec
