import Verif.Spec.History
import Verif.Model.Sched

/-!
# Specification: schedules of calls of pledge_override
-/
set_option autoImplicit false

namespace Spec
open Pledge Bpfvm Kernel

/-- No thread is inside `pledge_override` and nothing has happened yet. -/
def begin (s : System) : Fine := ⟨s.map fun t => ⟨t, none⟩, []⟩

/-- The events of a history in which every call of `pledge_override` is one indivisible step. Calls by dead or missing threads do
not happen. -/
def events (s : System) : List Op → List Event
  | [] => []
  | op :: ops =>
    (match op with
      | .pledge i b env ps v =>
        match s[i]? with
        | some t => if t.alive then [.returned i b env ps v (pledgeOverride b env t ps v).2] else []
        | none => []
      | op => [.did op]) ++ events (s.step op) ops

/-- Two thread states that differ at most in no_new_privs, which the first has if the second has. -/
def SameButNnp (t u : Thread) : Prop :=
  t.pid = u.pid ∧ t.tid = u.tid ∧ t.filters = u.filters ∧ t.admin = u.admin ∧ t.alive = u.alive ∧ (u.nnp = true → t.nnp = true)

/-- No choice of the schedule installs a filter without the library. -/
def LibraryOnly (cs : List Choice) : Prop := ∀ c ∈ cs, ∀ i d h f p, c ≠ .other (.setSeccomp i d h f p)

/-- All violations that the schedule passes to `pledge_override` satisfy `V`. -/
def Chosen (V : SeccompReturn → Prop) (cs : List Choice) : Prop := ∀ i b env ps v, Choice.enter i b env ps v ∈ cs → V v

/-- Among the choices `cs`, the steps of thread `k` inside `pledge_override`. -/
def steps (k : Nat) : List Choice → Nat
  | [] => 0
  | .go i :: cs => (if i = k then 1 else 0) + steps k cs
  | _ :: cs => steps k cs

end Spec
