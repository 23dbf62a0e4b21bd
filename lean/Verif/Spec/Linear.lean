import Verif.Spec.Signals

/-!
# Specification: pledges with signal handlers as indivisible steps
-/
set_option autoImplicit false

namespace Spec
open Pledge Bpfvm Kernel

/-- The end of a call of `pledge_override`: by thread `i`, with these promises and this violation, with this result (or death). -/
structure End where
  i : Nat
  ps : List Promise
  v : SeccompReturn
  r : PledgeRes

/-- The ends of calls that a move brings about: at most one. -/
def endOf (w : Wild) : Move → List End
  | .go i =>
    match w[i]? with
    | some ⟨t, a :: _, _⟩ =>
      if t.alive then
        match (a.next t).2 with
        | .inr r => [⟨i, a.ps, a.v, r⟩]
        | .inl _ => []
      else []
    | _ => []
  | _ => []

/-- The ends of calls in a run, in order. -/
def ends (w : Wild) : List Move → List End
  | [] => []
  | m :: ms => endOf w m ++ ends (w.step m) ms

/-- The same for a step of a history in which every call is one indivisible step. -/
def resultOf (s : System) : Op → List End
  | .pledge i b env ps v =>
    match s[i]? with
    | some t => if t.alive then [⟨i, ps, v, (pledgeOverride b env t ps v).2⟩] else []
    | none => []
  | _ => []

/-- The same for such a history. -/
def results (s : System) : List Op → List End
  | [] => []
  | op :: ops => resultOf s op ++ results (s.step op) ops

/-- No thread forks, with a child that goes on where it was, while it is inside `pledge_override`. -/
def NoFork (w : Wild) : List Move → Prop
  | [] => True
  | m :: ms =>
    (match m with
      | .fork i _ _ _ _ true => ∀ sl, w[i]? = some sl → sl.acts = []
      | _ => True) ∧ NoFork (w.step m) ms

/-- The step `op` of a history stands for something that happens in the run `ms`: a call of `pledge_override` made in it (except for
what a handler of SIGSYS makes the first prctl return), the first prctl of such a call, a new thread or process, or another
operation. -/
def StandsFor (ms : List Move) : Op → Prop
  | .pledge i b env ps v =>
    ∃ env0 q, .enter i b env0 q ps v ∈ ms ∧ (env = env0 ∨ env = { env0 with trapRet := (0, env0.trapRet.2) })
  | .setNnp i d h f => .other (.setNnp i d h f) ∈ ms ∨ ∃ b env q ps v, .enter i b env q ps v ∈ ms ∧
    d = recNnp env ∧ h = env.onTrap env.trapRet.1 ∧ f = env.nnpFault
  | .spawn i d h pid tid => ∃ c, .fork i d h pid tid c ∈ ms
  | op => .other op ∈ ms

end Spec
