import Verif.Spec.Linear
import Verif.Model.Full

/-!
# Specification: the model with everything at once
-/
set_option autoImplicit false

namespace Spec
open Pledge Bpfvm Kernel

/-- Nobody is inside `pledge_override` and no thread has a filter. Tables may be there or not, and threads may have hash keys or not. -/
def Untouched (c : World) : Prop := ∀ w ∈ c.hands, w.errands = [] ∧ w.line = [⟨w.thread.pid, w.thread.tid⟩] ∧ w.thread.filters = []

/-- Nothing installs a filter without the library. -/
def NoOthers (hs : List Happening) : Prop := ∀ i d h f p, .other (.setSeccomp i d h f p) ∉ hs

/-- `pledge_override` is called with these promises and this violation. -/
def Pledges (hs : List Happening) (ps : List Promise) (v : SeccompReturn) : Prop := ∃ i b env q seed, .enter i b env q seed ps v ∈ hs

/-- `pledge_override` is called with these promises and this violation, and `x` is what one of its queries seems to return if a filter
keeps it from being executed. -/
def Invented (hs : List Happening) (ps : List Promise) (v : SeccompReturn) (x : BitVec 32) : Prop :=
  ∃ i b env q seed k, .enter i b env q seed ps v ∈ hs ∧ x = (q k).fail

/-- Threads after `hs` that are one of the threads `own` of `c` or were created, directly or indirectly, by one of them during `hs` (exec
makes a thread that takes over). -/
def kin (c : World) : List Happening → List Nat → List Nat
  | [], own => own
  | m :: hs, own =>
    let c' := c.step m
    match m with
    | .fork i _ _ _ _ | .clone i _ _ _ | .exec i _ _ =>
      kin c' hs (if i ∈ own ∧ c.hands.length < c'.hands.length then c.hands.length :: own else own)
    | _ => kin c' hs own

/-- No thread forks while it is inside `pledge_override`. -/
def ForksOutside (c : World) : List Happening → Prop
  | [] => True
  | m :: hs =>
    (match m with
      | .fork i _ _ _ _ => ∀ w, c.hands[i]? = some w → w.errands = []
      | _ => True) ∧ ForksOutside (c.step m) hs

/-- The step `op` of a history with indivisible pledges stands for something in `hs`: a call of `pledge_override` made in it (except for
what a handler of SIGSYS makes the first prctl return), the first prctl of such a call, a new thread or process, the death of a thread,
or another operation. -/
def Means (hs : List Happening) : Op → Prop
  | .pledge i b env ps v =>
    ∃ env0 q seed, .enter i b env0 q seed ps v ∈ hs ∧ (env = env0 ∨ env = { env0 with trapRet := (0, env0.trapRet.2) })
  | .setNnp i d h f => .other (.setNnp i d h f) ∈ hs ∨ ∃ b env q seed ps v, .enter i b env q seed ps v ∈ hs ∧
    d = recNnp env ∧ h = env.onTrap env.trapRet.1 ∧ f = env.nnpFault
  | .spawn i d h _ tid => (∃ pid, .fork i d h pid tid ∈ hs) ∨ .clone i d h tid ∈ hs ∨ .exec i d h ∈ hs
  | .crash _ _ => True
  | op => .other op ∈ hs

/-- The calls that return `Ok`, in order: thread, promises and violation. -/
def okOf (c : World) : Happening → List (Nat × List Promise × SeccompReturn)
  | .go i =>
    match c.hands[i]? with
    | some w =>
      match w.errands with
      | f :: _ =>
        if w.thread.alive ∧ f.site = .rest ∧ ¬ (f.act.assembles = true ∧ w.keys = false) then
          match (f.act.next w.thread).2 with
          | .inr .ok => [(i, f.act.ps, f.act.v)]
          | _ => []
        else []
      | [] => []
    | none => []
  | _ => []

/-- The same for a run. -/
def oks (c : World) : List Happening → List (Nat × List Promise × SeccompReturn)
  | [] => []
  | m :: hs => okOf c m ++ oks (c.step m) hs

/-- The same for a list of ends of calls. -/
def okEnds (es : List End) : List (Nat × List Promise × SeccompReturn) :=
  es.filterMap fun e => match e.r with | .ok => some (e.i, e.ps, e.v) | _ => none

end Spec
