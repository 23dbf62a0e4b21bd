import Verif.Model.Full
import Verif.Spec.Size

/-!
# Specification: a call of `pledge_override` that nobody interrupts
-/
set_option autoImplicit false

namespace Spec
open Pledge Bpfvm Kernel

/-- What becomes of a call: the thread, the result, whether the thread has hash keys, and the promise table of its process. -/
structure Upshot where
  thread : Thread
  res : PledgeRes
  keys : Bool
  cell : Cell

/-- What becomes of a call by thread `t`, which has hash keys or not, if the promise table of its process is in state `x`; nothing, if
another thread is making the table. The call of src/seccomp.rs:985-1015 itself is `pledgeCalls`. -/
def upshot (b : Build) (env : Env) (q : Nat → Query) (seed : Seed) (t : Thread) (keys : Bool) (x : Cell) (ps : List Promise)
    (v : SeccompReturn) : Option Upshot :=
  let call (keyed : Except PledgeRes Unit) (failed : PledgeRes → Cell) : Option Upshot :=
    match keyed with
    | .ok () => some ⟨(pledgeCalls b env q t ps v).1, (pledgeCalls b env q t ps v).2.1, true, .ready⟩
    | .error r => some ⟨t, r, false, failed r⟩
  let keyed := if keys then .ok () else askKeys env.handler t seed
  match x with
  | .running => none
  | .poisoned => some ⟨t, .panic, keys, .poisoned⟩
  | .ready => call keyed fun _ => .ready
  | .idle => call keyed fun r => if r = .panic then .poisoned else .running

end Spec
