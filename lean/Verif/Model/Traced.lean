import Verif.Env.Tracer
import Verif.Model.Pledge

/-!
# src/seccomp.rs:981-1015 in a traced thread

`Model/Pledge.lean` has no tracer. Here the thread that calls `pledge_override` has one, so its own earlier filters may ask that tracer
about the library's calls.
-/
set_option autoImplicit false

namespace Pledge
open Bpfvm Kernel

/-- What the tracer does about a call of the library if it is asked. Simplification: it does not put a different system call in its
place. -/
inductive Wish where
  | pass
  /-- skip the call, with this value in the result register -/
  | skip (v : Int)

/-- A system call of a traced thread; cf. `Kernel.syscall` and `Kernel.enterTraced`. A call that the tracer lets pass is executed: the
filters want it traced once more. -/
def syscallTraced (handler : Option Int) (w : Wish) (t : Thread) (d : SeccompData) (body : Thread → Thread × Int) : Thread × CallRes :=
  match enterTraced t d (match w with | .pass => .go d | .skip v => .skip v) with
  | .executes _ => let r := body t; (r.1, .ret r.2)
  | .returns v => (t, .ret v)
  | .trap => match handler with
    | some v => (t, .ret v)
    | none => (t, .dead .trap)
  | .killThread => (t, .dead .killThread)
  | .killProcess => (t, .dead .killProcess)

/-- `getpid()` (src/seccomp.rs:203) and `gettid()` (218) in a traced thread; cf. `askId`. The callers keep the low 32 bits of the result
register. -/
def askIdTraced (env : Env) (w : Wish) (t : Thread) (d : SeccompData) (real fail : BitVec 32) : Except Outcome (BitVec 32) :=
  match told t d, w with
  | some _, .pass => .ok real
  | some _, .skip v => .ok (BitVec.ofInt 32 v)
  | none, _ => askId env t d real fail

/-- `askIds` in a traced thread; one call of each kind, as there. -/
def askIdsTraced (env : Env) (w : Fin 4 → Wish) (t : Thread) (promises : List Promise) : Except Outcome Ids :=
  if asksIds promises then
    match askIdTraced env (w 0) t (recGetpid env) t.pid env.idFail.pid with
    | .error o => .error o
    | .ok pid =>
      match askIdTraced env (w 1) t (recGettid env) t.tid env.idFail.tid with
      | .error o => .error o
      | .ok tid => .ok ⟨pid, tid⟩
  else .ok ⟨t.pid, t.tid⟩

/-- `pledge_override`, src/seccomp.rs:985-1015, in a thread whose tracer does `w` about getpid, gettid and the two calls of prctl. -/
def pledgeTraced (b : Build) (env : Env) (w : Fin 4 → Wish) (t : Thread) (promises : List Promise) (violation : SeccompReturn) :
    Thread × PledgeRes :=
  match askIdsTraced env w t promises with
  | .error o => (t, .died o)
  | .ok ids =>
  match promisesToProg b ids promises violation with
  | .err e => (t, .err e)
  | .panic => (t, .panic)
  | .ok prog =>
    let seen := prog.take (prog.length % 2 ^ 16)
    let r1 := syscallTraced (env.onTrap env.trapRet.1) (w 2) t (recNnp env) (setNnp env.nnpFault)
    match checkRet env.errno.1 r1.2 with
    | some e => (r1.1, e)
    | none =>
      let r2 := syscallTraced (env.onTrap env.trapRet.2) (w 3) r1.1 (recSeccomp env) (setSeccomp env.seccompFault seen)
      match checkRet env.errno.2 r2.2 with
      | some e => (r2.1, e)
      | none => (r2.1, .ok)

end Pledge
