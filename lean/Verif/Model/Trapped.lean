import Verif.Env.Handlers
import Verif.Model.Pledge

/-!
# src/seccomp.rs:981-1015 in a thread with a handler of SIGSYS

`Model/Pledge.lean` lets a handler of SIGSYS leave a result and come back, whatever the filters and however often. Here the handler has to
come back by the means there are (`Env/Handlers.lean`).
-/
set_option autoImplicit false

namespace Pledge
open Bpfvm Kernel

/-- How the handler of SIGSYS ends. -/
inductive Comeback where
  /-- it returns, that is, the C library calls rt_sigreturn for it -/
  | returns
  /-- it restores the registers itself and goes on behind the trapped call; SIGSYS stays as the handler had it -/
  | resumes
  /-- it jumps elsewhere, or ends the thread -/
  | leaves
  deriving DecidableEq

/-- What comes of a trapped call. -/
inductive After where
  /-- the code behind it goes on, with SIGSYS blocked or not -/
  | goesOn (blocked : Bool)
  /-- the thread dies (SIGSYS and `killProcess`: the process does) -/
  | died (o : Outcome)
  /-- neither: the code behind the call is not reached -/
  | never
  deriving DecidableEq

/-- What comes of a call of thread `t` that the filters trap. `blocked`: SIGSYS is blocked. `r` is the record of rt_sigreturn. If that
is trapped too and SIGSYS is not blocked, the handler is entered again inside itself, and so on. If it fails, the instructions behind it
are executed, whatever they are. -/
def afterTrap (dp : Disposition) (how : Comeback) (r : SeccompData) (t : Thread) (blocked : Bool) : After :=
  if dp.handler = false ∨ blocked = true then .died .trap
  else match how with
    | .resumes => .goesOn !dp.nodefer
    | .leaves => .never
    | .returns =>
      match enter t r with
      | .executed => .goesOn false
      | .errno _ => .never
      | .trap => if dp.nodefer then .never else .died .trap
      | o => .died o

/-- What a call of `pledge_override` does not control about SIGSYS, beyond `Env`: whether it is blocked at the beginning, whether the
handler has SA_NODEFER, how the handler ends after a trapped getpid, gettid, prctl, prctl, and the registers of rt_sigreturn. -/
structure Watch where
  blocked : Bool
  nodefer : Bool
  how : Fin 4 → Comeback
  ip : Fin 4 → BitVec 64
  junk : Fin 4 → Fin 6 → BitVec 64

/-- What comes of the `k`-th call of the library if it is trapped. -/
def Watch.after (w : Watch) (env : Env) (k : Fin 4) (t : Thread) (blocked : Bool) : After :=
  afterTrap ⟨env.handler, w.nodefer⟩ (w.how k) (sigreturn (w.ip k) (w.junk k)) t blocked

/-- `askId` with such a handler. Result: the id and whether SIGSYS is blocked, or the death, or nothing. -/
def askIdWatched (env : Env) (w : Watch) (k : Fin 4) (t : Thread) (blocked : Bool) (d : SeccompData) (real fail : BitVec 32) :
    Except (Option Outcome) (BitVec 32 × Bool) :=
  match enter t d with
  | .executed => .ok (real, blocked)
  | .errno _ => .ok (fail, blocked)
  | .trap =>
    match w.after env k t blocked with
    | .goesOn b => .ok (fail, b)
    | .died o => .error (some o)
    | .never => .error none
  | o => .error (some o)

/-- `askIds` with such a handler; one call of each kind, as there. -/
def askIdsWatched (env : Env) (w : Watch) (t : Thread) (promises : List Promise) : Except (Option Outcome) (Ids × Bool) :=
  if asksIds promises then
    match askIdWatched env w 0 t w.blocked (recGetpid env) t.pid env.idFail.pid with
    | .error o => .error o
    | .ok (pid, b1) =>
      match askIdWatched env w 1 t b1 (recGettid env) t.tid env.idFail.tid with
      | .error o => .error o
      | .ok (tid, b2) => .ok (⟨pid, tid⟩, b2)
  else .ok (⟨t.pid, t.tid⟩, w.blocked)

/-- `Kernel.syscall` with such a handler, which leaves the result `v`. `none`: the call does not come back. -/
def syscallWatched (env : Env) (w : Watch) (k : Fin 4) (v : Int) (t : Thread) (blocked : Bool) (d : SeccompData)
    (body : Thread → Thread × Int) : Thread × Bool × Option CallRes :=
  match enter t d with
  | .executed => let r := body t; (r.1, blocked, some (.ret r.2))
  | .errno n => (t, blocked, some (.ret (-(n : Int))))
  | .trap =>
    match w.after env k t blocked with
    | .goesOn b => (t, b, some (.ret v))
    | .died o => (t, blocked, some (.dead o))
    | .never => (t, blocked, none)
  | o => (t, blocked, some (.dead o))

/-- `pledge_override`, src/seccomp.rs:985-1015, in a thread with such a handler. `none`: it does not come back, and the thread does not
die in one of its calls either. -/
def pledgeWatched (b : Build) (env : Env) (w : Watch) (t : Thread) (promises : List Promise) (violation : SeccompReturn) :
    Thread × Option PledgeRes :=
  match askIdsWatched env w t promises with
  | .error o => (t, o.map .died)
  | .ok (ids, b0) =>
  match promisesToProg b ids promises violation with
  | .err e => (t, some (.err e))
  | .panic => (t, some .panic)
  | .ok prog =>
    let seen := prog.take (prog.length % 2 ^ 16)
    match syscallWatched env w 2 env.trapRet.1 t b0 (recNnp env) (setNnp env.nnpFault) with
    | (t1, _, none) => (t1, none)
    | (t1, b1, some r1) =>
      match checkRet env.errno.1 r1 with
      | some e => (t1, some e)
      | none =>
        match syscallWatched env w 3 env.trapRet.2 t1 b1 (recSeccomp env) (setSeccomp env.seccompFault seen) with
        | (t2, _, none) => (t2, none)
        | (t2, _, some r2) =>
          match checkRet env.errno.2 r2 with
          | some e => (t2, some e)
          | none => (t2, some .ok)

end Pledge
