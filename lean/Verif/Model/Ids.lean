import Verif.Model.Pledge

/-!
# src/seccomp.rs:199-228, 943-1015 with every system call the library makes

`Model/Pledge.lean` asks for each id at most once. The code asks again whenever a fragment that needs an id is generated, so with StdIO
given n times it makes n calls of getpid and n of gettid. This file follows the code exactly and records the calls; C78 shows that the
simpler model loses nothing.
-/
set_option autoImplicit false

namespace Pledge
open Bpfvm Kernel

/-- What the library does not control about one query of an id. -/
structure Query where
  /-- instruction pointer -/
  ip : BitVec 64
  /-- argument registers (not set by the library) -/
  junk : Fin 6 → BitVec 64
  /-- what the call seems to return if a filter keeps it from being executed -/
  fail : BitVec 32

/-- The record of `getpid()`, made by `process::id()` at src/seccomp.rs:203. -/
def Query.getpid (q : Query) : SeccompData :=
  { nr := 39, arch := 0xC000003E, instructionPointer := q.ip, args := q.junk }

/-- The record of `gettid()`, src/seccomp.rs:218. -/
def Query.gettid (q : Query) : SeccompData :=
  { nr := 186, arch := 0xC000003E, instructionPointer := q.ip, args := q.junk }

/-- `filter_to_bpf`, src/seccomp.rs:908-941, as called by thread `t`: `kill_self` (199-209) calls `process::id()`, `tkill_self`
(215-228) calls `gettid()`, the others make no system call. Result: the records of the calls made, and the fragment or the death of the
thread in the query. -/
def fragBy (b : Build) (handler : Bool) (t : Thread) (q : Query) (f : Filtered) :
    List SeccompData × Except Outcome (Res PledgeError (List SockFilter)) :=
  let ask (d : SeccompData) (real : BitVec 32) (ids : BitVec 32 → Ids) : List SeccompData × Except Outcome (Res PledgeError (List SockFilter)) :=
    ([d],
      match enter t d with
      | .executed => .ok (filterToBpf b (ids real) f)
      | .errno _ => .ok (filterToBpf b (ids q.fail) f)
      | .trap => if handler then .ok (filterToBpf b (ids q.fail) f) else .error .trap
      | o => .error o)
  match f with
  | .KillSelf => ask q.getpid t.pid fun pid => ⟨pid, 0⟩
  | .TkillSelf => ask q.gettid t.tid fun tid => ⟨0, tid⟩
  | f => ([], .ok (filterToBpf b ⟨0, 0⟩ f))

/-- `filters.into_iter().map(filter_to_bpf).collect::<Result<Vec<WhitelistFrag>>>()`, src/seccomp.rs:963-966: in order, stopping at the
first failure. `q k` belongs to the `k`-th filter. -/
def fragsBy (b : Build) (handler : Bool) (t : Thread) (q : Nat → Query) :
    Nat → List Filtered → List SeccompData × Except Outcome (Res PledgeError (List (List SockFilter)))
  | _, [] => ([], .ok (.ok []))
  | k, f :: fs =>
    match fragBy b handler t (q k) f with
    | (calls, .error o) => (calls, .error o)
    | (calls, .ok (.err e)) => (calls, .ok (.err e))
    | (calls, .ok .panic) => (calls, .ok .panic)
    | (calls, .ok (.ok code)) =>
      match fragsBy b handler t q (k + 1) fs with
      | (calls', .ok (.ok codes)) => (calls ++ calls', .ok (.ok (code :: codes)))
      | (calls', r) => (calls ++ calls', r)

/-- `pledge_override`, src/seccomp.rs:985-1015, with `promises_to_prog` (943-957) and `filters_to_prog` (961-979) inlined. Result: the
thread afterwards, the result, and the records of all system calls made, in order. -/
def pledgeCalls (b : Build) (env : Env) (q : Nat → Query) (t : Thread) (promises : List Promise) (violation : SeccompReturn) :
    Thread × PledgeRes × List SeccompData :=
  match Res.mapM getFilters ([.Default] ++ promises) with
  | .err e => (t, .err e, [])
  | .panic => (t, .panic, [])
  | .ok filters =>
  match fragsBy b env.handler t q 0 filters.flatten with
  | (calls, .error o) => (t, .died o, calls)
  | (calls, .ok (.err e)) => (t, .err e, calls)
  | (calls, .ok .panic) => (t, .panic, calls)
  | (calls, .ok (.ok whitelist)) =>
  match bpfHeader b with
  | .err e => (t, .err e, calls)
  | .panic => (t, .panic, calls)
  | .ok header =>
  match bpfFooter b violation with
  | .err e => (t, .err e, calls)
  | .panic => (t, .panic, calls)
  | .ok footer =>
    let prog := ([header] ++ whitelist ++ [footer]).flatten
    let seen := prog.take (prog.length % 2 ^ 16)
    let r1 := syscall (env.onTrap env.trapRet.1) t (recNnp env) (setNnp env.nnpFault)
    match checkRet env.errno.1 r1.2 with
    | some e => (r1.1, e, calls ++ [recNnp env])
    | none =>
      let r2 := syscall (env.onTrap env.trapRet.2) r1.1 (recSeccomp env) (setSeccomp env.seccompFault seen)
      match checkRet env.errno.2 r2.2 with
      | some e => (r2.1, e, calls ++ [recNnp env, recSeccomp env])
      | none => (r2.1, .ok, calls ++ [recNnp env, recSeccomp env])

end Pledge
