import Verif.Env.Kernel

/-!
# Programs with many threads and processes

Not code of /repo: any number of threads and processes with any memory, shared or not, on any system, scheduled in any order. Threads start
threads and processes, install filters, and die. As in the kernel, a new thread or process has the filters of the one that starts it, and
one that is killed takes its process with it unless only the thread is killed. Simplifications: no handler of SIGSYS and no tracer; a
filter is installed for the calling thread only.
-/
set_option autoImplicit false

namespace Kernel
open Bpfvm

/-- `σ`: the memory of all threads. `ω`: everything outside. `ρ`: answers to calls. Threads are named by their position in the team. -/
structure Works (σ ω ρ : Type) where
  /-- the next call of a thread, or none if it makes none now -/
  asks : σ → Nat → Option SeccompData
  /-- what a thread's call does and answers if it is executed -/
  serves : ω → Nat → SeccompData → ω × ρ
  /-- the filters that a call installs if it is executed, newest first -/
  installs : ω → Nat → SeccompData → List Prog
  /-- whether a call starts a thread if it is executed: in a process of its own (`true`) or in the same; with its process and thread ids -/
  starts : ω → Nat → SeccompData → Option (Bool × BitVec 32 × BitVec 32)
  /-- what the death of a thread, or of its whole process (`true`), does to the world -/
  buries : ω → Nat → Bool → ω
  /-- the answer to a call that the filters skip with an error -/
  error : Nat → ρ
  /-- a thread goes on with an answer -/
  goesOn : σ → Nat → ρ → σ

/-- A thread of the team: its process, the thread of the beginning that it stems from, its filters, and whether it is dead. -/
structure Mate where
  proc : Nat
  root : Nat
  thread : Thread
  ended : Bool

/-- What has been done: a call was executed for a thread, or a thread or its process died. -/
inductive Deed where
  | call (i : Nat) (d : SeccompData)
  | death (i : Nat) (whole : Bool)

structure Team (σ ω : Type) where
  mem : σ
  world : ω
  mates : List Mate
  /-- oldest first -/
  did : List Deed

/-- What happens next: thread `i` makes its next call, or is killed from outside, alone or with its process. -/
inductive Event where
  | turn (i : Nat)
  | kill (i : Nat) (whole : Bool)

/-- Thread `i` dies, and if `whole` its process with it. -/
def Team.dies {σ ω ρ : Type} (m : Works σ ω ρ) (s : Team σ ω) (i : Nat) (whole : Bool) : Team σ ω :=
  match s.mates[i]? with
  | none => s
  | some k =>
    if k.ended then s
    else
      { s with
        world := m.buries s.world i whole
        mates := s.mates.mapIdx fun j q => if j = i ∨ whole = true ∧ q.proc = k.proc then { q with ended := true } else q
        did := s.did ++ [.death i whole] }

/-- The thread that a call starts. -/
def Mate.child (k : Mate) (t : Thread) (n : Nat) (c : Bool × BitVec 32 × BitVec 32) : Mate :=
  ⟨if c.1 then n else k.proc, k.root, { t with pid := c.2.1, tid := c.2.2 }, false⟩

/-- One event. -/
def Team.step {σ ω ρ : Type} (m : Works σ ω ρ) (s : Team σ ω) : Event → Team σ ω
  | .kill i whole => s.dies m i whole
  | .turn i =>
    match s.mates[i]? with
    | none => s
    | some k =>
      if k.ended then s
      else
        match m.asks s.mem i with
        | none => s
        | some d =>
          match enter k.thread d with
          | .executed =>
            let t := { k.thread with filters := m.installs s.world i d ++ k.thread.filters }
            { mem := m.goesOn s.mem i (m.serves s.world i d).2
              world := (m.serves s.world i d).1
              mates := s.mates.set i { k with thread := t } ++
                ((m.starts s.world i d).map (k.child t s.mates.length)).toList
              did := s.did ++ [.call i d] }
          | .errno n => { s with mem := m.goesOn s.mem i (m.error n) }
          | .killThread => s.dies m i false
          | .trap => s.dies m i true
          | .killProcess => s.dies m i true

/-- A schedule. -/
def Team.run {σ ω ρ : Type} (m : Works σ ω ρ) (s : Team σ ω) (es : List Event) : Team σ ω := es.foldl (Team.step m) s

/-- A team at its beginning. -/
def Team.new {σ ω : Type} (x : σ) (w : ω) (ks : List Mate) : Team σ ω := ⟨x, w, ks, []⟩

end Kernel
