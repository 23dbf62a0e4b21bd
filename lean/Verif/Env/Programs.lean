import Verif.Env.Kernel

/-!
# A program that makes system calls, and the system it makes them to

Not code of /repo: any program, on any system. The program decides on its next call by what it knows; the system carries the call out and
answers. Nothing is assumed about either, so that what is proved holds for every program. Simplifications: one thread; no handler of
SIGSYS and no tracer.
-/
set_option autoImplicit false

namespace Kernel
open Bpfvm

/-- `σ`: what the program is at (its registers and memory). `ω`: everything outside it: files, other processes, the time, input to come.
`ρ`: answers to a call, with all that the kernel writes into the program's memory. -/
structure Machine (σ ω ρ : Type) where
  /-- the next call, or none if there is none -/
  asks : σ → Option SeccompData
  /-- what a call does and answers if it is executed -/
  serves : ω → SeccompData → ω × ρ
  /-- the filters that a call installs if it is executed, newest first -/
  installs : ω → SeccompData → List Prog
  /-- the answer to a call that the filters skip with an error -/
  error : Nat → ρ
  /-- the program goes on with an answer -/
  goesOn : σ → ρ → σ

/-- How far a program is. -/
structure Life (σ ω : Type) where
  prog : σ
  world : ω
  thread : Thread
  /-- the calls that were executed, oldest first -/
  did : List SeccompData
  /-- what killed it -/
  ended : Option Outcome

/-- A program starts at `x` in the world `w` in the thread `t`. -/
def Life.new {σ ω : Type} (x : σ) (w : ω) (t : Thread) : Life σ ω := ⟨x, w, t, [], none⟩

/-- The next call, if the program lives and makes one. -/
def Life.step {σ ω ρ : Type} (m : Machine σ ω ρ) (s : Life σ ω) : Life σ ω :=
  match s.ended, m.asks s.prog with
  | none, some d =>
    match enter s.thread d with
    | .executed =>
      { s with
        prog := m.goesOn s.prog (m.serves s.world d).2
        world := (m.serves s.world d).1
        thread := { s.thread with filters := m.installs s.world d ++ s.thread.filters }
        did := s.did ++ [d] }
    | .errno n => { s with prog := m.goesOn s.prog (m.error n) }
    | o => { s with ended := some o }
  | _, _ => s

/-- `n` steps. -/
def Life.run {σ ω ρ : Type} (m : Machine σ ω ρ) (s : Life σ ω) : Nat → Life σ ω
  | 0 => s
  | n + 1 => (s.run m n).step m

end Kernel
