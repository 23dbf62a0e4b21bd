import Verif.Model.Init

/-!
# Specification: waiting for the promise table
-/
set_option autoImplicit false

namespace Spec
open Pledge Bpfvm Kernel

/-- Worker `w` is alive and is making the promise table right now (no signal handler is running on top of that). -/
def MakesTable (w : Worker) : Prop := w.thread.alive = true ∧ ∃ f, w.frames.head? = some f ∧ f.place = .init

/-- Nobody has pledged yet: no calls in progress, no table made. -/
def Unused (c : Crew) : Prop := (∀ w ∈ c.workers, w.frames = [] ∧ w.mem < c.cells.length) ∧ ∀ x ∈ c.cells, x = .idle

/-- In memory `m` the table is marked as being made, but no living thread is making it. -/
def Orphaned (c : Crew) (m : Nat) : Prop :=
  c.cells[m]? = some .running ∧ ∀ w ∈ c.workers, w.mem = m → ¬ MakesTable w

/-- Turn `m` cuts off a thread that is making the table: a signal handler in it pledges, or another thread of the process forks, or
it dies while another thread of the process lives on. -/
def Cut (c : Crew) (m : Turn) : Prop :=
  ∃ j w, c.workers[j]? = some w ∧ MakesTable w ∧
    ((∃ call, m = .enter j call) ∨
     (∃ i d h pid tid u, m = .fork i d h pid tid ∧ i ≠ j ∧ c.workers[i]? = some u ∧ u.mem = w.mem) ∨
     ((∀ w', (c.step m).workers[j]? = some w' → w'.thread.alive = false) ∧
       ∃ u ∈ (c.step m).workers, u.mem = w.mem ∧ u.thread.alive = true))

/-- No turn of the run cuts off a thread that is making the table. -/
def Uncut (c : Crew) : List Turn → Prop
  | [] => True
  | m :: ms => ¬ Cut c m ∧ Uncut (c.step m) ms

/-- Threads after run `ms` from `c` that are among `own` or were created, directly or indirectly, by one of them in the run. -/
def descend (c : Crew) : List Turn → List Nat → List Nat
  | [], own => own
  | m :: ms, own =>
    let c' := c.step m
    match m with
    | .fork i _ _ _ _ | .clone i _ _ _ | .exec i _ _ =>
      descend c' ms (if i ∈ own ∧ c.workers.length < c'.workers.length then c.workers.length :: own else own)
    | _ => descend c' ms own

/-- In run `ms` from `c` thread `k` called `pledge_override`, or a thread that did so then created `k` directly or indirectly. -/
def AtWork (c : Crew) (ms : List Turn) (k : Nat) (call : Call) : Prop :=
  ∃ j before after, ms = before ++ .enter j call :: after ∧ k ∈ descend (c.run (before ++ [.enter j call])) after [j]

/-- An operation of a history that run `ms` accounts for: a call of `pledge_override` was made in the run by that thread or by an
ancestor that then forked, operations of the program are in the run, new threads and processes come from its `clone`, `fork` and `exec` turns;
system calls without effect and deaths need no reason. -/
def Explained (c : Crew) (ms : List Turn) : Op → Prop
  | .pledge i b env ps v => ∃ seed, AtWork c ms i ⟨b, env, seed, ps, v⟩
  | .spawn i d h pid tid => .fork i d h pid tid ∈ ms ∨ .clone i d h tid ∈ ms ∨ .exec i d h ∈ ms ∧ tid = pid
  | .call _ _ _ => True
  | .crash _ _ => True
  | op => .other op ∈ ms

end Spec
