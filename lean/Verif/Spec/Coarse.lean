import Verif.Model.Full

/-!
# Specification: the full model seen through the coarser one

`Model/Full` cuts a call at every system call; `Model/Init` knows only whether it waits for the promise table, makes it, needs hash keys,
or has everything.
-/
set_option autoImplicit false

namespace Spec
open Pledge Bpfvm Kernel

/-- How far a call has come, for `Model/Init`. -/
def Errand.place (e : Errand) : Place :=
  match e.site with
  | .table => .table
  | .init => .init
  | .rest =>
    match e.act.phase with
    | .start => .seed
    | _ => .rest

/-- A call in progress, for `Model/Init`. -/
def Errand.coarse (e : Errand) : Frame := ⟨⟨e.act.b, e.act.env, e.seed, e.act.ps, e.act.v⟩, Errand.place e⟩

/-- A thread, for `Model/Init`. -/
def Hand.coarse (w : Hand) : Worker := ⟨w.thread, w.mem, w.keys, w.errands.map Errand.coarse⟩

/-- A world, for `Model/Init`. -/
def World.coarse (c : World) : Crew := ⟨c.hands.map Hand.coarse, c.cells⟩

/-- The calls of `pledge_override` in a run of `Model/Init`, with the threads that make them. -/
def callsCoarse (ts : List Turn) : List (Nat × Call) :=
  ts.filterMap fun
    | .enter i call => some (i, call)
    | _ => none

/-- The same in a run of `Model/Full`, with what becomes of the queries for the ids. -/
def callsFine (hs : List Happening) : List ((Nat × Call) × (Nat → Query)) :=
  hs.filterMap fun
    | .enter i b env q seed ps v => some ((i, ⟨b, env, seed, ps, v⟩), q)
    | _ => none

end Spec
