import Verif.Spec.History
import Verif.Model.Signals

/-!
# Specification: pledges interrupted by signal handlers
-/
set_option autoImplicit false

namespace Spec
open Pledge Bpfvm Kernel

/-- A pledge whose queries for the process id were answered with `pids` and those for the thread id with `tids`. -/
structure Told where
  pids : List (BitVec 32)
  tids : List (BitVec 32)
  ps : List Promise
  v : SeccompReturn

/-- The call in `d` is allowed to a thread with one of the ids the queries returned. Without StdIO no ids are asked for and they do not
matter. -/
def Told.Allows (p : Told) (d : SeccompData) : Prop :=
  ∃ pid tid, (.StdIO ∈ p.ps → pid ∈ p.pids ∧ tid ∈ p.tids) ∧ Allowed ⟨pid, tid⟩ p.ps d

open Classical in
/-- The verdict the filter of this pledge must give. -/
noncomputable def Told.verdict (p : Told) (d : SeccompData) : BitVec 32 :=
  if d.arch ≠ X86_64 then 0x80000000
  else if p.Allows d then 0x7fff0000
  else p.v.toU32

/-- The filter program `f` decides every system call as the pledge `p` demands, whatever the kernel's scratch memory holds. -/
def Decides (f : Prog) (p : Told) : Prop := ∀ m0 d, Kernel.run m0 f d.words = some (p.verdict d)

/-- No thread is inside `pledge_override`. -/
def quiet (s : System) : Wild := s.map fun t => ⟨t, [], [⟨t.pid, t.tid⟩]⟩

/-- No move installs a filter without the library. -/
def OnlyLibrary (ms : List Move) : Prop := ∀ m ∈ ms, ∀ i d h f p, m ≠ .other (.setSeccomp i d h f p)

/-- `pledge_override` is called with these promises and this violation in the run. -/
def Called (ms : List Move) (ps : List Promise) (v : SeccompReturn) : Prop := ∃ i b env q, .enter i b env q ps v ∈ ms

/-- `pledge_override` is called with these promises and this violation in the run, and `x` is what one of its queries seems to return
if a filter keeps it from being executed. -/
def MadeUp (ms : List Move) (ps : List Promise) (v : SeccompReturn) (x : BitVec 32) : Prop :=
  ∃ i b env q k, .enter i b env q ps v ∈ ms ∧ x = (q k).fail

/-- Threads after `ms` that are one of the threads `own` of `w` or were created, directly or indirectly, by one of them during `ms`. -/
def scions (w : Wild) : List Move → List Nat → List Nat
  | [], own => own
  | m :: ms, own =>
    let w' := w.step m
    match m with
    | .fork i _ _ _ _ _ => scions w' ms (if i ∈ own ∧ w.length < w'.length then w.length :: own else own)
    | _ => scions w' ms own

/-- What is left of a call after `n` steps of its own; `ts i` is the state of the thread when its step `i` takes place, so whatever
happens in between. `none`: it has returned or the thread has died in it. -/
def after (a : Act) (ts : Nat → Thread) : Nat → Option Act
  | 0 => some a
  | n + 1 =>
    match after a ts n with
    | none => none
    | some a' =>
      match (a'.next (ts n)).2 with
      | .inl a'' => some a''
      | .inr _ => none

end Spec
