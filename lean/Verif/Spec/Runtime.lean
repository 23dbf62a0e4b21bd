import Verif.Env.Runtime
import Verif.Spec.Traced
import Verif.Spec.Policy

/-!
# Specification: starting threads, processes and programs after a pledge
-/
set_option autoImplicit false

namespace Spec
open Pledge Bpfvm Kernel

/-- A violation that kills. -/
def Deadly (v : SeccompReturn) : Prop := v = .KillProcess ∨ v = .KillThread ∨ v = .Trap

/-- The calls of `pthread_create`: mmap (9) without any access, private, anonymous, for a stack (MAP_PRIVATE | MAP_ANONYMOUS | MAP_STACK);
mprotect (10) to read and write; rt_sigprocmask (14); clone3 (435); clone (56) with the flags of a thread; set_robust_list (273);
rseq (334); rt_sigprocmask. Pointers, lengths and return addresses are any. -/
structure ThreadCalls.Proper (c : ThreadCalls) : Prop where
  mmap : IsCall c.mmap 9 ∧ arg c.mmap 2 = 0 ∧ arg c.mmap 3 = 0x20022
  mprotect : IsCall c.mprotect 10 ∧ arg c.mprotect 2 = 3
  mask : IsCall c.mask 14
  clone3 : IsCall c.clone3 435
  clone : IsCall c.clone 56 ∧ arg c.clone 0 = 0x3d0f00
  robust : IsCall c.robust 273
  rseq : IsCall c.rseq 334
  unmask : IsCall c.unmask 14

/-- What becomes of starting a thread if every pledge has StdIO, and the calls that no promise includes have the fate `o`. -/
def threadTable (lib : Lib) (o : Outcome) : Begun :=
  if lib.clone3 = true then
    match o with
    | .executed => .runs
    | .errno n => if n = 0 then .impostor else if n = 38 then (if lib.rseq = true then .stillborn none else .runs) else .fails n
    | .trap | .killThread | .killProcess => .dies (some o)
  else if lib.rseq = true then
    match o with
    | .executed => .runs
    | .errno n => if n = 0 then .runs else .stillborn none
    | .trap | .killThread | .killProcess => .stillborn (some o)
  else .runs

/-- A call that makes a process: fork (57), vfork (58), or clone (56) with the flags that the C library's `fork` uses
(SIGCHLD, CLONE_CHILD_SETTID, CLONE_CHILD_CLEARTID). -/
def ForkCall (d : SeccompData) : Prop := IsCall d 57 ∨ IsCall d 58 ∨ IsCall d 56 ∧ arg d 0 = 0x1200011

/-- A call that executes a program: execve (59), execveat (322). -/
def ExecCall (d : SeccompData) : Prop := IsCall d 59 ∨ IsCall d 322

/-- A call by its number and the low halves of some of its arguments, and what is done if it fails. -/
structure Request where
  nr : Nat
  args : List (Fin 6 × BitVec 32)
  care : Care

/-- The calls, in this order. -/
def Made : List Request → List (SeccompData × Care) → Prop
  | [], [] => True
  | r :: rs, (d, care) :: ds => (IsCall d r.nr ∧ (∀ a ∈ r.args, arg d a.1 = a.2) ∧ care = r.care) ∧ Made rs ds
  | _, _ => False

/-- The start of every program: brk (12), arch_prctl (158), set_tid_address (218), set_robust_list (273), rseq (334) if the library has it,
prlimit64 (302) to read a limit, mprotect (10) to make relocated data read-only. -/
def ownStart (lib : Lib) : List Request :=
  [⟨12, [], .ignores⟩, ⟨158, [], .aborts⟩, ⟨218, [], .ignores⟩, ⟨273, [], .ignores⟩] ++
  (if lib.rseq = true then [⟨334, [], .ignores⟩] else []) ++ [⟨302, [(2, 0)], .ignores⟩, ⟨10, [(2, 1)], .aborts⟩]

/-- Before that, if the program is linked dynamically: access (21) to a list of further libraries, openat (257, reading) of a library,
newfstatat (262), read (0), and mmap (9) of its read-only part, its code and its data; close (3). -/
def loaderStart : List Request :=
  [⟨21, [], .ignores⟩, ⟨257, [(2, 0x80000)], .aborts⟩, ⟨262, [], .aborts⟩, ⟨0, [], .aborts⟩, ⟨9, [(2, 1), (3, 0x802)], .aborts⟩,
    ⟨9, [(2, 5), (3, 0x812)], .aborts⟩, ⟨9, [(2, 3), (3, 0x812)], .aborts⟩, ⟨3, [], .ignores⟩]

def programStart (lib : Lib) (dynamic : Bool) : List Request := (if dynamic = true then loaderStart else []) ++ ownStart lib

end Spec
