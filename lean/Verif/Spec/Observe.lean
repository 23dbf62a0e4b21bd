import Verif.Model.Pledge
import Verif.Spec.Policy

/-!
# Specification: observations of a filter

What a user sees of the filter that `pledge_override` builds: its verdict on a system call record. No policy here; only the
program generator of the model and the kernel's interpreter are mentioned.
-/
set_option autoImplicit false

namespace Spec
open Pledge Bpfvm

/-- The kernel's verdict (32-bit seccomp return value) for record `d`, of the filter built by a `b` build for these promises and
violation by a thread with these ids. `none`: no program was built, or the run does not end in a return. -/
def filterVerdict (b : Build) (ids : Ids) (ps : List Promise) (v : SeccompReturn) (d : SeccompData) : Option (BitVec 32) :=
  match promisesToProg b ids ps v with
  | .ok prog => Kernel.run (fun _ => 0) prog d.words
  | _ => none

/-- The filter allows the call, whatever the violation and the build. -/
def Allows (ids : Ids) (ps : List Promise) (d : SeccompData) : Prop :=
  ∀ b v, filterVerdict b ids ps v d = some 0x7fff0000

/-- The filter treats the call as a violation, whatever the violation and the build. -/
def Denies (ids : Ids) (ps : List Promise) (d : SeccompData) : Prop :=
  ∀ b v, filterVerdict b ids ps v d = some v.toU32

/-- A native x86-64 call with this number. -/
def IsCall (d : SeccompData) (nr : Nat) : Prop := d.arch = X86_64 ∧ d.nr.toNat = nr

/-- For examples: the native call with this number and these arguments (missing ones are 0). -/
def mkCall (nr : Nat) (args : List Nat) : SeccompData :=
  { nr := BitVec.ofNat 32 nr, arch := X86_64, instructionPointer := 0
    args := fun i => BitVec.ofNat 64 (args[i.val]?.getD 0) }

/-- What a C library call whose raw result is `v` reports: success (`none`) if the low 32 bits are zero; the error number if `v` is the
negative of one; otherwise a failure with whatever `errno` was before. -/
def reported (stale : Nat) (v : Int) : Option Nat :=
  if v % 2 ^ 32 = 0 then none else if -4095 ≤ v ∧ v ≤ -1 then some v.natAbs else some stale

end Spec
