import Verif.Model.Basic

/-!
# bpfvm/src/seccomp.rs: seccomp constants, return values and field offsets
-/
set_option autoImplicit false

namespace Bpfvm

/-- bpfvm/src/seccomp.rs:23. -/
def AUDIT_ARCH_64BIT : BitVec 32 := 0x80000000#32
/-- bpfvm/src/seccomp.rs:24. -/
def AUDIT_ARCH_LE : BitVec 32 := 0x40000000#32
/-- bpfvm/src/seccomp.rs:25. -/
def EM_X86_64 : BitVec 32 := 62#32
/-- bpfvm/src/seccomp.rs:26. -/
def EM_AARCH64 : BitVec 32 := 183#32
/-- bpfvm/src/seccomp.rs:28. -/
def AUDIT_ARCH_X86_64 : BitVec 32 := EM_X86_64 ||| AUDIT_ARCH_64BIT ||| AUDIT_ARCH_LE
/-- bpfvm/src/seccomp.rs:29. -/
def AUDIT_ARCH_AARCH64 : BitVec 32 := EM_AARCH64 ||| AUDIT_ARCH_64BIT ||| AUDIT_ARCH_LE

/-- bpfvm/src/seccomp.rs:33. -/
def SECCOMP_RET_KILL_PROCESS : BitVec 32 := 0x80000000#32
/-- bpfvm/src/seccomp.rs:34. -/
def SECCOMP_RET_KILL_THREAD : BitVec 32 := 0x00000000#32
/-- bpfvm/src/seccomp.rs:36. -/
def SECCOMP_RET_TRAP : BitVec 32 := 0x00030000#32
/-- bpfvm/src/seccomp.rs:37. -/
def SECCOMP_RET_ERRNO : BitVec 32 := 0x00050000#32
/-- bpfvm/src/seccomp.rs:39. -/
def SECCOMP_RET_TRACE : BitVec 32 := 0x7ff00000#32
/-- bpfvm/src/seccomp.rs:40. -/
def SECCOMP_RET_LOG : BitVec 32 := 0x7ffc0000#32
/-- bpfvm/src/seccomp.rs:41. -/
def SECCOMP_RET_ALLOW : BitVec 32 := 0x7fff0000#32
/-- bpfvm/src/seccomp.rs:44. -/
def SECCOMP_RET_ACTION_FULL : BitVec 32 := 0xffff0000#32
/-- bpfvm/src/seccomp.rs:46. -/
def SECCOMP_RET_DATA : BitVec 32 := 0x0000ffff#32

/-- bpfvm/src/seccomp.rs:51-66. -/
inductive SeccompReturn where
  | KillProcess
  | KillThread
  | Trap
  | Errno (e : BitVec 32)
  | Trace (t : BitVec 32)
  | Log
  | Allow
  deriving DecidableEq, Repr

/-- `From<SeccompReturn> for u32`, bpfvm/src/seccomp.rs:68-81. -/
def SeccompReturn.toU32 : SeccompReturn → BitVec 32
  | .KillProcess => SECCOMP_RET_KILL_PROCESS
  | .KillThread => SECCOMP_RET_KILL_THREAD
  | .Trap => SECCOMP_RET_TRAP
  | .Errno e => SECCOMP_RET_ERRNO ||| e
  | .Trace t => SECCOMP_RET_TRACE ||| t
  | .Log => SECCOMP_RET_LOG
  | .Allow => SECCOMP_RET_ALLOW

/-- `TryFrom<u32> for SeccompReturn`, bpfvm/src/seccomp.rs:83-102. -/
def SeccompReturn.tryFrom (ret : BitVec 32) : Res Error SeccompReturn :=
  let action := ret &&& SECCOMP_RET_ACTION_FULL
  let val := ret &&& SECCOMP_RET_DATA
  if action = SECCOMP_RET_KILL_PROCESS then .ok .KillProcess
  else if action = SECCOMP_RET_KILL_THREAD then .ok .KillThread
  else if action = SECCOMP_RET_TRAP then .ok .Trap
  else if action = SECCOMP_RET_ERRNO then .ok (.Errno val)
  else if action = SECCOMP_RET_TRACE then .ok (.Trace val)
  else if action = SECCOMP_RET_LOG then .ok .Log
  else if action = SECCOMP_RET_ALLOW then .ok .Allow
  else .err (.UnsupportedReturn ret)

/-- bpfvm/src/seccomp.rs:104-111. -/
inductive FieldOffset where
  | Syscall
  | Arch
  | InstrPointerLower
  | InstrPointerUpper
  | ArgLower (arg : BitVec 32)
  | ArgUpper (arg : BitVec 32)
  deriving DecidableEq, Repr

/-- `FieldOffset::offset`, bpfvm/src/seccomp.rs:113-125, in the given build. -/
def FieldOffset.offsetIn (b : Build) : FieldOffset → Res Error (BitVec 32)
  | .Syscall => .ok 0
  | .Arch => .ok 4
  | .InstrPointerLower => .ok 8
  | .InstrPointerUpper => .ok 12
  | .ArgLower arg => (mulU32 b arg 8).bind fun m => addU32 b (4 + 4 + 8) m
  | .ArgUpper arg => (mulU32 b arg 8).bind fun m => (addU32 b (4 + 4 + 8) m).bind fun s => addU32 b s 4

/-- `FieldOffset::offset`, bpfvm/src/seccomp.rs:113-125, without overflow checks (wrapping). This is the form used in the filters,
whose argument numbers are at most 4: both builds agree there (`Props.C24_offset_builds`). -/
def FieldOffset.offset : FieldOffset → BitVec 32
  | .Syscall => 0
  | .Arch => 4
  | .InstrPointerLower => 8
  | .InstrPointerUpper => 12
  | .ArgLower arg => (4 + 4 + 8) + (arg * 8)
  | .ArgUpper arg => (4 + 4 + 8) + (arg * 8) + 4

/-- `libc::seccomp_data` (`repr(C)`, 64 bytes): the record the filter sees, used at src/seccomp.rs:1035-1040. `nr` is an
`i32`; BPF sees its 32 bits. -/
structure SeccompData where
  nr : BitVec 32
  arch : BitVec 32
  instructionPointer : BitVec 64
  args : Fin 6 → BitVec 64

/-- Low 32 bits. -/
def lo (x : BitVec 64) : BitVec 32 := x.extractLsb' 0 32
/-- High 32 bits. -/
def hi (x : BitVec 64) : BitVec 32 := x.extractLsb' 32 32

/-- The record as sixteen little-endian words: the in-memory layout on x86-64 that `any_to_data` (bpfvm/src/vm.rs:59-63)
exposes and that the kernel gives to a filter. -/
def SeccompData.words (d : SeccompData) : List (BitVec 32) :=
  [d.nr, d.arch, lo d.instructionPointer, hi d.instructionPointer,
   lo (d.args 0), hi (d.args 0), lo (d.args 1), hi (d.args 1), lo (d.args 2), hi (d.args 2),
   lo (d.args 3), hi (d.args 3), lo (d.args 4), hi (d.args 4), lo (d.args 5), hi (d.args 5)]

/-- The bytes of a word, least significant first. -/
def bytes32 (x : BitVec 32) : List (BitVec 8) := (List.range 4).map fun i => x.extractLsb' (8 * i) 8
/-- The bytes of a double word, least significant first. -/
def bytes64 (x : BitVec 64) : List (BitVec 8) := (List.range 8).map fun i => x.extractLsb' (8 * i) 8

/-- The record in memory on x86-64 (`repr(C)`, little endian, no padding): `int nr; u32 arch; u64 instruction_pointer; u64 args[6]`. -/
def SeccompData.bytes (d : SeccompData) : List (BitVec 8) :=
  bytes32 d.nr ++ bytes32 d.arch ++ bytes64 d.instructionPointer ++ (List.finRange 6).flatMap fun i => bytes64 (d.args i)

end Bpfvm
