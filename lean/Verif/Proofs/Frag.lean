import Verif.Model.Filters
import Verif.Proofs.Ev

/-!
# Each filter fragment in isolation

`frag` gives the compiled fragment as literals, `Match` the condition under which it returns ALLOW.
-/
set_option autoImplicit false

namespace Pledge
open Bpfvm

/-- Low half of argument `i`. -/
abbrev A (d : SeccompData) (i : Fin 6) : BitVec 32 := lo (d.args i)

/-- The fragment of each filter. -/
def frag (ids : Ids) : Filtered → List SockFilter
  | .Whitelist s => [⟨0x15, 0, 1, s.setWidth 32⟩, ⟨0x6, 0, 0, 0x7fff0000⟩]
  | .FcntlStdio => [
    ⟨0x15, 0, 5, 0x48⟩, ⟨0x20, 0, 0, 0x18⟩, ⟨0x15, 1, 0, 0x406⟩, ⟨0x25, 2, 0, 0x4⟩, ⟨0x6, 0, 0, 0x7fff0000⟩,
    ⟨0x6, 0, 0, 0x7fff0000⟩, ⟨0x20, 0, 0, 0x0⟩]
  | .MmapNoexec => [
    ⟨0x15, 0, 7, 0x9⟩, ⟨0x20, 0, 0, 0x20⟩, ⟨0x25, 5, 0, 0x2⟩, ⟨0x20, 0, 0, 0x28⟩, ⟨0x54, 0, 0, 0x5a000⟩,
    ⟨0x15, 0, 2, 0x0⟩, ⟨0x6, 0, 0, 0x7fff0000⟩, ⟨0x6, 0, 0, 0x7fff0000⟩, ⟨0x20, 0, 0, 0x0⟩]
  | .MprotectNoexec => [
    ⟨0x15, 0, 5, 0xa⟩, ⟨0x20, 0, 0, 0x20⟩, ⟨0x54, 0, 0, 0xfffffffc⟩, ⟨0x15, 0, 2, 0x0⟩, ⟨0x6, 0, 0, 0x7fff0000⟩,
    ⟨0x6, 0, 0, 0x7fff0000⟩, ⟨0x20, 0, 0, 0x0⟩]
  | .SendtoAddrless => [
    ⟨0x15, 0, 6, 0x2c⟩, ⟨0x20, 0, 0, 0x30⟩, ⟨0x15, 0, 4, 0x0⟩, ⟨0x20, 0, 0, 0x34⟩, ⟨0x15, 0, 2, 0x0⟩,
    ⟨0x6, 0, 0, 0x7fff0000⟩, ⟨0x6, 0, 0, 0x7fff0000⟩, ⟨0x20, 0, 0, 0x0⟩]
  | .IoctlRestrict => [
    ⟨0x15, 0, 8, 0x10⟩, ⟨0x20, 0, 0, 0x18⟩, ⟨0x15, 4, 0, 0x541b⟩, ⟨0x15, 3, 0, 0x5421⟩, ⟨0x15, 2, 0, 0x5451⟩,
    ⟨0x15, 1, 0, 0x5450⟩, ⟨0x5, 0, 0, 0x2⟩, ⟨0x6, 0, 0, 0x7fff0000⟩, ⟨0x6, 0, 0, 0x7fff0000⟩, ⟨0x20, 0, 0, 0x0⟩]
  | .KillSelf => [
    ⟨0x15, 0, 5, 0x3e⟩, ⟨0x20, 0, 0, 0x10⟩, ⟨0x15, 1, 0, ids.pid⟩, ⟨0x5, 0, 0, 0x2⟩, ⟨0x6, 0, 0, 0x7fff0000⟩,
    ⟨0x6, 0, 0, 0x7fff0000⟩, ⟨0x20, 0, 0, 0x0⟩]
  | .TkillSelf => [
    ⟨0x15, 0, 5, 0xc8⟩, ⟨0x20, 0, 0, 0x10⟩, ⟨0x15, 1, 0, ids.tid⟩, ⟨0x5, 0, 0, 0x2⟩, ⟨0x6, 0, 0, 0x7fff0000⟩,
    ⟨0x6, 0, 0, 0x7fff0000⟩, ⟨0x20, 0, 0, 0x0⟩]
  | .PrctlStdio => [
    ⟨0x15, 0, 11, 0x9d⟩, ⟨0x20, 0, 0, 0x10⟩, ⟨0x15, 7, 0, 0xf⟩, ⟨0x15, 6, 0, 0x10⟩, ⟨0x15, 5, 0, 0x15⟩,
    ⟨0x15, 4, 0, 0x16⟩, ⟨0x15, 3, 0, 0x26⟩, ⟨0x15, 2, 0, 0x17⟩, ⟨0x15, 1, 0, 0x18⟩, ⟨0x5, 0, 0, 0x2⟩,
    ⟨0x6, 0, 0, 0x7fff0000⟩, ⟨0x6, 0, 0, 0x7fff0000⟩, ⟨0x20, 0, 0, 0x0⟩]
  | .CloneThread => [
    ⟨0x15, 0, 8, 0x38⟩, ⟨0x20, 0, 0, 0x10⟩, ⟨0x54, 0, 0, 0x10f00⟩, ⟨0x15, 0, 5, 0x10f00⟩, ⟨0x20, 0, 0, 0x10⟩,
    ⟨0x54, 0, 0, 0x822000⟩, ⟨0x15, 0, 2, 0x0⟩, ⟨0x6, 0, 0, 0x7fff0000⟩, ⟨0x6, 0, 0, 0x7fff0000⟩, ⟨0x20, 0, 0, 0x0⟩]
  | .Prlimit64Stdio => [
    ⟨0x15, 0, 4, 0x12e⟩, ⟨0x20, 0, 0, 0x20⟩, ⟨0x15, 0, 2, 0x0⟩, ⟨0x6, 0, 0, 0x7fff0000⟩, ⟨0x6, 0, 0, 0x7fff0000⟩,
    ⟨0x20, 0, 0, 0x0⟩]
  | .OpenReadonly => [
    ⟨0x15, 0, 8, 0x2⟩, ⟨0x20, 0, 0, 0x20⟩, ⟨0x54, 0, 0, 0x3⟩, ⟨0x15, 0, 5, 0x0⟩, ⟨0x20, 0, 0, 0x20⟩,
    ⟨0x54, 0, 0, 0x400240⟩, ⟨0x15, 0, 2, 0x0⟩, ⟨0x6, 0, 0, 0x7fff0000⟩, ⟨0x6, 0, 0, 0x7fff0000⟩, ⟨0x20, 0, 0, 0x0⟩]
  | .OpenatReadonly => [
    ⟨0x15, 0, 8, 0x101⟩, ⟨0x20, 0, 0, 0x20⟩, ⟨0x54, 0, 0, 0x3⟩, ⟨0x15, 0, 5, 0x0⟩, ⟨0x20, 0, 0, 0x20⟩,
    ⟨0x54, 0, 0, 0x400240⟩, ⟨0x15, 0, 2, 0x0⟩, ⟨0x6, 0, 0, 0x7fff0000⟩, ⟨0x6, 0, 0, 0x7fff0000⟩, ⟨0x20, 0, 0, 0x0⟩]
  | .OpenWriteonly => [
    ⟨0x15, 0, 9, 0x2⟩, ⟨0x20, 0, 0, 0x20⟩, ⟨0x54, 0, 0, 0x3⟩, ⟨0x15, 1, 0, 0x1⟩, ⟨0x15, 0, 5, 0x2⟩,
    ⟨0x20, 0, 0, 0x20⟩, ⟨0x54, 0, 0, 0x400040⟩, ⟨0x15, 0, 2, 0x0⟩, ⟨0x6, 0, 0, 0x7fff0000⟩,
    ⟨0x6, 0, 0, 0x7fff0000⟩, ⟨0x20, 0, 0, 0x0⟩]
  | .OpenatWriteonly => [
    ⟨0x15, 0, 9, 0x101⟩, ⟨0x20, 0, 0, 0x20⟩, ⟨0x54, 0, 0, 0x3⟩, ⟨0x15, 1, 0, 0x1⟩, ⟨0x15, 0, 5, 0x2⟩,
    ⟨0x20, 0, 0, 0x20⟩, ⟨0x54, 0, 0, 0x400040⟩, ⟨0x15, 0, 2, 0x0⟩, ⟨0x6, 0, 0, 0x7fff0000⟩,
    ⟨0x6, 0, 0, 0x7fff0000⟩, ⟨0x20, 0, 0, 0x0⟩]
  | .ChmodNobits => [
    ⟨0x15, 0, 5, 0x5a⟩, ⟨0x20, 0, 0, 0x18⟩, ⟨0x54, 0, 0, 0xe00⟩, ⟨0x15, 0, 2, 0x0⟩, ⟨0x6, 0, 0, 0x7fff0000⟩,
    ⟨0x6, 0, 0, 0x7fff0000⟩, ⟨0x20, 0, 0, 0x0⟩]
  | .FchmodNobits => [
    ⟨0x15, 0, 5, 0x5b⟩, ⟨0x20, 0, 0, 0x18⟩, ⟨0x54, 0, 0, 0xe00⟩, ⟨0x15, 0, 2, 0x0⟩, ⟨0x6, 0, 0, 0x7fff0000⟩,
    ⟨0x6, 0, 0, 0x7fff0000⟩, ⟨0x20, 0, 0, 0x0⟩]
  | .FchmodatNobits => [
    ⟨0x15, 0, 5, 0x10c⟩, ⟨0x20, 0, 0, 0x18⟩, ⟨0x54, 0, 0, 0xe00⟩, ⟨0x15, 0, 2, 0x0⟩, ⟨0x6, 0, 0, 0x7fff0000⟩,
    ⟨0x6, 0, 0, 0x7fff0000⟩, ⟨0x20, 0, 0, 0x0⟩]
  | .OpenCreateonly => [
    ⟨0x15, 0, 11, 0x2⟩, ⟨0x20, 0, 0, 0x20⟩, ⟨0x54, 0, 0, 0x40⟩, ⟨0x15, 3, 0, 0x40⟩, ⟨0x20, 0, 0, 0x20⟩,
    ⟨0x54, 0, 0, 0x400000⟩, ⟨0x15, 0, 3, 0x400000⟩, ⟨0x20, 0, 0, 0x28⟩, ⟨0x54, 0, 0, 0xe00⟩, ⟨0x15, 0, 2, 0x0⟩,
    ⟨0x6, 0, 0, 0x7fff0000⟩, ⟨0x6, 0, 0, 0x7fff0000⟩, ⟨0x20, 0, 0, 0x0⟩]
  | .OpenatCreateonly => [
    ⟨0x15, 0, 11, 0x101⟩, ⟨0x20, 0, 0, 0x20⟩, ⟨0x54, 0, 0, 0x40⟩, ⟨0x15, 3, 0, 0x40⟩, ⟨0x20, 0, 0, 0x20⟩,
    ⟨0x54, 0, 0, 0x400000⟩, ⟨0x15, 0, 3, 0x400000⟩, ⟨0x20, 0, 0, 0x28⟩, ⟨0x54, 0, 0, 0xe00⟩, ⟨0x15, 0, 2, 0x0⟩,
    ⟨0x6, 0, 0, 0x7fff0000⟩, ⟨0x6, 0, 0, 0x7fff0000⟩, ⟨0x20, 0, 0, 0x0⟩]
  | .CreatRestrict => [
    ⟨0x15, 0, 5, 0x55⟩, ⟨0x20, 0, 0, 0x18⟩, ⟨0x54, 0, 0, 0xe00⟩, ⟨0x15, 0, 2, 0x0⟩, ⟨0x6, 0, 0, 0x7fff0000⟩,
    ⟨0x6, 0, 0, 0x7fff0000⟩, ⟨0x20, 0, 0, 0x0⟩]
  | .FcntlLock => [
    ⟨0x15, 0, 7, 0x48⟩, ⟨0x20, 0, 0, 0x18⟩, ⟨0x15, 3, 0, 0x5⟩, ⟨0x15, 2, 0, 0x6⟩, ⟨0x15, 1, 0, 0x7⟩,
    ⟨0x5, 0, 0, 0x2⟩, ⟨0x6, 0, 0, 0x7fff0000⟩, ⟨0x6, 0, 0, 0x7fff0000⟩, ⟨0x20, 0, 0, 0x0⟩]
  | .SocketInet => [
    ⟨0x15, 0, 15, 0x29⟩, ⟨0x20, 0, 0, 0x10⟩, ⟨0x15, 1, 0, 0x2⟩, ⟨0x15, 0, 12, 0xa⟩, ⟨0x20, 0, 0, 0x18⟩,
    ⟨0x54, 0, 0, 0xfff7f7ff⟩, ⟨0x15, 1, 0, 0x1⟩, ⟨0x15, 0, 8, 0x2⟩, ⟨0x20, 0, 0, 0x20⟩, ⟨0x15, 4, 0, 0x0⟩,
    ⟨0x15, 3, 0, 0x1⟩, ⟨0x15, 2, 0, 0x6⟩, ⟨0x15, 1, 0, 0x11⟩, ⟨0x5, 0, 0, 0x2⟩, ⟨0x6, 0, 0, 0x7fff0000⟩,
    ⟨0x6, 0, 0, 0x7fff0000⟩, ⟨0x20, 0, 0, 0x0⟩]
  | .IoctlInet => [
    ⟨0x15, 0, 5, 0x10⟩, ⟨0x20, 0, 0, 0x18⟩, ⟨0x15, 1, 0, 0x8905⟩, ⟨0x5, 0, 0, 0x2⟩, ⟨0x6, 0, 0, 0x7fff0000⟩,
    ⟨0x6, 0, 0, 0x7fff0000⟩, ⟨0x20, 0, 0, 0x0⟩]
  | .GetsockoptRestrict => [
    ⟨0x15, 0, 14, 0x37⟩, ⟨0x20, 0, 0, 0x18⟩, ⟨0x15, 1, 0, 0x1⟩, ⟨0x15, 0, 11, 0x6⟩, ⟨0x20, 0, 0, 0x20⟩,
    ⟨0x15, 7, 0, 0x3⟩, ⟨0x15, 6, 0, 0x4⟩, ⟨0x15, 5, 0, 0xf⟩, ⟨0x15, 4, 0, 0x2⟩, ⟨0x15, 3, 0, 0x9⟩,
    ⟨0x15, 2, 0, 0x14⟩, ⟨0x15, 1, 0, 0x15⟩, ⟨0x5, 0, 0, 0x2⟩, ⟨0x6, 0, 0, 0x7fff0000⟩, ⟨0x6, 0, 0, 0x7fff0000⟩,
    ⟨0x20, 0, 0, 0x0⟩]
  | .SetsockoptRestrict => [
    ⟨0x15, 0, 24, 0x37⟩, ⟨0x20, 0, 0, 0x18⟩, ⟨0x15, 2, 0, 0x0⟩, ⟨0x15, 1, 0, 0x1⟩, ⟨0x15, 0, 20, 0x6⟩,
    ⟨0x20, 0, 0, 0x20⟩, ⟨0x15, 16, 0, 0x1⟩, ⟨0x15, 15, 0, 0x3⟩, ⟨0x15, 14, 0, 0x4⟩, ⟨0x15, 13, 0, 0x5⟩,
    ⟨0x15, 12, 0, 0x3⟩, ⟨0x15, 11, 0, 0x4⟩, ⟨0x15, 10, 0, 0x5⟩, ⟨0x15, 9, 0, 0xf⟩, ⟨0x15, 8, 0, 0x2⟩,
    ⟨0x15, 7, 0, 0x9⟩, ⟨0x15, 6, 0, 0x14⟩, ⟨0x15, 5, 0, 0x15⟩, ⟨0x15, 4, 0, 0xc⟩, ⟨0x15, 3, 0, 0xb⟩,
    ⟨0x15, 2, 0, 0x17⟩, ⟨0x15, 1, 0, 0x1e⟩, ⟨0x5, 0, 0, 0x2⟩, ⟨0x6, 0, 0, 0x7fff0000⟩, ⟨0x6, 0, 0, 0x7fff0000⟩,
    ⟨0x20, 0, 0, 0x0⟩]
  | .SocketUnix => [
    ⟨0x15, 0, 12, 0x29⟩, ⟨0x20, 0, 0, 0x10⟩, ⟨0x15, 1, 0, 0x1⟩, ⟨0x15, 0, 9, 0x1⟩, ⟨0x20, 0, 0, 0x18⟩,
    ⟨0x54, 0, 0, 0xfff7f7ff⟩, ⟨0x15, 1, 0, 0x1⟩, ⟨0x15, 0, 5, 0x2⟩, ⟨0x20, 0, 0, 0x20⟩, ⟨0x15, 1, 0, 0x0⟩,
    ⟨0x5, 0, 0, 0x2⟩, ⟨0x6, 0, 0, 0x7fff0000⟩, ⟨0x6, 0, 0, 0x7fff0000⟩, ⟨0x20, 0, 0, 0x0⟩]
  | .IoctlTty => [
    ⟨0x15, 0, 16, 0x10⟩, ⟨0x20, 0, 0, 0x18⟩, ⟨0x15, 12, 0, 0x5401⟩, ⟨0x15, 11, 0, 0x5402⟩, ⟨0x15, 10, 0, 0x5403⟩,
    ⟨0x15, 9, 0, 0x5404⟩, ⟨0x15, 8, 0, 0x5413⟩, ⟨0x15, 7, 0, 0x5410⟩, ⟨0x15, 6, 0, 0x540f⟩, ⟨0x15, 5, 0, 0x5414⟩,
    ⟨0x15, 4, 0, 0x540b⟩, ⟨0x15, 3, 0, 0x540a⟩, ⟨0x15, 2, 0, 0x5409⟩, ⟨0x15, 1, 0, 0x5427⟩, ⟨0x5, 0, 0, 0x2⟩,
    ⟨0x6, 0, 0, 0x7fff0000⟩, ⟨0x6, 0, 0, 0x7fff0000⟩, ⟨0x20, 0, 0, 0x0⟩]
  | .CloneRestrict => [
    ⟨0x15, 0, 5, 0x38⟩, ⟨0x20, 0, 0, 0x10⟩, ⟨0x54, 0, 0, 0x822000⟩, ⟨0x15, 0, 2, 0x0⟩, ⟨0x6, 0, 0, 0x7fff0000⟩,
    ⟨0x6, 0, 0, 0x7fff0000⟩, ⟨0x20, 0, 0, 0x0⟩]
  | .MmapExec => [
    ⟨0x15, 0, 5, 0x9⟩, ⟨0x20, 0, 0, 0x28⟩, ⟨0x54, 0, 0, 0x52000⟩, ⟨0x15, 0, 2, 0x0⟩, ⟨0x6, 0, 0, 0x7fff0000⟩,
    ⟨0x6, 0, 0, 0x7fff0000⟩, ⟨0x20, 0, 0, 0x0⟩]

/-- When the fragment returns ALLOW. -/
def Match (ids : Ids) (d : SeccompData) : Filtered → Prop
  | .Whitelist s => d.nr = s.setWidth 32
  | .FcntlStdio => d.nr = 72 ∧ (A d 1 = 1030 ∨ ¬ 4#32 < A d 1)
  | .MmapNoexec => d.nr = 9 ∧ ¬ 2#32 < A d 2 ∧ A d 3 &&& 0x5a000 = 0
  | .MprotectNoexec => d.nr = 10 ∧ A d 2 &&& 0xfffffffc = 0
  | .SendtoAddrless => d.nr = 44 ∧ A d 4 = 0 ∧ hi (d.args 4) = 0
  | .IoctlRestrict => d.nr = 16 ∧ (A d 1 = 0x541b ∨ A d 1 = 0x5421 ∨ A d 1 = 0x5451 ∨ A d 1 = 0x5450)
  | .KillSelf => d.nr = 62 ∧ A d 0 = ids.pid
  | .TkillSelf => d.nr = 200 ∧ A d 0 = ids.tid
  | .PrctlStdio => d.nr = 157 ∧ (A d 0 = 15 ∨ A d 0 = 16 ∨ A d 0 = 21 ∨ A d 0 = 22 ∨ A d 0 = 38 ∨ A d 0 = 23 ∨ A d 0 = 24)
  | .CloneThread => d.nr = 56 ∧ A d 0 &&& 0x10f00 = 0x10f00 ∧ A d 0 &&& 0x822000 = 0
  | .Prlimit64Stdio => d.nr = 302 ∧ A d 2 = 0
  | .OpenReadonly => d.nr = 2 ∧ A d 2 &&& 3 = 0 ∧ A d 2 &&& 0x400240 = 0
  | .OpenatReadonly => d.nr = 257 ∧ A d 2 &&& 3 = 0 ∧ A d 2 &&& 0x400240 = 0
  | .OpenWriteonly => d.nr = 2 ∧ (A d 2 &&& 3 = 1 ∨ A d 2 &&& 3 = 2) ∧ A d 2 &&& 0x400040 = 0
  | .OpenatWriteonly => d.nr = 257 ∧ (A d 2 &&& 3 = 1 ∨ A d 2 &&& 3 = 2) ∧ A d 2 &&& 0x400040 = 0
  | .ChmodNobits => d.nr = 90 ∧ A d 1 &&& 0xe00 = 0
  | .FchmodNobits => d.nr = 91 ∧ A d 1 &&& 0xe00 = 0
  | .FchmodatNobits => d.nr = 268 ∧ A d 1 &&& 0xe00 = 0
  | .OpenCreateonly => d.nr = 2 ∧ ((A d 2 &&& 0x40 ≠ 0x40 ∧ A d 2 &&& 0x400000 ≠ 0x400000) ∨ A d 3 &&& 0xe00 = 0)
  | .OpenatCreateonly => d.nr = 257 ∧ ((A d 2 &&& 0x40 ≠ 0x40 ∧ A d 2 &&& 0x400000 ≠ 0x400000) ∨ A d 3 &&& 0xe00 = 0)
  | .CreatRestrict => d.nr = 85 ∧ A d 1 &&& 0xe00 = 0
  | .FcntlLock => d.nr = 72 ∧ (A d 1 = 5 ∨ A d 1 = 6 ∨ A d 1 = 7)
  | .SocketInet => d.nr = 41 ∧ (A d 0 = 2 ∨ A d 0 = 10) ∧ (A d 1 &&& 0xfff7f7ff = 1 ∨ A d 1 &&& 0xfff7f7ff = 2) ∧ (A d 2 = 0 ∨ A d 2 = 1 ∨ A d 2 = 6 ∨ A d 2 = 17)
  | .IoctlInet => d.nr = 16 ∧ A d 1 = 0x8905
  | .GetsockoptRestrict => d.nr = 55 ∧ (A d 1 = 1 ∨ A d 1 = 6) ∧ A d 2 ∈ [3#32, 4, 15, 2, 9, 20, 21]
  | .SetsockoptRestrict => d.nr = 55 ∧ (A d 1 = 0 ∨ A d 1 = 1 ∨ A d 1 = 6) ∧ A d 2 ∈ [1#32, 3, 4, 5, 15, 2, 9, 20, 21, 12, 11, 23, 30]
  | .SocketUnix => d.nr = 41 ∧ A d 0 = 1 ∧ (A d 1 &&& 0xfff7f7ff = 1 ∨ A d 1 &&& 0xfff7f7ff = 2) ∧ A d 2 = 0
  | .IoctlTty => d.nr = 16 ∧ A d 1 ∈ [0x5401#32, 0x5402, 0x5403, 0x5404, 0x5413, 0x5410, 0x540f, 0x5414, 0x540b, 0x540a, 0x5409, 0x5427]
  | .CloneRestrict => d.nr = 56 ∧ A d 0 &&& 0x822000 = 0
  | .MmapExec => d.nr = 9 ∧ A d 3 &&& 0x52000 = 0

theorem filterToBpf_eq (b : Build) (ids : Ids) (f : Filtered) : filterToBpf b ids f = .ok (frag ids f) := by
  cases f <;> rfl

theorem bpfHeader_eq (b : Build) :
    bpfHeader b = .ok [⟨0x20, 0, 0, 4⟩, ⟨0x15, 1, 0, 0xc000003e⟩, ⟨0x6, 0, 0, 0x80000000⟩, ⟨0x20, 0, 0, 0⟩] := rfl

theorem bpfFooter_eq (b : Build) (v : SeccompReturn) : bpfFooter b v = .ok [⟨0x6, 0, 0, v.toU32⟩] := rfl

set_option linter.unusedSimpArgs false



theorem ev_ld0 (d : SeccompData) (rest : List SockFilter) (a : BitVec 32) :
    ev d.words (⟨0x20, 0, 0, 0x0⟩ :: rest) 0 a = ev d.words rest 0 (d.nr) := ev_ld _ _ _ _ _ _ _ (by simp [SeccompData.words])
theorem ev_ld4 (d : SeccompData) (rest : List SockFilter) (a : BitVec 32) :
    ev d.words (⟨0x20, 0, 0, 0x4⟩ :: rest) 0 a = ev d.words rest 0 (d.arch) := ev_ld _ _ _ _ _ _ _ (by simp [SeccompData.words])
theorem ev_ld10 (d : SeccompData) (rest : List SockFilter) (a : BitVec 32) :
    ev d.words (⟨0x20, 0, 0, 0x10⟩ :: rest) 0 a = ev d.words rest 0 (A d 0) := ev_ld _ _ _ _ _ _ _ (by simp [SeccompData.words])
theorem ev_ld18 (d : SeccompData) (rest : List SockFilter) (a : BitVec 32) :
    ev d.words (⟨0x20, 0, 0, 0x18⟩ :: rest) 0 a = ev d.words rest 0 (A d 1) := ev_ld _ _ _ _ _ _ _ (by simp [SeccompData.words])
theorem ev_ld20 (d : SeccompData) (rest : List SockFilter) (a : BitVec 32) :
    ev d.words (⟨0x20, 0, 0, 0x20⟩ :: rest) 0 a = ev d.words rest 0 (A d 2) := ev_ld _ _ _ _ _ _ _ (by simp [SeccompData.words])
theorem ev_ld28 (d : SeccompData) (rest : List SockFilter) (a : BitVec 32) :
    ev d.words (⟨0x20, 0, 0, 0x28⟩ :: rest) 0 a = ev d.words rest 0 (A d 3) := ev_ld _ _ _ _ _ _ _ (by simp [SeccompData.words])
theorem ev_ld30 (d : SeccompData) (rest : List SockFilter) (a : BitVec 32) :
    ev d.words (⟨0x20, 0, 0, 0x30⟩ :: rest) 0 a = ev d.words rest 0 (A d 4) := ev_ld _ _ _ _ _ _ _ (by simp [SeccompData.words])
theorem ev_ld34 (d : SeccompData) (rest : List SockFilter) (a : BitVec 32) :
    ev d.words (⟨0x20, 0, 0, 0x34⟩ :: rest) 0 a = ev d.words rest 0 (hi (d.args 4)) := ev_ld _ _ _ _ _ _ _ (by simp [SeccompData.words])

theorem ev_Whitelist (ids : Ids) (s : BitVec 64) (d : SeccompData) :
    (Match ids d (.Whitelist s) → ev d.words (frag ids (.Whitelist s)) 0 d.nr = .ret 0x7fff0000) ∧
    (¬ Match ids d (.Whitelist s) → ev d.words (frag ids (.Whitelist s)) 0 d.nr = .fall d.nr) := by
  simp only [frag, Match, ev_jeq, ev_jgt, ev_ja, ev_and, ev_ret, ev_skip, ev_nil, ev_ld0, ev_ld10, ev_ld18, ev_ld20,
    ev_ld28, ev_ld30, ev_ld34, BitVec.reduceToNat, List.mem_cons, List.not_mem_nil, or_false]
  grind (splits := 40) -ext

theorem ev_FcntlStdio (ids : Ids) (d : SeccompData) :
    (Match ids d .FcntlStdio → ev d.words (frag ids .FcntlStdio) 0 d.nr = .ret 0x7fff0000) ∧
    (¬ Match ids d .FcntlStdio → ev d.words (frag ids .FcntlStdio) 0 d.nr = .fall d.nr) := by
  simp only [frag, Match, ev_jeq, ev_jgt, ev_ja, ev_and, ev_ret, ev_skip, ev_nil, ev_ld0, ev_ld10, ev_ld18, ev_ld20,
    ev_ld28, ev_ld30, ev_ld34, BitVec.reduceToNat, List.mem_cons, List.not_mem_nil, or_false]
  grind (splits := 40) -ext

theorem ev_MmapNoexec (ids : Ids) (d : SeccompData) :
    (Match ids d .MmapNoexec → ev d.words (frag ids .MmapNoexec) 0 d.nr = .ret 0x7fff0000) ∧
    (¬ Match ids d .MmapNoexec → ev d.words (frag ids .MmapNoexec) 0 d.nr = .fall d.nr) := by
  simp only [frag, Match, ev_jeq, ev_jgt, ev_ja, ev_and, ev_ret, ev_skip, ev_nil, ev_ld0, ev_ld10, ev_ld18, ev_ld20,
    ev_ld28, ev_ld30, ev_ld34, BitVec.reduceToNat, List.mem_cons, List.not_mem_nil, or_false]
  grind (splits := 40) -ext

theorem ev_MprotectNoexec (ids : Ids) (d : SeccompData) :
    (Match ids d .MprotectNoexec → ev d.words (frag ids .MprotectNoexec) 0 d.nr = .ret 0x7fff0000) ∧
    (¬ Match ids d .MprotectNoexec → ev d.words (frag ids .MprotectNoexec) 0 d.nr = .fall d.nr) := by
  simp only [frag, Match, ev_jeq, ev_jgt, ev_ja, ev_and, ev_ret, ev_skip, ev_nil, ev_ld0, ev_ld10, ev_ld18, ev_ld20,
    ev_ld28, ev_ld30, ev_ld34, BitVec.reduceToNat, List.mem_cons, List.not_mem_nil, or_false]
  grind (splits := 40) -ext

theorem ev_SendtoAddrless (ids : Ids) (d : SeccompData) :
    (Match ids d .SendtoAddrless → ev d.words (frag ids .SendtoAddrless) 0 d.nr = .ret 0x7fff0000) ∧
    (¬ Match ids d .SendtoAddrless → ev d.words (frag ids .SendtoAddrless) 0 d.nr = .fall d.nr) := by
  simp only [frag, Match, ev_jeq, ev_jgt, ev_ja, ev_and, ev_ret, ev_skip, ev_nil, ev_ld0, ev_ld10, ev_ld18, ev_ld20,
    ev_ld28, ev_ld30, ev_ld34, BitVec.reduceToNat, List.mem_cons, List.not_mem_nil, or_false]
  grind (splits := 40) -ext

theorem ev_IoctlRestrict (ids : Ids) (d : SeccompData) :
    (Match ids d .IoctlRestrict → ev d.words (frag ids .IoctlRestrict) 0 d.nr = .ret 0x7fff0000) ∧
    (¬ Match ids d .IoctlRestrict → ev d.words (frag ids .IoctlRestrict) 0 d.nr = .fall d.nr) := by
  simp only [frag, Match, ev_jeq, ev_jgt, ev_ja, ev_and, ev_ret, ev_skip, ev_nil, ev_ld0, ev_ld10, ev_ld18, ev_ld20,
    ev_ld28, ev_ld30, ev_ld34, BitVec.reduceToNat, List.mem_cons, List.not_mem_nil, or_false]
  grind (splits := 40) -ext

theorem ev_KillSelf (ids : Ids) (d : SeccompData) :
    (Match ids d .KillSelf → ev d.words (frag ids .KillSelf) 0 d.nr = .ret 0x7fff0000) ∧
    (¬ Match ids d .KillSelf → ev d.words (frag ids .KillSelf) 0 d.nr = .fall d.nr) := by
  simp only [frag, Match, ev_jeq, ev_jgt, ev_ja, ev_and, ev_ret, ev_skip, ev_nil, ev_ld0, ev_ld10, ev_ld18, ev_ld20,
    ev_ld28, ev_ld30, ev_ld34, BitVec.reduceToNat, List.mem_cons, List.not_mem_nil, or_false]
  grind (splits := 40) -ext

theorem ev_TkillSelf (ids : Ids) (d : SeccompData) :
    (Match ids d .TkillSelf → ev d.words (frag ids .TkillSelf) 0 d.nr = .ret 0x7fff0000) ∧
    (¬ Match ids d .TkillSelf → ev d.words (frag ids .TkillSelf) 0 d.nr = .fall d.nr) := by
  simp only [frag, Match, ev_jeq, ev_jgt, ev_ja, ev_and, ev_ret, ev_skip, ev_nil, ev_ld0, ev_ld10, ev_ld18, ev_ld20,
    ev_ld28, ev_ld30, ev_ld34, BitVec.reduceToNat, List.mem_cons, List.not_mem_nil, or_false]
  grind (splits := 40) -ext

theorem ev_PrctlStdio (ids : Ids) (d : SeccompData) :
    (Match ids d .PrctlStdio → ev d.words (frag ids .PrctlStdio) 0 d.nr = .ret 0x7fff0000) ∧
    (¬ Match ids d .PrctlStdio → ev d.words (frag ids .PrctlStdio) 0 d.nr = .fall d.nr) := by
  simp only [frag, Match, ev_jeq, ev_jgt, ev_ja, ev_and, ev_ret, ev_skip, ev_nil, ev_ld0, ev_ld10, ev_ld18, ev_ld20,
    ev_ld28, ev_ld30, ev_ld34, BitVec.reduceToNat, List.mem_cons, List.not_mem_nil, or_false]
  grind (splits := 40) -ext

theorem ev_CloneThread (ids : Ids) (d : SeccompData) :
    (Match ids d .CloneThread → ev d.words (frag ids .CloneThread) 0 d.nr = .ret 0x7fff0000) ∧
    (¬ Match ids d .CloneThread → ev d.words (frag ids .CloneThread) 0 d.nr = .fall d.nr) := by
  simp only [frag, Match, ev_jeq, ev_jgt, ev_ja, ev_and, ev_ret, ev_skip, ev_nil, ev_ld0, ev_ld10, ev_ld18, ev_ld20,
    ev_ld28, ev_ld30, ev_ld34, BitVec.reduceToNat, List.mem_cons, List.not_mem_nil, or_false]
  grind (splits := 40) -ext

theorem ev_Prlimit64Stdio (ids : Ids) (d : SeccompData) :
    (Match ids d .Prlimit64Stdio → ev d.words (frag ids .Prlimit64Stdio) 0 d.nr = .ret 0x7fff0000) ∧
    (¬ Match ids d .Prlimit64Stdio → ev d.words (frag ids .Prlimit64Stdio) 0 d.nr = .fall d.nr) := by
  simp only [frag, Match, ev_jeq, ev_jgt, ev_ja, ev_and, ev_ret, ev_skip, ev_nil, ev_ld0, ev_ld10, ev_ld18, ev_ld20,
    ev_ld28, ev_ld30, ev_ld34, BitVec.reduceToNat, List.mem_cons, List.not_mem_nil, or_false]
  grind (splits := 40) -ext

theorem ev_OpenReadonly (ids : Ids) (d : SeccompData) :
    (Match ids d .OpenReadonly → ev d.words (frag ids .OpenReadonly) 0 d.nr = .ret 0x7fff0000) ∧
    (¬ Match ids d .OpenReadonly → ev d.words (frag ids .OpenReadonly) 0 d.nr = .fall d.nr) := by
  simp only [frag, Match, ev_jeq, ev_jgt, ev_ja, ev_and, ev_ret, ev_skip, ev_nil, ev_ld0, ev_ld10, ev_ld18, ev_ld20,
    ev_ld28, ev_ld30, ev_ld34, BitVec.reduceToNat, List.mem_cons, List.not_mem_nil, or_false]
  grind (splits := 40) -ext

theorem ev_OpenatReadonly (ids : Ids) (d : SeccompData) :
    (Match ids d .OpenatReadonly → ev d.words (frag ids .OpenatReadonly) 0 d.nr = .ret 0x7fff0000) ∧
    (¬ Match ids d .OpenatReadonly → ev d.words (frag ids .OpenatReadonly) 0 d.nr = .fall d.nr) := by
  simp only [frag, Match, ev_jeq, ev_jgt, ev_ja, ev_and, ev_ret, ev_skip, ev_nil, ev_ld0, ev_ld10, ev_ld18, ev_ld20,
    ev_ld28, ev_ld30, ev_ld34, BitVec.reduceToNat, List.mem_cons, List.not_mem_nil, or_false]
  grind (splits := 40) -ext

theorem ev_OpenWriteonly (ids : Ids) (d : SeccompData) :
    (Match ids d .OpenWriteonly → ev d.words (frag ids .OpenWriteonly) 0 d.nr = .ret 0x7fff0000) ∧
    (¬ Match ids d .OpenWriteonly → ev d.words (frag ids .OpenWriteonly) 0 d.nr = .fall d.nr) := by
  simp only [frag, Match, ev_jeq, ev_jgt, ev_ja, ev_and, ev_ret, ev_skip, ev_nil, ev_ld0, ev_ld10, ev_ld18, ev_ld20,
    ev_ld28, ev_ld30, ev_ld34, BitVec.reduceToNat, List.mem_cons, List.not_mem_nil, or_false]
  grind (splits := 40) -ext

theorem ev_OpenatWriteonly (ids : Ids) (d : SeccompData) :
    (Match ids d .OpenatWriteonly → ev d.words (frag ids .OpenatWriteonly) 0 d.nr = .ret 0x7fff0000) ∧
    (¬ Match ids d .OpenatWriteonly → ev d.words (frag ids .OpenatWriteonly) 0 d.nr = .fall d.nr) := by
  simp only [frag, Match, ev_jeq, ev_jgt, ev_ja, ev_and, ev_ret, ev_skip, ev_nil, ev_ld0, ev_ld10, ev_ld18, ev_ld20,
    ev_ld28, ev_ld30, ev_ld34, BitVec.reduceToNat, List.mem_cons, List.not_mem_nil, or_false]
  grind (splits := 40) -ext

theorem ev_ChmodNobits (ids : Ids) (d : SeccompData) :
    (Match ids d .ChmodNobits → ev d.words (frag ids .ChmodNobits) 0 d.nr = .ret 0x7fff0000) ∧
    (¬ Match ids d .ChmodNobits → ev d.words (frag ids .ChmodNobits) 0 d.nr = .fall d.nr) := by
  simp only [frag, Match, ev_jeq, ev_jgt, ev_ja, ev_and, ev_ret, ev_skip, ev_nil, ev_ld0, ev_ld10, ev_ld18, ev_ld20,
    ev_ld28, ev_ld30, ev_ld34, BitVec.reduceToNat, List.mem_cons, List.not_mem_nil, or_false]
  grind (splits := 40) -ext

theorem ev_FchmodNobits (ids : Ids) (d : SeccompData) :
    (Match ids d .FchmodNobits → ev d.words (frag ids .FchmodNobits) 0 d.nr = .ret 0x7fff0000) ∧
    (¬ Match ids d .FchmodNobits → ev d.words (frag ids .FchmodNobits) 0 d.nr = .fall d.nr) := by
  simp only [frag, Match, ev_jeq, ev_jgt, ev_ja, ev_and, ev_ret, ev_skip, ev_nil, ev_ld0, ev_ld10, ev_ld18, ev_ld20,
    ev_ld28, ev_ld30, ev_ld34, BitVec.reduceToNat, List.mem_cons, List.not_mem_nil, or_false]
  grind (splits := 40) -ext

theorem ev_FchmodatNobits (ids : Ids) (d : SeccompData) :
    (Match ids d .FchmodatNobits → ev d.words (frag ids .FchmodatNobits) 0 d.nr = .ret 0x7fff0000) ∧
    (¬ Match ids d .FchmodatNobits → ev d.words (frag ids .FchmodatNobits) 0 d.nr = .fall d.nr) := by
  simp only [frag, Match, ev_jeq, ev_jgt, ev_ja, ev_and, ev_ret, ev_skip, ev_nil, ev_ld0, ev_ld10, ev_ld18, ev_ld20,
    ev_ld28, ev_ld30, ev_ld34, BitVec.reduceToNat, List.mem_cons, List.not_mem_nil, or_false]
  grind (splits := 40) -ext

theorem ev_OpenCreateonly (ids : Ids) (d : SeccompData) :
    (Match ids d .OpenCreateonly → ev d.words (frag ids .OpenCreateonly) 0 d.nr = .ret 0x7fff0000) ∧
    (¬ Match ids d .OpenCreateonly → ev d.words (frag ids .OpenCreateonly) 0 d.nr = .fall d.nr) := by
  simp only [frag, Match, ev_jeq, ev_jgt, ev_ja, ev_and, ev_ret, ev_skip, ev_nil, ev_ld0, ev_ld10, ev_ld18, ev_ld20,
    ev_ld28, ev_ld30, ev_ld34, BitVec.reduceToNat, List.mem_cons, List.not_mem_nil, or_false]
  grind (splits := 40) -ext

theorem ev_OpenatCreateonly (ids : Ids) (d : SeccompData) :
    (Match ids d .OpenatCreateonly → ev d.words (frag ids .OpenatCreateonly) 0 d.nr = .ret 0x7fff0000) ∧
    (¬ Match ids d .OpenatCreateonly → ev d.words (frag ids .OpenatCreateonly) 0 d.nr = .fall d.nr) := by
  simp only [frag, Match, ev_jeq, ev_jgt, ev_ja, ev_and, ev_ret, ev_skip, ev_nil, ev_ld0, ev_ld10, ev_ld18, ev_ld20,
    ev_ld28, ev_ld30, ev_ld34, BitVec.reduceToNat, List.mem_cons, List.not_mem_nil, or_false]
  grind (splits := 40) -ext

theorem ev_CreatRestrict (ids : Ids) (d : SeccompData) :
    (Match ids d .CreatRestrict → ev d.words (frag ids .CreatRestrict) 0 d.nr = .ret 0x7fff0000) ∧
    (¬ Match ids d .CreatRestrict → ev d.words (frag ids .CreatRestrict) 0 d.nr = .fall d.nr) := by
  simp only [frag, Match, ev_jeq, ev_jgt, ev_ja, ev_and, ev_ret, ev_skip, ev_nil, ev_ld0, ev_ld10, ev_ld18, ev_ld20,
    ev_ld28, ev_ld30, ev_ld34, BitVec.reduceToNat, List.mem_cons, List.not_mem_nil, or_false]
  grind (splits := 40) -ext

theorem ev_FcntlLock (ids : Ids) (d : SeccompData) :
    (Match ids d .FcntlLock → ev d.words (frag ids .FcntlLock) 0 d.nr = .ret 0x7fff0000) ∧
    (¬ Match ids d .FcntlLock → ev d.words (frag ids .FcntlLock) 0 d.nr = .fall d.nr) := by
  simp only [frag, Match, ev_jeq, ev_jgt, ev_ja, ev_and, ev_ret, ev_skip, ev_nil, ev_ld0, ev_ld10, ev_ld18, ev_ld20,
    ev_ld28, ev_ld30, ev_ld34, BitVec.reduceToNat, List.mem_cons, List.not_mem_nil, or_false]
  grind (splits := 40) -ext

theorem ev_SocketInet (ids : Ids) (d : SeccompData) :
    (Match ids d .SocketInet → ev d.words (frag ids .SocketInet) 0 d.nr = .ret 0x7fff0000) ∧
    (¬ Match ids d .SocketInet → ev d.words (frag ids .SocketInet) 0 d.nr = .fall d.nr) := by
  simp only [frag, Match, ev_jeq, ev_jgt, ev_ja, ev_and, ev_ret, ev_skip, ev_nil, ev_ld0, ev_ld10, ev_ld18, ev_ld20,
    ev_ld28, ev_ld30, ev_ld34, BitVec.reduceToNat, List.mem_cons, List.not_mem_nil, or_false]
  grind (splits := 40) -ext

theorem ev_IoctlInet (ids : Ids) (d : SeccompData) :
    (Match ids d .IoctlInet → ev d.words (frag ids .IoctlInet) 0 d.nr = .ret 0x7fff0000) ∧
    (¬ Match ids d .IoctlInet → ev d.words (frag ids .IoctlInet) 0 d.nr = .fall d.nr) := by
  simp only [frag, Match, ev_jeq, ev_jgt, ev_ja, ev_and, ev_ret, ev_skip, ev_nil, ev_ld0, ev_ld10, ev_ld18, ev_ld20,
    ev_ld28, ev_ld30, ev_ld34, BitVec.reduceToNat, List.mem_cons, List.not_mem_nil, or_false]
  grind (splits := 40) -ext

theorem ev_GetsockoptRestrict (ids : Ids) (d : SeccompData) :
    (Match ids d .GetsockoptRestrict → ev d.words (frag ids .GetsockoptRestrict) 0 d.nr = .ret 0x7fff0000) ∧
    (¬ Match ids d .GetsockoptRestrict → ev d.words (frag ids .GetsockoptRestrict) 0 d.nr = .fall d.nr) := by
  simp only [frag, Match, ev_jeq, ev_jgt, ev_ja, ev_and, ev_ret, ev_skip, ev_nil, ev_ld0, ev_ld10, ev_ld18, ev_ld20,
    ev_ld28, ev_ld30, ev_ld34, BitVec.reduceToNat, List.mem_cons, List.not_mem_nil, or_false]
  grind (splits := 40) -ext

theorem ev_SetsockoptRestrict (ids : Ids) (d : SeccompData) :
    (Match ids d .SetsockoptRestrict → ev d.words (frag ids .SetsockoptRestrict) 0 d.nr = .ret 0x7fff0000) ∧
    (¬ Match ids d .SetsockoptRestrict → ev d.words (frag ids .SetsockoptRestrict) 0 d.nr = .fall d.nr) := by
  simp only [frag, Match, ev_jeq, ev_jgt, ev_ja, ev_and, ev_ret, ev_skip, ev_nil, ev_ld0, ev_ld10, ev_ld18, ev_ld20,
    ev_ld28, ev_ld30, ev_ld34, BitVec.reduceToNat, List.mem_cons, List.not_mem_nil, or_false]
  grind (splits := 40) -ext

theorem ev_SocketUnix (ids : Ids) (d : SeccompData) :
    (Match ids d .SocketUnix → ev d.words (frag ids .SocketUnix) 0 d.nr = .ret 0x7fff0000) ∧
    (¬ Match ids d .SocketUnix → ev d.words (frag ids .SocketUnix) 0 d.nr = .fall d.nr) := by
  simp only [frag, Match, ev_jeq, ev_jgt, ev_ja, ev_and, ev_ret, ev_skip, ev_nil, ev_ld0, ev_ld10, ev_ld18, ev_ld20,
    ev_ld28, ev_ld30, ev_ld34, BitVec.reduceToNat, List.mem_cons, List.not_mem_nil, or_false]
  grind (splits := 40) -ext

theorem ev_IoctlTty (ids : Ids) (d : SeccompData) :
    (Match ids d .IoctlTty → ev d.words (frag ids .IoctlTty) 0 d.nr = .ret 0x7fff0000) ∧
    (¬ Match ids d .IoctlTty → ev d.words (frag ids .IoctlTty) 0 d.nr = .fall d.nr) := by
  simp only [frag, Match, ev_jeq, ev_jgt, ev_ja, ev_and, ev_ret, ev_skip, ev_nil, ev_ld0, ev_ld10, ev_ld18, ev_ld20,
    ev_ld28, ev_ld30, ev_ld34, BitVec.reduceToNat, List.mem_cons, List.not_mem_nil, or_false]
  grind (splits := 40) -ext

theorem ev_CloneRestrict (ids : Ids) (d : SeccompData) :
    (Match ids d .CloneRestrict → ev d.words (frag ids .CloneRestrict) 0 d.nr = .ret 0x7fff0000) ∧
    (¬ Match ids d .CloneRestrict → ev d.words (frag ids .CloneRestrict) 0 d.nr = .fall d.nr) := by
  simp only [frag, Match, ev_jeq, ev_jgt, ev_ja, ev_and, ev_ret, ev_skip, ev_nil, ev_ld0, ev_ld10, ev_ld18, ev_ld20,
    ev_ld28, ev_ld30, ev_ld34, BitVec.reduceToNat, List.mem_cons, List.not_mem_nil, or_false]
  grind (splits := 40) -ext

theorem ev_MmapExec (ids : Ids) (d : SeccompData) :
    (Match ids d .MmapExec → ev d.words (frag ids .MmapExec) 0 d.nr = .ret 0x7fff0000) ∧
    (¬ Match ids d .MmapExec → ev d.words (frag ids .MmapExec) 0 d.nr = .fall d.nr) := by
  simp only [frag, Match, ev_jeq, ev_jgt, ev_ja, ev_and, ev_ret, ev_skip, ev_nil, ev_ld0, ev_ld10, ev_ld18, ev_ld20,
    ev_ld28, ev_ld30, ev_ld34, BitVec.reduceToNat, List.mem_cons, List.not_mem_nil, or_false]
  grind (splits := 40) -ext

theorem ev_frag (ids : Ids) (f : Filtered) (d : SeccompData) :
    (Match ids d f → ev d.words (frag ids f) 0 d.nr = .ret 0x7fff0000) ∧
    (¬ Match ids d f → ev d.words (frag ids f) 0 d.nr = .fall d.nr) := by
  cases f
  · exact ev_Whitelist ids _ d
  · exact ev_FcntlStdio ids d
  · exact ev_MmapNoexec ids d
  · exact ev_MprotectNoexec ids d
  · exact ev_SendtoAddrless ids d
  · exact ev_IoctlRestrict ids d
  · exact ev_KillSelf ids d
  · exact ev_TkillSelf ids d
  · exact ev_PrctlStdio ids d
  · exact ev_CloneThread ids d
  · exact ev_Prlimit64Stdio ids d
  · exact ev_OpenReadonly ids d
  · exact ev_OpenatReadonly ids d
  · exact ev_OpenWriteonly ids d
  · exact ev_OpenatWriteonly ids d
  · exact ev_ChmodNobits ids d
  · exact ev_FchmodNobits ids d
  · exact ev_FchmodatNobits ids d
  · exact ev_OpenCreateonly ids d
  · exact ev_OpenatCreateonly ids d
  · exact ev_CreatRestrict ids d
  · exact ev_FcntlLock ids d
  · exact ev_SocketInet ids d
  · exact ev_IoctlInet ids d
  · exact ev_GetsockoptRestrict ids d
  · exact ev_SetsockoptRestrict ids d
  · exact ev_SocketUnix ids d
  · exact ev_IoctlTty ids d
  · exact ev_CloneRestrict ids d
  · exact ev_MmapExec ids d

end Pledge
