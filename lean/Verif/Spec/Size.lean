import Verif.Model.Promises

/-!
# Specification: the size of a filter
-/
set_option autoImplicit false

namespace Spec
open Pledge

/-- Number of BPF instructions that a promise adds to a filter. -/
def promiseSize : Promise → Nat
  | .Default => 2
  | .StdIO => 290
  | .RPath => 48
  | .WPath => 63
  | .CPath => 57
  | .DPath => 4
  | .FLock => 11
  | .FAttr => 29
  | .Inet => 82
  | .Unix => 72
  | .Dns => 41
  | .Tty => 18
  | .RecvFd => 4
  | .SendFd => 4
  | .Proc => 49
  | .Id => 26
  | .Chown => 8
  | .SetTime => 4
  | .ProtExec => 9
  | .Exec => 4
  | .VmInfo => 2
  | .TmpPath => 6
  | .Unveil => 6

/-- Size of the filter for a list of promises: four instructions of header, two for exit, one for the violation. -/
def filterSize (ps : List Promise) : Nat := 7 + (ps.map promiseSize).sum

end Spec
