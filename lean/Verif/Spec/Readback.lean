import Verif.Model.Promises

/-!
# Specification: reading a filter

What can be told from the instructions of a filter about the call of `pledge_override` that made it.
-/
set_option autoImplicit false

namespace Spec
open Pledge

/-- SendFd read as RecvFd: the one pair of promises that the library has the same rules for
(src/promises.rs:349-363). -/
def readAs : Promise → Promise
  | .SendFd => .RecvFd
  | p => p

end Spec
