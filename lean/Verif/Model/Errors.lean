import Verif.Model.Filters

/-!
# src/errors.rs and bpfvm/src/errors.rs: the texts of errors

`thiserror` makes the `Display` instances from the `#[error(..)]` attributes. `{0:?}` is the `Debug` form of the payload: decimal digits for
numbers, the name of the variant for a promise (derived), a quoted and escaped text for a string.
-/
set_option autoImplicit false

namespace Pledge
open Bpfvm

/-- Derived `Debug` of `Promise`, src/promises.rs:21-46. -/
def Promise.debug : Promise → String
  | .Default => "Default"
  | .StdIO => "StdIO"
  | .RPath => "RPath"
  | .WPath => "WPath"
  | .CPath => "CPath"
  | .DPath => "DPath"
  | .FLock => "FLock"
  | .FAttr => "FAttr"
  | .Inet => "Inet"
  | .Unix => "Unix"
  | .Dns => "Dns"
  | .Tty => "Tty"
  | .RecvFd => "RecvFd"
  | .SendFd => "SendFd"
  | .Proc => "Proc"
  | .Id => "Id"
  | .Chown => "Chown"
  | .SetTime => "SetTime"
  | .ProtExec => "ProtExec"
  | .Exec => "Exec"
  | .VmInfo => "VmInfo"
  | .TmpPath => "TmpPath"
  | .Unveil => "Unveil"

/-- `Debug` of a character in a string, from the standard library. `plain` tells the printable characters (a Unicode table). -/
def escape (plain : Char → Bool) (c : Char) : List Char :=
  if c = '\x00' then ['\\', '0']
  else if c = '\t' then ['\\', 't']
  else if c = '\r' then ['\\', 'r']
  else if c = '\n' then ['\\', 'n']
  else if c = '"' then ['\\', '"']
  else if c = '\\' then ['\\', '\\']
  else if plain c then [c]
  else ['\\', 'u', '{'] ++ Nat.toDigits 16 c.toNat ++ ['}']

/-- `Debug` of a string, from the standard library. -/
def debugString (plain : Char → Bool) (s : String) : String :=
  "\"" ++ String.ofList (s.toList.map (escape plain)).flatten ++ "\""

/-- `Display` of `bpfvm::Error`, bpfvm/src/errors.rs:21-39. -/
def bpfMessage (plain : Char → Bool) : Error → String
  | .ProgramTooLong n => "Program len is bigger than limit (u16::MAX); " ++ n.repr ++ "."
  | .InvalidInstructionCode c => "Unsupported BPF instruction code (with flags): " ++ c.toNat.repr ++ "."
  | .UnsupportedInstruction c => "Unsupported BPF Instruction; " ++ c.toNat.repr ++ "."
  | .UnsupportedReturn r => "Unsupported Return value; " ++ r.toNat.repr ++ "."
  | .UnsupportedDataOffset => "Unsupported ABS offset type."
  | .UnknownInstruction c => "Unknown BPF Instruction; " ++ c.toNat.repr ++ "."
  | .UnknownLabelReference l => "Unknown label reference; " ++ debugString plain l ++ "."

/-- `Display` of `Error`, src/errors.rs:23-31. `SysErr` and `BPFErr` are transparent; the text of a `std::io::Error` made from an error
number is what `strerror` says and the number. -/
def message (strerror : Nat → String) (plain : Char → Bool) : PledgeError → String
  | .UndefinedPromise p => "Promise " ++ p.debug ++ " is not implemented."
  | .SysErr n => strerror n ++ " (os error " ++ n.repr ++ ")"
  | .BPFErr e => bpfMessage plain e

end Pledge
