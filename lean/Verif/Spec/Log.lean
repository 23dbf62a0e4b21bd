import Verif.Model.Log
import Verif.Spec.Vm

/-!
# Specification: reading the log of the VM
-/
set_option autoImplicit false

namespace Spec
open Bpfvm

/-- The text starts like this. -/
def Line.starts (l : Line) (s : String) : Bool := s.toList.isPrefixOf l.text.toList

/-- A line that announces the execution of an instruction. -/
def announces (l : Line) : Bool := l.level = .debug && Line.starts l "Executing line "

/-- What a logger gets that was set to a maximum level. -/
def upTo (m : Level) (l : Line) : Bool :=
  match m, l.level with
  | .debug, _ => true
  | .info, .debug => false
  | .info, _ => true
  | .error, .error => true
  | .error, _ => false

/-- The log of a run: all levels. -/
def runLog (b : Build) (vm : VM) (data : RunData) : List Line := ((vm.runL b data).map fun x => x.2.2).getD []

/-- The result of a run. -/
def runResult (b : Build) (vm : VM) (data : RunData) : Option (Res Error (BitVec 32)) := (vm.run b data).map Prod.snd

/-- Registers and memory after a run. -/
def runState (b : Build) (vm : VM) (data : RunData) : Option (Nat × BitVec 32 × BitVec 32 × Vector (BitVec 32) MEMSIZE) :=
  (vm.run b data).map fun x => (x.1.pc, x.1.acc, x.1.idx, x.1.mem)

/-- What one `execute` reports at level `info`. -/
def reports (b : Build) (vm : VM) (data : RunData) : List String :=
  ((vm.executeL b data).2.2.filter fun l => l.level = .info).map Line.text

/-- The arithmetic instructions: bits 4-7 of the code and the name. -/
def aluNames : List (BitVec 16 × String) :=
  [(0x00#16, "ADD"), (0x10#16, "SUB"), (0x20#16, "MUL"), (0x30#16, "DIV"), (0x40#16, "OR"), (0x50#16, "AND"), (0x60#16, "LSH"),
   (0x70#16, "RSH"), (0x90#16, "MOD "), (0xa0#16, "XOR")]

/-- The conditional jumps: bits 4-7 of the code, the name they are given, and the signs printed for "taken" and "not taken". -/
def jumpNames : List (BitVec 16 × String × String × String) :=
  [(0x10#16, "JEQ", "==", "!="), (0x20#16, "JGT", ">", "! >"), (0x30#16, "JGE", ">=", "! >="), (0x40#16, "JGE", "&", "! &")]

end Spec
