import Verif.Model.Vm

/-!
# bpfvm/src/vm.rs with its log output

`Model/Vm.lean` leaves out the calls of `info!`, `debug!` and `error!`. Here they are back, line by line; C107 says that the two models agree
on everything else.
-/
set_option autoImplicit false

namespace Bpfvm
open Libc

/-- The levels of the `log` crate that bpfvm/src/vm.rs:19 imports. -/
inductive Level where
  | error
  | info
  | debug
  deriving DecidableEq

/-- One record handed to the logger. -/
structure Line where
  level : Level
  text : String
  deriving DecidableEq

/-- `{:x}` of a number. -/
def hex (n : Nat) : String := String.ofList (Nat.toDigits 16 n)

/-- `info!` with the text given. -/
def info (s : String) : Line := ⟨.info, s⟩

/-- `{:x?}` of `libc::sock_filter`, whose `Debug` is derived (feature `extra_traits`, bpfvm/Cargo.toml:25). -/
def SockFilter.debug (i : SockFilter) : String :=
  "sock_filter { code: " ++ hex i.code.toNat ++ ", jt: " ++ hex i.jt.toNat ++ ", jf: " ++ hex i.jf.toNat ++ ", k: " ++ hex i.k.toNat ++ " }"

/-- bpfvm/src/vm.rs:108. -/
def lineExecuting (pc : Nat) (i : SockFilter) : Line := ⟨.debug, "Executing line 0x" ++ hex pc ++ ": " ++ i.debug⟩

/-- bpfvm/src/vm.rs:118. -/
def lineClass (i : SockFilter) : Line := ⟨.debug, "Executing instruction 0x" ++ hex (i.code &&& 0x7#16).toNat⟩

/-- bpfvm/src/vm.rs:129. -/
def lineAcc (v : BitVec 32) : Line := info ("Loaded value 0x" ++ hex v.toNat ++ " into ACC")

/-- bpfvm/src/vm.rs:138. -/
def lineIdx (v : BitVec 32) : Line := info ("Loaded value 0x" ++ hex v.toNat ++ " into IDX")

/-- bpfvm/src/vm.rs:189. -/
def lineNeg : Line := ⟨.error, "NEG is not supported"⟩

/-- bpfvm/src/vm.rs:264. -/
def lineStart : Line := info "Starting VM"

/-- bpfvm/src/vm.rs:270. -/
def lineReturned (r : BitVec 32) : Line := info ("execute() returned value 0x" ++ hex r.toNat ++ "; terminating")

/-- `fetch_src`, bpfvm/src/vm.rs:88-104. -/
def VM.fetchSrcL (vm : VM) (src : BitVec 16) (curr : SockFilter) : Res Error (BitVec 32) × List Line :=
  let s := src.setWidth 32
  if s = BPF_K then (.ok curr.k, [info ("Src is K: 0x" ++ hex curr.k.toNat)])
  else if s = BPF_X then (.ok vm.idx, [info ("Src is IDX: 0x" ++ hex vm.idx.toNat)])
  else if s = BPF_A then (.ok vm.acc, [info ("Src is ACC: 0x" ++ hex vm.acc.toNat)])
  else (.err (.InvalidInstructionCode curr.code), [])

/-- The ALU part of `execute`, bpfvm/src/vm.rs:146-194. The line is written before the operation, which may panic. Mind the two blanks of
MOD. -/
def VM.aluL (b : Build) (vm : VM) (curr : SockFilter) : Res Error (BitVec 32) × List Line :=
  let inst := curr.code &&& 0x7#16
  let op := (curr.code &&& 0xf0#16).setWidth 32
  match vm.fetchSrcL (curr.code &&& 0x08#16) curr with
  | (.ok sval, l) =>
    if op = BPF_ADD then (addU32 b vm.acc sval, l ++ [info ("Executing ADD with 0x" ++ hex sval.toNat)])
    else if op = BPF_SUB then (subU32 b vm.acc sval, l ++ [info ("Executing SUB with 0x" ++ hex sval.toNat)])
    else if op = BPF_MUL then (mulU32 b vm.acc sval, l ++ [info ("Executing MUL with 0x" ++ hex sval.toNat)])
    else if op = BPF_DIV then (divU32 vm.acc sval, l ++ [info ("Executing DIV with 0x" ++ hex sval.toNat)])
    else if op = BPF_OR then (.ok (vm.acc ||| sval), l ++ [info ("Executing OR with 0x" ++ hex sval.toNat)])
    else if op = BPF_AND then (.ok (vm.acc &&& sval), l ++ [info ("Executing AND with 0x" ++ hex sval.toNat)])
    else if op = BPF_LSH then (shlU32 b vm.acc sval, l ++ [info ("Executing LSH with 0x" ++ hex sval.toNat)])
    else if op = BPF_RSH then (shrU32 b vm.acc sval, l ++ [info ("Executing RSH with 0x" ++ hex sval.toNat)])
    else if op = BPF_MOD then (modU32 vm.acc sval, l ++ [info ("Executing MOD  with 0x" ++ hex sval.toNat)])
    else if op = BPF_XOR then (.ok (vm.acc ^^^ sval), l ++ [info ("Executing XOR with 0x" ++ hex sval.toNat)])
    else if op = BPF_NEG then (.err (.UnsupportedInstruction (BPF_NEG.setWidth 16)), l ++ [lineNeg])
    else (.err (.UnknownInstruction inst), l)
  | (.err e, l) => (.err e, l)
  | (.panic, l) => (.panic, l)

/-- Line of a conditional jump: name, accumulator, comparison, constant, distance. -/
def lineJump (name : String) (acc : BitVec 32) (how : String) (k : BitVec 32) (d : BitVec 8) : Line :=
  info (name ++ ": 0x" ++ hex acc.toNat ++ how ++ "0x" ++ hex k.toNat ++ " -> 0x" ++ hex d.toNat)

/-- The jumps of `execute`, bpfvm/src/vm.rs:197-248. The name printed for JSET is JGE. -/
def VM.jumpL (vm : VM) (curr : SockFilter) : Res Error Nat × List Line :=
  let inst := curr.code &&& 0x7#16
  let op := (curr.code &&& 0xf0#16).setWidth 32
  if op = BPF_JA then (.ok curr.k.toNat, [info ("JA with 0x" ++ hex curr.k.toNat)])
  else if op = BPF_JEQ then
    if vm.acc = curr.k then (.ok curr.jt.toNat, [lineJump "JEQ" vm.acc " == " curr.k curr.jt])
    else (.ok curr.jf.toNat, [lineJump "JEQ" vm.acc " != " curr.k curr.jf])
  else if op = BPF_JGT then
    if vm.acc > curr.k then (.ok curr.jt.toNat, [lineJump "JGT" vm.acc " > " curr.k curr.jt])
    else (.ok curr.jf.toNat, [lineJump "JGT" vm.acc " ! > " curr.k curr.jf])
  else if op = BPF_JGE then
    if vm.acc ≥ curr.k then (.ok curr.jt.toNat, [lineJump "JGE" vm.acc " >= " curr.k curr.jt])
    else (.ok curr.jf.toNat, [lineJump "JGE" vm.acc " ! >= " curr.k curr.jf])
  else if op = BPF_JSET then
    if (vm.acc &&& curr.k) > 0 then (.ok curr.jt.toNat, [lineJump "JGE" vm.acc " & " curr.k curr.jt])
    else (.ok curr.jf.toNat, [lineJump "JGE" vm.acc " ! & " curr.k curr.jf])
  else (.err (.UnknownInstruction inst), [])

/-- `execute` after the fetch, bpfvm/src/vm.rs:110-260; cf. `VM.executeInstr`. -/
def VM.executeInstrL (b : Build) (vm : VM) (data : RunData) (curr : SockFilter) : VM × Res Error (Option (BitVec 32)) × List Line :=
  let inst := (curr.code &&& 0x7#16).setWidth 32
  let head := [lineClass curr]
  if inst = BPF_LD then
    match vm.ldValue b data curr with
    | .ok v => ({ vm with acc := v }, .ok none, head ++ [lineAcc v])
    | .err e => (vm, .err e, head)
    | .panic => (vm, .panic, head)
  else if inst = BPF_LDX then
    match vm.ldxValue data curr with
    | .ok v => ({ vm with idx := v }, .ok none, head ++ [lineIdx v])
    | .err e => (vm, .err e, head)
    | .panic => (vm, .panic, head)
  else if inst = BPF_ST then
    if h : curr.k.toNat < MEMSIZE then ({ vm with mem := vm.mem.set curr.k.toNat vm.acc }, .ok none, head) else (vm, .panic, head)
  else if inst = BPF_STX then
    if h : curr.k.toNat < MEMSIZE then ({ vm with mem := vm.mem.set curr.k.toNat vm.idx }, .ok none, head) else (vm, .panic, head)
  else if inst = BPF_ALU then
    match vm.aluL b curr with
    | (.ok v, l) => ({ vm with acc := v }, .ok none, head ++ l)
    | (.err e, l) => (vm, .err e, head ++ l)
    | (.panic, l) => (vm, .panic, head ++ l)
  else if inst = BPF_JMP then
    match vm.jumpL curr with
    | (.ok n, l) => ({ vm with pc := vm.pc + n }, .ok none, head ++ l)
    | (.err e, l) => (vm, .err e, head ++ l)
    | (.panic, l) => (vm, .panic, head ++ l)
  else if inst = BPF_RET then
    match vm.fetchSrcL (curr.code &&& 0x18#16) curr with
    | (.ok v, l) => (vm, .ok (some v), head ++ l ++ [info ("Executing RET with 0x" ++ hex v.toNat)])
    | (.err e, l) => (vm, .err e, head ++ l)
    | (.panic, l) => (vm, .panic, head ++ l)
  else if inst = BPF_MISC then (vm, .err (.UnsupportedInstruction (curr.code &&& 0x7#16)), head)
  else (vm, .err (.UnknownInstruction (curr.code &&& 0x7#16)), head)

/-- `BpfVM::execute`, bpfvm/src/vm.rs:106-261. -/
def VM.executeL (b : Build) (vm : VM) (data : RunData) : VM × Res Error (Option (BitVec 32)) × List Line :=
  match vm.prog[vm.pc]? with
  | none => (vm, .panic, [])
  | some curr =>
    let r := VM.executeInstrL b { vm with pc := vm.pc + 1 } data curr
    (r.1, r.2.1, lineExecuting vm.pc curr :: r.2.2)

/-- The `while` loop of `run`, bpfvm/src/vm.rs:268-275; `out` is what has been logged before. -/
def VM.loopL (b : Build) (vm : VM) (data : RunData) (out : List Line) : Option (VM × Res Error (BitVec 32) × List Line) :=
  if vm.pc < vm.prog.length then
    match vm.executeL b data with
    | (vm', .ok none, l) => VM.loopL b vm' data (out ++ l)
    | (vm', .ok (some r), l) => some (vm', .ok r, out ++ l ++ [lineReturned r])
    | (vm', .err e, l) => some (vm', .err e, out ++ l)
    | (vm', .panic, l) => some (vm', .panic, out ++ l)
  else some (vm, .ok 0, out)
partial_fixpoint

/-- `BpfVM::run`, bpfvm/src/vm.rs:263-276. -/
def VM.runL (b : Build) (vm : VM) (data : RunData) : Option (VM × Res Error (BitVec 32) × List Line) :=
  VM.loopL b vm.reset data [lineStart]

end Bpfvm
