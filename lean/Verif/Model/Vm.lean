import Verif.Model.Bpf

/-!
# bpfvm/src/vm.rs: the classic BPF virtual machine
-/
set_option autoImplicit false

namespace Bpfvm
open Libc

/-- bpfvm/src/vm.rs:24. -/
abbrev MEMSIZE : Nat := BPF_MEMWORDS

/-- `struct BpfVM`, bpfvm/src/vm.rs:26-32. `pc : usize` is a `Nat`: it stays below `prog.len() + 1 + 2^32`, far from 2^64. -/
structure VM where
  pc : Nat
  acc : BitVec 32
  idx : BitVec 32
  mem : Vector (BitVec 32) MEMSIZE
  prog : List SockFilter
  deriving DecidableEq

/-- `RunData`, bpfvm/src/lib.rs:29: a slice of words. -/
abbrev RunData := List (BitVec 32)

/-- `fetch_u32`, bpfvm/src/vm.rs:34-38. Indexing past the end panics. -/
def fetchU32 (data : RunData) (off : Nat) : Res Error (BitVec 32) :=
  match data[off / 4]? with
  | some w => .ok w
  | none => .panic

/-- `fetch_u16`, bpfvm/src/vm.rs:40-43. -/
def fetchU16 (_data : RunData) (_off : Nat) : Res Error (BitVec 32) := .err .UnsupportedDataOffset

/-- `fetch_u8`, bpfvm/src/vm.rs:45-48. -/
def fetchU8 (_data : RunData) (_off : Nat) : Res Error (BitVec 32) := .err .UnsupportedDataOffset

/-- `fetch_data`, bpfvm/src/vm.rs:50-57. -/
def fetchData (data : RunData) (off : Nat) (size : BitVec 16) : Res Error (BitVec 32) :=
  let s := size.setWidth 32
  if s = BPF_W then fetchU32 data off
  else if s = BPF_H then fetchU16 data off
  else if s = BPF_B then fetchU8 data off
  else .err (.InvalidInstructionCode size)

/-- `BpfVM::new`, bpfvm/src/vm.rs:66-78. -/
def VM.new (prog : List SockFilter) : Res Error VM :=
  if prog.length > 65535 then .err (.ProgramTooLong prog.length)
  else .ok { pc := 0, acc := 0, idx := 0, mem := Vector.replicate MEMSIZE 0, prog := prog }

/-- `BpfVM::reset`, bpfvm/src/vm.rs:80-86. Never fails. -/
def VM.reset (vm : VM) : VM :=
  { vm with pc := 0, acc := 0, idx := 0, mem := Vector.replicate MEMSIZE 0 }

/-- `fetch_src`, bpfvm/src/vm.rs:88-104. -/
def VM.fetchSrc (vm : VM) (src : BitVec 16) (curr : SockFilter) : Res Error (BitVec 32) :=
  let s := src.setWidth 32
  if s = BPF_K then .ok curr.k
  else if s = BPF_X then .ok vm.idx
  else if s = BPF_A then .ok vm.acc
  else .err (.InvalidInstructionCode curr.code)

/-- `self.mem[k as usize]` (bpfvm/src/vm.rs:125, 134): reading out of range panics. -/
def VM.readMem (vm : VM) (k : BitVec 32) : Res Error (BitVec 32) :=
  if h : k.toNat < MEMSIZE then .ok vm.mem[k.toNat] else .panic

/-- `u32` subtraction: bpfvm/src/vm.rs:155. -/
def subU32 (b : Build) (x y : BitVec 32) : Res Error (BitVec 32) :=
  if b.overflowChecks ∧ x.toNat < y.toNat then .panic else .ok (x - y)

/-- `u32` division: bpfvm/src/vm.rs:163; division by zero panics in every build. -/
def divU32 (x y : BitVec 32) : Res Error (BitVec 32) :=
  if y = 0 then .panic else .ok (x / y)

/-- `u32` remainder: bpfvm/src/vm.rs:183; by zero panics in every build. -/
def modU32 (x y : BitVec 32) : Res Error (BitVec 32) :=
  if y = 0 then .panic else .ok (x % y)

/-- `u32 << u32`: bpfvm/src/vm.rs:175; a shift of 32 or more panics with overflow checks, else the amount is masked. -/
def shlU32 (b : Build) (x y : BitVec 32) : Res Error (BitVec 32) :=
  if b.overflowChecks ∧ 32 ≤ y.toNat then .panic else .ok (x <<< (y.toNat % 32))

/-- `u32 >> u32`: bpfvm/src/vm.rs:179. -/
def shrU32 (b : Build) (x y : BitVec 32) : Res Error (BitVec 32) :=
  if b.overflowChecks ∧ 32 ≤ y.toNat then .panic else .ok (x >>> (y.toNat % 32))

/-- The value loaded into the accumulator, bpfvm/src/vm.rs:121-128. -/
def VM.ldValue (b : Build) (vm : VM) (data : RunData) (curr : SockFilter) : Res Error (BitVec 32) :=
  let size := curr.code &&& 0x18#16
  let mode := (curr.code &&& 0xe0#16).setWidth 32
  if mode = BPF_IMM then .ok curr.k
  else if mode = BPF_ABS then fetchData data curr.k.toNat size
  else if mode = BPF_IND then (addU32 b vm.idx curr.k).bind fun off => fetchData data off.toNat size
  else if mode = BPF_MEM then vm.readMem curr.k
  else if mode = BPF_LEN then .ok (BitVec.ofNat 32 data.length)
  else .err (.InvalidInstructionCode curr.code)

/-- The value loaded into the index register, bpfvm/src/vm.rs:132-137. -/
def VM.ldxValue (vm : VM) (data : RunData) (curr : SockFilter) : Res Error (BitVec 32) :=
  let mode := (curr.code &&& 0xe0#16).setWidth 32
  if mode = BPF_IMM then .ok curr.k
  else if mode = BPF_MEM then vm.readMem curr.k
  else if mode = BPF_LEN then .ok (BitVec.ofNat 32 data.length)
  else .err (.InvalidInstructionCode curr.code)

/-- The new accumulator of an ALU instruction, bpfvm/src/vm.rs:147-194. -/
def VM.aluValue (b : Build) (vm : VM) (curr : SockFilter) : Res Error (BitVec 32) :=
  let inst := curr.code &&& 0x7#16
  let op := (curr.code &&& 0xf0#16).setWidth 32
  (vm.fetchSrc (curr.code &&& 0x08#16) curr).bind fun sval =>
  if op = BPF_ADD then addU32 b vm.acc sval
  else if op = BPF_SUB then subU32 b vm.acc sval
  else if op = BPF_MUL then mulU32 b vm.acc sval
  else if op = BPF_DIV then divU32 vm.acc sval
  else if op = BPF_OR then .ok (vm.acc ||| sval)
  else if op = BPF_AND then .ok (vm.acc &&& sval)
  else if op = BPF_LSH then shlU32 b vm.acc sval
  else if op = BPF_RSH then shrU32 b vm.acc sval
  else if op = BPF_MOD then modU32 vm.acc sval
  else if op = BPF_XOR then .ok (vm.acc ^^^ sval)
  else if op = BPF_NEG then .err (.UnsupportedInstruction (BPF_NEG.setWidth 16))
  else .err (.UnknownInstruction inst)

/-- The amount a jump instruction adds to the (already incremented) pc, bpfvm/src/vm.rs:197-248. -/
def VM.jumpAmount (vm : VM) (curr : SockFilter) : Res Error Nat :=
  let inst := curr.code &&& 0x7#16
  let op := (curr.code &&& 0xf0#16).setWidth 32
  if op = BPF_JA then .ok curr.k.toNat
  else if op = BPF_JEQ then .ok (if vm.acc = curr.k then curr.jt.toNat else curr.jf.toNat)
  else if op = BPF_JGT then .ok (if vm.acc > curr.k then curr.jt.toNat else curr.jf.toNat)
  else if op = BPF_JGE then .ok (if vm.acc ≥ curr.k then curr.jt.toNat else curr.jf.toNat)
  else if op = BPF_JSET then .ok (if (vm.acc &&& curr.k) > 0 then curr.jt.toNat else curr.jf.toNat)
  else .err (.UnknownInstruction inst)

/-- What `execute` does with the fetched instruction `curr` once `pc` has been incremented, bpfvm/src/vm.rs:112-260.
Returns the machine after the call (also on `Err`, because the caller keeps it) and the result. -/
def VM.executeInstr (b : Build) (vm : VM) (data : RunData) (curr : SockFilter) : VM × Res Error (Option (BitVec 32)) :=
  let inst := (curr.code &&& 0x7#16).setWidth 32
  if inst = BPF_LD then
    match vm.ldValue b data curr with
    | .ok v => ({ vm with acc := v }, .ok none)
    | .err e => (vm, .err e)
    | .panic => (vm, .panic)
  else if inst = BPF_LDX then
    match vm.ldxValue data curr with
    | .ok v => ({ vm with idx := v }, .ok none)
    | .err e => (vm, .err e)
    | .panic => (vm, .panic)
  else if inst = BPF_ST then
    if h : curr.k.toNat < MEMSIZE then ({ vm with mem := vm.mem.set curr.k.toNat vm.acc }, .ok none) else (vm, .panic)
  else if inst = BPF_STX then
    if h : curr.k.toNat < MEMSIZE then ({ vm with mem := vm.mem.set curr.k.toNat vm.idx }, .ok none) else (vm, .panic)
  else if inst = BPF_ALU then
    match vm.aluValue b curr with
    | .ok v => ({ vm with acc := v }, .ok none)
    | .err e => (vm, .err e)
    | .panic => (vm, .panic)
  else if inst = BPF_JMP then
    match vm.jumpAmount curr with
    | .ok n => ({ vm with pc := vm.pc + n }, .ok none)
    | .err e => (vm, .err e)
    | .panic => (vm, .panic)
  else if inst = BPF_RET then
    match vm.fetchSrc (curr.code &&& 0x18#16) curr with
    | .ok v => (vm, .ok (some v))
    | .err e => (vm, .err e)
    | .panic => (vm, .panic)
  else if inst = BPF_MISC then (vm, .err (.UnsupportedInstruction (curr.code &&& 0x7#16)))
  else (vm, .err (.UnknownInstruction (curr.code &&& 0x7#16)))

/-- `BpfVM::execute`, bpfvm/src/vm.rs:106-261. `self.prog[self.pc]` panics when `pc` is out of range; otherwise `pc` is
incremented before the instruction is decoded. -/
def VM.execute (b : Build) (vm : VM) (data : RunData) : VM × Res Error (Option (BitVec 32)) :=
  match vm.prog[vm.pc]? with
  | none => (vm, .panic)
  | some curr => VM.executeInstr b { vm with pc := vm.pc + 1 } data curr

/-- The `while` loop of `run`, bpfvm/src/vm.rs:268-275. `none` would be non-termination. -/
def VM.loop (b : Build) (vm : VM) (data : RunData) : Option (VM × Res Error (BitVec 32)) :=
  if vm.pc < vm.prog.length then
    match vm.execute b data with
    | (vm', .ok none) => VM.loop b vm' data
    | (vm', .ok (some r)) => some (vm', .ok r)
    | (vm', .err e) => some (vm', .err e)
    | (vm', .panic) => some (vm', .panic)
  else some (vm, .ok 0)
partial_fixpoint

/-- `BpfVM::run`, bpfvm/src/vm.rs:263-276: reset, then loop. The machine is returned as well because `run` takes
`&mut self`. -/
def VM.run (b : Build) (vm : VM) (data : RunData) : Option (VM × Res Error (BitVec 32)) :=
  VM.loop b vm.reset data

/-- `BpfVM::new(&prog)?.run(data)`, the way the crate's tests use it (src/seccomp.rs:1029). -/
def runProg (b : Build) (prog : List SockFilter) (data : RunData) : Option (Res Error (BitVec 32)) :=
  match VM.new prog with
  | .ok vm => (VM.run b vm data).map Prod.snd
  | .err e => some (.err e)
  | .panic => some .panic

/-- Number of words of the slice that `any_to_data` builds for a value of `size` bytes, bpfvm/src/vm.rs:59-63: the third
argument of `from_raw_parts` is `size_of::<T>()`, taken as a count of `u32` elements. -/
def anyToDataLen (size : Nat) : Nat := size

/-- `any_to_data`, bpfvm/src/vm.rs:59-63, on an object whose words are `obj` (`size_of = 4 * obj.length`) followed in memory
by the words `beyond i`. -/
def anyToData (obj : List (BitVec 32)) (beyond : Nat → BitVec 32) : RunData :=
  let n := anyToDataLen (4 * obj.length)
  obj ++ (List.range (n - obj.length)).map beyond

/-- The address space: a byte at every address. -/
abbrev Memory := Nat → BitVec 8

/-- The little-endian word at an address. -/
def leWord (m : Memory) (a : Nat) : BitVec 32 := m (a + 3) ++ m (a + 2) ++ m (a + 1) ++ m a

/-- `any_to_data`, bpfvm/src/vm.rs:59-63, byte by byte: the slice that starts at the address of a value of `size` bytes. `anyToData`
is this one seen from the value (`Props.C26_memory`). Simplification: every byte can be read (in Rust reading behind the value
is undefined behaviour). -/
def anyToDataAt (m : Memory) (addr size : Nat) : RunData :=
  (List.range (anyToDataLen size)).map fun i => leWord m (addr + 4 * i)

end Bpfvm
