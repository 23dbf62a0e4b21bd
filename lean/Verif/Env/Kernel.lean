import Verif.Model.Seccomp
import Verif.Model.Bpf

/-!
# Environment: the Linux kernel's seccomp filter machinery

Not part of /repo: this is what the library talks to (src/seccomp.rs:997-1012). It is modelled from Linux's
`net/core/filter.c` (`bpf_check_classic`, `check_load_and_stores`, `bpf_convert_filter`) and `kernel/seccomp.c`
(`seccomp_check_filter`, `seccomp_prepare_filter`, `seccomp_run_filters`, `__seccomp_filter`, `do_seccomp`). It belongs to the
trusted base. No tracer, no user-notification listener, no strict mode, no TSYNC. The limit on the total size of a filter stack
(ENOMEM) is one of the `fault`s below.
-/
set_option autoImplicit false

namespace Kernel
open Bpfvm

/-- A filter as handed to the kernel: what src/seccomp.rs:992-995 points at. -/
abbrev Prog := List SockFilter

/-! ## The checker -/

/-- The conditional jumps JEQ, JGT, JGE, JSET, each with K and X operand. -/
def condJumps : List (BitVec 16) := [0x15, 0x1d, 0x25, 0x2d, 0x35, 0x3d, 0x45, 0x4d]

/-- `chk_code_allowed`: ALU (ADD SUB MUL DIV OR AND LSH RSH MOD XOR with K and X, NEG), LD (ABS and IND in three sizes, LEN,
IMM, MEM), LDX (LEN, MSH, IMM, MEM), ST, STX, TAX, TXA, RET K, RET A, JA, and the conditional jumps. -/
def classicCodes : List (BitVec 16) :=
  [0x04, 0x0c, 0x14, 0x1c, 0x24, 0x2c, 0x34, 0x3c, 0x44, 0x4c, 0x54, 0x5c, 0x64, 0x6c, 0x74, 0x7c, 0x94, 0x9c, 0xa4, 0xac, 0x84,
   0x20, 0x28, 0x30, 0x40, 0x48, 0x50, 0x80, 0x00, 0x60, 0x81, 0xb1, 0x01, 0x61, 0x02, 0x03, 0x07, 0x87, 0x06, 0x16, 0x05]
  ++ condJumps

/-- The per-instruction part of `bpf_check_classic` for instruction `i` at position `pc` of a program of `flen` instructions.
Simplification: the special treatment of ancillary loads is left out, because `seccompInstrOK` refuses all of them. -/
def instrOK (flen pc : Nat) (i : SockFilter) : Bool :=
  classicCodes.contains i.code &&
  (if i.code ∈ [0x34#16, 0x94#16] then decide (i.k ≠ 0)
   else if i.code ∈ [0x64#16, 0x74#16] then decide (i.k.toNat < 32)
   else if i.code ∈ [0x60#16, 0x61#16, 0x02#16, 0x03#16] then decide (i.k.toNat < 16)
   else if i.code = 0x05#16 then decide (i.k.toNat < flen - pc - 1)
   else if i.code ∈ condJumps then decide (pc + i.jt.toNat + 1 < flen) && decide (pc + i.jf.toNat + 1 < flen)
   else true)

/-- The loop of `bpf_check_classic` over the program from position `pc`. -/
def classicFrom (flen pc : Nat) : Prog → Bool
  | [] => true
  | i :: rest => instrOK flen pc i && classicFrom flen (pc + 1) rest

/-- "Last instruction must be a RET code". -/
def endsInRet (p : Prog) : Bool :=
  match p.getLast? with
  | some i => i.code == 0x06#16 || i.code == 0x16#16
  | none => false

/-- `masks[t] &= m`. -/
def andMask (masks : Nat → BitVec 16) (t : Nat) (m : BitVec 16) : Nat → BitVec 16 :=
  fun j => if j = t then masks j &&& m else masks j

/-- `check_load_and_stores`: every memory cell that is loaded has been stored on every path. -/
def memFrom (pc : Nat) (masks : Nat → BitVec 16) (memvalid : BitVec 16) : Prog → Bool
  | [] => true
  | i :: rest =>
    let mv := memvalid &&& masks pc
    if i.code ∈ [0x02#16, 0x03#16] then memFrom (pc + 1) masks (mv ||| (1#16 <<< i.k.toNat)) rest
    else if i.code ∈ [0x60#16, 0x61#16] then
      decide (mv &&& (1#16 <<< i.k.toNat) ≠ 0) && memFrom (pc + 1) masks mv rest
    else if i.code = 0x05#16 then memFrom (pc + 1) (andMask masks (pc + 1 + i.k.toNat) mv) (~~~0) rest
    else if i.code ∈ condJumps then
      memFrom (pc + 1) (andMask (andMask masks (pc + 1 + i.jt.toNat) mv) (pc + 1 + i.jf.toNat) mv) (~~~0) rest
    else memFrom (pc + 1) masks mv rest

/-- `seccomp_check_filter`, per instruction: word loads inside the 64-byte record and aligned; otherwise an explicit list
(no MOD, no IND, no MSH, no half-word or byte loads). -/
def seccompInstrOK (i : SockFilter) : Bool :=
  if i.code = 0x20#16 then decide (i.k.toNat < 64) && decide (i.k.toNat % 4 = 0)
  else ([0x80, 0x81, 0x06, 0x16, 0x04, 0x0c, 0x14, 0x1c, 0x24, 0x2c, 0x34, 0x3c, 0x44, 0x4c, 0x54, 0x5c, 0x64, 0x6c, 0x74, 0x7c,
    0xa4, 0xac, 0x84, 0x00, 0x01, 0x07, 0x87, 0x60, 0x61, 0x02, 0x03, 0x05] ++ condJumps : List (BitVec 16)).contains i.code

/-- BPF_MAXINSNS. -/
def maxInsns : Nat := 4096

/-- All checks on a filter: `bpf_check_classic` then `seccomp_check_filter`; the length test comes first. -/
def accepts (p : Prog) : Bool :=
  decide (1 ≤ p.length) && decide (p.length ≤ maxInsns) && classicFrom p.length 0 p && endsInRet p &&
  memFrom 0 (fun _ => ~~~0) 0 p && p.all seccompInstrOK

/-! ## The interpreter -/

/-- Machine registers and scratch memory. -/
structure Regs where
  pc : Nat
  A : BitVec 32
  X : BitVec 32
  M : Nat → BitVec 32

/-- Result of one instruction. -/
inductive Step where
  | next (r : Regs)
  | done (v : BitVec 32)
  | bad

/-- ALU operation number (code & 0xf0) on accumulator and operand: 32-bit, wrapping; shift amounts are taken modulo 32.
`none`: division by zero, which makes the filter return 0. -/
def alu (op : Nat) (a s : BitVec 32) : Option (Option (BitVec 32)) :=
  match op with
  | 0x00 => some (some (a + s))
  | 0x10 => some (some (a - s))
  | 0x20 => some (some (a * s))
  | 0x30 => some (if s = 0 then none else some (a / s))
  | 0x40 => some (some (a ||| s))
  | 0x50 => some (some (a &&& s))
  | 0x60 => some (some (a <<< (s.toNat % 32)))
  | 0x70 => some (some (a >>> (s.toNat % 32)))
  | 0x80 => some (some (-a))
  | 0x90 => some (if s = 0 then none else some (a % s))
  | 0xa0 => some (some (a ^^^ s))
  | _ => none

/-- Condition of a conditional jump (code & 0xf0). -/
def cond (op : Nat) (a s : BitVec 32) : Option Bool :=
  match op with
  | 0x10 => some (decide (a = s))
  | 0x20 => some (decide (s < a))
  | 0x30 => some (decide (s ≤ a))
  | 0x40 => some (decide (a &&& s ≠ 0))
  | _ => none

/-- One instruction, on the record `w` (sixteen words). -/
def step (w : List (BitVec 32)) (i : SockFilter) (r : Regs) : Step :=
  let c := i.code.toNat
  let r' := { r with pc := r.pc + 1 }
  let src := if c &&& 0x08 = 0 then i.k else r.X
  match c &&& 0x07 with
  | 0 => -- LD
    match c &&& 0xe0 with
    | 0x00 => .next { r' with A := i.k }
    | 0x20 => match w[i.k.toNat / 4]? with
              | some v => .next { r' with A := v }
              | none => .bad
    | 0x60 => .next { r' with A := r.M i.k.toNat }
    | 0x80 => .next { r' with A := 64 }
    | _ => .bad
  | 1 => -- LDX
    match c &&& 0xe0 with
    | 0x00 => .next { r' with X := i.k }
    | 0x60 => .next { r' with X := r.M i.k.toNat }
    | 0x80 => .next { r' with X := 64 }
    | _ => .bad
  | 2 => .next { r' with M := fun j => if j = i.k.toNat then r.A else r.M j }
  | 3 => .next { r' with M := fun j => if j = i.k.toNat then r.X else r.M j }
  | 4 => -- ALU
    match alu (c &&& 0xf0) r.A src with
    | some (some v) => .next { r' with A := v }
    | some none => .done 0
    | none => .bad
  | 5 => -- JMP
    if c &&& 0xf0 = 0 then .next { r with pc := r.pc + 1 + i.k.toNat }
    else match cond (c &&& 0xf0) r.A src with
      | some b => .next { r with pc := r.pc + 1 + (if b then i.jt.toNat else i.jf.toNat) }
      | none => .bad
  | 6 => -- RET
    match c &&& 0x18 with
    | 0x00 => .done i.k
    | 0x10 => .done r.A
    | _ => .bad
  | _ => -- MISC
    match c &&& 0xf8 with
    | 0x00 => .next { r' with X := r.A }
    | 0x80 => .next { r' with A := r.X }
    | _ => .bad

/-- Run from the given registers. `none`: not terminating, or leaving the program, or an undefined instruction. -/
def runFrom (p : Prog) (w : List (BitVec 32)) (r : Regs) : Option (BitVec 32) :=
  match p[r.pc]? with
  | none => none
  | some i =>
    match step w i r with
    | .next r' => runFrom p w r'
    | .done v => some v
    | .bad => none
partial_fixpoint

/-- Run a filter on a record. `A` and `X` start as zero, the scratch memory holds whatever was there before (`m0`). -/
def run (m0 : Nat → BitVec 32) (p : Prog) (w : List (BitVec 32)) : Option (BitVec 32) :=
  runFrom p w { pc := 0, A := 0, X := 0, M := m0 }

/-! ## Verdicts of a filter stack -/

/-- `ACTION_ONLY`: the upper sixteen bits, as a signed number. -/
def actionOnly (ret : BitVec 32) : Int := (ret &&& 0xffff0000#32).toInt

/-- `seccomp_run_filters` on the stack (newest filter first): the lowest action wins; the newest filter wins among equals.
A `none` run (impossible for accepted filters) counts as 0. -/
def runFilters (stack : List Prog) (d : SeccompData) : BitVec 32 :=
  stack.foldl (fun ret f =>
    let cur := (run (fun _ => 0) f d.words).getD 0
    if actionOnly cur < actionOnly ret then cur else ret) 0x7fff0000#32

/-- What happens to the system call. -/
inductive Outcome where
  /-- the call is executed -/
  | executed
  /-- the call is skipped and returns `-n` -/
  | errno (n : Nat)
  /-- the call is skipped, SIGSYS is delivered (the process dies unless it has a handler) -/
  | trap
  | killThread
  | killProcess
  deriving DecidableEq, Repr

/-- `__seccomp_filter` on the combined return value. -/
def outcome (ret : BitVec 32) : Outcome :=
  let action := ret &&& 0xffff0000#32
  if action = 0x00050000#32 then .errno (min (ret &&& 0xffff#32).toNat 4095)
  else if action = 0x00030000#32 then .trap
  else if action = 0x7ff00000#32 then .errno 38        -- TRACE without tracer: ENOSYS
  else if action = 0x7fc00000#32 then .errno 38        -- USER_NOTIF without listener: ENOSYS
  else if action = 0x7ffc0000#32 then .executed        -- LOG
  else if action = 0x7fff0000#32 then .executed        -- ALLOW
  else if action = 0x00000000#32 then .killThread
  else .killProcess                                 -- KILL_PROCESS and unknown actions

/-! ## Threads and the two prctl calls -/

/-- What matters of a thread. `admin`: CAP_SYS_ADMIN in its user namespace. `filters`: newest first. -/
structure Thread where
  pid : BitVec 32
  tid : BitVec 32
  filters : List Prog
  nnp : Bool
  admin : Bool
  alive : Bool

/-- The fate of the system call `d` made by `t`. -/
def enter (t : Thread) (d : SeccompData) : Outcome := outcome (runFilters t.filters d)

/-- Return value of a system call, or the way the thread died in it. -/
inductive CallRes where
  | ret (v : Int)
  | dead (o : Outcome)
  deriving DecidableEq

def EINVAL : Nat := 22
def EACCES : Nat := 13

/-- A system call passes the filters first; `body` is what the kernel does if it is executed. `handler`: the value that the
program's SIGSYS handler leaves in the result register, or `none` if there is no handler. -/
def syscall (handler : Option Int) (t : Thread) (d : SeccompData) (body : Thread → Thread × Int) : Thread × CallRes :=
  match enter t d with
  | .executed => let r := body t; (r.1, .ret r.2)
  | .errno n => (t, .ret (-(n : Int)))
  | .trap => match handler with
    | some v => (t, .ret v)
    | none => (t, .dead .trap)
  | o => (t, .dead o)

/-- A failure for a reason outside the model: the error number minus one. The kernel's error numbers go from 1 to MAX_ERRNO = 4095. -/
abbrev Fault := Fin 4095

/-- Body of `prctl(PR_SET_NO_NEW_PRIVS, 1, 0, 0, 0)`; `fault`: failure for a reason outside the model. -/
def setNnp (fault : Option Fault) (t : Thread) : Thread × Int :=
  match fault with
  | some e => (t, -((e.val : Int) + 1))
  | none => ({ t with nnp := true }, 0)

/-- Body of `prctl(PR_SET_SECCOMP, SECCOMP_MODE_FILTER, fprog)` for the `len` instructions the kernel reads. -/
def setSeccomp (fault : Option Fault) (p : Prog) (t : Thread) : Thread × Int :=
  match fault with
  | some e => (t, -((e.val : Int) + 1))
  | none =>
    if p.length = 0 ∨ maxInsns < p.length then (t, -EINVAL)
    else if t.nnp = false ∧ t.admin = false then (t, -EACCES)
    else if accepts p = false then (t, -EINVAL)
    else ({ t with filters := p :: t.filters }, 0)

end Kernel
