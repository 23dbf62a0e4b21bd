import Verif.Props.Offline

/-!
# The repository's own tests, evaluated in the model

Every unit test of bpfvm/src/{asm,bpf,vm,seccomp}.rs and src/seccomp.rs, and every integration test of tests/lib.rs reduced to the system
calls it makes, gives in the model the result that the test asserts. These are checks of the transcription (evaluations of literals), not
claims of the property list.
-/
set_option autoImplicit false
set_option maxRecDepth 4000

namespace Conform
open Bpfvm Pledge Libc Spec Props

/-- `let mut vm = BpfVM::new(&prog).unwrap(); vm.run(&data).unwrap()` gives `r`. -/
def Gives (b : Build) (prog : List SockFilter) (data : RunData) (r : BitVec 32) : Prop := runProg b prog data = some (.ok r)

theorem gives (prog : List SockFilter) (data : RunData) (r : BitVec 32) (hl : prog.length ≤ 65535)
    (h : ∀ o, (loopFuel ⟨o⟩ data prog.length ⟨0, 0, 0, Vector.replicate MEMSIZE 0, prog⟩).2 = .ok r) (b : Build) : Gives b prog data r := by
  unfold Gives
  rw [runProg_fuel b data prog hl, h b.overflowChecks]

/-- `compile(&asm).unwrap()` gives a program that gives `r`. -/
def AsmGives (b : Build) (asm : List Operation) (data : RunData) (r : BitVec 32) : Prop :=
  ∃ prog, compile b asm = .ok prog ∧ Gives b prog data r

/-! ## bpfvm/src/asm.rs -/

/-- bpfvm/src/asm.rs:121-133. -/
theorem asm_test_simple_jump (b : Build) : AsmGives b
    [.JumpTo "FAIL", .Label "OK", .Return .Const 0, .Label "FAIL", .Return .Const 99] [] 99 := by
  obtain ⟨o⟩ := b
  cases o
  · exact ⟨_, rfl, gives _ _ _ (by decide) (by decide +kernel) _⟩
  · exact ⟨_, rfl, gives _ _ _ (by decide) (by decide +kernel) _⟩

/-- bpfvm/src/asm.rs:136-152. -/
theorem asm_test_ld_gt_ret (b : Build) : AsmGives b
    [.Load .IMM 99, .Jump .JGT 98 (some "ret_acc") (some "ret999"), .Label "ret999", .Load .IMM 999, .Label "ret_acc", .Return .Acc 0] []
    99 := by
  obtain ⟨o⟩ := b
  cases o
  · exact ⟨_, rfl, gives _ _ _ (by decide) (by decide +kernel) _⟩
  · exact ⟨_, rfl, gives _ _ _ (by decide) (by decide +kernel) _⟩

/-- The program of bpfvm/src/asm.rs:186-239. -/
def cosmoSocket : List Operation :=
  [.Load .ABS (FieldOffset.offset .Syscall), .Jump .JEQ 41 none (some "REJECT"),
   .Load .ABS (FieldOffset.offset (.ArgLower 0)), .Jump .JEQ 2 (some "Type_Check") none, .Jump .JEQ 10 (some "Type_Check") (some "REJECT"),
   .Label "Type_Check", .Load .ABS (FieldOffset.offset (.ArgLower 1)), .Alu .AND .Const (~~~0x80800#32),
   .Jump .JEQ 1 (some "Proto_Check") none, .Jump .JEQ 2 (some "Proto_Check") (some "REJECT"),
   .Label "Proto_Check", .Load .ABS (FieldOffset.offset (.ArgLower 2)), .Jump .JEQ 0 (some "ALLOW") none,
   .Jump .JEQ 1 (some "ALLOW") none, .Jump .JEQ 6 (some "ALLOW") none, .Jump .JEQ 17 (some "ALLOW") none,
   .JumpTo "REJECT", .Label "ALLOW", .Return .Const 0, .Label "REJECT", .Return .Const 99]

/-- bpfvm/src/asm.rs:180-275: open is rejected, a TCP socket accepted. -/
theorem asm_test_cosmo_socket_filter (b : Build) :
    AsmGives b cosmoSocket (anyToData { mkCall 2 [] with arch := 0 }.words fun _ => 0xdead) 99 ∧
    AsmGives b cosmoSocket (anyToData { mkCall 41 [2, 0x801, 6] with arch := 0 }.words fun _ => 0xdead) 0 := by
  obtain ⟨o⟩ := b
  cases o
  · exact ⟨⟨_, rfl, gives _ _ _ (by decide) (by decide +kernel) _⟩, ⟨_, rfl, gives _ _ _ (by decide) (by decide +kernel) _⟩⟩
  · exact ⟨⟨_, rfl, gives _ _ _ (by decide) (by decide +kernel) _⟩, ⟨_, rfl, gives _ _ _ (by decide) (by decide +kernel) _⟩⟩

/-! ## bpfvm/src/bpf.rs and bpfvm/src/vm.rs -/

/-- bpfvm/src/bpf.rs:147-153. -/
theorem bpf_test_ret (b : Build) : Gives b [bpf_ret .Const 99] [] 99 := gives _ _ _ (by decide) (by decide +kernel) b

/-- bpfvm/src/bpf.rs:156-165. -/
theorem bpf_test_load_and_ret (b : Build) : Gives b [bpf_ld .IMM 99, bpf_ret .Acc 0] [] 99 :=
  gives _ _ _ (by decide) (by decide +kernel) b

/-- bpfvm/src/bpf.rs:168-177. -/
theorem bpf_test_load_data (b : Build) : Gives b [bpf_ld .ABS 4, bpf_ret .Acc 0] [0, 0xffffffff] 0xffffffff :=
  gives _ _ _ (by decide) (by decide +kernel) b

/-- bpfvm/src/bpf.rs:180-195. -/
theorem bpf_test_alu_mask (b : Build) :
    Gives b [bpf_ld .ABS 8, bpf_stmt (BPF_ALU ||| BPF_AND ||| BPF_K) 0xf0, bpf_ret .Acc 0] [0, 0, 0xff, 0] 0xf0 ∧
    Gives b [bpf_ld .ABS 8, bpf_stmt (BPF_ALU ||| BPF_AND ||| BPF_K) 0xf0, bpf_ret .Acc 0] [0, 0, 0x80, 0] 0x80 :=
  ⟨gives _ _ _ (by decide) (by decide +kernel) b, gives _ _ _ (by decide) (by decide +kernel) b⟩

/-- bpfvm/src/bpf.rs:198-209. -/
theorem bpf_test_alu_mul (b : Build) : Gives b [bpf_ld .ABS 8, bpf_alu .MUL .Const 2, bpf_ret .Acc 0] [0, 0, 8, 0] 16 :=
  gives _ _ _ (by decide) (by decide +kernel) b

/-- bpfvm/src/bpf.rs:212-224. -/
theorem bpf_test_ld_ja_ret (b : Build) : Gives b [bpf_ld .IMM 99, bpf_jmp .JA 1 0 0, bpf_ld .IMM 999, bpf_ret .Acc 0] [] 99 :=
  gives _ _ _ (by decide) (by decide +kernel) b

/-- bpfvm/src/bpf.rs:227-239. -/
theorem bpf_test_ld_gt_ret (b : Build) : Gives b [bpf_ld .IMM 99, bpf_jmp .JGT 98 1 0, bpf_ld .IMM 999, bpf_ret .Acc 0] [] 99 :=
  gives _ _ _ (by decide) (by decide +kernel) b

/-- The record of bpfvm/src/bpf.rs:243-248. -/
def record : SeccompData := ⟨1, 2, 3, fun i => BitVec.ofNat 64 (4 + i)⟩

/-- The program of bpfvm/src/bpf.rs:251-307 (the same words as in bpfvm/src/vm.rs). -/
def dataConv : List SockFilter :=
  [bpf_stmt (BPF_LD ||| BPF_ABS ||| BPF_W) (0 * 4), bpf_jmp .JEQ 1 1 0, bpf_stmt (BPF_RET ||| BPF_K) 100,
   bpf_stmt (BPF_LD ||| BPF_ABS ||| BPF_W) (1 * 4), bpf_jmp .JEQ 2 1 0, bpf_stmt (BPF_RET ||| BPF_K) 101,
   bpf_stmt (BPF_LD ||| BPF_ABS ||| BPF_W) (2 * 4), bpf_jmp .JEQ 3 1 0, bpf_stmt (BPF_RET ||| BPF_K) 102,
   bpf_stmt (BPF_LD ||| BPF_ABS ||| BPF_W) (3 * 4), bpf_jmp .JEQ 0 1 0, bpf_stmt (BPF_RET ||| BPF_K) 103,
   bpf_stmt (BPF_LD ||| BPF_ABS ||| BPF_W) (4 * 4), bpf_jmp .JEQ 4 1 0, bpf_stmt (BPF_RET ||| BPF_K) 104,
   bpf_stmt (BPF_LD ||| BPF_ABS ||| BPF_W) (5 * 4), bpf_jmp .JEQ 0 1 0, bpf_stmt (BPF_RET ||| BPF_K) 105,
   bpf_stmt (BPF_LD ||| BPF_ABS ||| BPF_W) (6 * 4), bpf_jmp .JEQ 5 1 0, bpf_stmt (BPF_RET ||| BPF_K) 106,
   bpf_stmt (BPF_LD ||| BPF_ABS ||| BPF_W) (7 * 4), bpf_jmp .JEQ 0 1 0, bpf_stmt (BPF_RET ||| BPF_K) 107,
   bpf_stmt (BPF_LD ||| BPF_ABS ||| BPF_W) (8 * 4), bpf_jmp .JEQ 6 1 0, bpf_stmt (BPF_RET ||| BPF_K) 108,
   bpf_stmt (BPF_LD ||| BPF_ABS ||| BPF_W) (9 * 4), bpf_jmp .JEQ 0 1 0, bpf_stmt (BPF_RET ||| BPF_K) 109,
   bpf_stmt (BPF_LD ||| BPF_ABS ||| BPF_W) (10 * 4), bpf_jmp .JEQ 7 1 0, bpf_stmt (BPF_RET ||| BPF_K) 110,
   bpf_stmt (BPF_LD ||| BPF_ABS ||| BPF_W) (11 * 4), bpf_jmp .JEQ 0 1 0, bpf_stmt (BPF_RET ||| BPF_K) 111,
   bpf_stmt (BPF_LD ||| BPF_ABS ||| BPF_W) (12 * 4), bpf_jmp .JEQ 8 1 0, bpf_stmt (BPF_RET ||| BPF_K) 112,
   bpf_stmt (BPF_LD ||| BPF_ABS ||| BPF_W) (13 * 4), bpf_jmp .JEQ 0 1 0, bpf_stmt (BPF_RET ||| BPF_K) 113,
   bpf_stmt (BPF_LD ||| BPF_ABS ||| BPF_W) (14 * 4), bpf_jmp .JEQ 9 1 0, bpf_stmt (BPF_RET ||| BPF_K) 114,
   bpf_stmt (BPF_RET ||| BPF_K) 0]

/-- bpfvm/src/bpf.rs:242-312. -/
theorem bpf_test_seccomp_data_conv (b : Build) : Gives b dataConv (anyToData record.words fun _ => 0xdead) 0 :=
  gives _ _ _ (by decide) (by decide +kernel) b

/-- bpfvm/src/vm.rs:304-397: the same tests with instruction words put together by hand. -/
theorem vm_tests (b : Build) :
    Gives b [bpf_stmt (BPF_RET ||| BPF_K) 99] [] 99 ∧
    Gives b [bpf_stmt (BPF_LD ||| BPF_K) 99, bpf_stmt (BPF_RET ||| BPF_A) 0] [] 99 ∧
    Gives b [bpf_stmt (BPF_LD ||| BPF_ABS ||| BPF_W) 4, bpf_stmt (BPF_RET ||| BPF_A) 0] [0, 0xffffffff] 0xffffffff ∧
    Gives b [bpf_stmt (BPF_LD ||| BPF_ABS ||| BPF_W) 8, bpf_stmt (BPF_ALU ||| BPF_MUL ||| BPF_K) 2, bpf_stmt (BPF_RET ||| BPF_A) 0]
      [0, 0, 8, 0] 16 ∧
    Gives b [bpf_stmt (BPF_LD ||| BPF_K) 99, bpf_stmt (BPF_JMP ||| BPF_JA) 1, bpf_stmt (BPF_LD ||| BPF_K) 999,
      bpf_stmt (BPF_RET ||| BPF_A) 0] [] 99 ∧
    Gives b [bpf_stmt (BPF_LD ||| BPF_K) 99, ⟨(BPF_JMP ||| BPF_JGT).setWidth 16, 1, 0, 98⟩, bpf_stmt (BPF_LD ||| BPF_K) 999,
      bpf_stmt (BPF_RET ||| BPF_A) 0] [] 99 := by
  refine ⟨?_, ?_, ?_, ?_, ?_, ?_⟩ <;> exact gives _ _ _ (by decide) (by decide +kernel) b

/-! ## bpfvm/src/seccomp.rs -/

/-- The program of bpfvm/src/seccomp.rs:144-178. -/
def offsetsAsm : List Operation :=
  [.Load .ABS (FieldOffset.offset .Syscall), .Jump .JEQ 0xffffffff none (some "FAIL"),
   .Load .ABS (FieldOffset.offset .Arch), .Jump .JEQ 0xeeeeeeee none (some "FAIL"),
   .Load .ABS (FieldOffset.offset .InstrPointerUpper), .Jump .JEQ 0xcccccccc none (some "FAIL"),
   .Load .ABS (FieldOffset.offset .InstrPointerLower), .Jump .JEQ 0xdddddddd none (some "FAIL"),
   .Load .ABS (FieldOffset.offset (.ArgLower 0)), .Jump .JEQ 0x11111111 none (some "FAIL"),
   .Load .ABS (FieldOffset.offset (.ArgUpper 0)), .Jump .JEQ 0 none (some "FAIL"),
   .Load .ABS (FieldOffset.offset (.ArgLower 1)), .Jump .JEQ 0x22222222 none (some "FAIL"),
   .Load .ABS (FieldOffset.offset (.ArgUpper 2)), .Jump .JEQ 0x33333333 none (some "FAIL"),
   .Load .ABS (FieldOffset.offset (.ArgLower 2)), .Jump .JEQ 0x44444444 none (some "FAIL"),
   .Load .ABS (FieldOffset.offset (.ArgLower 3)), .Jump .JEQ 0x55555555 none (some "FAIL"),
   .Load .ABS (FieldOffset.offset (.ArgUpper 4)), .Jump .JEQ 0x66666666 none (some "FAIL"),
   .Load .ABS (FieldOffset.offset (.ArgLower 4)), .Jump .JEQ 0x77777777 none (some "FAIL"),
   .Load .ABS (FieldOffset.offset (.ArgLower 5)), .Jump .JEQ 0x88888888 none (some "FAIL"),
   .Label "ALLOW", .Return .Const 0, .Label "FAIL", .Return .Const 99]

/-- bpfvm/src/seccomp.rs:136-200. -/
theorem seccomp_test_offsets (b : Build) :
    AsmGives b offsetsAsm (anyToData (SeccompData.words
      ⟨0xffffffff, 0xeeeeeeee, 0xccccccccdddddddd,
        fun i => [0x11111111#64, 0x22222222, 0x3333333344444444, 0x55555555, 0x6666666677777777, 0x88888888][i]⟩) fun _ => 0xdead) 0 := by
  obtain ⟨o⟩ := b
  cases o
  · exact ⟨_, rfl, gives _ _ _ (by decide) (by decide +kernel) _⟩
  · exact ⟨_, rfl, gives _ _ _ (by decide) (by decide +kernel) _⟩

/-! ## src/seccomp.rs -/

/-- The assertion of the tests in src/seccomp.rs: `run_seccomp(&promises_to_prog(ps, v).unwrap(), d).unwrap() == r`. -/
def Ret (b : Build) (ps : List Promise) (v : SeccompReturn) (d : SeccompData) (r : SeccompReturn) : Prop :=
  ∃ prog, promisesToProg b ⟨100, 101⟩ ps v = .ok prog ∧ runSeccomp b prog (anyToData d.words fun _ => 0xdead) = some (.ok r)

/-- The assertion as a computation. -/
def retEval (b : Build) (ps : List Promise) (v : SeccompReturn) (d : SeccompData) : Option (Res Error SeccompReturn) :=
  match promisesToProg b ⟨100, 101⟩ ps v with
  | .ok prog =>
    if prog.length ≤ 65535 then
      some ((loopFuel b (anyToData d.words fun _ => 0xdead) prog.length ⟨0, 0, 0, Vector.replicate MEMSIZE 0, prog⟩).2.bind
        SeccompReturn.tryFrom)
    else none
  | _ => none

theorem ret (ps : List Promise) (v : SeccompReturn) (d : SeccompData) (r : SeccompReturn)
    (h : ∀ o, retEval ⟨o⟩ ps v d = some (.ok r)) (b : Build) : Ret b ps v d r := by
  have h' := h b.overflowChecks
  unfold retEval at h'
  unfold Ret
  split at h'
  · rename_i prog hp
    split at h'
    · rename_i hl
      exact ⟨prog, hp, by
        unfold runSeccomp
        rw [runProg_fuel b _ prog hl]
        exact h'⟩
    · cases h'
  · cases h'

/-- src/seccomp.rs:1044-1051: personality 135. -/
theorem lib_stdio_personality_errno (b : Build) : Ret b [.StdIO] (.Errno 999) (mkCall 135 []) (.Errno 999) :=
  ret _ _ _ _ (by decide +kernel) b

/-- src/seccomp.rs:1054-1061. -/
theorem lib_stdio_personality_killed (b : Build) : Ret b [.StdIO] .KillProcess (mkCall 135 []) .KillProcess :=
  ret _ _ _ _ (by decide +kernel) b

/-- src/seccomp.rs:1065-1072: gettimeofday 96. -/
theorem lib_stdio_time_ok (b : Build) : Ret b [.StdIO] .KillProcess (mkCall 96 []) .Allow :=
  ret _ _ _ _ (by decide +kernel) b

/-- src/seccomp.rs:1076-1083: openat 257 with O_WRONLY, O_CREAT, O_CLOEXEC. -/
theorem lib_rust_file_open (b : Build) : Ret b [.StdIO, .CPath] .KillProcess (mkCall 257 [0, 0, 0x80041, 0o666]) .Allow :=
  ret _ _ _ _ (by decide +kernel) b

/-- src/seccomp.rs:1086-1100: F_DUPFD_CLOEXEC 1030, F_SETFD 2, F_NOTIFY 1026. -/
theorem lib_fcntl_stdio (b : Build) : Ret b [.StdIO] .KillProcess (mkCall 72 [42, 1030]) .Allow ∧
    Ret b [.StdIO] .KillProcess (mkCall 72 [42, 2]) .Allow ∧ Ret b [.StdIO] .KillProcess (mkCall 72 [42, 1026]) .KillProcess :=
  ⟨ret _ _ _ _ (by decide +kernel) b, ret _ _ _ _ (by decide +kernel) b, ret _ _ _ _ (by decide +kernel) b⟩

/-- src/seccomp.rs:1104-1112: F_GETLK 5. -/
theorem lib_no_fcntl_lock (b : Build) : Ret b [.StdIO, .CPath] .KillProcess (mkCall 72 [42, 5]) .KillProcess :=
  ret _ _ _ _ (by decide +kernel) b

/-- src/seccomp.rs:1115-1132. -/
theorem lib_sendto_addr (b : Build) : Ret b [.StdIO] .KillProcess (mkCall 44 [0, 0, 0, 0, 0xffffffffffffffff]) .KillProcess ∧
    Ret b [.StdIO] .KillProcess (mkCall 44 [0, 0, 0, 0, 0xffffffff00000000]) .KillProcess ∧
    Ret b [.StdIO] .KillProcess (mkCall 44 [0, 0, 0, 0, 0x00000000ffffffff]) .KillProcess ∧
    Ret b [.StdIO] .KillProcess (mkCall 44 [0, 0, 0, 0, 0]) .Allow :=
  ⟨ret _ _ _ _ (by decide +kernel) b, ret _ _ _ _ (by decide +kernel) b, ret _ _ _ _ (by decide +kernel) b,
    ret _ _ _ _ (by decide +kernel) b⟩

/-- src/seccomp.rs:1136-1144. -/
theorem lib_fcntl_lock_ok (b : Build) : Ret b [.StdIO, .CPath, .FLock] .KillProcess (mkCall 72 [42, 5]) .Allow :=
  ret _ _ _ _ (by decide +kernel) b

/-- src/seccomp.rs:1147-1159: AF_INET, SOCK_STREAM with SOCK_NONBLOCK, IPPROTO_TCP. -/
theorem lib_fcntl_socket_ok (b : Build) : Ret b [.Inet] .KillProcess (mkCall 41 [2, 0x801, 6]) .Allow :=
  ret _ _ _ _ (by decide +kernel) b

/-! ## tests/lib.rs

Each test forks, pledges, makes system calls and ends with exit or SIGSYS. The calls are those that glibc and the standard library make
for the operations in the test (openat for files, exit_group for `libc::exit`, mknodat for `mknod`); `0x80241` is O_WRONLY, O_CREAT,
O_TRUNC, O_CLOEXEC. -/

/-- The thread of the child process after its pledge. -/
def pledged (ps : List Promise) (v : SeccompReturn) : Kernel.Thread := (pledgeOverride ⟨true⟩ calm thread0 ps v).1

/-- The fates of its calls, if each of them is made. -/
def fates (ps : List Promise) (v : SeccompReturn) (calls : List SeccompData) : List Kernel.Outcome :=
  calls.map (Kernel.enter (pledged ps v))

/-- The same as a computation. -/
def fatesEval (ps : List Promise) (v : SeccompReturn) (calls : List SeccompData) : List (Option Kernel.Outcome) :=
  match promisesToProg ⟨true⟩ ⟨100, 100⟩ ps v with
  | .ok prog => calls.map fun d => (kfuel prog d.words prog.length ⟨0, 0, 0, fun _ => 0⟩).map Kernel.outcome
  | _ => []

theorem fates_eq (ps : List Promise) (v : SeccompReturn) (calls : List SeccompData) (os : List Kernel.Outcome)
    (hn : ps.Nodup) (h : fatesEval ps v calls = os.map some) : fates ps v calls = os := by
  unfold fatesEval at h
  rw [promisesToProg_eq] at h
  simp only at h
  unfold fates
  have hp : (pledged ps v).filters = [progOf ⟨100, 100⟩ ps v.toU32] := by
    obtain ⟨prog, h1, h2⟩ := C49_first_pledge ⟨true⟩ calm thread0 rfl ps v hn rfl rfl
    rw [promisesToProg_eq] at h1
    injection h1 with h1
    subst h1
    unfold pledged
    rw [h2]
    rfl
  have key : ∀ d o, (kfuel (progOf ⟨100, 100⟩ ps v.toU32) d.words (progOf ⟨100, 100⟩ ps v.toU32).length ⟨0, 0, 0, fun _ => 0⟩).map
      Kernel.outcome = some o → Kernel.enter (pledged ps v) d = o := by
    intro d o ho
    unfold Kernel.enter
    rw [hp, outcome_single]
    cases hk : kfuel (progOf ⟨100, 100⟩ ps v.toU32) d.words (progOf ⟨100, 100⟩ ps v.toU32).length ⟨0, 0, 0, fun _ => 0⟩ with
    | none => rw [hk] at ho; cases ho
    | some r =>
      rw [hk] at ho
      have : Kernel.cur (progOf ⟨100, 100⟩ ps v.toU32) d = r := by
        unfold Kernel.cur Kernel.run
        rw [runFrom_fuel _ _ _ _ _ hk]
        rfl
      rw [this]
      simpa using ho
  generalize calls = cs at h ⊢
  induction cs generalizing os with
  | nil => cases os with
    | nil => rfl
    | cons => cases h
  | cons d cs ih => cases os with
    | nil => cases h
    | cons o os =>
      rw [List.map_cons, List.map_cons, List.cons.injEq] at h
      rw [List.map_cons, key d o h.1, ih os h.2]

open Kernel.Outcome in
/-- tests/lib.rs:32-43: personality gives errno 999, then the child exits. -/
theorem test_stdio_personality_errno :
    fates [.StdIO] (.Errno 999) [mkCall 135 [0xffffffff], mkCall 231 [0]] = [errno 999, executed] :=
  fates_eq _ _ _ _ (by decide) (by decide +kernel)

open Kernel.Outcome in
/-- tests/lib.rs:46-52. -/
theorem test_stdio_personality_killed : fates [.StdIO] .KillProcess [mkCall 135 [0xffffffff]] = [killProcess] :=
  fates_eq _ _ _ _ (by decide) (by decide +kernel)

open Kernel.Outcome in
/-- tests/lib.rs:55-63. -/
theorem test_empty_exit_ok : fates [.StdIO] .KillProcess [mkCall 60 [99]] = [executed] :=
  fates_eq _ _ _ _ (by decide) (by decide +kernel)

open Kernel.Outcome in
/-- tests/lib.rs:66-76 (clock_gettime 228, write 1). -/
theorem test_stdio_time_ok : fates [.StdIO] .KillProcess [mkCall 228 [0], mkCall 1 [1], mkCall 231 [99]] = [executed, executed, executed] :=
  fates_eq _ _ _ _ (by decide) (by decide +kernel)

open Kernel.Outcome in
/-- tests/lib.rs:79-84. -/
theorem test_stdio_exit_ok : fates [.StdIO] .KillProcess [mkCall 231 [99]] = [executed] :=
  fates_eq _ _ _ _ (by decide) (by decide +kernel)

open Kernel.Outcome in
/-- tests/lib.rs:87-93. -/
theorem test_stdio_open_not_passwd : fates [.StdIO] .KillProcess [mkCall 257 [0xffffff9c, 4096, 0x80000]] = [killProcess] :=
  fates_eq _ _ _ _ (by decide) (by decide +kernel)

open Kernel.Outcome in
/-- tests/lib.rs:96-104. -/
theorem test_rpath_open_passwd : fates [.StdIO, .RPath] .KillProcess
    [mkCall 257 [0xffffff9c, 4096, 0x80000], mkCall 0 [3], mkCall 3 [3], mkCall 231 [99]] = [executed, executed, executed, executed] :=
  fates_eq _ _ _ _ (by decide) (by decide +kernel)

open Kernel.Outcome in
/-- tests/lib.rs:107-113. -/
theorem test_rpath_no_create : fates [.StdIO, .RPath] .KillProcess [mkCall 257 [0xffffff9c, 4096, 0x80241, 0o666]] = [killProcess] :=
  fates_eq _ _ _ _ (by decide) (by decide +kernel)

open Kernel.Outcome in
/-- tests/lib.rs:116-122. -/
theorem test_wpath_no_create : fates [.StdIO, .WPath] .KillProcess [mkCall 257 [0xffffff9c, 4096, 0x80241, 0o666]] = [killProcess] :=
  fates_eq _ _ _ _ (by decide) (by decide +kernel)

open Kernel.Outcome in
/-- tests/lib.rs:125-131. -/
theorem test_cpath_can_create : fates [.StdIO, .CPath] .KillProcess
    [mkCall 257 [0xffffff9c, 4096, 0x80241, 0o666], mkCall 231 [99]] = [executed, executed] :=
  fates_eq _ _ _ _ (by decide) (by decide +kernel)

open Kernel.Outcome in
/-- tests/lib.rs:134-143. -/
theorem test_create_and_write : fates [.StdIO, .CPath, .WPath] .KillProcess
    [mkCall 257 [0xffffff9c, 4096, 0x80241, 0o666], mkCall 1 [3], mkCall 3 [3], mkCall 231 [99]] =
    [executed, executed, executed, executed] :=
  fates_eq _ _ _ _ (by decide) (by decide +kernel)

open Kernel.Outcome in
/-- tests/lib.rs:146-154 (mknodat 259; mknod 133 in older C libraries). -/
theorem test_no_dpath_mknod :
    fates [.StdIO] .KillProcess [mkCall 259 [0xffffff9c, 4096, 0o400], mkCall 133 [4096, 0o400]] = [killProcess, killProcess] :=
  fates_eq _ _ _ _ (by decide) (by decide +kernel)

open Kernel.Outcome in
/-- tests/lib.rs:157-165. -/
theorem test_dpath_mknod_ok : fates [.StdIO, .DPath] .KillProcess
    [mkCall 259 [0xffffff9c, 4096, 0o400], mkCall 133 [4096, 0o400], mkCall 231 [99]] = [executed, executed, executed] :=
  fates_eq _ _ _ _ (by decide) (by decide +kernel)

open Kernel.Outcome in
/-- tests/lib.rs:169-178. -/
theorem test_fcntl_stdio : fates [.StdIO, .CPath, .WPath] .KillProcess
    [mkCall 257 [0xffffff9c, 4096, 0x80241, 0o666], mkCall 72 [3, 1030], mkCall 3 [3], mkCall 231 [99]] =
    [executed, executed, executed, executed] :=
  fates_eq _ _ _ _ (by decide) (by decide +kernel)

open Kernel.Outcome in
/-- tests/lib.rs:182-193. -/
theorem test_no_fcntl_lock : fates [.StdIO, .CPath] .KillProcess
    [mkCall 257 [0xffffff9c, 4096, 0x80241, 0o666], mkCall 1 [3], mkCall 72 [3, 5]] = [executed, executed, killProcess] :=
  fates_eq _ _ _ _ (by decide) (by decide +kernel)

open Kernel.Outcome in
/-- tests/lib.rs:197-208. -/
theorem test_fcntl_lock_ok : fates [.StdIO, .CPath, .FLock] .KillProcess
    [mkCall 257 [0xffffff9c, 4096, 0x80241, 0o666], mkCall 1 [3], mkCall 72 [3, 5], mkCall 3 [3], mkCall 231 [99]] =
    [executed, executed, executed, executed, executed] :=
  fates_eq _ _ _ _ (by decide) (by decide +kernel)

open Kernel.Outcome in
/-- tests/lib.rs:212-222. -/
theorem test_no_fattr : fates [.StdIO, .CPath] .KillProcess
    [mkCall 257 [0xffffff9c, 4096, 0x80241, 0o666], mkCall 1 [3], mkCall 91 [3, 0o666]] = [executed, executed, killProcess] :=
  fates_eq _ _ _ _ (by decide) (by decide +kernel)

open Kernel.Outcome in
/-- tests/lib.rs:226-236. -/
theorem test_fattr_ok : fates [.StdIO, .CPath, .FAttr] .KillProcess
    [mkCall 257 [0xffffff9c, 4096, 0x80241, 0o666], mkCall 1 [3], mkCall 91 [3, 0o666], mkCall 3 [3], mkCall 231 [99]] =
    [executed, executed, executed, executed, executed] :=
  fates_eq _ _ _ _ (by decide) (by decide +kernel)

open Kernel.Outcome in
/-- tests/lib.rs:239-249: S_ISUID is 0o4000. -/
theorem test_fattr_no_setuid : fates [.StdIO, .CPath, .FAttr] .KillProcess
    [mkCall 257 [0xffffff9c, 4096, 0x80241, 0o666], mkCall 1 [3], mkCall 91 [3, 0o4666]] = [executed, executed, killProcess] :=
  fates_eq _ _ _ _ (by decide) (by decide +kernel)

open Kernel.Outcome in
/-- tests/lib.rs:252-261: socket with AF_UNIX, SOCK_STREAM, SOCK_CLOEXEC. -/
theorem test_unix_socket_disabled : fates [.StdIO] .KillProcess [mkCall 41 [1, 0x80001, 0]] = [killProcess] :=
  fates_eq _ _ _ _ (by decide) (by decide +kernel)

open Kernel.Outcome in
/-- tests/lib.rs:264-273: then bind 49, listen 50, close 3. -/
theorem test_unix_socket_enabled : fates [.StdIO, .Unix] .KillProcess
    [mkCall 41 [1, 0x80001, 0], mkCall 49 [3], mkCall 50 [3], mkCall 3 [3], mkCall 231 [99]] =
    [executed, executed, executed, executed, executed] :=
  fates_eq _ _ _ _ (by decide) (by decide +kernel)

end Conform
