# Formal model of libpledge / bpfvm in Lean 4 — design

Contents: 1 layout, 2 modelling decisions, 3 the properties one by one, 4 trusted base, 5 what is and is not modelled,
6 what the proofs found out about the code, 7 checks of the model and of the theorems.

## 1. Layout

`lean/Verif/…`. Lines of /repo are cited at every definition of `Model/`.

| module | content | models |
|---|---|---|
| `Libc` | numeric constants of the `libc` crate (x86_64-linux-gnu) | the `libc::*` names used in /repo |
| `Model/Basic` | `Res` (ok / err / panic), `Build` (overflow checks on or off), `Error` | Rust `Result` and panics; bpfvm/src/errors.rs |
| `Model/Bpf` | `SockFilter`, `Src`, `Mode`, `AluOp`, `JmpOp`, encoders | bpfvm/src/bpf.rs |
| `Model/Asm` | `Operation`, `mapLabels`, `jmpCalc`, `toSockFilter`, `compile` | bpfvm/src/asm.rs |
| `Model/Vm` | `VM`, `execute`, `run`, `anyToData` | bpfvm/src/vm.rs |
| `Model/Seccomp` | `SeccompReturn` with both conversions, `SeccompData`, `FieldOffset` | bpfvm/src/seccomp.rs |
| `Model/Promises` | `Promise`, `Filtered`, `PROMISES` | src/promises.rs |
| `Model/Filters` | the thirty filter fragments, header, footer, `promisesToProg` | src/seccomp.rs 35-979 |
| `Env/Kernel` | environment: checker and interpreter of filter programs, filter stacks, the two prctl calls | Linux (not in /repo) |
| `Model/Pledge` | `pledgeOverride`, `pledge`; systems of threads and their histories | src/seccomp.rs 981-1015 |
| `Model/Sched` | `pledge_override` cut at its system calls, schedules | the same lines |
| `Model/Ids` | `pledge_override` with every system call it makes, also repeated id queries | src/seccomp.rs 199-228, 943-1015 |
| `Model/Signals` | the same, interrupted by signal handlers that can do anything, also pledge and fork | the same lines |
| `Model/Init` | the one-time initialisation of the promise table, hash keys, memory of processes | src/promises.rs 84, bpfvm/src/asm.rs 45 |
| `Model/Alloc` | `Model/Ids` with the system calls of the memory allocator | src/seccomp.rs 943-1015 |
| `Model/Errors` | the texts of errors | src/errors.rs, bpfvm/src/errors.rs |
| `Model/Full` | `Model/Signals` and `Model/Init` together, with exec | src/seccomp.rs 943-1015, src/promises.rs 84, bpfvm/src/asm.rs 45 |
| `Model/Log` | the VM with its log output | bpfvm/src/vm.rs 88-276 |
| `Model/Traced` | `pledge_override` in a thread with a tracer | src/seccomp.rs 981-1015 |
| `Model/Steered` | the same with every id query, and a tracer that can put other calls in the place of the library's | src/seccomp.rs 199-228, 943-1015 |
| `Model/Trapped` | the same in a thread with a handler of SIGSYS that has to come back by the means there are | src/seccomp.rs 981-1015 |
| `Env/Handlers` | signal handlers, blocked signals, rt_sigreturn | — (kernel) |
| `Env/Cache` | the kernel's cache of allowed calls | — (kernel) |
| `Env/Older` | verdicts of kernels before 4.14 | — (kernel) |
| `Env/Programs` | any program on any system | — |
| `Env/Teams` | any threads and processes on any system, in any order | — |
| `Env/Runtime` | the calls by which the C library starts threads, processes and programs | — (C library) |
| `Env/Tracer` | the kernel's side of SECCOMP_RET_TRACE | — (kernel) |
| `Spec/Policy` | the policy: who may call what with which arguments, by literal numbers | — |
| `Spec/Observe`, `Spec/History` | what a user sees of a call; threads whose filters come from pledges | — |
| `Spec/Vm` | a reference interpreter for the bundled VM's language | — |
| `Spec/Asm`, `Spec/Accept` | meaning of assembly source by labels; what the kernel takes, by source | — |
| `Spec/Actual`, `Spec/Word` | what any assembly source and any list of instruction words really does | — |
| `Spec/Sched`, `Spec/Signals`, `Spec/Size`, `Spec/Init`, `Spec/Agree`, `Spec/Looks`, `Spec/Linear`, `Spec/Limit`, `Spec/Full`, `Spec/Table`, `Spec/Whence`, `Spec/Scope`, `Spec/Account`, `Spec/Cost`, `Spec/Alone`, `Spec/Coarse`, `Spec/Traced`, `Spec/Log`, `Spec/Path`, `Spec/Steered`, `Spec/Alloc`, `Spec/Returns`, `Spec/Readback`, `Spec/Handlers`, `Spec/Trapped`, `Spec/Cache`, `Spec/Runtime`, `Spec/Programs`, `Spec/Teams`, `Spec/Express` | completed calls of a schedule; pledges with the ids they were told; size of a filter; waiting for the promise table; departures of the VM from the kernel; what a run looks at; ends of interrupted calls; the kernel's limit on filters; runs of the combined model; who put a filter where; names in an assembly source; calls as runs of the combined model; instructions executed; a call nobody interrupts; the combined model seen through `Model/Init`; pledges of a traced thread; reading the VM's log; steps of a call whose tracer changes calls; the first call that ends a pledge; results of calls in the combined model; reading a filter; trapped calls survived; a pledge whose calls are trapped; promises that permit a number outright; the calls of starting a thread or program; runs of a program, or of threads and processes, with and without pledges; words and distances that can be assembled | — |
| `Proofs/*` | lemmas | — |
| `Props/*` | the property theorems (`Props.Cnn_…`), each group followed by `example`s that meet the hypotheses | — |
| `Conform` | the repository's own tests evaluated in the model | tests in bpfvm/src, src/seccomp.rs, tests/lib.rs |

## 2. Modelling decisions

* Machine integers are `BitVec 8/16/32/64`. `usize` line numbers and program counters are `Nat`. The places where `usize` arithmetic
  can underflow (`*off - curr - 1` in `jmp_calc`) go through a function that panics in a build with overflow checks and wraps modulo
  2^64 in one without. The same holds for `+` and `*` on `u32` in the VM.
* `Result` is data. A panic is the third constructor of `Res`. Every theorem about code that can panic ranges over both builds.
* `HashMap` is an association list; a lookup finds the entry inserted last.
* The `while` loop of `BpfVM::run` is a `partial_fixpoint`, so a run that does not end is representable. Termination is proved (C15).
* `process::id()` and `gettid()` are system calls. They pass the filters of the calling thread like the two `prctl` calls, so a second
  pledge may see a wrong id or die in them.
* A SIGSYS handler of the program is a parameter: it may leave any result for a trapped call. What it takes to come back
  from the handler at all is the subject of `Env/Handlers` and `Model/Trapped` (C113, C114).
* The kernel is environment. It is written down from its documented behaviour: `bpf_check_classic`, `check_load_and_stores`,
  `seccomp_check_filter`, the interpreter, "the lowest action wins, the newest filter among equals", `PR_SET_NO_NEW_PRIVS`,
  `PR_SET_SECCOMP`, inheritance on clone. It is a kernel since 4.14; `Env/Older` is about earlier ones (C116). A failure of either prctl for other reasons (memory, security modules) is an arbitrary input.
* Two granularities of concurrency: `Model/Pledge` treats a call of the library as one step of a history; `Model/Sched` cuts it at its
  system calls, lets other threads run and lets threads or processes die in between. C60 proves that nothing is lost by the coarse view.

## 3. The properties one by one

Theorems are listed in MANIFEST.json. "Table" means: a `decide` over the complete promise table or the complete list of filter kinds,
lifted to all promise lists by a lemma. Properties marked (false) are false of the code as stated; the negation is proved with a
witness, the true part is kept as `_partial`, and where possible a further property gives the exact behaviour.

| id | how modelled and proved |
|---|---|
| C01 | Each fragment is executed symbolically in isolation (`Proofs/Frag`); a locality lemma embeds fragments in programs (`Proofs/Ev`, `Proofs/Prog`); induction over the filter list; the result is compared with `Spec.verdict`, which is written per system call with literal numbers (`Proofs/Policy`). Both the kernel interpreter and the bundled VM. |
| C02–C08 | From C01 and the table. |
| C09 (false) | 16-bit payloads. `Errno(0x7fff0000)` encodes ALLOW. Exact: C61. |
| C10, C11 | Bit-vector algebra on the two conversions. |
| C12 | Every fragment compiles in both builds for every id; the table lookup is total. |
| C13, C14 | Compositional checker lemma (`Proofs/Check`); no proper prefix of a filter passes the checker (`Proofs/Prefix`). |
| C15, C16 | The program counter grows; `run` begins with `reset`; induction over histories of operations on a VM. |
| C17, C18 | Simulation between `VM.execute` and the kernel interpreter over accepted programs (`Proofs/VmStep`, `Proofs/VmKernel`). C18_limits: every exclusion is needed. |
| C19 (false), C20 (false) | Induction over programs. Backward labels panic or wrap; distances are taken modulo 256. Exact: C62, C63. |
| C21, C22 | Label-level operational semantics (`Spec/Asm`) and a simulation (`Proofs/AsmRun`). |
| C23 (false) | Case analysis; ALU with source `Acc` collides with `Const`/`Idx`; data loads into X are refused. |
| C24 | Little-endian layout of the record; the checked-build panic for large argument numbers. |
| C25 | The specification depends on those parts only. |
| C26 (false) | The slice has four times too many words; runs of programs with loads inside the record do not see them. |
| C27, C28 | From C01; induction on runs without RET. |
| C29, C34, C36–C40, C42, C45–C47 | From C01 and the table, by system call. |
| C30–C33, C35, C41, C43, C44 (false) | As before, where the filters deviate from their own comments. Exact: C72. |
| C48 | Order of the two prctl calls and every failure path of `pledgeOverride`. |
| C49–C51, C53 (false) | Histories, by induction. Exact: C61, C64, C65, C66, C74. |
| C52, C54, C55 | Histories, by induction; filter stacks (`Proofs/Stack`). |
| C56, C57 (false) | Case analysis on `execute` against `Spec/Vm`; register operands of jumps are ignored. |
| C58 | From C01. Exact: C73. |
| C59, C60 | Schedules of `Model/Sched`: invariants, and a simulation by histories that places each call at its last system call (`Proofs/Sched`). |
| C61–C66 | Exact versions, see above. |
| C67 | Every program that passes the checker terminates with a value (`Proofs/KernelTotal`), so a stack always has a verdict. |
| C68 | Size as a sum over promises; the kernel refuses exactly the sizes above 4096. |
| C69 | Ids influence only `kill` and `tkill` under StdIO. |
| C70 | The exact set of reachable system calls. |
| C71 | The bundled VM as an offline checker of whole pledges. |
| C72 | Argument rules per system call as equivalences with conditions on the 64-bit argument registers. |
| C73–C75 | From C01 and C65. |
| C76, C77 | The kernel's memory check is the meet over all paths (`Proofs/AcceptMem`); positions of compiled code are matched with source suffixes (`Proofs/Accept`); C76 joins C77, C21 and C18. |
| C78, C79 | `Model/Ids` follows every query; in a thread that has pledged all calls of the library meet the same fate, so the first one decides (`Proofs/Ids`). |
| C80 | The lowest action of a stack rises never; if it goes from "not executed" to "executed" it goes from between LOG and ALLOW to LOG (`grows_back`), and each of the two comes from a violation of its kind; conversely two pledges with such violations are a counterexample. |
| C81 | Case analysis over a left inverse of the encoding, with the words of accumulator arithmetic reduced to those with the constant. |
| C82 | `Spec/Actual` is a semantics over instruction numbers; simulation and existence of runs as for C21, without well-formedness. |
| C83 | `Spec/Word` gives the meaning of a word from fields taken by division; masks and fields agree (`mask_field`), then simulation. |
| C84 | `Model/Signals`: each thread has a stack of interrupted calls. Invariant per thread: every filter, and every program in the making, consists of the fragments of all filters of its promises, each with ids of known origin (`Proofs/Mixed`, `Proofs/Signals`). |
| C85 | A run of `Model/Signals` in an arbitrary system with the fork after an arbitrary number of rules, computed symbolically; the child's filter is decided with `Told.verdict`. |
| C86 | `Model/Init`: the request for hash keys before the model of `pledge_override`; its verdict under any pledge filter equals that of the library's prctl calls. |
| C87 | `Model/Init`: threads with the memory they use, stacks of calls and a cell per memory. Invariants: a cell being made has at most one maker (`Sane`); an orphaned cell stays orphaned; without cuts it has a living maker (`Live`). Case analysis of the steps for progress. |
| C88 | Each turn of `Model/Init` is a list of operations of a history (`Proofs/InitRun`); induction on the run. |
| C89 | `Spec/Agree`: a table of departures per instruction code, and the kernel's path. One step of the VM against one step of the kernel by cases on the 41 accepted codes (`Proofs/Agree`), then induction along the path with the kernel's own knowledge of stored cells. |
| C90 | `Model/Alloc`: arbitrary allocator calls before every fragment and at the end, with arbitrary reactions. The generator either is stopped by one or gives what `Model/Ids` gives; then C78. By induction on the pieces, the first call that goes wrong ends it; the cases are exhaustive. |
| C91 | The policy on brk, munmap, mremap, madvise and mmap (`Proofs/Policy`), the stack of filters, and C90. |
| C92 | `Spec/Looks`: the look of an instruction, by code numbers. An instruction gives the same on data that agree on its look (cases on class, mode, size), then induction on the run; for the converse the complement of the foreign memory. |
| C93 | `Spec/Linear`: ends of calls in a run, results of calls in a history. Invariant: if the library's own calls are executed for a thread now, they were at every step of each of its calls in progress, so those hold the fragments an uninterrupted call would have; every move is no step or one step of the history (`Proofs/Linear`). Forks: invariant of histories that the run of C85 breaks. |
| C94 | `Model/Errors`. Positional notation is injective, the escapes of strings form a prefix code, the fixed parts of the texts differ in the first 17 letters or in the last. |
| C95 | The kernel's rule in `Spec/Limit`, for any measure of filters. Exactness by evaluating the model's call in an environment that follows the rule; the bound on filters by an invariant on the total load; the repetition by induction on the number of calls. |
| C96 | `Model/Full` joins `Model/Signals` and `Model/Init`. Every happening is shown to be a list of moves of `Model/Signals` (forgetting memories, keys and sites), with the same Oks and no fork inside a call where there was none; C84 and C93 carry over. |
| C97 | Invariant over runs of `Model/Full` (`Orderly`: sites past the table imply a made table; at most one maker per memory; a maker's table is marked as being made). Termination by a measure that every step of an unblocked call decreases. Abandoned and self-waiting states are shown to be closed under every happening (except a jump out of the handler), and the ways into the first are enumerated. Conversely every wait that is neither is ended by one step of the making thread (`C97_released`). Exec is a fresh start whatever state the process was in (`C97_exec`). The bound of `C97_ends` is exact (an example meets it). |
| C98 | Induction over runs of `Model/Full` with a step lemma that says what one happening does to the filters and calls of each thread (`Fate`), and the invariant of C84 for what the last step of a call installs. |
| C99 | One lemma moves `emit` to other line numbers and other names at once (the two subtractions of `jmp_calc` do not change when both operands are shifted); renaming, appending and unused labels are instances of it, and the library's fragments follow by induction over the list. |
| C100 | Symbolic execution of `Model/Full` along `pledgeMem`: every part of a call (allocator calls, fragments, the two prctl calls, freeing the program) is shown to be a run of the thread's own happenings; histories by induction, with the invariant that no call is in progress and C78 for the queries. |
| C101 | The kernel's interpreter with a counter; a counting version of the evaluator used for C01 gives the exact cost fragment by fragment, a static longest path bounds it, and tables per promise are checked by the kernel of Lean. The program counter only grows, so no program executes an instruction twice. |
| C102 | Steps of the full model computed one by one: table, keys, promises, an induction over the filters for the fragments, the two system calls; the result is compared with the closed form `upshot`. The same induction gives the result the call returns (`resultsIn`). A waiting call is an induction over the number of steps. |
| C103 | The witnesses of C73 do not depend on the ids, so the comparison of two lists reduces to C73 promise by promise (union, C06). The second pledge by the exact fate of calls under stacked filters; the counterexample by the per-call table. |
| C104 | `Spec/Coarse` maps states of `Model/Full` to states of `Model/Init`. Each turn of `Model/Init` is a list of happenings of `Model/Full` that commutes with this map; the last part of a call is run to its end as for C102, and C88 gives the filters that C78 needs to see it as one step. Induction on the run. |
| C105 | `Env/Tracer` is the kernel's protocol for SECCOMP_RET_TRACE: tell the tracer, let it skip or change the call, run the filters again. The verdict of a stack is the first of the lowest verdicts of its pledges (lemma on `combine`), which turns each claim into one about the single pledges. |
| C106 | `Model/Traced` is `Model/Pledge` with a tracer. Every pledge treats the library's four calls alike (permitted with StdIO), so the tracer is asked about all of them or none; the cases are then those of C64. |
| C107 | `Model/Log` is `Model/Vm` with every `info!`, `debug!` and `error!`. The texts are injective in the numbers they print (hexadecimal digits end at the first other character). By induction over the run: two equal logs start with the same instruction at the same place, and the rest of the step's lines tell what it did; 'Starting VM' separates runs. |
| C108 | `Walk` (Spec/Path) is the kernel's run with the addresses. Evaluation of fragments (`ev`) gets a companion `evL` that lists the addresses and composes like it; the kernel and the VM both go the way `evL` says. The filter is cut behind each promise: the way ends before the cut exactly if the promises before it allow the call. For foreign programs the simulation of C89 carries the trace along. |
| C109 | `pledge_override` is followed for a thread with an arbitrary filter stack: the kernel takes the whole program or nothing (a cut-off program is rejected, `accepts_prefix`). KILL_PROCESS is the lowest action, so the new filter decides all calls it does not permit; ALLOW is the highest, so it leaves the others to the rest of the stack. |
| C110 | `Model/Steered` is the step-by-step call of `Model/Signals` with a tracer. Induction on the steps: each keeps the filters and executes only what all of them let pass (C105); after each number of steps the call is known (which piece it makes next, with which answers), so what is said about Ok, death and the executed calls names the step and the thread before it; without questions each step is that of `Model/Signals`, and the whole is C78. For a tracer that only passes and skips, and treats queries of a kind alike, the result is that of `Model/Traced` (C106), so that the single query of each kind there loses nothing. |
| C111 | `nextResult` (Spec/Returns) gives the result of the innermost call if the next step ends it. One case analysis over the steps of the full model shows what such a step leaves behind and that other results do not occur (`Act.next` never panics). A table becomes poisoned only by a thread whose `getrandom` is refused (induction over the run); the filters of all threads are those of pledges (C96), under which `getrandom` and the library's calls are executed or meet the violation of a pledge without StdIO. |
| C112 | The instructions of the promises are prefix-free but for RecvFd and SendFd (their first instructions differ, or, for Inet and Dns, the eighteenth), and none begins like the footer; so the concatenation can be read in one way (induction on both lists). Only `KillSelf` and `TkillSelf`, both in StdIO, contain the ids. |
| C113 | `Env/Handlers` is a thread with blocked signals and handlers in progress; the return from a handler is rt_sigreturn and passes the filters. Invariant of runs: a filter of the pledge is in the stack, so neither rt_sigreturn nor rt_sigprocmask is executed, nor a call in another manner (wrong architecture, large number); hence the blocked signals only grow. |
| C114 | `Model/Trapped` is `pledge_override` where a trapped call comes back only by the means there are. The four calls and rt_sigreturn have the same fate after any pledges (C113), which leaves a case analysis. |
| C115 | `Env/Cache` is the kernel's emulator for filters of which only the two numbers are known; by induction over the rest of the program it agrees with the interpreter when it says yes (any program). For generated programs: a rule about another number is skipped, a rule about the number says yes exactly if it has no look at an argument. |
| C116 | `Env/Older` is the comparison and dispatch of version 4.13. Invariant of the two folds over the stack: the same value, or the newer kernel has KILL_PROCESS and the older one something it takes for KILL. |
| C117 | `Env/Runtime` is the order of calls of `pthread_create` in glibc and what it does when one fails. The calls it needs are allowed under StdIO by the exact rules of C72; clone3 and rseq are denied under every list (C70), so both have one fate. |
| C118 | `fork`, `execve` and the calls of a program's start, likewise in `Env/Runtime`; the promises each call needs from C72, a list of requests in `Spec/Runtime`, induction over the list. |
| C119 | `Env/Programs`: a program is any function from its state to its next call, a system any function that serves calls. Invariant of the two runs: the same but for the pledges' filters in the middle of the stack; these do not change the fate of a call they permit, and one that forbids it bounds the action. |
| C120 | `Env/Teams` is a set of threads and processes that differ in nothing but their filters from those that were not pledged; a simulation that relates the two, step by step of any schedule, with the filters of the pledges inserted somewhere in each stack; a call that is not permitted is related to a death. |
| C121 | From source to code: each emitted word and each computed distance, case by case. From code to source: the source that puts a label of its own at every place of the program and at its end; its label map is computed by induction, and for a filter the kernel takes the jumps of this source go down and not too far, so it is well-formed, and C21, C76 and C77 give its meaning. The codes are listed in `Spec/Express`. |

## 4. Trusted base

* Lean 4.33.0's kernel. No `sorry`, no `native_decide`, no `bv_decide`, no axiom of our own, no Mathlib import.
* Axioms: at most `propext`, `Classical.choice`, `Quot.sound`. AXIOMS.md lists them for every theorem of the manifest
  (`tools/axioms.py` regenerates it).
* The reading of the Rust source into `Model/*`. It is checked, outside the trusted base, by `tools/check_transcription.py` (re-derives all
  fragments, the promise table, constants, encoders, conversions and error texts from the Rust text: 120 items, 0 differ) and by `Conform.lean` (the repository's own tests).
* The numbers in `Libc.lean`. `tools/check_constants.py` compares them with the C headers of this machine: 485 agree, 0 differ; five
  numbers of recent system calls, which /repo does not name, are not in those headers.
* The kernel in `Env/Kernel.lean`, written from Linux's `net/core/filter.c` and `kernel/seccomp.c`. Tracers
  are in `Env/Tracer.lean` and take part in C105, C106 and C110 only. Not modelled: user-notification
  listeners, strict mode, `SECCOMP_FILTER_FLAG_TSYNC` and other uses of `seccomp(2)` by the program, the total size limit of a stack
  (it is one of the arbitrary failures).
* The specifications in `Spec/*`, which are meant to be read next to the English statements.

## 5. What is modelled

| code | status |
|---|---|
| bpfvm/src/bpf.rs | all encoders; `WordSize` and `Instr` only through their numbers |
| bpfvm/src/asm.rs | all |
| bpfvm/src/vm.rs | all; the log output in `Model/Log` |
| bpfvm/src/seccomp.rs | all |
| bpfvm/src/errors.rs, src/errors.rs | all (variants, `From` conversions, texts), but `DataConversionError`, which is never constructed |
| src/promises.rs | all |
| src/seccomp.rs | all; `last_os_error()` is the errno of the failed prctl, or the errno from before if the C library does not set it (`checkRet`) |
| src/lib.rs, bpfvm/src/lib.rs | re-exports and type names only, nothing to model |
| tests/*.rs and the test modules | evaluated in `Conform.lean`; `fork` helpers not modelled |

Simplifications, each also noted at its definition:

* `askIds` asks for each id once, however often StdIO is repeated; see `Model/Ids` and C78 for the justification.
* In `Model/Sched` a thread inside `pledge_override` does not run signal handlers that make system calls; `Model/Signals` (C84, C85) lifts
  this.
* System calls of the memory allocator (brk, mmap, munmap) during a pledge are left out everywhere but in `Model/Alloc` (C90, C91)
  and in `C100_call`, which places the calls of `Model/Alloc` in `Model/Full`.
* Outside `Model/Init` and `Model/Full` the promise table (`Lazy` in src/promises.rs:84) is taken to be there and threads have their hash
  keys. `Model/Init` (C86, C87) lifts this; in it a call of the library is one step once it has both. `Model/Full` (C88, C96 to C102) has
  no such step, and C104 relates the two.
* In `Model/Traced` the tracer passes or skips a call of the library; in `Model/Steered` it can also put another call in its place, whose
  effect is any change of the thread's state that loses no filter.
* In `Env/Handlers` and `Model/Trapped` there is one thread, of the blocked signals only SIGSYS, and no tracer; `Model/Trapped` has one
  call of each kind, as `askIds`. Elsewhere a handler of SIGSYS comes back as it likes.
* In `Env/Programs` there is one thread, and neither a handler of SIGSYS nor a tracer. In `Env/Teams` there are any number, likewise without handler and tracer; a filter is installed for its caller only (no SECCOMP_FILTER_FLAG_TSYNC), and a thread's death does not change the memory of others.
* In `Env/Runtime` the sequences of calls are those of glibc on x86-64 as generally known; its source was not at hand to check them
  against, and nothing of them is in /repo. They are part of the trusted base of C117 and C118. The kernel serves every call that is executed, and cleaning up after a failure is left out.
* Memory exhaustion and aborts inside the allocator are modelled in `Model/Alloc` only, stack overflow is not (crashes of a thread or
  process are, at every system-call boundary).
* The record is seen as sixteen 32-bit words on a little-endian machine; `any_to_data` of other types is modelled by its bytes (C26).

## 6. What the proofs found out about the code

Each item is a theorem; names are in MANIFEST.json.

* C09, C50, C51, C61: a violation payload above 16 bits spills into the action. `Errno(0x7fff0000)` allows everything that was denied.
* C19, C62: a jump to a label above it panics in a checked build and encodes a forward jump in an unchecked one.
* C20, C63: conditional jumps over more than 255 instructions go to the distance modulo 256, without an error.
* C23: `Alu` with source `Acc` produces the word of another operation; data loads into X do not exist for the kernel.
* C26: `any_to_data` makes a slice four times as long as the value (it takes a byte count for a word count) and so reads foreign memory.
* C30: StdIO denies `mmap(PROT_READ|PROT_WRITE)`.
* C31, C32, C33: the filters for `open` test the mode argument instead of the flags; the one for `fchmodat` tests the path pointer.
* C35: namespace flags other than CLONE_NEWNS are not refused.
* C41: only the low half of the `prlimit` pointer is tested.
* C43: the filter for `setsockopt` tests `getsockopt`; `setsockopt` is never allowed.
* C44: SendFd grants receiving calls; `sendmsg` is never allowed.
* C49: after a pledge without StdIO with violation `Errno(0)` (or a trap handler that leaves 0) later pledges return Ok and do nothing.
  C114: such a handler cannot be an ordinary one; it needs SA_NODEFER and has to restore the registers itself.
* C64: Ok without effect also if a handler leaves 2^32, because the result is cut to 32 bits; any other value that is not an error number
  makes pledge report the errno of some earlier call.
* C53, C66: other threads of the process are not restricted.
* C57: the VM executes register-operand jumps as constant ones.
* C70: many modern calls (`openat2`, `clone3`, `statx`, `getdents64`, …) cannot be had with any promise.
* C75: returning from `main` needs StdIO (`exit_group`).
* C77: `Store(Mode::MEM, …)` is a word the kernel refuses; only the mode of value 0 works.
* C85: after a fork by a signal handler inside a pledge the filter of the child has the process id of the parent.
* C86: a thread's first pledge asks for random bytes first; after an earlier pledge without StdIO it may panic instead of returning an error.
* C87: a fork by another thread, or the end of the thread, during the first pledge of a process makes later pledges in that memory hang.
* C91: a pledge without StdIO kills the process, not returning, if freeing the program gives memory back to the kernel; after a pledge with
  StdIO the next one kills the process if it needs a new mapping.
* C113: `Trap` without StdIO gives a handler that cannot return: rt_sigreturn is trapped too, and the process dies in it.
* C116: before Linux 4.14 `Log` kills, and `KillProcess` kills the thread only; `Errno(0xfffa0000)` allows everything that was denied.
* C117, C118: no promise includes clone3 or rseq, so with the default violation no thread can be started with glibc since 2.34, and no program with glibc since 2.35 gets to its own code, whatever is promised. With `Errno(0)` a refused `fork` or clone3 looks to the caller as if it were the child.
* The log of the bundled VM labels JSET as JGE, and at level info it does not tell a run that ended with an error from one
  that fell off its end (C107).

## 7. Checks of the model and the theorems

* Every property theorem has `example`s next to it whose concrete, non-trivial data meet the hypotheses.
* `seeded/LOG.jsonl`: wrong programs. The model is edited in a scratch copy as a bug would edit the program; proofs that break are
  replaced by `sorry`, so that the build goes on, and the property theorems that fail or rest on a failed one are recorded.
  Where the first failure is in a lemma that states what a fragment does, a second edit repairs that lemma to describe the wrong
  program, so that the property theorem itself is put to the test (entries q…).
