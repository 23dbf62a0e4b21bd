{"id": "C01", "title": "Exact verdict of a pledge filter", "statement": "For any promise list and any violation, the filter that pledge_override builds gives every system call record exactly this verdict: KILL_PROCESS when the record's architecture is not x86-64; ALLOW when the implicit Default promise or one of the given promises permits the call and its arguments; and otherwise the encoded violation.", "quantifier": "all promise lists (any length, order, repetition), all violations, all pids/tids, all seccomp_data records (nr, arch, instruction pointer, six 64-bit arguments), both overflow-check build modes", "why_tests_cant": "The record space is 2^480 and promise lists are unbounded; fragments communicate only through the accumulator and the jump offsets, so one wrong offset shows up only for particular lists and records.", "anchors": ["src/seccomp.rs: promises_to_prog, filters_to_prog, filter_to_bpf, bpf_header, bpf_footer", "src/promises.rs: PROMISES", "bpfvm/src/vm.rs: BpfVM::run"]}
{"id": "C02", "title": "Default deny", "statement": "A system call number which no given promise (nor Default) mentions is never allowed: an x86-64 record carrying it gets the violation value, whatever the arguments.", "quantifier": "all promise lists, violations, records", "why_tests_cant": "needs every number not on the list, not a few samples", "anchors": ["src/seccomp.rs: bpf_footer, filters_to_prog", "src/promises.rs: PROMISES"]}
{"id": "C03", "title": "Foreign architectures are killed", "statement": "A record whose arch is not AUDIT_ARCH_X86_64 always gets KILL_PROCESS, independent of promises and of the violation chosen (even Log or Errno).", "quantifier": "all promise lists, violations, records with arch different from x86-64", "why_tests_cant": "2^32-1 architectures times all programs", "anchors": ["src/seccomp.rs: bpf_header", "bpfvm/src/seccomp.rs: AUDIT_ARCH_X86_64"]}
{"id": "C04", "title": "No x32 or out-of-range number slips through", "statement": "No promise list ever allows a system call number outside the native x86-64 table range used by the library; in particular no number with the x32 bit (0x40000000) or the sign bit set, and none above 446.", "quantifier": "all promise lists and all 32-bit system call numbers above 446", "why_tests_cant": "unbounded program/number product", "anchors": ["src/seccomp.rs: syscall_check!, whitelist_syscall", "src/promises.rs: PROMISES"]}
{"id": "C05", "title": "Order and repetition of promises are irrelevant", "statement": "Two promise lists that contain the same promises (as sets) give the same verdict on every record, under the same violation.", "quantifier": "all pairs of promise lists with equal underlying sets, all violations and records", "why_tests_cant": "all permutations and repetitions of unbounded lists", "anchors": ["src/seccomp.rs: promises_to_prog, filters_to_prog"]}
{"id": "C06", "title": "Promises compose as a union", "statement": "The calls allowed for the concatenation of two promise lists are exactly those allowed for one or the other; in particular adding a promise never removes a permission.", "quantifier": "all pairs of promise lists and all records", "why_tests_cant": "fragments run in sequence and share the accumulator; interference would appear only for particular neighbours", "anchors": ["src/seccomp.rs: promises_to_prog, filters_to_prog, syscall_check!"]}
{"id": "C07", "title": "exit is always available", "statement": "exit(2) is allowed on x86-64 under every promise list, including the empty one.", "quantifier": "all promise lists, violations, argument values", "why_tests_cant": "unbounded promise lists", "anchors": ["src/seccomp.rs: promises_to_prog (defaults)", "src/promises.rs: PROMISES[Default]"]}
{"id": "C08", "title": "The violation only decides denied calls", "statement": "Changing the violation changes the verdict of exactly the x86-64 calls that no promise permits; allowed calls and foreign-architecture records are unaffected. pledge is pledge_override with KillProcess.", "quantifier": "all promise lists, pairs of violations, records", "why_tests_cant": "relational property over all programs", "anchors": ["src/seccomp.rs: pledge, pledge_override, bpf_footer"]}
{"id": "C09", "title": "Denied calls receive the requested violation", "statement": "For every violation the user can pass, the verdict of a denied call decodes to that violation (KillProcess, KillThread, Trap, Errno(n), Trace(n), Log, Allow), and is an allow action only if the user asked for Allow (or Log).", "quantifier": "all violations including all u32 payloads of Errno and Trace", "why_tests_cant": "2^33 violation values; the interesting ones are those above 16 bits", "anchors": ["bpfvm/src/seccomp.rs: From<SeccompReturn> for u32, TryFrom<u32>", "src/seccomp.rs: bpf_footer"]}
{"id": "C10", "title": "Return value encoding round-trips", "statement": "Decoding an encoded SeccompReturn yields the original whenever its payload fits in 16 bits; and re-encoding any value that decodes successfully yields the same action, with the same data bits for Errno and Trace.", "quantifier": "all SeccompReturn values; all 2^32 words", "why_tests_cant": "2^32 words and 2^33 values", "anchors": ["bpfvm/src/seccomp.rs: From<SeccompReturn> for u32, TryFrom<u32> for SeccompReturn"]}
{"id": "C11", "title": "Decoding is exact", "statement": "TryFrom<u32> succeeds on exactly the words whose upper 16 bits are one of the seven known actions, ignores the data bits for actions without payload, and otherwise reports UnsupportedReturn carrying the whole original word.", "quantifier": "all 2^32 words", "why_tests_cant": "2^32 words", "anchors": ["bpfvm/src/seccomp.rs: TryFrom<u32> for SeccompReturn"]}
{"id": "C12", "title": "Program generation never fails", "statement": "Building the filter succeeds for every promise list and violation: no UndefinedPromise, no assembler error, no arithmetic panic, in checked and unchecked builds.", "quantifier": "all promise lists, violations, pids, tids, both build modes", "why_tests_cant": "every promise and fragment must be covered in every combination", "anchors": ["src/seccomp.rs: promises_to_prog, filter_to_bpf", "src/promises.rs: PROMISES", "bpfvm/src/asm.rs: compile, jmp_calc"]}
{"id": "C13", "title": "The kernel accepts every sensible promise list", "statement": "For every promise list without repetitions the generated program passes the kernel's classic-BPF and seccomp checks (known opcodes, in-bounds forward jumps, aligned in-bounds loads, final return, at most 4096 instructions). For arbitrary lists it passes exactly when it has at most 4096 instructions.", "quantifier": "all promise lists", "why_tests_cant": "2^23 subsets times orders; unbounded lists", "anchors": ["src/seccomp.rs: filters_to_prog, pledge_override", "bpfvm/src/asm.rs: compile"]}
{"id": "C14", "title": "Length truncation can never install a weaker filter", "statement": "pledge_override passes the program length to the kernel as a 16-bit number. Whatever the promise list, either the whole program is what the kernel sees, or the kernel refuses it: no proper prefix of a generated program passes the kernel's checks.", "quantifier": "all promise lists, including those whose program exceeds 65535 instructions", "why_tests_cant": "needs programs of more than 65535 instructions of every residue", "anchors": ["src/seccomp.rs: pledge_override (len as u16)"]}
{"id": "C15", "title": "The VM always terminates", "statement": "BpfVM::run returns (a value, an error or a panic) on every program and input, after executing at most one instruction per program position, and each executed position is greater than the previous one.", "quantifier": "all programs (any instruction words), all data, both build modes", "why_tests_cant": "termination over all programs", "anchors": ["bpfvm/src/vm.rs: BpfVM::run, execute"]}
{"id": "C16", "title": "VM runs are independent of history", "statement": "The result of run depends only on the program and the data: whatever runs, single executes, resets or register writes happened before on the same VM, run gives the same result as on a fresh VM. No operation changes the loaded program.", "quantifier": "all sequences of public operations on a VM", "why_tests_cant": "unbounded histories", "anchors": ["bpfvm/src/vm.rs: BpfVM::run, reset, execute, new"]}
{"id": "C17", "title": "The bundled VM predicts the kernel on pledge filters", "statement": "For every promise list, violation and record, the bundled VM returns the same 32-bit value for the generated program as the kernel's classic-BPF interpreter, whenever the VM can be given the program at all (at most 65535 instructions; the kernel takes at most 4096).", "quantifier": "all promise lists, violations, records", "why_tests_cant": "the test-suite uses the VM as oracle for the kernel on samples only", "anchors": ["bpfvm/src/vm.rs: BpfVM::run", "src/seccomp.rs: tests::run_seccomp"]}
{"id": "C18", "title": "The bundled VM predicts the kernel on any accepted program it supports", "statement": "For every program accepted by the kernel's checks that avoids the constructs the VM does not implement (register-operand jumps, NEG, TAX/TXA, division by X, LEN), an unchecked build of the VM returns the kernel's value; a checked build returns the kernel's value or panics.", "quantifier": "all programs accepted by the kernel checks within the stated subset, all 64-byte records", "why_tests_cant": "all programs", "anchors": ["bpfvm/src/vm.rs: BpfVM::execute, run"]}
{"id": "C19", "title": "Assembler success and failure", "statement": "compile emits exactly one instruction per non-label operation; it fails with UnknownLabelReference exactly when some jump names an undefined label, naming the first such label; it succeeds when all referenced labels are defined further down.", "quantifier": "all assembly programs, both build modes", "why_tests_cant": "all programs", "anchors": ["bpfvm/src/asm.rs: compile, map_labels, jmp_calc, to_sock_filter"]}
{"id": "C20", "title": "Jumps land on their label", "statement": "In compiled code a jump to a label transfers control to the instruction that follows the label in the source, for conditional jumps and JumpTo alike.", "quantifier": "all assembly programs, all jumps and distances", "why_tests_cant": "distances above 255 and backward labels are the interesting points", "anchors": ["bpfvm/src/asm.rs: jmp_calc, to_sock_filter"]}
{"id": "C21", "title": "Assembled programs behave as the source says", "statement": "Running compile's output on the VM gives the result that a direct, label-level reading of the assembly gives.", "quantifier": "all well-formed assembly programs, all data, both build modes", "why_tests_cant": "compiler correctness over all programs", "anchors": ["bpfvm/src/asm.rs: compile", "bpfvm/src/bpf.rs: bpf_ld .. bpf_jmp", "bpfvm/src/vm.rs: run"]}
{"id": "C22", "title": "Duplicate labels", "statement": "If a label is defined more than once, every reference resolves to the last definition.", "quantifier": "all assembly programs", "why_tests_cant": "all programs", "anchors": ["bpfvm/src/asm.rs: map_labels"]}
{"id": "C23", "title": "Instruction encoding is faithful", "statement": "Different operations never encode to the same instruction word, and the VM decodes each encoded operation as the operation the constructor names.", "quantifier": "all operations, operands, sources, modes", "why_tests_cant": "2^32 operands and all mode/source combinations", "anchors": ["bpfvm/src/bpf.rs: bpf_ld, bpf_ldx, bpf_st, bpf_stx, bpf_alu, bpf_ret, bpf_jmp", "bpfvm/src/vm.rs: execute"]}
{"id": "C24", "title": "Field offsets address the right field", "statement": "Loading at FieldOffset::offset() yields the low/high half of exactly the named field of the record (nr, arch, instruction pointer, argument 0-5); different fields have different offsets; offsets are 4-aligned and inside the 64-byte record exactly for argument indices 0-5.", "quantifier": "all fields, argument indices and records", "why_tests_cant": "2^480 records", "anchors": ["bpfvm/src/seccomp.rs: FieldOffset::offset", "bpfvm/src/vm.rs: fetch_u32"]}
{"id": "C25", "title": "What the verdict may depend on", "statement": "The verdict never depends on the instruction pointer, nor on the upper halves of arguments, with the single exception of the upper half of argument 4 of sendto.", "quantifier": "all promise lists, violations, pairs of records", "why_tests_cant": "relational (two-record) property", "anchors": ["src/seccomp.rs: all filters"]}
{"id": "C26", "title": "any_to_data exposes exactly the record", "statement": "any_to_data turns a value into the words of that value, no more and no less; and a run over the result depends only on the value.", "quantifier": "all value sizes; all programs that load only inside the record", "why_tests_cant": "memory beyond the object is not controlled by a test", "anchors": ["bpfvm/src/vm.rs: any_to_data"]}
{"id": "C27", "title": "The VM never panics or errors on pledge filters", "statement": "Running a generated filter on any 64-byte record returns a value: no panic, no error, in checked and unchecked builds, for every program the VM can be given (at most 65535 instructions, which every list of up to 200 promises satisfies).", "quantifier": "all promise lists, violations, records, both build modes", "why_tests_cant": "all programs and inputs", "anchors": ["bpfvm/src/vm.rs: execute", "src/seccomp.rs: filters_to_prog"]}
{"id": "C28", "title": "Running off the end kills", "statement": "A program without a return instruction never makes run return a value other than 0, which decodes to KillThread, never to an allow action; and whenever execution runs past the end without a return, the value is 0.", "quantifier": "all programs without return instruction, all data", "why_tests_cant": "all programs", "anchors": ["bpfvm/src/vm.rs: run", "bpfvm/src/seccomp.rs: TryFrom<u32>"]}
{"id": "C29", "title": "No executable memory without ProtExec", "statement": "Unless ProtExec is promised, mmap and mprotect with PROT_EXEC are denied and pkey_mprotect is denied altogether.", "quantifier": "all promise lists without ProtExec, all records", "why_tests_cant": "2^64 prot values per list", "anchors": ["src/seccomp.rs: mmap_noexec, mprotect_noexec", "src/promises.rs: StdIO, ProtExec"]}
{"id": "C30", "title": "StdIO memory mapping", "statement": "Under StdIO, mmap is permitted for any combination of PROT_NONE, PROT_READ and PROT_WRITE as long as the flags contain none of LOCKED, POPULATE, NONBLOCK, HUGETLB; mprotect for any such combination.", "quantifier": "all prot and flags values", "why_tests_cant": "2^64 prot/flags", "anchors": ["src/seccomp.rs: mmap_noexec, mprotect_noexec"]}
{"id": "C31", "title": "RPath is read-only", "statement": "With RPath (or Dns) but neither WPath nor CPath, open and openat are allowed only with access mode O_RDONLY and without O_CREAT, O_TRUNC, O_TMPFILE; creat, truncate, rename, link, unlink (without TmpPath), mkdir, rmdir, mknod (without DPath) are denied.", "quantifier": "all promise lists without WPath and CPath, all flags", "why_tests_cant": "2^32 flag words", "anchors": ["src/seccomp.rs: open_readonly, openat_readonly", "src/promises.rs: RPath, Dns"]}
{"id": "C32", "title": "WPath writes but does not create", "statement": "With WPath but not CPath, open and openat never succeed with O_CREAT or O_TMPFILE, and creat is denied; with WPath and neither RPath, CPath nor Dns the access mode must be O_WRONLY or O_RDWR.", "quantifier": "all promise lists without CPath, all flags", "why_tests_cant": "2^32 flag words", "anchors": ["src/seccomp.rs: open_writeonly, openat_writeonly"]}
{"id": "C33", "title": "No setuid, setgid or sticky bits", "statement": "No promise list allows chmod, fchmod, fchmodat or creat with S_ISUID, S_ISGID or S_ISVTX in the mode, nor open/openat with O_CREAT/O_TMPFILE and such a mode.", "quantifier": "all promise lists, all modes and flags", "why_tests_cant": "2^64 mode/flag combinations", "anchors": ["src/seccomp.rs: chmod_nobits, fchmod_nobits, fchmodat_nobits, open_createonly, openat_createonly, create_restrict"]}
{"id": "C34", "title": "Program execution needs Exec", "statement": "execve and execveat are allowed if and only if Exec is promised.", "quantifier": "all promise lists, arguments", "why_tests_cant": "all lists", "anchors": ["src/promises.rs: Exec"]}
{"id": "C35", "title": "Process creation needs Proc", "statement": "Without Proc, fork, vfork and clone3 are denied and clone is allowed only for threads (VM|FS|FILES|THREAD|SIGHAND all set); no list allows clone with NEWNS, PTRACE or UNTRACED, nor with any other namespace flag.", "quantifier": "all promise lists, all clone flags", "why_tests_cant": "2^32 flag words", "anchors": ["src/seccomp.rs: clone_thread, clone_restrict", "src/promises.rs: Proc, StdIO"]}
{"id": "C36", "title": "Sockets need a network promise", "statement": "socket is allowed only with Inet or Dns (families INET, INET6; stream or datagram, modulo CLOEXEC/NONBLOCK; protocols 0, ICMP, TCP, UDP) or with Unix (family UNIX, stream or datagram, protocol 0); every allowed socket call satisfies one of these and every such call is allowed.", "quantifier": "all promise lists, all family/type/protocol words", "why_tests_cant": "2^96 argument combinations", "anchors": ["src/seccomp.rs: socket_inet, socket_unix"]}
{"id": "C37", "title": "Signals stay inside without Proc", "statement": "Without Proc, kill is allowed only with the pid of the pledging process and tkill only with the tid of the pledging thread (and only under StdIO); tgkill, rt_sigqueueinfo, pidfd_send_signal are denied.", "quantifier": "all promise lists without Proc, all targets, pids, tids", "why_tests_cant": "all pid values", "anchors": ["src/seccomp.rs: kill_self, tkill_self"]}
{"id": "C38", "title": "fcntl commands", "statement": "fcntl is allowed exactly for commands 0-4 and F_DUPFD_CLOEXEC under StdIO and 5-7 (record locks) under FLock.", "quantifier": "all promise lists, all command words", "why_tests_cant": "2^32 commands", "anchors": ["src/seccomp.rs: fcntl_stdio, fcntl_lock"]}
{"id": "C39", "title": "ioctl requests", "statement": "ioctl is allowed exactly for FIONREAD/FIONBIO/FIOCLEX/FIONCLEX under StdIO, SIOCATMARK under Inet and the twelve listed terminal requests under Tty. In particular TIOCSTI is never allowed.", "quantifier": "all promise lists, all request words", "why_tests_cant": "2^32 requests", "anchors": ["src/seccomp.rs: ioctl_restrict, ioctl_inet, ioctl_tty"]}
{"id": "C40", "title": "prctl options", "statement": "prctl is allowed exactly under StdIO for the seven listed options.", "quantifier": "all promise lists, all option words", "why_tests_cant": "2^32 options", "anchors": ["src/seccomp.rs: prctl_stdio"]}
{"id": "C41", "title": "Resource limits cannot be changed under StdIO", "statement": "With neither Proc nor Id, prlimit64 is allowed only under StdIO and only with a NULL new_limit pointer; setrlimit is denied.", "quantifier": "all promise lists without Proc and Id, all pointers", "why_tests_cant": "2^64 pointers", "anchors": ["src/seccomp.rs: prlimit64_stdio"]}
{"id": "C42", "title": "sendto without address", "statement": "Without Inet, Unix and Dns, sendto is allowed only under StdIO and only when the 64-bit destination pointer is NULL.", "quantifier": "all promise lists, all pointers", "why_tests_cant": "2^64 pointers", "anchors": ["src/seccomp.rs: sendto_addrless"]}
{"id": "C43", "title": "Socket options", "statement": "Under Inet or Unix, getsockopt is allowed exactly for the documented levels and options and setsockopt exactly for its own documented levels and options.", "quantifier": "all promise lists, all level/option words", "why_tests_cant": "2^64 combinations", "anchors": ["src/seccomp.rs: getsockopt_restrict, setsockopt_restrict"]}
{"id": "C44", "title": "Descriptor passing", "statement": "RecvFd allows receiving messages (recvmsg, recvmmsg) and SendFd allows sending them (sendmsg, sendmmsg); neither is available without its promise.", "quantifier": "all promise lists", "why_tests_cant": "all lists", "anchors": ["src/promises.rs: RecvFd, SendFd"]}
{"id": "C45", "title": "Privileged operations need their promise", "statement": "set*uid/set*gid/setgroups/setfs*id need Id; chown family needs Chown; settimeofday/clock_adjtime need SetTime; mknod/mknodat need DPath; landlock calls need Unveil; flock needs FLock; utime family needs FAttr; each is allowed if and only if the promise is present.", "quantifier": "all promise lists, arguments", "why_tests_cant": "all lists", "anchors": ["src/promises.rs: PROMISES"]}
{"id": "C46", "title": "Dangerous calls are never available", "statement": "ptrace, process_vm_readv/writev, mount family, pivot_root, chroot, unshare, setns, bpf, perf_event_open, kexec, module loading, reboot, swapon, iopl/ioperm, userfaultfd, io_uring, keyctl, personality, seccomp(2), clone3, openat2, execution of unknown numbers are denied under every promise list.", "quantifier": "all promise lists, arguments", "why_tests_cant": "all lists", "anchors": ["src/promises.rs: PROMISES"]}
{"id": "C47", "title": "Per-call permission table", "statement": "For each system call number the set of promises under which it is permitted unconditionally, and the set of promises under which it is permitted with an argument condition, are exactly those of the published per-call table; all other numbers have none.", "quantifier": "all 2^32 numbers, all promises", "why_tests_cant": "2^32 numbers", "anchors": ["src/promises.rs: PROMISES", "src/seccomp.rs: filter_to_bpf"]}
{"id": "C48", "title": "pledge installs in the right order and fails safe", "statement": "pledge first sets no_new_privs and only then the filter; if it returns an error the thread's filters are unchanged (no partial filter), and if it installs a filter then no_new_privs is set.", "quantifier": "all promise lists, violations, prior thread states, kernel failures at either step", "why_tests_cant": "crash points and kernel failures", "anchors": ["src/seccomp.rs: pledge_override"]}
{"id": "C49", "title": "Ok means enforced", "statement": "If pledge_override returns Ok, the calling thread's filter stack has grown by exactly the complete generated program.", "quantifier": "all promise lists, violations, prior filter stacks (from earlier pledges), kernel failures", "why_tests_cant": "depends on the history of earlier pledges", "anchors": ["src/seccomp.rs: pledge_override"]}
{"id": "C50", "title": "Privileges never grow", "statement": "Along every history of pledge calls, thread creations and system calls, a call that a thread is denied stays denied for that thread and for every thread it creates later; no_new_privs never gets cleared.", "quantifier": "all finite histories, all threads", "why_tests_cant": "unbounded histories and interleavings", "anchors": ["src/seccomp.rs: pledge_override"]}
{"id": "C51", "title": "Repeated pledge intersects", "statement": "After successive successful pledges a call is allowed exactly if every one of the pledges allows it.", "quantifier": "all sequences of promise lists", "why_tests_cant": "unbounded sequences", "anchors": ["src/seccomp.rs: pledge_override"]}
{"id": "C52", "title": "Re-pledging needs StdIO", "statement": "A thread that pledged can pledge again if StdIO was among its promises in every earlier pledge; otherwise (with the default violation) the attempt terminates the process.", "quantifier": "all promise lists", "why_tests_cant": "all lists", "anchors": ["src/seccomp.rs: prctl_stdio, pledge_override"]}
{"id": "C53", "title": "pledge restricts the whole process", "statement": "After pledge returns Ok, every thread of the process is restricted by it.", "quantifier": "all multi-threaded histories", "why_tests_cant": "interleavings with concurrently running threads", "anchors": ["src/seccomp.rs: pledge_override"]}
{"id": "C54", "title": "Children inherit restrictions", "statement": "A thread or process created after pledge is subject to the same filters; the self-signal permission still names the pledging process's pid and the pledging thread's tid, not the child's.", "quantifier": "all histories, all pids", "why_tests_cant": "unbounded histories", "anchors": ["src/seccomp.rs: pledge_override, kill_self, tkill_self"]}
{"id": "C55", "title": "A complete verdict under a filter stack", "statement": "Under several installed pledge filters the kernel applies the most severe of the individual verdicts (KILL_PROCESS before KILL_THREAD before TRAP before ERRNO before TRACE before LOG before ALLOW).", "quantifier": "all sequences of installed pledges and all records", "why_tests_cant": "unbounded stacks", "anchors": ["src/seccomp.rs: pledge_override"]}
{"id": "C56", "title": "VM arithmetic", "statement": "ALU instructions compute addition, subtraction, multiplication, division, remainder, and/or/xor and shifts modulo 2^32 on the accumulator; a checked build panics exactly when the true result does not fit (or the shift is 32 or more), and division or remainder by zero always panics; no other register changes.", "quantifier": "all operand pairs, all operations, both build modes", "why_tests_cant": "2^64 operand pairs", "anchors": ["bpfvm/src/vm.rs: execute (BPF_ALU), fetch_src"]}
{"id": "C57", "title": "Unsupported instructions are reported", "statement": "execute returns the documented error for every instruction word that it does not implement (half-word and byte loads, NEG, MISC class, unknown jump and ALU operations, invalid load modes and return sources), and never silently ignores one; supported words never produce an error.", "quantifier": "all 2^16 instruction codes", "why_tests_cant": "2^16 codes times all states", "anchors": ["bpfvm/src/vm.rs: execute, fetch_data, fetch_src"]}
{"id": "C58", "title": "Redundant promises", "statement": "VmInfo adds nothing to StdIO; RecvFd and SendFd grant the same calls; FAttr's mode-changing calls are already granted by WPath; Default adds nothing to any list.", "quantifier": "all promise lists, all records", "why_tests_cant": "all lists and records", "anchors": ["src/promises.rs: PROMISES"]}
{"id": "C59", "title": "No half-pledged thread under any schedule or crash", "statement": "At every moment, also while pledge is between its system calls and after a thread or process died there, every thread's filters are complete programs of finished pledges with promises and violations that were really requested; while a thread is inside pledge its filters do not change and no other thread can change it except by killing it; a thread with a filter has no_new_privs.", "quantifier": "all interleavings of the system calls of any number of pledge calls by any threads with other operations and crashes", "why_tests_cant": "all schedules and crash points", "anchors": ["src/seccomp.rs: pledge_override", "src/seccomp.rs: kill_self", "src/seccomp.rs: tkill_self"]}
{"id": "C60", "title": "Concurrent pledges behave like pledges one after the other", "statement": "Whatever the interleaving of the system calls that pledge makes, the results of all calls and the filters of all threads are those of a history in which every pledge call is one indivisible step at the moment it returns; a pledge call that has been entered ends after at most four steps of its own, whatever other threads do.", "quantifier": "all interleavings of any number of pledge calls, thread creations, other system calls and crashes", "why_tests_cant": "all schedules", "anchors": ["src/seccomp.rs: pledge_override", "src/seccomp.rs: promises_to_prog"]}
{"id": "C61", "title": "Exact fate of a forbidden call for every payload", "statement": "For every violation, including payloads wider than 16 bits, what the kernel does with a forbidden call is what the library's own decoder says about the 32-bit value of that violation; the call is executed exactly for Allow, Log, and those Errno and Trace payloads whose upper bits turn the action into ALLOW or LOG; values the decoder refuses give ENOSYS or kill the process.", "quantifier": "all 2^32 payloads of Errno and Trace, all violations, promise lists and records that the filter denies", "why_tests_cant": "2^32 payloads times all records", "anchors": ["bpfvm/src/seccomp.rs: SeccompReturn", "bpfvm/src/seccomp.rs: impl From<SeccompReturn> for u32", "bpfvm/src/seccomp.rs: impl TryFrom<u32> for SeccompReturn", "src/seccomp.rs: promises_to_prog"]}
{"id": "C62", "title": "The assembler has exactly three outcomes", "statement": "compile gives a program, with one instruction per non-label operation, exactly if every referenced label is defined and (with overflow checks) none of the references is backward; it gives UnknownLabelReference naming a label exactly if that is the first bad reference and it is undefined; it panics exactly if the first bad reference is backward in a build with overflow checks.", "quantifier": "all source programs of any length, both build settings", "why_tests_cant": "all programs", "anchors": ["bpfvm/src/asm.rs: compile", "bpfvm/src/asm.rs: jmp_calc", "bpfvm/src/asm.rs: map_labels"]}
{"id": "C63", "title": "Exact landing of every compiled jump", "statement": "Where a compiled jump lands when the VM executes it, whatever the distance and direction: JumpTo goes to the label's distance taken modulo 2^32, a conditional jump to the distance modulo 256, and a branch without a label to the next instruction.", "quantifier": "all source programs, all jumps in them, all labels, all VM states at that jump", "why_tests_cant": "all distances and programs", "anchors": ["bpfvm/src/asm.rs: compile", "bpfvm/src/asm.rs: jmp_calc", "bpfvm/src/vm.rs: execute"]}
{"id": "C64", "title": "Exact result of pledge", "statement": "The result of pledge_override and the thread's new state are a function of what the thread's earlier filters do to the library's own system calls: if they are executed, Ok and one more filter, or the error of the failing call; otherwise nothing changes and the result is the errno, Ok for errno 0, death, or what a handler returned: Ok if the low 32 bits are zero, that error if it is the negative of an error number, else the errno left over from an earlier call.", "quantifier": "all threads after any pledges with any violations, all promise lists, all kernel errors", "why_tests_cant": "all earlier histories", "anchors": ["src/seccomp.rs: pledge_override", "src/seccomp.rs: pledge"]}
{"id": "C65", "title": "Which of several pledges decides", "statement": "With several pledges in force, a call's fate is decided by the newest among those pledges whose verdict has the lowest action (upper sixteen bits, signed), for arbitrary violations.", "quantifier": "all stacks of pledges of any height with any violations, all records", "why_tests_cant": "all stacks and payloads", "anchors": ["src/seccomp.rs: pledge_override", "bpfvm/src/seccomp.rs: impl From<SeccompReturn> for u32"]}
{"id": "C66", "title": "A pledge changes only the calling thread", "statement": "A pledge by one thread leaves the filters, privileges and life of every other thread alone and creates none, except that threads of the same process end if an earlier filter kills the process for the pledge's own system calls.", "quantifier": "all systems of threads, all pledges by any of them", "why_tests_cant": "all states of all other threads", "anchors": ["src/seccomp.rs: pledge_override"]}
{"id": "C67", "title": "Every filter that takes effect always gives a verdict", "statement": "Every program that the kernel accepts returns a value on every record in at most as many steps as it has instructions, whatever the scratch memory held; in every history every filter in force is such a program.", "quantifier": "all accepted programs, all records, all histories", "why_tests_cant": "all programs and records", "anchors": ["bpfvm/src/bpf.rs", "src/seccomp.rs: promises_to_prog"]}
{"id": "C68", "title": "Exact size of a filter", "statement": "The filter for a list of promises has 7 plus the sum of fixed sizes of the promises instructions; a first pledge returns EINVAL exactly if this exceeds 4096.", "quantifier": "all promise lists of any length, with repetitions", "why_tests_cant": "all lists", "anchors": ["src/seccomp.rs: promises_to_prog", "src/promises.rs: PROMISES"]}
{"id": "C69", "title": "Who pledges matters only for signals", "statement": "Without StdIO the filter is the same for all process and thread ids; with any promises only the verdicts on kill and tkill depend on them.", "quantifier": "all pairs of ids, all promise lists, violations and records", "why_tests_cant": "all ids", "anchors": ["src/seccomp.rs: kill_self", "src/seccomp.rs: tkill_self", "src/promises.rs"]}
{"id": "C70", "title": "The exact set of system calls that can be had at all", "statement": "A system call number is allowed by some promise list with some arguments exactly if it is at most 446 and not in an explicit list of numbers; in particular sendmsg, setsockopt, getdents64, clock_settime, fallocate, sendmmsg, statx, rseq, clone3 and openat2 are denied whatever is promised.", "quantifier": "all system call numbers, all promise lists, all arguments and ids", "why_tests_cant": "all promise lists and arguments", "anchors": ["src/promises.rs: PROMISES", "src/seccomp.rs"]}
{"id": "C71", "title": "Checking a filter offline tells the truth", "statement": "Running a pledge filter in the bundled VM on a record passed through any_to_data and decoding the value, as the crate's own checks do, never panics and gives: KillProcess for a foreign architecture, Allow for a permitted call, and otherwise what the decoder makes of the violation; whatever lies behind the record in memory. Whatever it returns is what the kernel does with that call under this filter.", "quantifier": "all promise lists with programs of at most 65535 instructions, violations, records, addresses and memory contents, both build settings", "why_tests_cant": "all lists, records and surrounding memory", "anchors": ["src/seccomp.rs: run_seccomp", "bpfvm/src/vm.rs: any_to_data", "bpfvm/src/vm.rs: run", "bpfvm/src/seccomp.rs: impl TryFrom<u32> for SeccompReturn"]}
{"id": "C72", "title": "Exact argument rules", "statement": "For each of the eighteen system calls whose arguments matter (open, openat, creat, chmod, fchmod, fchmodat, fcntl, ioctl, mmap, mprotect, clone, kill, tkill, prctl, prlimit64, sendto, socket, getsockopt) and every promise list, the call is allowed exactly under an explicit condition on its arguments and the promises given; for every other call no argument matters.", "quantifier": "all promise lists, all records with these numbers, all ids", "why_tests_cant": "2^384 argument combinations times all promise lists", "anchors": ["src/seccomp.rs: fchmodat_nobits", "src/promises.rs: PROMISES"]}
{"id": "C73", "title": "Exactly which promises are redundant", "statement": "Adding a promise to a list allows nothing new exactly if it is in the list already, or it is Default, or VmInfo with StdIO, RecvFd with SendFd, SendFd with RecvFd, TmpPath with CPath and one of RPath and WPath, or Dns with StdIO, Inet and either RPath or both WPath and CPath. Every other promise allows a call that all others together do not.", "quantifier": "all promises and all promise lists; no-new-call ranges over all records and ids", "why_tests_cant": "redundancy is a statement about all calls and all lists", "anchors": ["src/promises.rs: PROMISES"]}
{"id": "C74", "title": "Giving up promises step by step", "statement": "A thread that calls pledge successfully several times, the last time with promises that all earlier calls had too, may do exactly what the last list allows, as if only the last call had been made, and everything else kills the process. A successful pledge with at least the promises of an earlier one has no effect on any call.", "quantifier": "all sequences of pledges, promise lists, environments and records", "why_tests_cant": "arbitrary sequences and all records", "anchors": ["src/seccomp.rs: pledge"]}
{"id": "C75", "title": "What every program needs", "statement": "exit_group, rt_sigreturn, write, brk, munmap, futex and other calls of a language runtime are allowed exactly with StdIO. In particular a thread that pledged without StdIO is killed when its program returns from main (exit_group), although plain exit is executed.", "quantifier": "all promise lists, arguments, ids and stacks of pledges with the default violation", "why_tests_cant": "all lists and stacks", "anchors": ["src/promises.rs: PROMISES", "src/seccomp.rs: pledge"]}
{"id": "C76", "title": "What an assembled filter means to the kernel", "statement": "If a program written with the assembler is one the kernel takes as a filter, then assembling it succeeds, the kernel takes the result, and on every system call the kernel's filter machine returns exactly what the written program says (following its labels and operations in order); where the written program divides by a zero index register the kernel returns 0. Uninitialised memory never matters.", "quantifier": "all well-formed assembly programs the kernel takes and that do not load the data length, all system-call records, all contents of the scratch memory beforehand", "why_tests_cant": "all programs and records; the tests run a handful of assembled programs in the bundled VM only", "anchors": ["bpfvm/src/asm.rs: compile, Operation", "bpfvm/src/bpf.rs: BPFInsn", "bpfvm/src/seccomp.rs: SeccompData"]}
{"id": "C77", "title": "Exactly which assembly programs the kernel takes", "statement": "A well-formed assembly program is accepted by the kernel as a seccomp filter exactly when: it has 1 to 4096 instructions; each operation is acceptable for itself (aligned word loads inside the record, 16 memory cells, stores written with the mode of value 0, no MOD, no constant division by zero or shift by 32 or more, no return of the index register); the last instruction is a return; labels that are jumped to are followed by an instruction; and no path through the program loads a memory cell it has not stored before.", "quantifier": "all well-formed assembly programs", "why_tests_cant": "all programs and all paths through them; the tests never hand an assembled program to the kernel's checker", "anchors": ["bpfvm/src/asm.rs: compile, Operation", "src/seccomp.rs: pledge_override"]}
{"id": "C78", "title": "How often and with what answer the library asks for ids does not matter", "statement": "The library asks the kernel for the process id and thread id again for every StdIO in the promise list. The effect and the result of pledge are the same as if it asked once, whatever those queries meet (executed, failed with an error, trapped, killed) and whatever a failed query seems to return.", "quantifier": "all promise lists, violations, builds, ids, earlier pledges of the thread, instruction pointers, register contents and results of failed queries", "why_tests_cant": "all repetitions and all fates of each query; tests never pledge twice or repeat a promise", "anchors": ["src/seccomp.rs: kill_self, tkill_self, filters_to_prog, pledge_override"]}
{"id": "C79", "title": "The exact system calls of a pledge", "statement": "Apart from what the memory allocator and the one-time initialisation of the promise table do, a pledge makes, in this order and no others: getpid and gettid for each StdIO in the list, prctl(PR_SET_NO_NEW_PRIVS, 1, 0, 0, 0), prctl(PR_SET_SECCOMP, SECCOMP_MODE_FILTER, program). If a call ends the thread it is the very first one; if the first prctl seems to fail the second is not made; otherwise all are made.", "quantifier": "all promise lists, violations, builds, earlier pledges of the thread, kernel failures and SIGSYS handlers", "why_tests_cant": "all combinations of earlier filters and failures", "anchors": ["src/seccomp.rs: pledge_override, kill_self, tkill_self"]}
{"id": "C80", "title": "Exactly when privileges can grow back", "statement": "Let V be the set of violations a program passes to pledge. In every history of that program a system call denied to a thread stays denied to it and its descendants, and several pledges let through exactly what each of them lets through, if and only if V does not contain both (a) an Errno or Trace whose payload turns the action into one of the two undefined actions between LOG and ALLOW and (b) Log, or a Trace whose payload turns the action into LOG. The payloads in (a) and (b) are given bit by bit.", "quantifier": "all sets of violations; all histories of any number of threads, pledges, calls and crashes; all system calls", "why_tests_cant": "all 2^32 payloads, all histories", "anchors": ["src/seccomp.rs: pledge_override", "bpfvm/src/seccomp.rs: SeccompReturn"]}
{"id": "C81", "title": "Exactly which constructor calls give the same instruction word", "statement": "Two calls of the instruction word constructors give the same word exactly if they are the same call, or both are arithmetic with the same constant where the accumulator is an operand and the operations collapse: with the accumulator ADD and SUB become SUB, MUL and DIV become DIV, OR and AND become AND, LSH and RSH become RSH, MOD stays, each with the constant as operand; XOR with the accumulator shares its word with nothing.", "quantifier": "all pairs of constructor calls, all operands", "why_tests_cant": "2^64 pairs of operands times all pairs of calls", "anchors": ["bpfvm/src/bpf.rs: bpf_ld, bpf_ldx, bpf_st, bpf_stx, bpf_alu, bpf_ret, bpf_jmp"]}
{"id": "C82", "title": "What every assembled program does", "statement": "The result of running any program that the assembler accepts is the one given by a source-level semantics without restrictions: jump distances are reduced modulo 2^32 (JumpTo) or 256 (conditional jumps), JA as a conditional jump uses its constant, arithmetic on the accumulator acts as described in C81, record loads into the index register fail; everything else is as the text says.", "quantifier": "all assembly programs of at most 65535 instructions, all data, both build modes", "why_tests_cant": "all programs", "anchors": ["bpfvm/src/asm.rs: compile", "bpfvm/src/vm.rs: run"]}
{"id": "C83", "title": "The exact meaning of every instruction word to the VM", "statement": "The result of the VM on any list of instruction words is the one given by a complete table of the meaning of all 65536 codes, and longer lists than 65535 are refused.", "quantifier": "all lists of instruction words, all data, both build modes", "why_tests_cant": "2^16 codes, all programs and data", "anchors": ["bpfvm/src/vm.rs: new, run, execute, fetch_data, fetch_src"]}
{"id": "C84", "title": "Pledges survive signal handlers", "statement": "Signal handlers may interrupt a pledge between any two of its steps and do anything: make system calls, pledge again, fork, create threads, change credentials, jump out. If only the library installs filters then at every moment every filter of every thread is the complete filter of some call of pledge_override that was made: it decides every system call as those promises and that violation demand, with ids that the thread or a thread it descends from had (or, after strange violations, that a forbidden query seemed to return). A pledge that returns Ok has its filter in force (unless an earlier pledge without StdIO answers Errno(0) or Trap); no forbidden call becomes possible again, for the thread or for what it creates; a thread with a filter has no_new_privs; every call of pledge_override ends after a bounded number of its own steps.", "quantifier": "all start systems without filters, all runs with any nesting of handlers, forks in the middle of a pledge, failures of any system call, crashes and schedules of any length", "why_tests_cant": "signals arrive at any instruction and handlers are arbitrary; the number of interleavings and nestings is unbounded", "anchors": ["src/seccomp.rs: pledge_override, promises_to_prog, filters_to_prog, kill_self, tkill_self"]}
{"id": "C85", "title": "A fork inside a pledge leaves stale ids", "statement": "The ids in a filter need not be those of the thread that installs it. If a signal handler forks in the middle of a thread's first pledge, the pledge goes on in the child and its filter takes effect there. The child may then use kill for its parent's process id exactly if the process id was asked for before the fork, for its own exactly if it was asked for (again) after the fork, and for no other; likewise tkill and the thread id. Every other call has the fate it has after an undisturbed pledge. So a child of a fork between may send signals to its parent but not to itself.", "quantifier": "all systems, threads without filters, calls they are in the middle of, promise lists whose filter the kernel takes, violations, ids, places of the fork while the rules are made, and system call records", "why_tests_cant": "It depends on which of the library's id queries the fork falls between; promise lists, places and ids are unbounded.", "anchors": ["src/seccomp.rs: kill_self, pledge_override"]}
{"id": "C86", "title": "A thread's first pledge asks for hash keys", "statement": "A thread that has not used a hash map before asks the kernel for random bytes in its first pledge, before any system call of the library. Earlier pledges treat this request exactly as the library's own system calls. So it changes nothing if those are executed. Otherwise the thread state stays as it is either way, an Ok is an Ok without the request too, but where an error would be returned the thread may panic or die instead.", "quantifier": "all stacks of earlier pledges, promises, violations, failures, ways in which the standard library copes with a refusal", "why_tests_cant": "depends on the earlier filters of the thread and on whether it has hash keys already", "anchors": ["src/promises.rs: PROMISES", "bpfvm/src/asm.rs: Assembler::from", "src/seccomp.rs: filters_for_promises, pledge_override"]}
{"id": "C87", "title": "When a pledge waits for the promise table for ever", "statement": "The promise table is made once per process, by the first thread that pledges; others wait meanwhile. If another thread forks in that time, or the thread is ended alone in that time, or a signal handler in it pledges, then every pledge in that memory waits for ever. These are the only ways: otherwise no living thread is left with a table that nobody makes, and every call of every living thread can end within four more steps.", "quantifier": "all numbers of threads and processes, all schedules, handlers, forks, program replacements and crashes of any length", "why_tests_cant": "needs a fork, kill or signal at one particular moment; absence of other hangs ranges over all schedules", "anchors": ["src/promises.rs: PROMISES", "src/seccomp.rs: filters_for_promises, pledge_override"]}
{"id": "C88", "title": "Initialisation does not change what pledges do", "statement": "In any run of threads and processes with waiting for the promise table, hash keys, nested calls in handlers, forks in the middle and program replacements, the thread states are at every moment those of a history in which each pledge is one step: every pledge of the history was called in the run, and everything else it does is in the run or is the death of a thread. In particular, if only the library installs filters, each thread's filters are exactly those of pledges of the run.", "quantifier": "all runs of any length with any number of threads and processes", "why_tests_cant": "ranges over all schedules", "anchors": ["src/promises.rs: PROMISES", "src/seccomp.rs: pledge_override"]}
{"id": "C89", "title": "Exactly where the bundled VM departs from the kernel", "statement": "For every program the kernel accepts and every record: the VM's execute does what the kernel's step does exactly unless the instruction is a negation or register transfer (reported as unsupported), a load of the length (words instead of bytes), a jump on the index register whose comparison with the constant would decide otherwise, a division by a zero index register (panic) or, with overflow checks, an overflow (panic). If no instruction on the kernel's own path departs, run returns the kernel's value, whatever the rest of the program contains; if the first departure is an unsupported instruction, run returns that error; if it is a division by zero or an overflow, run panics; if it is a length or a jump, run goes on from another state than the kernel, and may or may not return the same value. Apart from these last two kinds, run returns the kernel's value exactly if there is no departure on the kernel's path. Through any_to_data the two miscounts of the length cancel.", "quantifier": "every accepted program, every record, every content of the slice behind the record, every initial content of the kernel's scratch memory, every build, every machine state", "why_tests_cant": "The set of accepted programs, register contents and records is far too large; a test of some programs cannot show that the list of departures is complete.", "anchors": ["bpfvm/src/vm.rs: BpfVM::execute, BpfVM::run, any_to_data", "README.md: bpfvm, testing cBPF functionality before deployment"]}
{"id": "C90", "title": "The memory allocator inside a pledge", "statement": "Making and freeing the program may cost system calls of the memory allocator, under the thread's filters, the last of them under the new one. As long as the allocator gets along with the answers, effect and result of pledge are the same as without these calls. Whatever happens to them, if pledge returns it is with that result and effect, and if the thread dies or the allocator gives up, its filters are those from before or those with the complete new filter on top. Exactly: the calls come in a fixed order (the allocator's for a piece of the program, then the query for an id that the piece needs, and so on); the first of them that goes wrong ends the pledge as it says, with the thread as before; if none does, the result is that of a pledge without the allocator, unless it returns and a call in the freeing of the program goes wrong, which then decides.", "quantifier": "every thread whose filters come from pledges, every sequence of allocator calls before every fragment and at the end, every reaction of the allocator, every promise list, violation and environment", "why_tests_cant": "Which system calls an allocator makes depends on its whole history; no test makes it fail at every point.", "anchors": ["src/seccomp.rs: promises_to_prog, filters_to_prog, pledge_override"]}
{"id": "C91", "title": "Which allocator calls a pledge survives", "statement": "brk, munmap, mremap and madvise are allowed by a filter exactly if its promises include StdIO, so while the program is made they share the fate of pledge's own system calls; with StdIO in this pledge and all earlier ones an allocator confined to them does not show. A successful pledge without StdIO, with the default violation, whose program is freed with one of them kills the process instead of returning. After a pledge without ProtExec an allocator that needs a new readable and writable mapping for a later pledge makes that pledge kill the process, with no filter changed.", "quantifier": "every history of pledges, every list of promises, every position of the allocator's call, every argument of the calls", "why_tests_cant": "An allocator asks the kernel for memory only now and then; the tests of the repository never meet such a moment.", "anchors": ["src/seccomp.rs: pledge_override", "src/promises.rs: StdIO, ProtExec", "src/seccomp.rs: mmap_noexec, mmap_exec"]}
{"id": "C92", "title": "A run of the VM depends on the data only where it looks", "statement": "The result of run and the machine it leaves depend only on the words that the instructions actually executed fetch and, if one of them asks, on the number of words. So on the slice made by any_to_data a run that fetches only words of the value and does not ask for the length gives what it gives on the value itself; memory behind the value shows in some state of the machine exactly if an executed instruction fetches a word of the slice behind the value.", "quantifier": "every program (accepted by the kernel or not), every machine, every two data, every value and every content of the memory behind it, every build", "why_tests_cant": "Memory behind a value has arbitrary content; a test sees one content and one path.", "anchors": ["bpfvm/src/vm.rs: BpfVM::run, BpfVM::execute, fetch_data, any_to_data"]}
{"id": "C93", "title": "Pledges are indivisible, signal handlers or not, unless a thread forks inside one", "statement": "Signal handlers may interrupt pledge_override between any two steps and do anything, including further pledges, new threads and jumps out of the interrupted call. As long as no thread that is inside pledge_override makes a copy of itself that goes on with the call (fork), and only the library installs filters, the effect on every thread is that of a history in which every call that ends is one indivisible step at the moment of its end, with the same result. If a thread does fork inside a call this fails.", "quantifier": "every number of threads without filters, every run of any length with nested handlers, deaths and faults, every choice of builds, promises, violations and environments", "why_tests_cant": "A signal may arrive between any two steps, handlers nest without bound, and the claim compares every interleaving with all sequential histories.", "anchors": ["src/seccomp.rs: pledge, pledge_override, promises_to_prog, filters_to_prog, filter_to_bpf"]}
{"id": "C94", "title": "The text of an error tells the error", "statement": "Two errors of the library with the same displayed text are the same error: from the text alone one can tell an undefined promise from a system error and from an error of the filter generator, and which promise, error number, label, code or value it was. The same holds for the errors of bpfvm; there the text also says where it ends, whatever follows it and whatever label it quotes, and no label can break the line.", "quantifier": "every pair of errors with every payload (all numbers, all label strings), every system's descriptions of error numbers, every notion of printable character, every text that follows", "why_tests_cant": "Payloads range over all strings and numbers; a test compares a few texts.", "anchors": ["src/errors.rs: Error", "bpfvm/src/errors.rs: Error"]}
{"id": "C95", "title": "How often a thread can pledge", "statement": "Pledging is not unlimited: under the kernel's limit on the total size of a thread's filters, a pledge whose system calls are executed returns Ok and takes effect when its filter fits, and otherwise returns the system error 12 (ENOMEM) and leaves the filters as they were. Repeating one pledge that includes StdIO succeeds exactly floor(32772 / (size + 4)) times and fails with ENOMEM ever after. No thread ever carries more than 2979 of the library's filters, however its ancestors pledged.", "quantifier": "every way to measure filters that is not below their number of instructions, every promise list, every past, every number of repetitions, every history of pledges, forks and other steps", "why_tests_cant": "The limit is reached only after hundreds of calls, and where it lies depends on the kernel and on all earlier pledges.", "anchors": ["src/seccomp.rs: pledge, pledge_override"]}
{"id": "C96", "title": "Everything at once", "statement": "The guarantees hold in the presence of everything the library runs among: several processes and threads, the promise table made once per process on first use, hash keys asked for once per thread, signal handlers that interrupt a call anywhere and pledge or jump out, forks in the middle, exec, deaths, and refused system calls. Every filter any thread ever has is the complete filter of a pledge that was called; a call that returns Ok has put its filter on top; what a thread may not do its descendants may never do; and unless a thread forks inside a call, the effect is that of indivisible calls with the same Oks in the same order.", "quantifier": "every run of the combined model from every state without filters and calls, of any length, any number of processes and threads, every state of tables and keys at the start", "why_tests_cant": "Interleavings of initialisation, handlers, forks, exec and refusals cannot be enumerated.", "anchors": ["src/seccomp.rs: pledge_override, promises_to_prog, filters_to_prog", "src/promises.rs: PROMISES", "bpfvm/src/asm.rs: map_labels, compile"]}
{"id": "C97", "title": "The promise table is made once, and is all a call can wait for", "statement": "In the combined model of threads, processes, handlers, forks and exec: a call that has got past the promise table finds it made; no two calls ever make the same table at once; a table that is there stays there, and one whose making has panicked stays unusable. A call that need not wait for the table ends after at most six steps more than its promises have filters. A call waits for ever only if the table of its memory is abandoned (the making thread died, a handler jumped out of the making, or another thread forked meanwhile and this is the child) or if the thread that makes it is itself waiting for it, in a handler on top of the making; otherwise the next step of the making thread ends the wait or that thread dies in it. An abandoned table stays so for ever, a thread waiting for itself does so until a handler jumps out, and meanwhile no pledge in that memory returns Ok. Exec always gives a fresh start: the one thread left has no calls in progress and a table of its own that nobody has begun to make.", "quantifier": "every run of the combined model from every state in which nobody has pledged, of any length, any number of processes and threads", "why_tests_cant": "One-time initialisation, deadlock and termination are about all interleavings, crash points and continuations.", "anchors": ["src/promises.rs: PROMISES", "src/seccomp.rs: pledge_override, promises_to_prog"]}
{"id": "C98", "title": "Where the restrictions of a thread come from", "statement": "Whatever threads, processes, signal handlers, forks, exec, deaths and refused calls do: every filter of a thread was put there by the last step of a pledge call of that thread, or of a thread it descends from before creating it, on top of exactly the filters that are below it now; it decides every system call as that call demanded; and the call was made by the thread that finished it, or by one it descends from that forked in the middle of the call. Filters once there stay, in order, in the thread and all its descendants. A thread that never pledges and descends from none that has pledged before is never restricted.", "quantifier": "every run of the combined model in which only the library installs filters, from every state without filters and calls, of any length, every thread and every position in its list of filters", "why_tests_cant": "Who is responsible for a restriction depends on the whole history of calls, forks, handlers and interleavings; a test sees a few of them.", "anchors": ["src/seccomp.rs: pledge, pledge_override"]}
{"id": "C99", "title": "Labels are local names and assembled code can be put one behind the other", "statement": "compile depends on labels only through which jump goes to which definition: renaming the labels of a source so that different ones stay different gives the same instructions (or the same failure, about the renamed label); a label no jump refers to can be added or removed anywhere; and two sources one behind the other assemble to the instructions of the first followed by those of the second, failing as the first of them that fails, whenever neither jumps to a label of the other. So the program pledge makes by assembling its fragments one by one, although they all use the same few label names, is the program of the one source in which every fragment has labels of its own.", "quantifier": "all sources, all label names and renamings, all positions, any number of pieces, all lists of filters, ids and violation actions, both build modes", "why_tests_cant": "Independence of names and of position ranges over every source and every renaming; a test assembles a few sources with fixed names.", "anchors": ["bpfvm/src/asm.rs: compile, map_labels, jmp_calc, to_sock_filter", "src/seccomp.rs: filters_to_prog, filter_to_bpf"]}
{"id": "C100", "title": "A call on its own does in the full account what the simple accounts say", "statement": "In a program with any number of threads, processes, signal handlers and calls in progress, a thread that calls pledge_override and is left alone until the call is over, with its promise table made and its hash keys drawn, can end as exactly the call with its allocator does on its own: the same filters and flags, the same death of the thread or of its process, and nothing else changed. So every history in which calls are single steps is a run of the program in full detail with the same calls in the same order and the same threads in the end: nothing that is said to happen to such calls is an artefact of the simplification.", "quantifier": "all worlds and threads in them, all promises and violations, all answers to the queries for the ids, all behaviours of the allocator, all faults of the kernel, both build modes; all histories in which only the library installs filters", "why_tests_cant": "That two accounts of the same code agree is a statement about all histories and about every system call an allocator might make.", "anchors": ["src/seccomp.rs: pledge_override, filters_to_prog, filter_to_bpf, pledge", "src/promises.rs: PROMISES"]}
{"id": "C101", "title": "What a pledge costs", "statement": "For every system call of a pledged thread the kernel executes a bounded number of filter instructions, and exactly so many: 3 for a call of another architecture, 5 for exit, whatever is promised; 5 plus a fixed amount per promise for a call that nothing promised mentions; and never more than 5 plus another fixed amount per promise, a bound that each promise alone can reach. Promises added at the end never make a call cheaper and leave the cost of calls that were allowed before as it was, so the order of promises matters for the cost and for nothing else. A thread pays for each of its pledges. No program whatever executes more instructions than it has.", "quantifier": "all promise lists, ids, violations, build modes, system calls and contents of scratch memory; all stacks of pledges; for the last part all programs", "why_tests_cant": "A bound on the cost of a filter is a statement about all system calls with all arguments; a test measures some.", "anchors": ["src/seccomp.rs: filters_to_prog, filter_to_bpf, bpf_header, bpf_footer, asm_* generators", "src/promises.rs: PROMISES"]}
{"id": "C102", "title": "A call that nobody interrupts, with the one-time initialisation", "statement": "If a thread calls pledge_override and is not interrupted, and no other thread is in the middle of the process's first pledge, the call ends after a bounded number of steps, and its outcome is fixed by the thread, the arguments, whether the thread has hash keys and whether the promise table of the process is unmade, made or spoiled: with keys (its own or freshly asked for) the call does what the code after the initialisation says, and afterwards the table is there and the thread has keys; if the kernel does not give it keys the call ends with that, with nothing changed except that the table is spoiled (panic) or forever unfinished (death) when it was this call that made it; with a spoiled table the call panics and changes nothing. Everything else in the system stays as it was, except that a death may take the process with it. If another thread is making the table, the call waits and changes nothing. In a process without filters the first call does what every later one does.", "quantifier": "all systems of threads and processes with calls in progress, all threads, filters, arguments, builds, environments and states of the table", "why_tests_cant": "The initialisation happens once per process and thread; a test cannot vary the state of tables, keys and other calls over all systems.", "anchors": ["src/seccomp.rs: pledge_override, promises_to_prog, filters_to_prog", "src/promises.rs: PROMISES", "bpfvm/src/asm.rs: compile"]}
{"id": "C103", "title": "Comparing promise lists", "statement": "One list of promises allows at most what another allows exactly if each of its promises is in the other list or is one of the six that the other list makes redundant (C73), so whether one list is stricter than another, or two lists mean the same, can be read off the lists. A second successful pledge changes the fate of some call exactly if the first list is not below the second in this sense. For any two lists there is a largest list below both. Two pledges one after the other can still allow more than that list does: StdIO with RPath, then StdIO with WPath, leaves stat allowed, which StdIO alone is not.", "quantifier": "all pairs of promise lists, all ids, all system calls; for the second pledge all threads that pledged once with the default violation, environments and builds", "why_tests_cant": "That one list allows at most what another does is a statement about all system calls with all arguments for all pairs of lists.", "anchors": ["src/promises.rs: PROMISES", "src/seccomp.rs: promises_to_prog, pledge", "src/seccomp.rs: filter_to_bpf"]}
{"id": "C104", "title": "Where a call can be interrupted makes no new outcomes impossible", "statement": "Take threads and processes that have not pledged and whose filters only the library installs. Whatever comes out if a call of pledge_override can be interrupted only while it waits for the promise table, makes it or gets hash keys, and is otherwise one step, also comes out if it can be interrupted before every one of its system calls: the same threads with the same filters, the same memories, the same state of each table, the same calls in progress, with the same calls made by the same threads in the same order, whatever becomes of the queries for the ids. So hangs and other outcomes shown with the coarser steps are real, and what holds of the threads in all finely interleaved runs holds in the coarser ones.", "quantifier": "all numbers of threads and processes, all runs of any length with forks, new threads, program replacements, handlers and deaths, all promise lists, violations and environments", "why_tests_cant": "It relates two sets of runs, each over all schedules; a test sees one schedule.", "anchors": ["src/seccomp.rs: pledge_override, filters_for_promises", "src/promises.rs: PROMISES", "bpfvm/src/asm.rs: Assembler"]}
{"id": "C105", "title": "What a tracer can do to a pledged thread", "statement": "Take a thread whose filters come from pledges, with a tracer (a debugger or sandbox supervisor) that wants to hear of seccomp events. Whatever the tracer does, a call that is executed, be it the one the thread made or one the tracer put in its place, is permitted by every pledge whose violation is KillProcess, KillThread, Trap or Errno. The tracer is asked about a call exactly if every pledge permits it, or has the violation Log or Allow, or has the violation Trace and forbids it, with at least one of the last kind; it is told the number of the newest such pledge. If it is asked it can have any call executed that each pledge permits or would at most log or ask about, and no other. If it is not asked the call fares as without a tracer, and it is never asked if no pledge has the violation Trace.", "quantifier": "all stacks of pledges with all promise lists and all violations whose number fits 16 bits, all calls with all arguments, everything the tracer can do", "why_tests_cant": "The claim covers every stack of pledges, every call and every reaction of the tracer; tests try a few and do not attach tracers.", "anchors": ["src/seccomp.rs: pledge_override, SeccompReturn", "src/seccomp.rs: promises_to_prog, bpf_footer"]}
{"id": "C106", "title": "Pledging in a traced thread", "statement": "Let the thread that calls pledge_override have a tracer. The tracer is asked about the library's own four calls exactly if each earlier pledge has StdIO or one of the violations Log, Allow and Trace, and one without StdIO has the violation Trace. If it is not asked it has no influence on the call. If it is asked and lets the calls pass, the pledge does what it would do in a thread without filters, and the earlier filters stay. If it is asked it can also make pledge_override return Ok without any effect, or have the filter made for other ids. Those are the only possibilities when Ok is returned. In no case is an earlier filter removed.", "quantifier": "all stacks of earlier pledges, all promise lists and violations, all ways the tracer may answer each of the calls, all faults", "why_tests_cant": "The outcome depends on earlier pledges and on the tracer's choices; it must be known for all of them.", "anchors": ["src/seccomp.rs: pledge_override, kill_self, tkill_self"]}
{"id": "C107", "title": "Reading the log of the bundled VM", "statement": "The VM reports to the log crate what it does. Writing the log changes neither the result of a run nor the machine. The lines 'Executing line' name the program counters the run goes through, in order, each with the instruction found there. What a step reports is true: a load reports the value the register has afterwards, arithmetic its name and operand even if it panics then, a jump the distance by which the program counter moves on, a return the value returned and where it came from. A run whose log says 'returned value 0x..' returned that value and the line is its last; a run that returned a value without saying so returned 0 because it left its program at the end. A line of level error is written exactly if the run ends with the error Unsupported BPF Instruction 128 (NEG). With all levels on, the log of a run determines its result, registers and memory, whatever program and data it ran with; so does the log of any number of runs written one after the other. With the level info it does not. The line of a JSET is labelled JGE.", "quantifier": "all programs, all data, both overflow-check settings, any number of runs in a row", "why_tests_cant": "That two different runs never share a log, and that logging never interferes, ranges over all pairs of programs and inputs.", "anchors": ["bpfvm/src/vm.rs: BpfVM::run, BpfVM::execute, fetch_src (info!, debug!, error!)"]}
{"id": "C108", "title": "The VM's log shows the kernel's way through a filter, and which promise let a call pass", "statement": "Every kernel run that returns a value goes one way through the program: from the first instruction, only forward, as many instructions as the run costs. For every filter built from promises, every system call record and every build, running the filter in the bundled VM logs exactly the instructions that the kernel executes for this call, in order; different ways have different logs. The last instruction logged tells the reason of the verdict: instruction 2 exactly for a foreign architecture; an instruction in the code of the i-th promise exactly if this is the first promise of the list that lets the call pass (an instruction of the exit code exactly for exit); the last instruction of the filter exactly for a violation. For other programs that the kernel accepts the log shows the kernel's way if nothing departs (C89), and a first part of it, ending at the departing instruction, if the first departure is an error or a panic; if the VM goes on in another state the log may show a way that the kernel does not go.", "quantifier": "all promise lists, ids, violations, records, data behind the record, both overflow-check settings; all programs the kernel accepts", "why_tests_cant": "Which promise admits a call depends on all 2^512 records and on every list of promises, in every order and with repetitions.", "anchors": ["bpfvm/src/vm.rs: BpfVM::run, BpfVM::execute", "src/seccomp.rs: promises_to_prog, filters_to_prog, filter_to_bpf"]}
{"id": "C109", "title": "What pledge does, from the call to the fate of every later system call", "statement": "pledge(promises) either leaves the filters of the calling thread as they are, or adds one complete filter for exactly this list, whatever filters the thread already has, foreign ones included. Once it has taken effect, every system call that the list permits (by the table of C47 and the argument rules of C72) has the fate it had before, and every other call, and every call of a foreign architecture, kills the process: all threads of it, also those that never called pledge, whatever the violations of earlier pledges were and whatever handler there is for SIGSYS. A thread's first pledge with a list that is not too long returns Ok if the kernel has no reason of its own to refuse; then no_new_privs is set, the permitted calls are executed and the others kill. In a program that uses nothing but pledge, Ok means that it has taken effect, with the ids of the calling thread.", "quantifier": "all promise lists, thread states, existing filter stacks (also foreign filters), environments, both overflow-check settings, all system call records, all multi-threaded states", "why_tests_cant": "The fate of all 2^512 records under every stack of earlier filters, library-made or not, cannot be enumerated.", "anchors": ["src/seccomp.rs: pledge, pledge_override, promises_to_prog"]}
{"id": "C110", "title": "Pledging under a tracer that puts other calls in the place of the library's", "statement": "A tracer can be asked (violation Trace of an earlier pledge) about any of the calls that pledge_override makes: every getpid and gettid query and the two prctl calls. It may let each pass, skip it with a result of its choice, or put another system call in its place. Whatever it does: no earlier filter is lost, nor no_new_privs; every system call that is executed meanwhile, also the tracer's substitutes, is permitted by every earlier pledge whose violation is KillProcess, KillThread, Trap or Errno; what is executed are exactly the calls of the library that pass and the substitutes that the filters let pass; the call ends after a bounded number of steps. If the tracer is not asked about prctl it has no influence at all. Ok means that a filter which decides exactly by the promises and the ids the queries returned is on top of the filters (each query returns the true id if it is executed, what the tracer chose if it skips it, the result of what it put in its place, or what a stopped query seems to return), or the tracer made the last call look successful (by skipping it, by a substitute that was executed and returned such a result, or by a substitute that an earlier filter stopped), or an earlier filter stopped that call and made it look successful. If the caller dies in the call, then it is in one of the calls of the library: the filters kill it for this call and the tracer was not asked, or the tracer put another call in its place, for which the filters kill it or which was executed and which it did not survive. A tracer that is asked can have any filter of its own installed instead, with Ok as the result.", "quantifier": "all promise lists, violations, thread states, histories of pledges, environments, and all sequences of tracer reactions, with arbitrary substitute calls and effects that keep what the kernel guarantees (filters and no_new_privs only grow)", "why_tests_cant": "The tracer is an arbitrary program; its reactions at every call, with every possible substitute call and effect, cannot be enumerated.", "anchors": ["src/seccomp.rs: pledge_override, filters_to_prog, kill_self, tkill_self"]}
{"id": "C111", "title": "How calls end, whatever else goes on", "statement": "Whatever other threads, signal handlers and processes do meanwhile, a call of pledge or pledge_override that ends does so with Ok, with a system error (PledgeError::SysErr), with a panic, or with the death of its thread; with anything but Ok the thread has exactly the filters it had. A call panics exactly if its thread needs hash keys, an earlier pledge refuses getrandom without killing, and the standard library finds no random bytes in another way, or if that happened before to a call that was making the process's promise table. A thread dies in a call only because of a pledge without StdIO. So if every pledge has StdIO, every call returns Ok or a system error; if every pledge has StdIO or a killing violation, no call panics; and if all calls are plain pledge calls, a call returns Ok or a system error, or the process is killed in it.", "quantifier": "all systems of threads and processes that have not pledged before, all interleavings of calls, signal handlers that pledge or jump out, forks, new threads, execs and other operations (no filters installed by others), all arguments and environments", "why_tests_cant": "A panic can come from a refusal met long before by another thread that was making the table; the interleavings and histories are unbounded.", "anchors": ["src/seccomp.rs: pledge, pledge_override, filters_to_prog", "src/promises.rs: PROMISES", "bpfvm/src/asm.rs: compile", "src/errors.rs: PledgeError"]}
{"id": "C112", "title": "A filter tells what it was made from", "statement": "Two calls of pledge_override make the same filter exactly if they were given the same promises, in the same order and with the same repetitions, except that SendFd makes what RecvFd makes; violations with the same encoding (the same violation, if payloads fit in 16 bits); and, if StdIO is promised, the same process and thread ids. So from the filters the kernel holds for a thread one can read off all its pledges: any other account of them has as many pledges and differs from the true one only in these respects.", "quantifier": "all pairs of promise lists of any length, all violations, process and thread ids, both builds; all threads and all histories of pledges", "why_tests_cant": "Two different lists that give the same filter could be of any length: it has to be shown that no sequence of rules can be read as the rules of another sequence of promises.", "anchors": ["src/seccomp.rs: promises_to_prog, filters_to_prog", "src/promises.rs: PROMISES", "src/promises.rs: Filtered", "bpfvm/src/seccomp.rs: From<SeccompReturn> for u32"]}
{"id": "C113", "title": "Signal handlers of a pledged thread", "statement": "A handler of a signal returns by a system call, which passes the filters. In a thread that has pledged, with payloads of 16 bits, it is executed exactly if every pledge had StdIO or a violation that lets calls pass; in general it is treated exactly as the system calls of a further pledge are. After a pledge without StdIO whose violation is KillProcess, KillThread, Trap or Errno with a payload of 16 bits, no handler ever returns and the signal SIGSYS, once blocked, stays blocked, whatever the thread does and whatever is installed later. So a thread that pledged without StdIO and with Trap survives at most one trapped call, unless its handler has SA_NODEFER, and dies if the handler returns; a thread whose pledges all have StdIO or let calls pass is after every trapped call as it was before, for any number of them. A call that the kernel resumes after a signal by restart_syscall (poll, nanosleep, futex, clock_nanosleep) is resumed with the fate that the call has itself.", "quantifier": "all threads after any pledges, in any order and among any other filters; all sequences of system calls with any arguments, signals, returns and jumps out of handlers; all registers at the return", "why_tests_cant": "All histories of calls and handlers are meant; that no promise but StdIO lets a thread return from a handler or unblock a signal is about every list of promises and every argument.", "anchors": ["src/promises.rs: PROMISES", "src/seccomp.rs: promises_to_prog, pledge_override", "bpfvm/src/seccomp.rs: SeccompReturn"]}
{"id": "C114", "title": "Pledging with a SIGSYS handler", "statement": "If the earlier filters of a thread do not trap the library's system calls, a handler of SIGSYS does not matter to pledge_override. If they do, nothing is installed, and the call ends as the handler has it: if the handler returns, the process dies (with SA_NODEFER, the call does not come back); if it does not have SA_NODEFER, the call dies, does not come back, or returns the error made up for the first prctl, the last only if StdIO is not promised. Ok without effect happens exactly if the library's calls fail with Errno(0), or are trapped and the handler has SA_NODEFER, restores the registers by itself after every call and makes both calls of prctl look successful. So with handlers that return in the ordinary way and no earlier pledge with Errno(0) and without StdIO, Ok means that the filter is there.", "quantifier": "all threads after any pledges with any violations, all promise lists, all kernel errors, all handlers, by whether SIGSYS is blocked, SA_NODEFER, the way the handler ends after each call and the results it leaves", "why_tests_cant": "all earlier histories and all handlers", "anchors": ["src/seccomp.rs: pledge_override, pledge"]}
{"id": "C115", "title": "The kernel's cache of allowed calls changes nothing", "statement": "Since Linux 5.11 the kernel does not run the filters for a call of which it found out, when the filter was installed, that its number alone decides that it is allowed. No system call of any thread has another fate by this, whoever made the thread's filters. After pledges, a native call is answered from the cache exactly if, in every pledge, the first promise (Default, then in the order given) that says anything about its number permits it with any arguments, or no promise says anything and the violation is to allow; calls in the manner of another architecture never are. So the order of promises decides what is cached: kill is after [Proc, StdIO] and is not after [StdIO, Proc], although both permit it.", "quantifier": "all threads with any filters and all system calls with any arguments; for the exact part, all threads after any pledges, all promise lists, violations and ids; all sizes of the kernel's bitmaps", "why_tests_cant": "A wrong bit would show only for the right combination of number, arguments, filters below and kernel; every program and every record is meant.", "anchors": ["src/seccomp.rs: filters_to_prog, promises_to_prog, syscall_check!, bpf_header", "src/promises.rs: PROMISES"]}
{"id": "C116", "title": "Pledges on kernels before 4.14", "statement": "With payloads of 16 bits, a kernel that does not know the actions KillProcess and Log treats every system call of a pledged thread as later kernels do, with two exceptions: what would kill the process kills the thread only, and a forbidden call that would be logged and executed kills the thread. So it executes no call that a later kernel would not execute, and every call that all pledges permit. With wider payloads this fails: Errno(0xfffa0000) kills on later kernels and allows everything on older ones.", "quantifier": "all threads after any pledges in any order, all promise lists, violations and ids, all system calls with any arguments", "why_tests_cant": "The tests run on one kernel; all stacks of filters and all calls are meant.", "anchors": ["bpfvm/src/seccomp.rs: SeccompReturn", "src/seccomp.rs: bpf_header, bpf_footer, pledge_override"]}
{"id": "C117", "title": "Starting a thread after a pledge", "statement": "No promise includes clone3 or rseq. So what becomes of starting a thread after pledges that all have StdIO depends only on the C library and on the fate of those two calls: a library that uses neither gets its thread; one that uses clone3 gets it only if clone3 is executed or fails with ENOSYS, and one that uses rseq only if rseq is executed or seems to succeed. With the default violation in any one of the pledges, whatever is promised, a library that uses either of them does not start a thread: its process is killed. If all violations kill, a thread is started exactly if all pledges have StdIO and the library uses neither. With Errno(0) clone3 seems to return in the new thread: the caller goes on as if it were that.", "quantifier": "all threads after any pledges in any order, all promise lists, violations and ids, all four kinds of C library, all pointers and lengths in the calls", "why_tests_cant": "It is about all promise lists and stacks of pledges, and about C libraries other than the one the tests were linked with.", "anchors": ["src/promises.rs: PROMISES", "src/seccomp.rs: promises_to_prog, pledge, pledge_override"]}
{"id": "C118", "title": "Starting processes and programs after a pledge", "statement": "If all violations kill, fork gives a process that runs exactly if every pledge has Proc and StdIO. A program that is executed gets to its own code exactly if every pledge has Exec and StdIO, and, if it is linked dynamically, ProtExec and RPath (or WPath with Dns or CPath), and its C library does not use rseq. If the promises are there and the library uses rseq, the program starts exactly if no violation kills. If Proc is missing and the violation is Errno(0), the caller of fork goes on as if it were the new process.", "quantifier": "all threads after any pledges in any order, all promise lists, violations and ids, static and dynamic programs, all pointers and lengths in the calls", "why_tests_cant": "It is about all promise lists and stacks of pledges and about every combination of calls that starting takes.", "anchors": ["src/promises.rs: PROMISES", "src/seccomp.rs: promises_to_prog, pledge, pledge_override"]}
{"id": "C119", "title": "Programs under a pledge", "statement": "Take any program (its next call decided by all it knows), on any system. If, left alone, it makes only calls that the pledges permit, it runs under them exactly as without them: at every step it is at the same point, in the same world, and has done the same. If the violations kill, it always runs as it would without, up to the first call that is not permitted; there it is killed, and the world stays as it was before that call; this is what Ok from pledge means for the rest of the program. Promising more never breaks a program that was not killed. In every case all that a program does to the world after pledges is done by calls that each of them permits, unless its violation is to log or to allow. With violation Errno(e) the program cannot tell the pledges from a system that itself fails these calls with error e.", "quantifier": "all programs, all systems and inputs, all filters below the pledges and all that are installed later, all lists of pledges, all numbers of steps", "why_tests_cant": "Quantifies over all programs, inputs and lengths of runs.", "anchors": ["src/promises.rs: PROMISES", "src/seccomp.rs: pledge, pledge_override, promises_to_prog"]}
{"id": "C120", "title": "Threads and processes under pledges", "statement": "Take any number of threads and processes, with any memory, shared or not, on any system, scheduled in any order; they may start threads and processes, install filters, be killed from outside. A thread is under the pledges of the thread, of those that were there when the pledges were made, that it stems from. If, left alone, they make only calls that their pledges permit, all goes under the pledges as it would without. If the violations kill, pledges add nothing to what can happen: all is as it would be without them if each thread that is about to make a call that is not permitted were killed from outside at that moment; this is what Ok from pledge means in a process with other threads. If all are threads of one process and the violation is KillProcess, the whole process does what it would do without, up to the first call that is not permitted, and no thread does anything after it. In every case every call that is done for a thread is one that each of its pledges permits, unless the violation is to log or to allow, so pledges are not escaped by starting threads or processes. With Errno(e) they cannot be told from a system that fails these calls.", "quantifier": "all programs with any number of threads and processes, all systems, all schedules and deaths, all filters below the pledges and all that are installed later, all lists of pledges", "why_tests_cant": "Quantifies over all programs and over all interleavings of unboundedly many threads.", "anchors": ["src/promises.rs: PROMISES", "src/seccomp.rs: pledge, pledge_override, promises_to_prog"]}
{"id": "C121", "title": "What can be written in the assembler", "statement": "A program is what compile makes of some source exactly if each of its words is one that the public constructors return, which are the ones with 49 codes and with jump distances only in jumps, and each distance of a conditional jump is 0 or leads, modulo 256, to a place of the program or to its end, with overflow checks to one behind the jump. So a seccomp filter that the kernel takes, with nothing in the fields that mean nothing, can be written in the assembler exactly if it has none of seven instructions: conditional jumps that compare with the index register, NEG, TAX, TXA. Then it can also be written as a well-formed source, one whose labels are all defined below and near enough, and the same one for both build modes, and does what that source says: on the virtual machine for any data, and in the kernel for every system call and whatever is in the scratch memory, if it does not load the length of the data.", "quantifier": "all programs of any length that memory can hold, all words, both build modes", "why_tests_cant": "Quantifies over all programs, and says of unboundedly many that no source gives them.", "anchors": ["bpfvm/src/asm.rs: compile, map_labels, jmp_calc, to_sock_filter", "bpfvm/src/bpf.rs: bpf_ld, bpf_jmp, bpf_alu, bpf_ret"]}
