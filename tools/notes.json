{
 "C01": {
  "note": "Verdict of both the kernel interpreter and the bundled VM equals Spec.verdict (Spec/Policy.lean, written per system call with literal numbers) for every promise list, violation, build, pid/tid and record."
 },
 "C09": {
  "note": "Partial: proved for payloads of at most 16 bits. Missing: wider payloads, for which the claim is false (C09_false_for_wide_payloads: Errno(0x7fff0000) lets denied calls run); C09_decodes_iff_fits shows 16 bits is exactly the boundary."
 },
 "C18": {
  "note": "Proved with the unsupported constructs excluded; C18_limits shows each exclusion is necessary. C18_unchecked_div: without overflow checks the only way the VM can panic where the kernel gives a verdict is a division by a zero index register, where the kernel returns 0."
 },
 "C19": {
  "note": "Partial: proved in full for unchecked builds, and in all builds for programs without backward references. Missing (and false, C19_false_for_backward_labels): checked builds with a backward reference before the undefined one, which panic. C19_success_iff, C19_error_iff, C19_panic_iff are exact for every build and program."
 },
 "C20": {
  "note": "Partial: proved for JumpTo with any label below and for conditional jumps over at most 255 instructions. Missing: longer conditional jumps and backward labels, for which it is false (C20_false_far, C20_far_misses, C20_backward_never_lands); C20_distance_modulo is the exact behaviour."
 },
 "C23": {
  "note": "Partial: injectivity for all operations but arithmetic with source Acc; decoding for all operations but that and data loads into the index register. Both are false there (C23_injective_false, C23_decode_false); C23_acc_collides, C23_xor_acc, C23_ldx_refused and C23_decode_ja give the exact behaviour."
 },
 "C26": {
  "note": "Partial: that a run depends on the value only is proved for programs whose loads are absolute and lie inside the value (no indirect, no length loads). 'No more and no less' is false: the slice has four times too many words (C26_slice_too_long, C26_false, C26_foreign_bytes). C26_memory and C26_record give the words byte by byte."
 },
 "C30": {
  "note": "Partial: prot 0, 1 and 2. Missing: PROT_READ|PROT_WRITE, which is denied (C30_false_for_read_write). C30_stdio_mmap_exact is the exact rule."
 },
 "C31": {
  "note": "Partial: openat and all other calls. Missing: open, where the filter tests the mode instead of the flags (C31_false_for_open); C31_open_actual is the exact rule."
 },
 "C32": {
  "note": "Partial: openat and creat. Missing: open, for the same reason (C32_false_for_open); C32_plain_open_denied shows the usual open(O_WRONLY) with mode 0 is denied."
 },
 "C33": {
  "note": "Partial: chmod, fchmod, creat, openat. Missing: fchmodat (the path pointer is tested, C33_false_for_fchmodat) and open (C33_false_for_open)."
 },
 "C35": {
  "note": "Partial: everything but namespace flags other than NEWNS, which are allowed (C35_false_for_newuser); C35_clone_exact is the exact rule for clone."
 },
 "C41": {
  "note": "Partial: the low half of the pointer is zero. Missing: the high half is not tested, so a non-NULL pointer with low half zero passes (C41_false_for_high_pointer)."
 },
 "C43": {
  "note": "Partial: what getsockopt allows is exact. False: setsockopt is never allowed and getsockopt is too wide (C43_false, C43_getsockopt_too_wide): the second filter tests getsockopt again."
 },
 "C44": {
  "note": "Partial: the receiving half. False for sending: sendmsg/sendmmsg are never allowed, SendFd grants recvmsg/recvmmsg (C44_false)."
 },
 "C49": {
  "note": "Partial: proved unless an earlier pledge without StdIO used a violation that can make a denied prctl look successful (Errno(0), or Trap with a SIGSYS handler that leaves 0). False then (C49_false_after_errno_zero). C49_first_pledge: a first pledge succeeds and is enforced."
 },
 "C50": {
  "note": "Partial: growing filter stacks and no_new_privs for every history; denied stays denied for payloads of at most 16 bits. False for wider payloads (C50_false_for_wide_payloads)."
 },
 "C51": {
  "note": "Partial: for payloads of at most 16 bits and pledges that really installed (see C49). False in general (C51_false_in_general). C51_default_violation: no restriction for pledge()."
 },
 "C53": {
  "note": "Partial: single-threaded processes. False for processes with other threads (C53_false_for_other_threads): the filter is installed for the calling thread only."
 },
 "C57": {
  "note": "Partial: which words give which error is exact (C57_errors_partial; an indirect load may panic in a checked build before it reports its error). Missing, and false: words with ignored bits (register operand of jumps, mode of stores, size of other loads, upper byte) are executed as if these bits were clear (C57_false_for_register_jumps, C57_ignored_bits)."
 },
 "C59": {
  "note": "C59_only_complete_filters, C59_fixed_inside and C59_no_interference are the claim in full. C50_every_schedule_partial carries C50 over to schedules, with the restriction of C50 (payloads of at most 16 bits; beyond that C50 is false)."
 },
 "C60": {
  "note": "Full. Calls are cut at getpid, gettid and the two prctl calls."
 },
 "C61": {
  "note": "Full; extends C09, which is false beyond 16 bits."
 },
 "C62": {
  "note": "Full; the exact version of C19."
 },
 "C63": {
  "note": "Full; the exact version of C20. hsize (fewer than 2^64 instructions) holds for every program that fits in memory."
 },
 "C64": {
  "note": "Full, for threads whose filters all come from pledges."
 },
 "C65": {
  "note": "Full, for threads whose filters all come from pledges."
 },
 "C66": {
  "note": "Full."
 },
 "C67": {
  "note": "Full; about the kernel model in Env/Kernel and histories in Spec/History."
 },
 "C68": {
  "note": "Full. EINVAL part: a thread without earlier filters and no other kernel failure."
 },
 "C69": {
  "note": "Full."
 },
 "C70": {
  "note": "Full."
 },
 "C71": {
  "note": "Full, for filters of at most 65535 instructions (longer ones are refused by BpfVM::new)."
 },
 "C72": {
  "note": "Full; the exact versions of C30-C33, C35, C41 and C43."
 },
 "C73": {
  "note": "Full."
 },
 "C74": {
  "note": "Full, for the default violation (pledge). C74_widening: the earlier pledge was made by the same thread."
 },
 "C75": {
  "note": "Full."
 },
 "C76": {
  "note": "Full. Programs with length loads are excluded by the statement: the VM and the source semantics count 32-bit words (16), the kernel bytes (64), see C18_limits."
 },
 "C77": {
  "note": "Full."
 },
 "C78": {
  "note": "Full, for threads whose filters all come from pledges. Justifies the simplification of Model/Pledge (askIds)."
 },
 "C79": {
  "note": "Full, for threads whose filters all come from pledges. System calls of the memory allocator are not modelled."
 },
 "C80": {
  "note": "Full: exact version of C50 and C51. Kernel semantics from Env/Kernel."
 },
 "C81": {
  "note": "Full: exact version of the first half of C23."
 },
 "C82": {
  "note": "Full: exact version of C20, C21 and the second half of C23."
 },
 "C83": {
  "note": "Full: exact version of C57."
 },
 "C84": {
  "note": "Model/Signals.lean: nested calls, forks inside a call, every id query a step. Told.verdict is the policy with the ids the queries returned. C84_true_ids and C84_never_grow exclude exactly the violations of C80 whose payload makes an undefined action above LOG; C84_ok_enforced excludes those of C49."
 },
 "C85": {
  "note": "Finding. C85_every_fork (Props/Stale.lean) is the general statement for forks while the rules are made; C85_stale_ids is one concrete run of it (used by C93)."
 },
 "C86": {
  "note": "Model/Init.lean: getrandom (318) is in the StdIO whitelist only, like the effective rule for the library's own calls. What the standard library does after a refusal is a parameter (Fallback)."
 },
 "C87": {
  "note": "Model/Init.lean: the Lazy cell of each memory is idle, running, ready or poisoned. C87_stuck_forever for any orphaned memory; three ways into it; C87_only_cuts and C87_returns show there is no other. Finding: fork by another thread during the first pledge."
 },
 "C88": {
  "note": "Simulation of Model/Init by the histories of Model/Pledge; C88_filters is one use."
 },
 "C89": {
  "note": "Spec/Agree.lean has the table of departures (`departure`) and the kernel's path (`Visits`). `C89_step` is an equivalence per instruction and state, `C89_agrees`, `C89_first` and `C89_iff` are about whole runs, `C89_length` and `C89_any_to_data` about the library's own way to build the slice. Strengthens C18, which forbids the departing forms anywhere in the program."
 },
 "C90": {
  "note": "Model/Alloc.lean is pledge_override with every system call, those of the allocator included; the calls, their positions and the allocator's reactions are arbitrary. `C90_served`, `C90_whatever`, `C90_all_or_nothing`."
 },
 "C91": {
  "note": "`C91_heap_needs_stdio` and `C91_heap_like_own` are about filters and threads; `C91_heap_unnoticed`, `C91_without_stdio_never_returns`, `C91_mmap_kills` and `C91_mmap_never_ok` about whole pledges. That a given allocator makes one of these calls is not part of the model."
 },
 "C92": {
  "note": "Spec/Looks.lean decodes instruction codes by number, independently of the model. Exact counterpart of C26, whose slice is too long: `C92_foreign_iff` is an equivalence."
 },
 "C93": {
  "note": "C93_indivisible: for every run of Model/Signals from threads without filters in which only the library installs filters and no thread inside a call forks, there is a history of Model/Pledge with the same final threads and the same sequence of ended calls (thread, promises, violation, result), each of its steps standing for a move of the run. C93_fork_matters: the run of C85 has an effect that no such history has."
 },
 "C94": {
  "note": "C94_bpf_distinct and C94_distinct: the display texts (thiserror attributes, decimal numbers, derived names, escaped strings as in the standard library's Debug) are injective; the escape code is shown to be a prefix code. DataConversionError is never constructed and left out. C94_bpf_delimited and C94_one_line: the text ends where it says and stays on one line."
 },
 "C95": {
  "note": "C95_fits, C95_finite, C95_repeat; the kernel's rule is stated in Spec/Limit with an arbitrary size function, since the translated size of a filter differs between kernels."
 },
 "C96": {
  "note": "C96_filters, C96_true_ids, C96_ok_enforced, C96_never_grow, C96_indivisible about Model/Full; proved by showing that Model/Full refines Model/Signals (Proofs/Full: run_moves)."
 },
 "C97": {
  "note": "C97_ready, C97_once, C97_stays, C97_ends, C97_progress, C97_abandoned, C97_causes, C97_deadlock, C97_released, C97_poisoned about Model/Full, by the invariant Orderly (Proofs/Table)."
 },
 "C98": {
  "note": "C98_whence, C98_kept, C98_bystander about Model/Full; PutBy and CalledBy in Spec/Whence say who did what when, with kin (Spec/Full) for descendants."
 },
 "C99": {
  "note": "C99_rename, C99_append, C99_unused for every source and outcome, C99_linked for any number of pieces, C99_library for the library's own fragments; examples show that each hypothesis is needed."
 },
 "C100": {
  "note": "C100_call (one call with all its system calls), C100_history (histories of any length). The converse direction is C93 and C96. Threads without hash keys are excluded because C86 shows that their first call can end otherwise."
 },
 "C101": {
  "note": "C101_counting ties the count to the kernel's interpreter; C101_program, C101_foreign, C101_exit, C101_unmentioned, C101_worst, C101_worst_met, C101_order, C101_thread. Instructions are those of the classic filter; what the kernel translates them to is not modelled."
 },
 "C102": {
  "note": "C102_alone and C102_waits for all systems of the full model; C102_table_there and C102_first tie the outcome to the models of C86 and of single calls. The steps of other threads in between are the subject of C93, C96 and C97."
 },
 "C103": {
  "note": "C103_at_most and C103_same are the exact comparison (decidable), C103_second_pledge says it about the kernel's treatment of a thread, C103_common and C103_twice_is_more relate two pledges to one."
 },
 "C104": {
  "note": "C104_refines is the simulation, C104_starts says that every start of the coarser model is covered, C104_transfers carries properties of threads over. The converse fails by design: finer runs have states between the steps and calls left by a handler's jump."
 },
 "C105": {
  "note": "The kernel's tracer protocol is Env/Tracer.lean. C105_executes and C105_asked are exact for payloads of 16 bits; C105_firm needs no such hypothesis on the other pledges."
 },
 "C106": {
  "note": "Model/Traced.lean. The tracer passes or skips the library's calls; it does not put other calls in their place."
 },
 "C107": {
  "note": "Model/Log.lean repeats Model/Vm.lean with the log; C107_silent ties the two together. What a logger does with the records is not modelled."
 },
 "C108": {
  "note": "Follows from the compositional evaluation of fragments (Proofs/Path.lean) and, for foreign programs, from the simulation of C89 extended by the trace."
 },
 "C109": {
  "note": "Props/Plain.lean. For a thread with foreign filters the ids in the filter are the thread's own or what those filters made getpid and gettid seem to return (Found)."
 },
 "C110": {
  "note": "Props/Steered.lean. The substitute calls' effects are arbitrary functions on the thread that keep its filters and no_new_privs (Lawful)."
 },
 "C111": {
  "note": "Props/Returns.lean. nextResult (Spec/Returns) reads the result of a call off the state before the step that ends it. System calls of the allocator are not among the steps (C90, C91, C100)."
 },
 "C112": {
  "note": "Props/Readback.lean. readAs (Spec/Readback) reads SendFd as RecvFd, the one pair of promises with the same rules."
 },
 "C113": {
  "note": "Env/Handlers (the kernel's side), Spec/Handlers, Props/Handlers.lean."
 },
 "C114": {
  "note": "Model/Trapped, Spec/Trapped, Props/Trapped.lean. C114_agrees and C114_machine relate it to Model/Pledge and to Env/Handlers."
 },
 "C115": {
  "note": "Env/Cache (the kernel's side), Spec/Cache, Props/Cache.lean."
 },
 "C116": {
  "note": "Env/Older (the kernel's side), Props/Older.lean."
 },
 "C117": {
  "note": "Env/Runtime (the C library's side), Spec/Runtime, Props/Runtime.lean."
 },
 "C118": {
  "note": "Env/Runtime (the C library's side), Spec/Runtime, Props/Runtime.lean."
 },
 "C119": {
  "note": "Env/Programs (any program and system), Spec/Programs, Props/Programs.lean."
 },
 "C120": {
  "note": "Env/Teams (any threads and processes), Spec/Teams, Props/Teams.lean."
 },
 "C121": {
  "note": "Spec/Express, Props/Express.lean."
 }
}