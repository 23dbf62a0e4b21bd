{"claims": [
  {"property": "C01", "status": "proved", "theorems": ["Props.C01_kernel_verdict", "Props.C01_vm_verdict", "Props.C01_exact"], "note": "Verdict of both the kernel interpreter and the bundled VM equals Spec.verdict (Spec/Policy.lean, written per system call with literal numbers) for every promise list, violation, build, pid/tid and record."},
  {"property": "C02", "status": "proved", "theorems": ["Props.C02_default_deny"], "note": ""},
  {"property": "C03", "status": "proved", "theorems": ["Props.C03_foreign_arch"], "note": ""},
  {"property": "C04", "status": "proved", "theorems": ["Props.C04_no_large_number", "Props.C04_no_x32"], "note": ""},
  {"property": "C05", "status": "proved", "theorems": ["Props.C05_order_irrelevant"], "note": ""},
  {"property": "C06", "status": "proved", "theorems": ["Props.C06_union", "Props.C06_monotone"], "note": ""},
  {"property": "C07", "status": "proved", "theorems": ["Props.C07_exit", "Props.C07_exit_only"], "note": ""},
  {"property": "C08", "status": "proved", "theorems": ["Props.C08_violation_scope", "Props.C08_pledge_default"], "note": ""},
  {"property": "C09", "status": "partial", "theorems": ["Props.C09_denied_gets_violation_partial", "Props.C09_false_for_wide_payloads", "Props.C09_decodes_iff_fits"], "note": "Partial: proved for payloads of at most 16 bits. Missing: wider payloads, for which the claim is false (C09_false_for_wide_payloads: Errno(0x7fff0000) lets denied calls run); C09_decodes_iff_fits shows 16 bits is exactly the boundary."},
  {"property": "C10", "status": "proved", "theorems": ["Props.C10_decode_encode", "Props.C10_encode_decode"], "note": ""},
  {"property": "C11", "status": "proved", "theorems": ["Props.C11_decode_exact", "Props.C11_success_iff"], "note": ""},
  {"property": "C12", "status": "proved", "theorems": ["Props.C12_generation_total", "Props.C12_build_independent"], "note": ""},
  {"property": "C13", "status": "proved", "theorems": ["Props.C13_accepted_iff_short", "Props.C13_accepted_nodup", "Props.C13_too_long"], "note": ""},
  {"property": "C14", "status": "proved", "theorems": ["Props.C14_no_prefix", "Props.C14_all_or_nothing"], "note": ""},
  {"property": "C15", "status": "proved", "theorems": ["Props.C15_run_terminates", "Props.C15_runProg_total"], "note": ""},
  {"property": "C16", "status": "proved", "theorems": ["Props.C16_program_unchanged", "Props.C16_run_history_independent", "Props.C16_new_is_reset", "Props.C16_new_iff"], "note": ""},
  {"property": "C17", "status": "proved", "theorems": ["Props.C17_vm_predicts_kernel"], "note": ""},
  {"property": "C18", "status": "proved", "theorems": ["Props.C18_unchecked", "Props.C18_unchecked_div", "Props.C18_value_or_panic", "Props.C18_slice", "Props.C18_limits"], "note": "Proved with the unsupported constructs excluded; C18_limits shows each exclusion is necessary. C18_unchecked_div: without overflow checks the only way the VM can panic where the kernel gives a verdict is a division by a zero index register, where the kernel returns 0."},
  {"property": "C19", "status": "partial", "theorems": ["Props.C19_length", "Props.C19_success_iff", "Props.C19_success_below", "Props.C19_error_iff", "Props.C19_panic_iff", "Props.C19_error_partial", "Props.C19_false_for_backward_labels"], "note": "Partial: proved in full for unchecked builds, and in all builds for programs without backward references. Missing (and false, C19_false_for_backward_labels): checked builds with a backward reference before the undefined one, which panic. C19_success_iff, C19_error_iff, C19_panic_iff are exact for every build and program."},
  {"property": "C20", "status": "partial", "theorems": ["Props.C20_jumpTo", "Props.C20_conditional_partial", "Props.C20_distance_modulo", "Props.C20_no_label", "Props.C20_backward_never_lands", "Props.C20_far_misses", "Props.C20_false_far"], "note": "Partial: proved for JumpTo with any label below and for conditional jumps over at most 255 instructions. Missing: longer conditional jumps and backward labels, for which it is false (C20_false_far, C20_far_misses, C20_backward_never_lands); C20_distance_modulo is the exact behaviour."},
  {"property": "C21", "status": "proved", "theorems": ["Props.C21_source_semantics", "Props.C21_source_deterministic", "Props.C21_too_long"], "note": ""},
  {"property": "C22", "status": "proved", "theorems": ["Props.C22_last_definition"], "note": ""},
  {"property": "C23", "status": "partial", "theorems": ["Props.C23_injective_partial", "Props.C23_injective_false", "Props.C23_acc_collides", "Props.C23_xor_acc", "Props.C23_decode_partial", "Props.C23_decode_return", "Props.C23_decode_jump", "Props.C23_decode_ja", "Props.C23_ldx_refused", "Props.C23_decode_false"], "note": "Partial: injectivity for all operations but arithmetic with source Acc; decoding for all operations but that and data loads into the index register. Both are false there (C23_injective_false, C23_decode_false); C23_acc_collides, C23_xor_acc, C23_ldx_refused and C23_decode_ja give the exact behaviour."},
  {"property": "C24", "status": "proved", "theorems": ["Props.C24_offset_loads_field", "Props.C24_offset_injective", "Props.C24_offset_in_record", "Props.C24_overflow_aliases", "Props.C24_offset_builds"], "note": ""},
  {"property": "C25", "status": "proved", "theorems": ["Props.C25_visible_part", "Props.C25_sendto_exception"], "note": ""},
  {"property": "C26", "status": "partial", "theorems": ["Props.C26_slice_too_long", "Props.C26_false", "Props.C26_run_depends_on_record_partial", "Props.C26_memory", "Props.C26_record", "Props.C26_foreign_bytes"], "note": "Partial: that a run depends on the value only is proved for programs whose loads are absolute and lie inside the value (no indirect, no length loads). 'No more and no less' is false: the slice has four times too many words (C26_slice_too_long, C26_false, C26_foreign_bytes). C26_memory and C26_record give the words byte by byte."},
  {"property": "C27", "status": "proved", "theorems": ["Props.C27_vm_value", "Props.C27_short_lists"], "note": ""},
  {"property": "C28", "status": "proved", "theorems": ["Props.C28_no_return_kills", "Props.C28_falling_off"], "note": ""},
  {"property": "C29", "status": "proved", "theorems": ["Props.C29_no_exec_memory", "Props.C29_protexec_gives_exec"], "note": ""},
  {"property": "C30", "status": "partial", "theorems": ["Props.C30_stdio_mmap_partial", "Props.C30_false_for_read_write", "Props.C30_stdio_mmap_exact"], "note": "Partial: prot 0, 1 and 2. Missing: PROT_READ|PROT_WRITE, which is denied (C30_false_for_read_write). C30_stdio_mmap_exact is the exact rule."},
  {"property": "C31", "status": "partial", "theorems": ["Props.C31_rpath_readonly_partial", "Props.C31_false_for_open", "Props.C31_open_actual"], "note": "Partial: openat and all other calls. Missing: open, where the filter tests the mode instead of the flags (C31_false_for_open); C31_open_actual is the exact rule."},
  {"property": "C32", "status": "partial", "theorems": ["Props.C32_wpath_no_create_partial", "Props.C32_false_for_open", "Props.C32_plain_open_denied"], "note": "Partial: openat and creat. Missing: open, for the same reason (C32_false_for_open); C32_plain_open_denied shows the usual open(O_WRONLY) with mode 0 is denied."},
  {"property": "C33", "status": "partial", "theorems": ["Props.C33_no_special_bits_partial", "Props.C33_false_for_fchmodat", "Props.C33_false_for_open", "Props.C33_full_false"], "note": "Partial: chmod, fchmod, creat, openat. Missing: fchmodat (the path pointer is tested, C33_false_for_fchmodat) and open (C33_false_for_open)."},
  {"property": "C34", "status": "proved", "theorems": ["Props.C34_exec"], "note": ""},
  {"property": "C35", "status": "partial", "theorems": ["Props.C35_process_creation_partial", "Props.C35_false_for_newuser", "Props.C35_clone_exact"], "note": "Partial: everything but namespace flags other than NEWNS, which are allowed (C35_false_for_newuser); C35_clone_exact is the exact rule for clone."},
  {"property": "C36", "status": "proved", "theorems": ["Props.C36_socket", "Props.C36_no_promise_no_socket"], "note": ""},
  {"property": "C37", "status": "proved", "theorems": ["Props.C37_signals", "Props.C37_proc_signals"], "note": ""},
  {"property": "C38", "status": "proved", "theorems": ["Props.C38_fcntl"], "note": ""},
  {"property": "C39", "status": "proved", "theorems": ["Props.C39_ioctl", "Props.C39_no_tiocsti"], "note": ""},
  {"property": "C40", "status": "proved", "theorems": ["Props.C40_prctl"], "note": ""},
  {"property": "C41", "status": "partial", "theorems": ["Props.C41_rlimits_partial", "Props.C41_false_for_high_pointer"], "note": "Partial: the low half of the pointer is zero. Missing: the high half is not tested, so a non-NULL pointer with low half zero passes (C41_false_for_high_pointer)."},
  {"property": "C42", "status": "proved", "theorems": ["Props.C42_sendto", "Props.C42_sendto_network"], "note": ""},
  {"property": "C43", "status": "partial", "theorems": ["Props.C43_sockopt_partial", "Props.C43_false", "Props.C43_getsockopt_too_wide"], "note": "Partial: what getsockopt allows is exact. False: setsockopt is never allowed and getsockopt is too wide (C43_false, C43_getsockopt_too_wide): the second filter tests getsockopt again."},
  {"property": "C44", "status": "partial", "theorems": ["Props.C44_fd_passing_partial", "Props.C44_false"], "note": "Partial: the receiving half. False for sending: sendmsg/sendmmsg are never allowed, SendFd grants recvmsg/recvmmsg (C44_false)."},
  {"property": "C45", "status": "proved", "theorems": ["Props.C45_privileged"], "note": ""},
  {"property": "C46", "status": "proved", "theorems": ["Props.C46_dangerous"], "note": ""},
  {"property": "C47", "status": "proved", "theorems": ["Props.C47_unconditional", "Props.C47_conditional", "Props.C47_tables_disjoint"], "note": ""},
  {"property": "C48", "status": "proved", "theorems": ["Props.C48_error_changes_no_filter", "Props.C48_installed_implies_nnp", "Props.C48_nnp_first", "Props.C48_seccomp_fault"], "note": ""},
  {"property": "C49", "status": "partial", "theorems": ["Props.C49_ok_means_enforced_partial", "Props.C49_first_pledge", "Props.C49_false_after_errno_zero"], "note": "Partial: proved unless an earlier pledge without StdIO used a violation that can make a denied prctl look successful (Errno(0), or Trap with a SIGSYS handler that leaves 0). False then (C49_false_after_errno_zero). C49_first_pledge: a first pledge succeeds and is enforced."},
  {"property": "C50", "status": "partial", "theorems": ["Props.C50_filters_only_grow", "Props.C50_privileges_never_grow_partial", "Props.C50_false_for_wide_payloads", "Props.C50_every_schedule_partial"], "note": "Partial: growing filter stacks and no_new_privs for every history; denied stays denied for payloads of at most 16 bits. False for wider payloads (C50_false_for_wide_payloads)."},
  {"property": "C51", "status": "partial", "theorems": ["Props.C51_intersection", "Props.C51_successive_partial", "Props.C51_default_violation", "Props.C51_false_in_general"], "note": "Partial: for payloads of at most 16 bits and pledges that really installed (see C49). False in general (C51_false_in_general). C51_default_violation: no restriction for pledge()."},
  {"property": "C52", "status": "proved", "theorems": ["Props.C52_again_with_stdio", "Props.C52_again_without_stdio", "Props.C52_process_dies"], "note": ""},
  {"property": "C53", "status": "partial", "theorems": ["Props.C53_false_for_other_threads", "Props.C53_single_thread_partial"], "note": "Partial: single-threaded processes. False for processes with other threads (C53_false_for_other_threads): the filter is installed for the calling thread only."},
  {"property": "C54", "status": "proved", "theorems": ["Props.C54_inherit", "Props.C54_self_signal", "Props.C54_child_cannot_signal_itself"], "note": ""},
  {"property": "C55", "status": "proved", "theorems": ["Props.C55_most_severe_wins"], "note": ""},
  {"property": "C56", "status": "proved", "theorems": ["Props.C56_alu"], "note": ""},
  {"property": "C57", "status": "partial", "theorems": ["Props.C57_false_for_register_jumps", "Props.C57_errors_partial", "Props.C57_implemented_never_err", "Props.C57_ignored_bits"], "note": "Partial: which words give which error is exact (C57_errors_partial; an indirect load may panic in a checked build before it reports its error). Missing, and false: words with ignored bits (register operand of jumps, mode of stores, size of other loads, upper byte) are executed as if these bits were clear (C57_false_for_register_jumps, C57_ignored_bits)."},
  {"property": "C58", "status": "proved", "theorems": ["Props.C58_redundant", "Props.C58_recvfd_sendfd", "Props.C58_fattr_wpath"], "note": ""},
  {"property": "C59", "status": "proved", "theorems": ["Props.C59_only_complete_filters", "Props.C59_fixed_inside", "Props.C59_no_interference"], "note": "C59_only_complete_filters, C59_fixed_inside and C59_no_interference are the claim in full. C50_every_schedule_partial carries C50 over to schedules, with the restriction of C50 (payloads of at most 16 bits; beyond that C50 is false)."},
  {"property": "C60", "status": "proved", "theorems": ["Props.C60_schedules_linearize", "Props.C60_wait_free"], "note": "Full. Calls are cut at getpid, gettid and the two prctl calls."},
  {"property": "C61", "status": "proved", "theorems": ["Props.C61_executed_iff", "Props.C61_decoder_agrees", "Props.C61_denied_fate"], "note": "Full; extends C09, which is false beyond 16 bits."},
  {"property": "C62", "status": "proved", "theorems": ["Props.C62_assembler_outcomes"], "note": "Full; the exact version of C19."},
  {"property": "C63", "status": "proved", "theorems": ["Props.C63_jumpTo", "Props.C63_conditional"], "note": "Full; the exact version of C20. hsize (fewer than 2^64 instructions) holds for every program that fits in memory."},
  {"property": "C64", "status": "proved", "theorems": ["Props.C64_executed", "Props.C64_refused", "Props.C64_own_calls", "Props.C64_ok_without_effect"], "note": "Full, for threads whose filters all come from pledges."},
  {"property": "C65", "status": "proved", "theorems": ["Props.C65_lowest_action_decides"], "note": "Full, for threads whose filters all come from pledges."},
  {"property": "C66", "status": "proved", "theorems": ["Props.C66_only_the_caller"], "note": "Full."},
  {"property": "C67", "status": "proved", "theorems": ["Props.C67_accepted_total", "Props.C67_always_a_verdict"], "note": "Full; about the kernel model in Env/Kernel and histories in Spec/History."},
  {"property": "C68", "status": "proved", "theorems": ["Props.C68_size", "Props.C68_einval_iff"], "note": "Full. EINVAL part: a thread without earlier filters and no other kernel failure."},
  {"property": "C69", "status": "proved", "theorems": ["Props.C69_no_ids_without_stdio", "Props.C69_ids_matter_for_signals"], "note": "Full."},
  {"property": "C70", "status": "proved", "theorems": ["Props.C70_reachable_iff", "Props.C70_always_denied"], "note": "Full."},
  {"property": "C71", "status": "proved", "theorems": ["Props.C71_offline_result", "Props.C71_offline_predicts_kernel"], "note": "Full, for filters of at most 65535 instructions (longer ones are refused by BpfVM::new)."},
  {"property": "C72", "status": "proved", "theorems": ["Props.C72_open", "Props.C72_openat", "Props.C72_creat", "Props.C72_chmod", "Props.C72_fcntl", "Props.C72_ioctl", "Props.C72_mmap", "Props.C72_mprotect", "Props.C72_clone", "Props.C72_kill", "Props.C72_tkill", "Props.C72_prctl", "Props.C72_prlimit", "Props.C72_sendto", "Props.C72_socket", "Props.C72_getsockopt", "Props.C72_no_other_rule"], "note": "Full; the exact versions of C30-C33, C35, C41 and C43."},
  {"property": "C73", "status": "proved", "theorems": ["Props.C73_redundant_iff"], "note": "Full."},
  {"property": "C74", "status": "proved", "theorems": ["Props.C74_reducing", "Props.C74_widening"], "note": "Full, for the default violation (pledge). C74_widening: the earlier pledge was made by the same thread."},
  {"property": "C75", "status": "proved", "theorems": ["Props.C75_runtime_needs_stdio", "Props.C75_exit_group_kills"], "note": "Full."},
  {"property": "C76", "status": "proved", "theorems": ["Props.C76_filter_meaning"], "note": "Full. Programs with length loads are excluded by the statement: the VM and the source semantics count 32-bit words (16), the kernel bytes (64), see C18_limits."},
  {"property": "C77", "status": "proved", "theorems": ["Props.C77_taken_iff"], "note": "Full."},
  {"property": "C78", "status": "proved", "theorems": ["Props.C78_as_if_asked_once"], "note": "Full, for threads whose filters all come from pledges. Justifies the simplification of Model/Pledge (askIds)."},
  {"property": "C79", "status": "proved", "theorems": ["Props.C79_calls", "Props.C79_arguments", "Props.C79_any_records"], "note": "Full, for threads whose filters all come from pledges. System calls of the memory allocator are not modelled."},
  {"property": "C80", "status": "proved", "theorems": ["Props.C80_never_grow_iff", "Props.C80_intersection_iff"], "note": "Full: exact version of C50 and C51. Kernel semantics from Env/Kernel."},
  {"property": "C81", "status": "proved", "theorems": ["Props.C81_same_word_iff"], "note": "Full: exact version of the first half of C23."},
  {"property": "C82", "status": "proved", "theorems": ["Props.C82_every_program", "Props.C82_one_result"], "note": "Full: exact version of C20, C21 and the second half of C23."},
  {"property": "C83", "status": "proved", "theorems": ["Props.C83_every_word", "Props.C83_too_long"], "note": "Full: exact version of C57."},
  {"property": "C84", "status": "proved", "theorems": ["Props.C84_complete_filters", "Props.C84_true_ids", "Props.C84_ok_enforced", "Props.C84_never_grow", "Props.C84_ends"], "note": "Model/Signals.lean: nested calls, forks inside a call, every id query a step. Told.verdict is the policy with the ids the queries returned. C84_true_ids and C84_never_grow exclude exactly the violations of C80 whose payload makes an undefined action above LOG; C84_ok_enforced excludes those of C49."},
  {"property": "C85", "status": "proved", "theorems": ["Props.C85_stale_ids", "Props.C85_every_fork"], "note": "Finding. C85_every_fork (Props/Stale.lean) is the general statement for forks while the rules are made; C85_stale_ids is one concrete run of it (used by C93)."},
  {"property": "C86", "status": "proved", "theorems": ["Props.C86_same_fate", "Props.C86_executed", "Props.C86_refused", "Props.C86_same_effect"], "note": "Model/Init.lean: getrandom (318) is in the StdIO whitelist only, like the effective rule for the library's own calls. What the standard library does after a refusal is a parameter (Fallback)."},
  {"property": "C87", "status": "proved", "theorems": ["Props.C87_stuck_forever", "Props.C87_fork_hangs", "Props.C87_kill_hangs", "Props.C87_handler_hangs", "Props.C87_only_cuts", "Props.C87_returns"], "note": "Model/Init.lean: the Lazy cell of each memory is idle, running, ready or poisoned. C87_stuck_forever for any orphaned memory; three ways into it; C87_only_cuts and C87_returns show there is no other. Finding: fork by another thread during the first pledge."},
  {"property": "C88", "status": "proved", "theorems": ["Props.C88_history", "Props.C88_filters"], "note": "Simulation of Model/Init by the histories of Model/Pledge; C88_filters is one use."},
  {"property": "C89", "status": "proved", "theorems": ["Props.C89_step", "Props.C89_agrees", "Props.C89_first", "Props.C89_iff", "Props.C89_length", "Props.C89_any_to_data"], "note": "Spec/Agree.lean has the table of departures (`departure`) and the kernel's path (`Visits`). `C89_step` is an equivalence per instruction and state, `C89_agrees`, `C89_first` and `C89_iff` are about whole runs, `C89_length` and `C89_any_to_data` about the library's own way to build the slice. Strengthens C18, which forbids the departing forms anywhere in the program."},
  {"property": "C90", "status": "proved", "theorems": ["Props.C90_served", "Props.C90_whatever", "Props.C90_all_or_nothing", "Props.C90_first", "Props.C90_query", "Props.C90_freed", "Props.C90_cases"], "note": "Model/Alloc.lean is pledge_override with every system call, those of the allocator included; the calls, their positions and the allocator's reactions are arbitrary. `C90_served`, `C90_whatever`, `C90_all_or_nothing`."},
  {"property": "C91", "status": "proved", "theorems": ["Props.C91_heap_needs_stdio", "Props.C91_heap_like_own", "Props.C91_heap_unnoticed", "Props.C91_without_stdio_never_returns", "Props.C91_mmap_kills", "Props.C91_mmap_never_ok", "Props.C91_mmap_kills_there"], "note": "`C91_heap_needs_stdio` and `C91_heap_like_own` are about filters and threads; `C91_heap_unnoticed`, `C91_without_stdio_never_returns`, `C91_mmap_kills` and `C91_mmap_never_ok` about whole pledges. That a given allocator makes one of these calls is not part of the model."},
  {"property": "C92", "status": "proved", "theorems": ["Props.C92_only_where_it_looks", "Props.C92_value_only", "Props.C92_foreign_iff", "Props.C92_otherwise_same"], "note": "Spec/Looks.lean decodes instruction codes by number, independently of the model. Exact counterpart of C26, whose slice is too long: `C92_foreign_iff` is an equivalence."},
  {"property": "C93", "status": "proved", "theorems": ["Props.C93_indivisible", "Props.C93_fork_matters"], "note": "C93_indivisible: for every run of Model/Signals from threads without filters in which only the library installs filters and no thread inside a call forks, there is a history of Model/Pledge with the same final threads and the same sequence of ended calls (thread, promises, violation, result), each of its steps standing for a move of the run. C93_fork_matters: the run of C85 has an effect that no such history has."},
  {"property": "C94", "status": "proved", "theorems": ["Props.C94_bpf_distinct", "Props.C94_distinct", "Props.C94_bpf_delimited", "Props.C94_one_line"], "note": "C94_bpf_distinct and C94_distinct: the display texts (thiserror attributes, decimal numbers, derived names, escaped strings as in the standard library's Debug) are injective; the escape code is shown to be a prefix code. DataConversionError is never constructed and left out. C94_bpf_delimited and C94_one_line: the text ends where it says and stays on one line."},
  {"property": "C95", "status": "proved", "theorems": ["Props.C95_fits", "Props.C95_finite", "Props.C95_repeat"], "note": "C95_fits, C95_finite, C95_repeat; the kernel's rule is stated in Spec/Limit with an arbitrary size function, since the translated size of a filter differs between kernels."},
  {"property": "C96", "status": "proved", "theorems": ["Props.C96_filters", "Props.C96_true_ids", "Props.C96_ok_enforced", "Props.C96_never_grow", "Props.C96_indivisible"], "note": "C96_filters, C96_true_ids, C96_ok_enforced, C96_never_grow, C96_indivisible about Model/Full; proved by showing that Model/Full refines Model/Signals (Proofs/Full: run_moves)."},
  {"property": "C97", "status": "proved", "theorems": ["Props.C97_ready", "Props.C97_once", "Props.C97_stays", "Props.C97_poisoned", "Props.C97_abandoned", "Props.C97_causes", "Props.C97_deadlock", "Props.C97_progress", "Props.C97_ends", "Props.C97_exec", "Props.C97_released"], "note": "C97_ready, C97_once, C97_stays, C97_ends, C97_progress, C97_abandoned, C97_causes, C97_deadlock, C97_released, C97_poisoned about Model/Full, by the invariant Orderly (Proofs/Table)."},
  {"property": "C98", "status": "proved", "theorems": ["Props.C98_whence", "Props.C98_kept", "Props.C98_bystander"], "note": "C98_whence, C98_kept, C98_bystander about Model/Full; PutBy and CalledBy in Spec/Whence say who did what when, with kin (Spec/Full) for descendants."},
  {"property": "C99", "status": "proved", "theorems": ["Props.C99_rename", "Props.C99_append", "Props.C99_unused", "Props.C99_linked", "Props.C99_library"], "note": "C99_rename, C99_append, C99_unused for every source and outcome, C99_linked for any number of pieces, C99_library for the library's own fragments; examples show that each hypothesis is needed."},
  {"property": "C100", "status": "proved", "theorems": ["Props.C100_call", "Props.C100_history"], "note": "C100_call (one call with all its system calls), C100_history (histories of any length). The converse direction is C93 and C96. Threads without hash keys are excluded because C86 shows that their first call can end otherwise."},
  {"property": "C101", "status": "proved", "theorems": ["Props.C101_counting", "Props.C101_program", "Props.C101_foreign", "Props.C101_exit", "Props.C101_unmentioned", "Props.C101_worst", "Props.C101_order", "Props.C101_worst_met", "Props.C101_thread"], "note": "C101_counting ties the count to the kernel's interpreter; C101_program, C101_foreign, C101_exit, C101_unmentioned, C101_worst, C101_worst_met, C101_order, C101_thread. Instructions are those of the classic filter; what the kernel translates them to is not modelled."},
  {"property": "C102", "status": "proved", "theorems": ["Props.C102_alone", "Props.C102_waits", "Props.C102_table_there", "Props.C102_first"], "note": "C102_alone and C102_waits for all systems of the full model; C102_table_there and C102_first tie the outcome to the models of C86 and of single calls. The steps of other threads in between are the subject of C93, C96 and C97."},
  {"property": "C103", "status": "proved", "theorems": ["Props.C103_at_most", "Props.C103_same", "Props.C103_second_pledge", "Props.C103_common", "Props.C103_twice_is_more"], "note": "C103_at_most and C103_same are the exact comparison (decidable), C103_second_pledge says it about the kernel's treatment of a thread, C103_common and C103_twice_is_more relate two pledges to one."},
  {"property": "C104", "status": "proved", "theorems": ["Props.C104_refines", "Props.C104_starts", "Props.C104_transfers"], "note": "C104_refines is the simulation, C104_starts says that every start of the coarser model is covered, C104_transfers carries properties of threads over. The converse fails by design: finer runs have states between the steps and calls left by a handler's jump."},
  {"property": "C105", "status": "proved", "theorems": ["Props.C105_firm", "Props.C105_asked", "Props.C105_executes", "Props.C105_unasked", "Props.C105_no_trace"], "note": "The kernel's tracer protocol is Env/Tracer.lean. C105_executes and C105_asked are exact for payloads of 16 bits; C105_firm needs no such hypothesis on the other pledges."},
  {"property": "C106", "status": "proved", "theorems": ["Props.C106_unasked", "Props.C106_asked", "Props.C106_passed", "Props.C106_only_adds", "Props.C106_faked", "Props.C106_ok"], "note": "Model/Traced.lean. The tracer passes or skips the library's calls; it does not put other calls in their place."},
  {"property": "C107", "status": "proved", "theorems": ["Props.C107_silent", "Props.C107_returned", "Props.C107_errors", "Props.C107_lines", "Props.C107_determines", "Props.C107_many", "Props.C107_info_not_enough", "Props.C107_jset", "Props.C107_loads", "Props.C107_arithmetic", "Props.C107_jumps", "Props.C107_returns"], "note": "Model/Log.lean repeats Model/Vm.lean with the log; C107_silent ties the two together. What a logger does with the records is not modelled."},
  {"property": "C108", "status": "proved", "theorems": ["Props.C108_way", "Props.C108_only", "Props.C108_readable", "Props.C108_log", "Props.C108_departs", "Props.C108_pledge", "Props.C108_ends", "Props.C108_blocks", "Props.C108_other_way"], "note": "Follows from the compositional evaluation of fragments (Proofs/Path.lean) and, for foreign programs, from the simulation of C89 extended by the trace."},
  {"property": "C109", "status": "proved", "theorems": ["Props.C109_all_or_nothing", "Props.C109_fate", "Props.C109_first", "Props.C109_ok", "Props.C109_process"], "note": "Props/Plain.lean. For a thread with foreign filters the ids in the filter are the thread's own or what those filters made getpid and gettid seem to return (Found)."},
  {"property": "C110", "status": "proved", "theorems": ["Props.C110_only_adds", "Props.C110_firm", "Props.C110_ends", "Props.C110_unasked", "Props.C110_ok", "Props.C110_died", "Props.C110_executed", "Props.C110_swapped", "Props.C110_only_skips"], "note": "Props/Steered.lean. The substitute calls' effects are arbitrary functions on the thread that keep its filters and no_new_privs (Lawful)."},
  {"property": "C111", "status": "proved", "theorems": ["Props.C111_step", "Props.C111_ok", "Props.C111_results", "Props.C111_panics", "Props.C111_panic_cause", "Props.C111_no_panic", "Props.C111_death", "Props.C111_stdio", "Props.C111_default"], "note": "Props/Returns.lean. nextResult (Spec/Returns) reads the result of a call off the state before the step that ends it. System calls of the allocator are not among the steps (C90, C91, C100)."},
  {"property": "C112", "status": "proved", "theorems": ["Props.C112_same", "Props.C112_violation", "Props.C112_history"], "note": "Props/Readback.lean. readAs (Spec/Readback) reads SendFd as RecvFd, the one pair of promises with the same rules."},
  {"property": "C113", "status": "proved", "theorems": ["Props.C113_like_pledging", "Props.C113_can_return", "Props.C113_restart", "Props.C113_no_return", "Props.C113_once", "Props.C113_return_kills", "Props.C113_many"], "note": "Env/Handlers (the kernel's side), Spec/Handlers, Props/Handlers.lean."},
  {"property": "C114", "status": "proved", "theorems": ["Props.C114_untrapped", "Props.C114_trapped", "Props.C114_returning", "Props.C114_ok_without_effect", "Props.C114_enforced", "Props.C114_masked", "Props.C114_agrees", "Props.C114_machine"], "note": "Model/Trapped, Spec/Trapped, Props/Trapped.lean. C114_agrees and C114_machine relate it to Model/Pledge and to Env/Handlers."},
  {"property": "C115", "status": "proved", "theorems": ["Props.C115_sound", "Props.C115_transparent", "Props.C115_exact", "Props.C115_foreign"], "note": "Env/Cache (the kernel's side), Spec/Cache, Props/Cache.lean."},
  {"property": "C116", "status": "proved", "theorems": ["Props.C116_exact", "Props.C116_no_more", "Props.C116_permitted", "Props.C116_wide_payload"], "note": "Env/Older (the kernel's side), Props/Older.lean."},
  {"property": "C117", "status": "proved", "theorems": ["Props.C117_stdio", "Props.C117_fate", "Props.C117_default", "Props.C117_deadly"], "note": "Env/Runtime (the C library's side), Spec/Runtime, Props/Runtime.lean."},
  {"property": "C118", "status": "proved", "theorems": ["Props.C118_fork", "Props.C118_impostor", "Props.C118_program", "Props.C118_tolerant"], "note": "Env/Runtime (the C library's side), Spec/Runtime, Props/Runtime.lean."},
  {"property": "C119", "status": "proved", "theorems": ["Props.C119_transparent", "Props.C119_stopped", "Props.C119_mediated", "Props.C119_more", "Props.C119_errors", "Props.C119_pledge"], "note": "Env/Programs (any program and system), Spec/Programs, Props/Programs.lean."},
  {"property": "C120", "status": "proved", "theorems": ["Props.C120_transparent", "Props.C120_nothing_new", "Props.C120_stopped", "Props.C120_mediated", "Props.C120_errors", "Props.C120_pledge"], "note": "Env/Teams (any threads and processes), Spec/Teams, Props/Teams.lean."},
  {"property": "C121", "status": "proved", "theorems": ["Props.C121_written_iff", "Props.C121_words", "Props.C121_filters", "Props.C121_well_formed", "Props.C121_meaning"], "note": "Spec/Express, Props/Express.lean."}
]}
