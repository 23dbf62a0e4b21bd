# Axioms of the theorems in MANIFEST.json

Generated by tools/axioms.py from `#print axioms`.

## propext (1)

`C16_new_is_reset`

## no axioms (1)

`C24_overflow_aliases`

## propext, Quot.sound (48)

`C12_generation_total`, `C12_build_independent`, `C14_no_prefix`, `C16_new_iff`, `C19_length`, `C19_false_for_backward_labels`, `C20_jumpTo`, `C22_last_definition`, `C23_injective_partial`, `C23_injective_false`, `C23_acc_collides`, `C23_xor_acc`, `C23_decode_return`, `C23_decode_ja`, `C23_ldx_refused`, `C23_decode_false`, `C24_offset_loads_field`, `C24_offset_injective`, `C24_offset_builds`, `C26_slice_too_long`, `C26_false`, `C26_memory`, `C26_record`, `C26_foreign_bytes`, `C27_short_lists`, `C28_falling_off`, `C47_tables_disjoint`, `C57_false_for_register_jumps`, `C61_executed_iff`, `C61_decoder_agrees`, `C63_jumpTo`, `C68_size`, `C69_no_ids_without_stdio`, `C79_any_records`, `C81_same_word_iff`, `C89_length`, `C99_rename`, `C99_append`, `C99_unused`, `C99_linked`, `C99_library`, `C104_starts`, `C107_loads`, `C107_arithmetic`, `C112_same`, `C112_history`, `C115_foreign`, `C121_words`

## propext, Classical.choice, Quot.sound (375)

`C01_kernel_verdict`, `C01_vm_verdict`, `C01_exact`, `C02_default_deny`, `C03_foreign_arch`, `C04_no_large_number`, `C04_no_x32`, `C05_order_irrelevant`, `C06_union`, `C06_monotone`, `C07_exit`, `C07_exit_only`, `C08_violation_scope`, `C08_pledge_default`, `C09_denied_gets_violation_partial`, `C09_false_for_wide_payloads`, `C09_decodes_iff_fits`, `C10_decode_encode`, `C10_encode_decode`, `C11_decode_exact`, `C11_success_iff`, `C13_accepted_iff_short`, `C13_accepted_nodup`, `C13_too_long`, `C14_all_or_nothing`, `C15_run_terminates`, `C15_runProg_total`, `C16_program_unchanged`, `C16_run_history_independent`, `C17_vm_predicts_kernel`, `C18_unchecked`, `C18_unchecked_div`, `C18_value_or_panic`, `C18_slice`, `C18_limits`, `C19_success_iff`, `C19_success_below`, `C19_error_iff`, `C19_panic_iff`, `C19_error_partial`, `C20_conditional_partial`, `C20_distance_modulo`, `C20_no_label`, `C20_backward_never_lands`, `C20_far_misses`, `C20_false_far`, `C21_source_semantics`, `C21_source_deterministic`, `C21_too_long`, `C23_decode_partial`, `C23_decode_jump`, `C24_offset_in_record`, `C25_visible_part`, `C25_sendto_exception`, `C26_run_depends_on_record_partial`, `C27_vm_value`, `C28_no_return_kills`, `C29_no_exec_memory`, `C29_protexec_gives_exec`, `C30_stdio_mmap_partial`, `C30_false_for_read_write`, `C30_stdio_mmap_exact`, `C31_rpath_readonly_partial`, `C31_false_for_open`, `C31_open_actual`, `C32_wpath_no_create_partial`, `C32_false_for_open`, `C32_plain_open_denied`, `C33_no_special_bits_partial`, `C33_false_for_fchmodat`, `C33_false_for_open`, `C33_full_false`, `C34_exec`, `C35_process_creation_partial`, `C35_false_for_newuser`, `C35_clone_exact`, `C36_socket`, `C36_no_promise_no_socket`, `C37_signals`, `C37_proc_signals`, `C38_fcntl`, `C39_ioctl`, `C39_no_tiocsti`, `C40_prctl`, `C41_rlimits_partial`, `C41_false_for_high_pointer`, `C42_sendto`, `C42_sendto_network`, `C43_sockopt_partial`, `C43_false`, `C43_getsockopt_too_wide`, `C44_fd_passing_partial`, `C44_false`, `C45_privileged`, `C46_dangerous`, `C47_unconditional`, `C47_conditional`, `C48_error_changes_no_filter`, `C48_installed_implies_nnp`, `C48_nnp_first`, `C48_seccomp_fault`, `C49_ok_means_enforced_partial`, `C49_first_pledge`, `C49_false_after_errno_zero`, `C50_filters_only_grow`, `C50_privileges_never_grow_partial`, `C50_false_for_wide_payloads`, `C50_every_schedule_partial`, `C51_intersection`, `C51_successive_partial`, `C51_default_violation`, `C51_false_in_general`, `C52_again_with_stdio`, `C52_again_without_stdio`, `C52_process_dies`, `C53_false_for_other_threads`, `C53_single_thread_partial`, `C54_inherit`, `C54_self_signal`, `C54_child_cannot_signal_itself`, `C55_most_severe_wins`, `C56_alu`, `C57_errors_partial`, `C57_implemented_never_err`, `C57_ignored_bits`, `C58_redundant`, `C58_recvfd_sendfd`, `C58_fattr_wpath`, `C59_only_complete_filters`, `C59_fixed_inside`, `C59_no_interference`, `C60_schedules_linearize`, `C60_wait_free`, `C61_denied_fate`, `C62_assembler_outcomes`, `C63_conditional`, `C64_executed`, `C64_refused`, `C64_own_calls`, `C64_ok_without_effect`, `C65_lowest_action_decides`, `C66_only_the_caller`, `C67_accepted_total`, `C67_always_a_verdict`, `C68_einval_iff`, `C69_ids_matter_for_signals`, `C70_reachable_iff`, `C70_always_denied`, `C71_offline_result`, `C71_offline_predicts_kernel`, `C72_open`, `C72_openat`, `C72_creat`, `C72_chmod`, `C72_fcntl`, `C72_ioctl`, `C72_mmap`, `C72_mprotect`, `C72_clone`, `C72_kill`, `C72_tkill`, `C72_prctl`, `C72_prlimit`, `C72_sendto`, `C72_socket`, `C72_getsockopt`, `C72_no_other_rule`, `C73_redundant_iff`, `C74_reducing`, `C74_widening`, `C75_runtime_needs_stdio`, `C75_exit_group_kills`, `C76_filter_meaning`, `C77_taken_iff`, `C78_as_if_asked_once`, `C79_calls`, `C79_arguments`, `C80_never_grow_iff`, `C80_intersection_iff`, `C82_every_program`, `C82_one_result`, `C83_every_word`, `C83_too_long`, `C84_complete_filters`, `C84_true_ids`, `C84_ok_enforced`, `C84_never_grow`, `C84_ends`, `C85_stale_ids`, `C85_every_fork`, `C86_same_fate`, `C86_executed`, `C86_refused`, `C86_same_effect`, `C87_stuck_forever`, `C87_fork_hangs`, `C87_kill_hangs`, `C87_handler_hangs`, `C87_only_cuts`, `C87_returns`, `C88_history`, `C88_filters`, `C89_step`, `C89_agrees`, `C89_first`, `C89_iff`, `C89_any_to_data`, `C90_served`, `C90_whatever`, `C90_all_or_nothing`, `C90_first`, `C90_query`, `C90_freed`, `C90_cases`, `C91_heap_needs_stdio`, `C91_heap_like_own`, `C91_heap_unnoticed`, `C91_without_stdio_never_returns`, `C91_mmap_kills`, `C91_mmap_never_ok`, `C91_mmap_kills_there`, `C92_only_where_it_looks`, `C92_value_only`, `C92_foreign_iff`, `C92_otherwise_same`, `C93_indivisible`, `C93_fork_matters`, `C94_bpf_distinct`, `C94_distinct`, `C94_bpf_delimited`, `C94_one_line`, `C95_fits`, `C95_finite`, `C95_repeat`, `C96_filters`, `C96_true_ids`, `C96_ok_enforced`, `C96_never_grow`, `C96_indivisible`, `C97_ready`, `C97_once`, `C97_stays`, `C97_poisoned`, `C97_abandoned`, `C97_causes`, `C97_deadlock`, `C97_progress`, `C97_ends`, `C97_exec`, `C97_released`, `C98_whence`, `C98_kept`, `C98_bystander`, `C100_call`, `C100_history`, `C101_counting`, `C101_program`, `C101_foreign`, `C101_exit`, `C101_unmentioned`, `C101_worst`, `C101_order`, `C101_worst_met`, `C101_thread`, `C102_alone`, `C102_waits`, `C102_table_there`, `C102_first`, `C103_at_most`, `C103_same`, `C103_second_pledge`, `C103_common`, `C103_twice_is_more`, `C104_refines`, `C104_transfers`, `C105_firm`, `C105_asked`, `C105_executes`, `C105_unasked`, `C105_no_trace`, `C106_unasked`, `C106_asked`, `C106_passed`, `C106_only_adds`, `C106_faked`, `C106_ok`, `C107_silent`, `C107_returned`, `C107_errors`, `C107_lines`, `C107_determines`, `C107_many`, `C107_info_not_enough`, `C107_jset`, `C107_jumps`, `C107_returns`, `C108_way`, `C108_only`, `C108_readable`, `C108_log`, `C108_departs`, `C108_pledge`, `C108_ends`, `C108_blocks`, `C108_other_way`, `C109_all_or_nothing`, `C109_fate`, `C109_first`, `C109_ok`, `C109_process`, `C110_only_adds`, `C110_firm`, `C110_ends`, `C110_unasked`, `C110_ok`, `C110_died`, `C110_executed`, `C110_swapped`, `C110_only_skips`, `C111_step`, `C111_ok`, `C111_results`, `C111_panics`, `C111_panic_cause`, `C111_no_panic`, `C111_death`, `C111_stdio`, `C111_default`, `C112_violation`, `C113_like_pledging`, `C113_can_return`, `C113_restart`, `C113_no_return`, `C113_once`, `C113_return_kills`, `C113_many`, `C114_untrapped`, `C114_trapped`, `C114_returning`, `C114_ok_without_effect`, `C114_enforced`, `C114_masked`, `C114_agrees`, `C114_machine`, `C115_sound`, `C115_transparent`, `C115_exact`, `C116_exact`, `C116_no_more`, `C116_permitted`, `C116_wide_payload`, `C117_stdio`, `C117_fate`, `C117_default`, `C117_deadly`, `C118_fork`, `C118_impostor`, `C118_program`, `C118_tolerant`, `C119_transparent`, `C119_stopped`, `C119_mediated`, `C119_more`, `C119_errors`, `C119_pledge`, `C120_transparent`, `C120_nothing_new`, `C120_stopped`, `C120_mediated`, `C120_errors`, `C120_pledge`, `C121_written_iff`, `C121_filters`, `C121_well_formed`, `C121_meaning`
