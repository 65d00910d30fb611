'Verif.Api.C13_element' depends on axioms: [propext, Quot.sound]
'Verif.Api.C13_emulated_exact' depends on axioms: [propext, Classical.choice, Quot.sound]
'Verif.Api.C13_emulated_partial' depends on axioms: [propext, Classical.choice, Quot.sound]
'Verif.Api.C13_linearizable' depends on axioms: [propext, Classical.choice, Quot.sound]
'Verif.Api.C13_narrow_size_t_violated' depends on axioms: [propext, Classical.choice, Quot.sound]
'Verif.Api.C41_big_endian_wide_storage_violated' depends on axioms: [propext, Quot.sound]
'Verif.Api.C41_bool_partial' depends on axioms: [propext, Classical.choice, Quot.sound]
'Verif.Api.C41_bool_violated' depends on axioms: [propext, Classical.choice, Quot.sound]
'Verif.Api.C41_emulated_exact' depends on axioms: [propext, Classical.choice, Quot.sound]
'Verif.Api.C41_emulated_partial' depends on axioms: [propext, Classical.choice, Quot.sound]
'Verif.Api.C41_linearizable' depends on axioms: [propext, Classical.choice, Quot.sound]
'Verif.Api.C41_signed_top_bit_violated' depends on axioms: [propext, Quot.sound]
'Verif.Api.C42_emulated_exact' depends on axioms: [propext, Classical.choice, Quot.sound]
'Verif.Api.C42_emulated_partial' depends on axioms: [propext, Classical.choice, Quot.sound]
'Verif.Api.C42_linearizable' depends on axioms: [propext, Classical.choice, Quot.sound]
'Verif.Api.C43_emulated_linearizable' depends on axioms: [propext, Classical.choice, Quot.sound]
'Verif.Api.C43_linearizable' depends on axioms: [propext, Classical.choice, Quot.sound]
'Verif.Api.C43_storage_zero_or_one' depends on axioms: [propext, Quot.sound]
'Verif.Asm.C48_aarch32_1' depends on axioms: [propext, Classical.choice, Quot.sound]
'Verif.Asm.C48_aarch32_1_partial' depends on axioms: [propext, Classical.choice, Quot.sound]
'Verif.Asm.C48_aarch32_1_violated' depends on axioms: [propext, Quot.sound]
'Verif.Asm.C48_aarch32_2' depends on axioms: [propext, Classical.choice, Quot.sound]
'Verif.Asm.C48_aarch32_2_partial' depends on axioms: [propext, Classical.choice, Quot.sound]
'Verif.Asm.C48_aarch32_2_violated' depends on axioms: [propext, Quot.sound]
'Verif.Asm.C48_aarch32_4' depends on axioms: [propext, Classical.choice, Quot.sound]
'Verif.Asm.C48_aarch32_8' depends on axioms: [propext, Classical.choice, Quot.sound]
'Verif.Asm.C48_aarch64_1' depends on axioms: [propext, Classical.choice, Quot.sound]
'Verif.Asm.C48_aarch64_16' depends on axioms: [propext, Classical.choice, Quot.sound]
'Verif.Asm.C48_aarch64_16_partial' depends on axioms: [propext, Classical.choice, Quot.sound]
'Verif.Asm.C48_aarch64_16_violated' depends on axioms: [propext, Quot.sound]
'Verif.Asm.C48_aarch64_1_partial' depends on axioms: [propext, Classical.choice, Quot.sound]
'Verif.Asm.C48_aarch64_1_violated' depends on axioms: [propext, Quot.sound]
'Verif.Asm.C48_aarch64_2' depends on axioms: [propext, Classical.choice, Quot.sound]
'Verif.Asm.C48_aarch64_2_partial' depends on axioms: [propext, Classical.choice, Quot.sound]
'Verif.Asm.C48_aarch64_2_violated' depends on axioms: [propext, Quot.sound]
'Verif.Asm.C48_aarch64_4' depends on axioms: [propext, Classical.choice, Quot.sound]
'Verif.Asm.C48_aarch64_8' depends on axioms: [propext, Classical.choice, Quot.sound]
'Verif.Asm.C48_aarch64_lse_1' depends on axioms: [propext, Classical.choice, Quot.sound]
'Verif.Asm.C48_aarch64_lse_2' depends on axioms: [propext, Classical.choice, Quot.sound]
'Verif.Asm.C48_aarch64_lse_4' depends on axioms: [propext, Classical.choice, Quot.sound]
'Verif.Asm.C48_aarch64_lse_8' depends on axioms: [propext, Classical.choice, Quot.sound]
'Verif.Asm.C48_alpha_4' depends on axioms: [propext, Classical.choice, Quot.sound]
'Verif.Asm.C48_alpha_4_partial' depends on axioms: [propext, Classical.choice, Quot.sound]
'Verif.Asm.C48_alpha_4_violated' depends on axioms: [propext, Quot.sound]
'Verif.Asm.C48_alpha_8' depends on axioms: [propext, Classical.choice, Quot.sound]
'Verif.Asm.C48_alpha_word' depends on axioms: [propext, Classical.choice, Quot.sound]
'Verif.Asm.C48_arm_1' depends on axioms: [propext, Classical.choice, Quot.sound]
'Verif.Asm.C48_arm_1_partial' depends on axioms: [propext, Classical.choice, Quot.sound]
'Verif.Asm.C48_arm_1_violated' depends on axioms: [propext, Quot.sound]
'Verif.Asm.C48_arm_2' depends on axioms: [propext, Classical.choice, Quot.sound]
'Verif.Asm.C48_arm_2_partial' depends on axioms: [propext, Classical.choice, Quot.sound]
'Verif.Asm.C48_arm_2_violated' depends on axioms: [propext, Quot.sound]
'Verif.Asm.C48_arm_4' depends on axioms: [propext, Classical.choice, Quot.sound]
'Verif.Asm.C48_arm_4_partial' depends on axioms: [propext, Classical.choice, Quot.sound]
'Verif.Asm.C48_arm_4_violated' depends on axioms: [propext, Quot.sound]
'Verif.Asm.C48_arm_8' depends on axioms: [propext, Classical.choice, Quot.sound]
'Verif.Asm.C48_arm_8_partial' depends on axioms: [propext, Classical.choice, Quot.sound]
'Verif.Asm.C48_arm_8_violated' depends on axioms: [propext, Quot.sound]
'Verif.Asm.C48_arm_word' depends on axioms: [propext, Classical.choice, Quot.sound]
'Verif.Asm.C48_msvc_arm_calls' depends on axioms: [propext, Quot.sound]
'Verif.Asm.C48_msvc_asm_1' depends on axioms: [propext, Classical.choice, Quot.sound]
'Verif.Asm.C48_msvc_asm_2' depends on axioms: [propext, Classical.choice, Quot.sound]
'Verif.Asm.C48_msvc_asm_4' depends on axioms: [propext, Classical.choice, Quot.sound]
'Verif.Asm.C48_msvc_asm_8' depends on axioms: [propext, Classical.choice, Quot.sound]
'Verif.Asm.C48_ppc_1' depends on axioms: [propext, Classical.choice, Quot.sound]
'Verif.Asm.C48_ppc_1_partial' depends on axioms: [propext, Classical.choice, Quot.sound]
'Verif.Asm.C48_ppc_1_violated' depends on axioms: [propext, Quot.sound]
'Verif.Asm.C48_ppc_2' depends on axioms: [propext, Classical.choice, Quot.sound]
'Verif.Asm.C48_ppc_2_partial' depends on axioms: [propext, Classical.choice, Quot.sound]
'Verif.Asm.C48_ppc_2_violated' depends on axioms: [propext, Quot.sound]
'Verif.Asm.C48_ppc_4' depends on axioms: [propext, Classical.choice, Quot.sound]
'Verif.Asm.C48_ppc_8' depends on axioms: [propext, Classical.choice, Quot.sound]
'Verif.Asm.C48_ppc_word' depends on axioms: [propext, Classical.choice, Quot.sound]
'Verif.Asm.C48_sparc_4' depends on axioms: [propext, Classical.choice, Quot.sound]
'Verif.Asm.C48_sparc_8' depends on axioms: [propext, Classical.choice, Quot.sound]
'Verif.Asm.C48_sparc_v8plus_8_violated' depends on axioms: [propext, Quot.sound]
'Verif.Asm.C48_x86_1' depends on axioms: [propext, Classical.choice, Quot.sound]
'Verif.Asm.C48_x86_2' depends on axioms: [propext, Classical.choice, Quot.sound]
'Verif.Asm.C48_x86_4' depends on axioms: [propext, Classical.choice, Quot.sound]
'Verif.Asm.C48_x86_8' depends on axioms: [propext, Classical.choice, Quot.sound]
'Verif.Asm.C48_x86_dcas_16' depends on axioms: [propext, Classical.choice, Quot.sound]
'Verif.Asm.C48_x86_dcas_8' depends on axioms: [propext, Classical.choice, Quot.sound]
'Verif.Asm.C48_x86_dcas_8_store_partial' depends on axioms: [propext, Classical.choice, Quot.sound]
'Verif.Asm.C48_x86_dcas_8_violated' depends on axioms: [propext, Quot.sound]
'Verif.Asm.C49_aarch32_1_partial' depends on axioms: [propext, Classical.choice, Quot.sound]
'Verif.Asm.C49_aarch32_2_partial' depends on axioms: [propext, Classical.choice, Quot.sound]
'Verif.Asm.C49_aarch32_4' depends on axioms: [propext, Classical.choice, Quot.sound]
'Verif.Asm.C49_aarch32_8' depends on axioms: [propext, Classical.choice, Quot.sound]
'Verif.Asm.C49_aarch64_16_partial' depends on axioms: [propext, Classical.choice, Quot.sound]
'Verif.Asm.C49_aarch64_1_partial' depends on axioms: [propext, Classical.choice, Quot.sound]
'Verif.Asm.C49_aarch64_2_partial' depends on axioms: [propext, Classical.choice, Quot.sound]
'Verif.Asm.C49_aarch64_4' depends on axioms: [propext, Classical.choice, Quot.sound]
'Verif.Asm.C49_aarch64_8' depends on axioms: [propext, Classical.choice, Quot.sound]
'Verif.Asm.C49_aarch64_lse_1' depends on axioms: [propext, Classical.choice, Quot.sound]
'Verif.Asm.C49_aarch64_lse_2' depends on axioms: [propext, Classical.choice, Quot.sound]
'Verif.Asm.C49_aarch64_lse_4' depends on axioms: [propext, Classical.choice, Quot.sound]
'Verif.Asm.C49_aarch64_lse_8' depends on axioms: [propext, Classical.choice, Quot.sound]
'Verif.Asm.C49_alpha_4_partial' depends on axioms: [propext, Classical.choice, Quot.sound]
'Verif.Asm.C49_alpha_8' depends on axioms: [propext, Classical.choice, Quot.sound]
'Verif.Asm.C49_arm_1_partial' depends on axioms: [propext, Classical.choice, Quot.sound]
'Verif.Asm.C49_arm_2_partial' depends on axioms: [propext, Classical.choice, Quot.sound]
'Verif.Asm.C49_arm_4_partial' depends on axioms: [propext, Classical.choice, Quot.sound]
'Verif.Asm.C49_arm_8_partial' depends on axioms: [propext, Classical.choice, Quot.sound]
'Verif.Asm.C49_msvc_amd64' depends on axioms: [propext, Classical.choice, Quot.sound]
'Verif.Asm.C49_msvc_amd64_16' depends on axioms: [propext, Classical.choice, Quot.sound]
'Verif.Asm.C49_msvc_arm' depends on axioms: [propext, Classical.choice, Quot.sound]
'Verif.Asm.C49_msvc_x86_1' depends on axioms: [propext, Classical.choice, Quot.sound]
'Verif.Asm.C49_msvc_x86_2' depends on axioms: [propext, Classical.choice, Quot.sound]
'Verif.Asm.C49_msvc_x86_4' depends on axioms: [propext, Classical.choice, Quot.sound]
'Verif.Asm.C49_msvc_x86_8' depends on axioms: [propext, Classical.choice, Quot.sound]
'Verif.Asm.C49_ppc_1_partial' depends on axioms: [propext, Classical.choice, Quot.sound]
'Verif.Asm.C49_ppc_2_partial' depends on axioms: [propext, Classical.choice, Quot.sound]
'Verif.Asm.C49_ppc_4' depends on axioms: [propext, Classical.choice, Quot.sound]
'Verif.Asm.C49_ppc_8' depends on axioms: [propext, Classical.choice, Quot.sound]
'Verif.Asm.C49_sparc_4' depends on axioms: [propext, Classical.choice, Quot.sound]
'Verif.Asm.C49_sparc_8' depends on axioms: [propext, Classical.choice, Quot.sound]
'Verif.Asm.C49_windows' depends on axioms: [propext, Classical.choice, Quot.sound]
'Verif.Asm.C49_x86_1' depends on axioms: [propext, Classical.choice, Quot.sound]
'Verif.Asm.C49_x86_2' depends on axioms: [propext, Classical.choice, Quot.sound]
'Verif.Asm.C49_x86_4' depends on axioms: [propext, Classical.choice, Quot.sound]
'Verif.Asm.C49_x86_8' depends on axioms: [propext, Classical.choice, Quot.sound]
'Verif.Asm.C49_x86_dcas_16' depends on axioms: [propext, Classical.choice, Quot.sound]
'Verif.Asm.C49_x86_dcas_8' depends on axioms: [propext, Classical.choice, Quot.sound]
'Verif.Asm.C49_x86_dcas_8_preserve_partial' depends on axioms: [propext, Classical.choice, Quot.sound]
'Verif.Await.C59_pool_cumulative_partial' depends on axioms: [propext, Classical.choice, Quot.sound]
'Verif.Await.C59_pool_partial' depends on axioms: [propext, Classical.choice, Quot.sound]
'Verif.Await.C59_sees' depends on axioms: [propext, Classical.choice, Quot.sound]
'Verif.Await.C59_sees_cumulative' depends on axioms: [propext, Classical.choice, Quot.sound]
'Verif.Await.C59_sees_cumulative_partial' depends on axioms: [propext, Classical.choice, Quot.sound]
'Verif.Await.C59_sees_partial' depends on axioms: [propext, Classical.choice, Quot.sound]
'Verif.Await.C59_sees_target_partial' depends on axioms: [propext, Classical.choice, Quot.sound]
'Verif.Await.C59_synchronizes_cumulative_partial' depends on axioms: [propext, Classical.choice, Quot.sound]
'Verif.Await.C59_synchronizes_partial' depends on axioms: [propext, Classical.choice, Quot.sound]
'Verif.Await.C59_violated' depends on axioms: [propext, Quot.sound]
'Verif.Bytes.C01_any_type' depends on axioms: [propext, Classical.choice, Quot.sound]
'Verif.Bytes.C02_any_type' depends on axioms: [propext, Classical.choice, Quot.sound]
'Verif.Bytes.C03_any_type' depends on axioms: [propext, Classical.choice, Quot.sound]
'Verif.Bytes.C14_concurrent_construction_partial' depends on axioms: [propext, Classical.choice, Quot.sound]
'Verif.Bytes.C14_concurrent_construction_violated' depends on axioms: [propext, Quot.sound]
'Verif.Bytes.C14_interior_padding_violated' depends on axioms: [propext, Quot.sound]
'Verif.Bytes.C14_noncontiguous_fp_violated' depends on axioms: [propext, Classical.choice, Quot.sound]
'Verif.Bytes.C14_padding_irrelevant' depends on axioms: [propext, Classical.choice, Quot.sound]
'Verif.Bytes.C14_ref_construct' depends on axioms: [propext, Classical.choice, Quot.sound]
'Verif.Bytes.C14_round_trip' depends on axioms: [propext, Classical.choice, Quot.sound]
'Verif.Bytes.C14_storage_clean' depends on axioms: [propext, Classical.choice, Quot.sound]
'Verif.Bytes.C14_wait_compare' depends on axioms: [propext, Classical.choice, Quot.sound]
'Verif.Bytes.C15_eq' depends on axioms: [propext, Quot.sound]
'Verif.Bytes.C15_not' depends on axioms: [propext, Quot.sound]
'Verif.Bytes.C33_big_endian_wide_storage_violated' depends on axioms: [propext, Quot.sound]
'Verif.Bytes.C33_compare_by_representation' depends on axioms: [propext, Classical.choice, Quot.sound]
'Verif.Bytes.C33_negate_flips_sign' depends on axioms: [propext, Classical.choice, Quot.sound]
'Verif.Bytes.C33_result_forms' depends on axioms: [propext, Classical.choice, Quot.sound]
'Verif.Call.C26_call_violated' depends on axioms: [propext, Quot.sound]
'Verif.Call.C26_wait_until_call' depends on axioms: [propext, Classical.choice, Quot.sound]
'Verif.Call.C73_freebsd' depends on axioms: [propext]
'Verif.Call.C73_num_timed' depends on axioms: [propext, Classical.choice, Quot.sound]
'Verif.Call.C73_num_untimed' depends on axioms: [propext]
'Verif.Call.C73_num_value' depends on axioms: [propext, Quot.sound]
'Verif.Call.C73_remaining_time' depends on axioms: [propext, Classical.choice, Quot.sound]
'Verif.Call.C73_requeue' depends on axioms: [propext, Quot.sound]
'Verif.Call.C73_result' depends on axioms: [propext]
'Verif.Call.C73_violated' depends on axioms: [propext, Quot.sound]
'Verif.Call.C73_violated_big_endian' depends on axioms: [propext, Quot.sound]
'Verif.Call.C73_wait_for_partial' depends on axioms: [propext, Quot.sound]
'Verif.Call.C73_wait_notify' depends on axioms: [propext, Quot.sound]
'Verif.Call.C73_wait_until_partial' depends on axioms: [propext, Quot.sound]
'Verif.Call.C73_which_clocks' depends on axioms: [propext, Quot.sound]
'Verif.Chrono.C30_abs_timespec' depends on axioms: [propext, Classical.choice, Quot.sound]
'Verif.Chrono.C30_abs_timespec_sat' depends on axioms: [propext, Classical.choice, Quot.sound]
'Verif.Chrono.C30_ceil_fallback' depends on axioms: [propext, Classical.choice, Quot.sound]
'Verif.Chrono.C30_ceil_fallback_negative_violated' depends on axioms: [propext, Quot.sound]
'Verif.Chrono.C30_ceil_not_shorter' depends on axioms: [propext, Classical.choice, Quot.sound]
'Verif.Chrono.C30_ceil_std' depends on axioms: [propext, Classical.choice, Quot.sound]
'Verif.Chrono.C30_clamp' depends on axioms: [propext, Classical.choice, Quot.sound]
'Verif.Chrono.C30_no_early_timeout' depends on axioms: [propext, Classical.choice, Quot.sound]
'Verif.Chrono.C30_reached' depends on axioms: [propext, Classical.choice, Quot.sound]
'Verif.Chrono.C30_rel_timespec' depends on axioms: [propext, Classical.choice, Quot.sound]
'Verif.Chrono.C30_timeout_recognised' depends on axioms: [propext, Classical.choice, Quot.sound]
'Verif.Chrono.C30_to_timespec_32_violated' depends on axioms: [propext]
'Verif.Chrono.C30_to_timespec_64' depends on axioms: [propext, Classical.choice, Quot.sound]
'Verif.Chrono.C30_to_timespec_partial' depends on axioms: [propext, Classical.choice, Quot.sound]
'Verif.Chrono.C31_deadline_iff' depends on axioms: [propext, Classical.choice, Quot.sound]
'Verif.Chrono.C31_deadline_violated' depends on axioms: [propext, Classical.choice, Quot.sound]
'Verif.Chrono.C31_futex_wait_for_iff' depends on axioms: [propext, Classical.choice, Quot.sound]
'Verif.Chrono.C31_futex_wait_for_partial' depends on axioms: [propext, Classical.choice, Quot.sound]
'Verif.Chrono.C31_futex_wait_for_violated' depends on axioms: [propext]
'Verif.Chrono.C31_pthread_wait_for_iff' depends on axioms: [propext, Classical.choice, Quot.sound]
'Verif.Concurrent.C01_cas_loops_linearizable' depends on axioms: [propext, Classical.choice, Quot.sound]
'Verif.Concurrent.C01_emulated_exact' depends on axioms: [propext, Classical.choice, Quot.sound]
'Verif.Concurrent.C01_emulated_linearizable_partial' depends on axioms: [propext, Classical.choice, Quot.sound]
'Verif.Concurrent.C01_emulated_violated' depends on axioms: [propext, Classical.choice, Quot.sound]
'Verif.Concurrent.C01_instructions_linearizable' depends on axioms: [propext, Classical.choice, Quot.sound]
'Verif.Concurrent.C01_kernel_helper_linearizable' depends on axioms: [propext, Classical.choice, Quot.sound]
'Verif.Concurrent.C01_mixed_emulated_exact' depends on axioms: [propext, Classical.choice, Quot.sound]
'Verif.Concurrent.C01_mixed_linearizable' depends on axioms: [propext, Classical.choice, Quot.sound]
'Verif.Concurrent.C02_emulated_exact' depends on axioms: [propext, Classical.choice, Quot.sound]
'Verif.Concurrent.C02_emulated_linearizable_partial' depends on axioms: [propext, Classical.choice, Quot.sound]
'Verif.Concurrent.C02_emulated_violated' depends on axioms: [propext, Classical.choice, Quot.sound]
'Verif.Concurrent.C02_llsc_linearizable' depends on axioms: [propext, Classical.choice, Quot.sound]
'Verif.Concurrent.C03_critical_sections_exclusive' depends on axioms: [propext, Classical.choice, Quot.sound]
'Verif.Concurrent.C03_lock_based_linearizable' depends on axioms: [propext, Classical.choice, Quot.sound]
'Verif.Concurrent.C04_lock_based' depends on axioms: [propext, Classical.choice, Quot.sound]
'Verif.Concurrent.C04_narrow_compare_arm' depends on axioms: [propext, Quot.sound]
'Verif.Concurrent.C04_narrow_compare_ppc_partial' depends on axioms: [propext, Quot.sound]
'Verif.Concurrent.C04_narrow_compare_ppc_violated' depends on axioms: [propext, Quot.sound]
'Verif.Concurrent.C04_strong_not_spurious' depends on axioms: [propext, Classical.choice, Quot.sound]
'Verif.Concurrent.C05_at_most_one_winner' depends on axioms: [propext, Quot.sound]
'Verif.Concurrent.C05_weak_effect' depends on axioms: [propext, Classical.choice, Quot.sound]
'Verif.Concurrent.C05_weak_success_exact' depends on axioms: [propext, Classical.choice, Quot.sound]
'Verif.Concurrent.C12_concurrent_loads' depends on axioms: [propext, Classical.choice, Quot.sound]
'Verif.Concurrent.C12_load_keeps_value' depends on axioms: [propext, Classical.choice, Quot.sound]
'Verif.Concurrent.C35_cas_never_stuck' depends on axioms: [propext, Classical.choice, Quot.sound]
'Verif.Concurrent.C35_cas_retries_bounded_by_progress' depends on axioms: [propext, Quot.sound]
'Verif.Concurrent.C35_cas_solo_terminates' depends on axioms: [propext, Classical.choice, Quot.sound]
'Verif.Concurrent.C35_kernel_commit_finishes' does not depend on any axioms
'Verif.Concurrent.C35_kernel_retries_bounded_by_progress' depends on axioms: [propext, Classical.choice, Quot.sound]
'Verif.Concurrent.C35_llsc_retries_bounded_by_progress' depends on axioms: [propext, Classical.choice, Quot.sound]
'Verif.Concurrent.C35_mix_retries_bounded_by_progress' depends on axioms: [propext, Classical.choice, Quot.sound]
'Verif.Concurrent.C35_mix_store_finishes' does not depend on any axioms
'Verif.Concurrent.C36_no_deadlock' depends on axioms: [propext, Classical.choice, Quot.sound]
'Verif.Concurrent.CasStep.commit_finishes' does not depend on any axioms
'Verif.Concurrent.LlStep.commit_finishes' does not depend on any axioms
'Verif.Cond.C46_condition_variables' depends on axioms: [propext, Classical.choice, Quot.sound]
'Verif.Cond.C46_lock_given_up' depends on axioms: [propext, Classical.choice, Quot.sound]
'Verif.Cond.C46_mutual_exclusion' depends on axioms: [propext, Classical.choice, Quot.sound]
'Verif.Cond.C46_no_deadlock' depends on axioms: [propext, Classical.choice, Quot.sound]
'Verif.Cond.C46_not_destroyed' depends on axioms: [propext, Classical.choice, Quot.sound]
'Verif.Cond.C46_notify_all' depends on axioms: [propext, Classical.choice, Quot.sound]
'Verif.Cond.C46_notify_one' depends on axioms: [propext, Classical.choice, Quot.sound]
'Verif.Cond.C46_store_notify_partial' depends on axioms: [propext, Classical.choice, Quot.sound]
'Verif.Cond.C46_timed_wait_violated' depends on axioms: [propext, Classical.choice, Quot.sound]
'Verif.Cond.C46_wait_until_loop_violated' depends on axioms: [propext, Classical.choice, Quot.sound]
'Verif.Cond.C46_woken_only_by_notify' depends on axioms: [propext, Classical.choice, Quot.sound]
'Verif.Find.C29_agree_32' depends on axioms: [propext, Classical.choice, Quot.sound]
'Verif.Find.C29_agree_64' depends on axioms: [propext, Classical.choice, Quot.sound]
'Verif.Find.C29_answer_unique' depends on axioms: [propext, Quot.sound]
'Verif.Find.C29_choose' depends on axioms: [propext, Quot.sound]
'Verif.Find.C29_concurrent_32' depends on axioms: [propext, Classical.choice, Quot.sound]
'Verif.Find.C29_concurrent_64' depends on axioms: [propext, Classical.choice, Quot.sound]
'Verif.Find.C29_concurrent_supported' depends on axioms: [propext, Quot.sound]
'Verif.Find.C29_cpuid' depends on axioms: [propext, Quot.sound]
'Verif.Find.C29_cpuid_rbx' depends on axioms: [propext, Quot.sound]
'Verif.Find.C29_dispatch_supported' depends on axioms: [propext, Quot.sound]
'Verif.Find.C29_fault' depends on axioms: [propext, Quot.sound]
'Verif.Find.C29_generic' depends on axioms: [propext, Quot.sound]
'Verif.Find.C29_links' depends on axioms: [propext, Quot.sound]
'Verif.Find.C29_portable_ctz' depends on axioms: [propext, Classical.choice, Quot.sound]
'Verif.Find.C29_round_up' depends on axioms: [propext, Classical.choice, Quot.sound]
'Verif.Find.C29_set1_epiptr' depends on axioms: [propext, Quot.sound]
'Verif.Find.C29_sse2_32' depends on axioms: [propext, Classical.choice, Quot.sound]
'Verif.Find.C29_sse2_64' depends on axioms: [propext, Classical.choice, Quot.sound]
'Verif.Find.C29_sse41' depends on axioms: [propext, Classical.choice, Quot.sound]
'Verif.Flag.C34_exactly_one' depends on axioms: [propext, Classical.choice, Quot.sound]
'Verif.Flag.C34_linearizable' depends on axioms: [propext, Classical.choice, Quot.sound]
'Verif.Flag.C34_lock_based_linearizable' depends on axioms: [propext, Classical.choice, Quot.sound]
'Verif.Flag.C34_one_winner' depends on axioms: [propext, Classical.choice, Quot.sound]
'Verif.Flag.C40_big_endian_wait_violated' depends on axioms: [propext, Quot.sound]
'Verif.Flag.C40_storage_canonical' depends on axioms: [propext, Classical.choice, Quot.sound]
'Verif.Flag.C40_wait_partial' depends on axioms: [propext, Classical.choice, Quot.sound]
'Verif.Flag.C40_wait_until_partial' depends on axioms: [propext, Classical.choice, Quot.sound]
'Verif.Futex.C23_locked_iff_owned' depends on axioms: [propext, Classical.choice, Quot.sound]
'Verif.Futex.C23_mutual_exclusion' depends on axioms: [propext, Classical.choice, Quot.sound]
'Verif.Futex.C24_no_deadlock_partial' depends on axioms: [propext, Classical.choice, Quot.sound]
'Verif.Futex.C24_no_lost_wakeup_partial' depends on axioms: [propext, Classical.choice, Quot.sound]
'Verif.Futex.C24_release_wakes_partial' depends on axioms: [propext, Classical.choice, Quot.sound]
'Verif.Futex.C24_wake_wakes' depends on axioms: [propext, Quot.sound]
'Verif.Futex.C24_wraparound_violated' depends on axioms: [propext, Quot.sound]
'Verif.Futex.C25_notify_all_partial' depends on axioms: [propext, Classical.choice, Quot.sound]
'Verif.Futex.C25_notify_one_partial' depends on axioms: [propext, Classical.choice, Quot.sound]
'Verif.Futex.C27_generic_timed_wait_violated' depends on axioms: [propext, Classical.choice, Quot.sound]
'Verif.Futex.C27_store_notify_partial' depends on axioms: [propext, Classical.choice, Quot.sound]
'Verif.Futex.cond_eq_iff' depends on axioms: [propext]
'Verif.Futex.cond_inc' depends on axioms: [propext]
'Verif.Futex.enc_clear' depends on axioms: [propext, Classical.choice, Quot.sound]
'Verif.Futex.enc_contend' depends on axioms: [propext, Classical.choice, Quot.sound]
'Verif.Futex.enc_contended' depends on axioms: [propext, Classical.choice, Quot.sound]
'Verif.Futex.enc_eq_iff' depends on axioms: [propext, Classical.choice, Quot.sound]
'Verif.Futex.enc_lock' depends on axioms: [propext, Classical.choice, Quot.sound]
'Verif.Futex.enc_locked' depends on axioms: [propext, Quot.sound]
'Verif.Futex.enc_unlock' depends on axioms: [propext, Classical.choice, Quot.sound]
'Verif.Idiom.C60_deleted' depends on axioms: [propext, Classical.choice, Quot.sound]
'Verif.Idiom.C60_deleted_cumulative' depends on axioms: [propext, Classical.choice, Quot.sound]
'Verif.Idiom.C60_deleted_cumulative_partial' depends on axioms: [propext, Classical.choice, Quot.sound]
'Verif.Idiom.C60_deleted_partial' depends on axioms: [propext, Classical.choice, Quot.sound]
'Verif.Idiom.C60_deleted_target_partial' depends on axioms: [propext, Classical.choice, Quot.sound]
'Verif.Idiom.C61_spinlock' depends on axioms: [propext, Classical.choice, Quot.sound]
'Verif.Idiom.C61_spinlock_cumulative' depends on axioms: [propext, Classical.choice, Quot.sound]
'Verif.Idiom.C61_spinlock_cumulative_partial' depends on axioms: [propext, Classical.choice, Quot.sound]
'Verif.Idiom.C61_spinlock_partial' depends on axioms: [propext, Classical.choice, Quot.sound]
'Verif.Idiom.C61_spinlock_target_partial' depends on axioms: [propext, Classical.choice, Quot.sound]
'Verif.Idiom.C61_violated' depends on axioms: [propext, Quot.sound]
'Verif.Idiom.C62_refuses' depends on axioms: [propext, Classical.choice, Quot.sound]
'Verif.Idiom.C62_refuses_cumulative' depends on axioms: [propext, Classical.choice, Quot.sound]
'Verif.Idiom.C62_refuses_cumulative_partial' depends on axioms: [propext, Classical.choice, Quot.sound]
'Verif.Idiom.C62_refuses_partial' depends on axioms: [propext, Classical.choice, Quot.sound]
'Verif.Idiom.C62_refuses_target_partial' depends on axioms: [propext, Classical.choice, Quot.sound]
'Verif.Idiom.C62_transfers' depends on axioms: [propext, Classical.choice, Quot.sound]
'Verif.Idiom.C62_transfers_cumulative' depends on axioms: [propext, Classical.choice, Quot.sound]
'Verif.Idiom.C62_transfers_cumulative_partial' depends on axioms: [propext, Classical.choice, Quot.sound]
'Verif.Idiom.C62_transfers_partial' depends on axioms: [propext, Classical.choice, Quot.sound]
'Verif.Idiom.C62_transfers_target_partial' depends on axioms: [propext, Classical.choice, Quot.sound]
'Verif.Idiom.C62_violated' depends on axioms: [propext, Classical.choice, Quot.sound]
'Verif.Idiom.C63_delivers' depends on axioms: [propext, Classical.choice, Quot.sound]
'Verif.Idiom.C63_delivers_cumulative' depends on axioms: [propext, Classical.choice, Quot.sound]
'Verif.Idiom.C63_delivers_cumulative_partial' depends on axioms: [propext, Classical.choice, Quot.sound]
'Verif.Idiom.C63_delivers_partial' depends on axioms: [propext, Classical.choice, Quot.sound]
'Verif.Idiom.C63_delivers_target_partial' depends on axioms: [propext, Classical.choice, Quot.sound]
'Verif.Idiom.C64_instance' depends on axioms: [propext, Classical.choice, Quot.sound]
'Verif.Idiom.C64_instance_cumulative' depends on axioms: [propext, Classical.choice, Quot.sound]
'Verif.Idiom.C64_instance_cumulative_partial' depends on axioms: [propext, Classical.choice, Quot.sound]
'Verif.Idiom.C64_instance_partial' depends on axioms: [propext, Classical.choice, Quot.sound]
'Verif.Idiom.C64_instance_target_partial' depends on axioms: [propext, Classical.choice, Quot.sound]
'Verif.Idiom.C64_spinlock' depends on axioms: [propext, Classical.choice, Quot.sound]
'Verif.Idiom.C64_spinlock_cumulative' depends on axioms: [propext, Classical.choice, Quot.sound]
'Verif.Idiom.C64_spinlock_cumulative_partial' depends on axioms: [propext, Classical.choice, Quot.sound]
'Verif.Idiom.C64_spinlock_partial' depends on axioms: [propext, Classical.choice, Quot.sound]
'Verif.Init.C68_bool' depends on axioms: [propext, Classical.choice, Quot.sound]
'Verif.Init.C68_default_partial' depends on axioms: [propext, Classical.choice, Quot.sound]
'Verif.Init.C68_default_violated' depends on axioms: [propext, Classical.choice, Quot.sound]
'Verif.Init.C68_enumeration' depends on axioms: [propext, Classical.choice, Quot.sound]
'Verif.Init.C68_first_load_partial' depends on axioms: [propext, Classical.choice, Quot.sound]
'Verif.Init.C68_integer' depends on axioms: [propext, Classical.choice, Quot.sound]
'Verif.Init.C68_integer_emulated_partial' depends on axioms: [propext, Classical.choice, Quot.sound]
'Verif.Init.C68_pointer' depends on axioms: [propext, Classical.choice, Quot.sound]
'Verif.Init.C68_value' depends on axioms: [propext, Classical.choice, Quot.sound]
'Verif.Integral.C06_emulated_exact' depends on axioms: [propext, Classical.choice, Quot.sound]
'Verif.Integral.C06_emulated_violated' depends on axioms: [propext, Quot.sound]
'Verif.Integral.C06_native_sequences' depends on axioms: [propext, Classical.choice, Quot.sound]
'Verif.Integral.C06_wraps' depends on axioms: [propext, Quot.sound]
'Verif.Integral.C06_wraps_negate' depends on axioms: [propext, Quot.sound]
'Verif.Integral.C06_wraps_sub' depends on axioms: [propext, Quot.sound]
'Verif.Integral.C07_emulated_bitset_violated' depends on axioms: [propext, Quot.sound]
'Verif.Integral.C07_emulated_exact' depends on axioms: [propext, Classical.choice, Quot.sound]
'Verif.Integral.C07_emulated_negate_violated' depends on axioms: [propext, Quot.sound]
'Verif.Integral.C07_emulated_partial' depends on axioms: [propext, Classical.choice, Quot.sound]
'Verif.Integral.C07_emulated_violated' depends on axioms: [propext, Quot.sound]
'Verif.Integral.C07_intended_emulation' depends on axioms: [propext, Classical.choice, Quot.sound]
'Verif.Integral.C08_emulated_violated' depends on axioms: [propext, Quot.sound]
'Verif.Integral.C08_op_and_test' depends on axioms: [propext, Classical.choice, Quot.sound]
'Verif.Integral.C09_bit_test_and' depends on axioms: [propext, Classical.choice, Quot.sound]
'Verif.Integral.C10_backends_agree' depends on axioms: [propext, Classical.choice, Quot.sound]
'Verif.Integral.C10_flavours_agree' depends on axioms: [propext, Classical.choice, Quot.sound]
'Verif.Kind.C65_common' depends on axioms: [propext]
'Verif.Kind.C65_members_partial' depends on axioms: [propext]
'Verif.Kind.C65_volatile_violated' depends on axioms: [propext]
'Verif.Kind.C66_exists' depends on axioms: [propext, Classical.choice, Quot.sound]
'Verif.Kind.C66_lock_free' depends on axioms: [propext, Classical.choice, Quot.sound]
'Verif.Kind.C66_native_compilers_partial' depends on axioms: [propext, Classical.choice, Quot.sound]
'Verif.Kind.C66_native_partial' depends on axioms: [propext, Classical.choice, Quot.sound]
'Verif.Kind.C66_native_violated' depends on axioms: [propext]
'Verif.Kind.C66_prefers_32' depends on axioms: [propext, Classical.choice, Quot.sound]
'Verif.Kind.C67_int_macro' depends on axioms: [propext, Classical.choice, Quot.sound]
'Verif.Kind.C67_int_size' depends on axioms: [propext, Classical.choice, Quot.sound]
'Verif.Kind.C67_llong_macro' depends on axioms: [propext, Classical.choice, Quot.sound]
'Verif.Kind.C67_llong_size' depends on axioms: [propext, Classical.choice, Quot.sound]
'Verif.Kind.C67_pointer_macro_partial' depends on axioms: [propext, Classical.choice, Quot.sound]
'Verif.Kind.C67_pointer_macro_violated' depends on axioms: [propext]
'Verif.Kind.C67_pointer_size' depends on axioms: [propext, Classical.choice, Quot.sound]
'Verif.Kind.C67_wchar_macro' depends on axioms: [propext, Classical.choice, Quot.sound]
'Verif.Kind.C67_wchar_size' depends on axioms: [propext, Classical.choice, Quot.sound]
'Verif.Locked.C54_one_order' depends on axioms: [propext, Classical.choice, Quot.sound]
'Verif.Locked.C54_one_order_cumulative' depends on axioms: [propext, Classical.choice, Quot.sound]
'Verif.Locked.C54_one_order_cumulative_partial' depends on axioms: [propext, Classical.choice, Quot.sound]
'Verif.Locked.C54_one_order_partial' depends on axioms: [propext, Classical.choice, Quot.sound]
'Verif.Locked.C54_sections_synchronize_cumulative_partial' depends on axioms: [propext, Classical.choice, Quot.sound]
'Verif.Locked.C54_sections_synchronize_partial' depends on axioms: [propext, Classical.choice, Quot.sound]
'Verif.Locked.C54_sparc_violated' depends on axioms: [propext, Quot.sound]
'Verif.Mca.C50_consume_fence_violated' depends on axioms: [propext, Quot.sound]
'Verif.Mca.C50_exact_consume_fence' depends on axioms: [propext, Quot.sound]
'Verif.Mca.C50_exact_exchange' depends on axioms: [propext, Quot.sound]
'Verif.Mca.C50_exact_operation' depends on axioms: [propext, Quot.sound]
'Verif.Mca.C50_happens_before' depends on axioms: [propext, Quot.sound]
'Verif.Mca.C50_happens_before_aarch64' depends on axioms: [propext, Quot.sound]
'Verif.Mca.C50_happens_before_partial' depends on axioms: [propext, Quot.sound]
'Verif.Mca.C50_happens_before_windows' depends on axioms: [propext, Quot.sound]
'Verif.Mca.C50_happens_before_x86' depends on axioms: [propext, Quot.sound]
'Verif.Mca.C50_publication_violated' depends on axioms: [propext, Quot.sound]
'Verif.Mca.C51_gcc_sync_exchange_violated' depends on axioms: [propext, Quot.sound]
'Verif.Mca.C51_gcc_sync_wide_store_violated' depends on axioms: [propext, Quot.sound]
'Verif.Mca.C51_linux_arm_cas_violated' depends on axioms: [propext, Quot.sound]
'Verif.Mca.C51_seq_cst_total_order' depends on axioms: [propext, Classical.choice, Quot.sound]
'Verif.Mca.C51_seq_cst_total_order_partial' depends on axioms: [propext, Classical.choice, Quot.sound]
'Verif.Mca.C51_store_buffering' depends on axioms: [propext, Classical.choice, Quot.sound]
'Verif.Mca.C52_fence_store_buffering' depends on axioms: [propext, Classical.choice, Quot.sound]
'Verif.Mca.C52_literal_rule_violated' depends on axioms: [propext, Quot.sound]
'Verif.Mca.C52_seq_cst_mixed' depends on axioms: [propext, Classical.choice, Quot.sound]
'Verif.Mca.C52_seq_cst_mixed_partial' depends on axioms: [propext, Classical.choice, Quot.sound]
'Verif.Notify.C56_notify_all' depends on axioms: [propext, Classical.choice, Quot.sound]
'Verif.Notify.C56_notify_all_cumulative' depends on axioms: [propext, Classical.choice, Quot.sound]
'Verif.Notify.C56_notify_all_cumulative_partial' depends on axioms: [propext, Classical.choice, Quot.sound]
'Verif.Notify.C56_notify_all_partial' depends on axioms: [propext, Classical.choice, Quot.sound]
'Verif.Notify.C56_notify_one_cumulative_partial' depends on axioms: [propext, Classical.choice, Quot.sound]
'Verif.Notify.C56_notify_one_partial' depends on axioms: [propext, Classical.choice, Quot.sound]
'Verif.Notify.C56_sparc_violated' depends on axioms: [propext, Quot.sound]
'Verif.Order.C18_assertion_exact' depends on axioms: [propext]
'Verif.Order.C18_bit_tests' depends on axioms: [propext]
'Verif.Order.C18_deduced_failure_order' depends on axioms: [propext]
'Verif.Order.C18_gcc_constants' depends on axioms: [propext, Quot.sound]
'Verif.Order.C18_load_store_asserts' depends on axioms: [propext]
'Verif.Order.C19_acquire_exact' depends on axioms: [propext, Quot.sound]
'Verif.Order.C19_acquire_partial' depends on axioms: [propext, Quot.sound]
'Verif.Order.C19_acquire_violated' depends on axioms: [propext, Quot.sound]
'Verif.Order.C19_gcc_sync_exchange' depends on axioms: [propext, Quot.sound]
'Verif.Order.C19_gcc_sync_exchange_seq_cst_violated' depends on axioms: [propext, Quot.sound]
'Verif.Order.C19_gcc_sync_wide_store_violated' depends on axioms: [propext, Quot.sound]
'Verif.Order.C19_release' depends on axioms: [propext, Quot.sound]
'Verif.Order.C19_seq_cst_exact' depends on axioms: [propext, Quot.sound]
'Verif.Order.C19_seq_cst_partial' depends on axioms: [propext, Quot.sound]
'Verif.Order.C19_seq_cst_violated' depends on axioms: [propext, Quot.sound]
'Verif.Order.C22_signal_fence' depends on axioms: [propext]
'Verif.Order.C22_thread_fence_exact' depends on axioms: [propext, Quot.sound]
'Verif.Order.C22_thread_fence_partial' depends on axioms: [propext, Quot.sound]
'Verif.Order.C22_windows_fence_violated' depends on axioms: [propext, Quot.sound]
'Verif.Order.C22_x86_consume_fence_violated' depends on axioms: [propext, Quot.sound]
'Verif.Pair.C02_torn_pair_partial' depends on axioms: [propext, Classical.choice, Quot.sound]
'Verif.Pair.C05_torn_pair_violated' depends on axioms: [propext, Quot.sound]
'Verif.Pair.C11_halves' depends on axioms: [propext, Classical.choice, Quot.sound]
'Verif.Pair.C11_linearizable' depends on axioms: [propext, Classical.choice, Quot.sound]
'Verif.Pair.C11_linearizable_ldrexd' depends on axioms: [propext, Classical.choice, Quot.sound]
'Verif.Pair.C11_operations' depends on axioms: [propext, Classical.choice, Quot.sound]
'Verif.Pool.C70_accepted' depends on axioms: [propext, Classical.choice, Quot.sound]
'Verif.Pool.C70_cleanup' depends on axioms: [propext, Classical.choice, Quot.sound]
'Verif.Pool.C70_count' depends on axioms: [propext, Quot.sound]
'Verif.Pool.C70_initialised' depends on axioms: [propext, Quot.sound]
'Verif.Pool.C70_line_pos' does not depend on any axioms
'Verif.Pool.C70_separate_lines' depends on axioms: [propext, Quot.sound]
'Verif.Pow.C50_happens_before_cumulative' depends on axioms: [propext, Classical.choice, Quot.sound]
'Verif.Pow.C50_happens_before_cumulative_partial' depends on axioms: [propext, Classical.choice, Quot.sound]
'Verif.Pow.C50_machine_is_weaker' depends on axioms: [propext, Classical.choice, Quot.sound]
'Verif.Pow.C51_independent_reads' depends on axioms: [propext, Classical.choice, Quot.sound]
'Verif.Pow.C51_seq_cst_total_order_cumulative' depends on axioms: [propext, Classical.choice, Quot.sound]
'Verif.Pow.C51_seq_cst_total_order_cumulative_partial' depends on axioms: [propext, Classical.choice, Quot.sound]
'Verif.Pow.C52_fence_independent_reads' depends on axioms: [propext, Classical.choice, Quot.sound]
'Verif.Pow.C52_seq_cst_mixed_cumulative' depends on axioms: [propext, Classical.choice, Quot.sound]
'Verif.Pow.C52_seq_cst_mixed_cumulative_partial' depends on axioms: [propext, Classical.choice, Quot.sound]
'Verif.Registry.C28_entry_iff_waiter' depends on axioms: [propext, Classical.choice, Quot.sound]
'Verif.Registry.C28_entry_unique' depends on axioms: [propext, Classical.choice, Quot.sound]
'Verif.Registry.C28_no_fault' depends on axioms: [propext, Classical.choice, Quot.sound]
'Verif.Registry.C28_notify_exact' depends on axioms: [propext, Classical.choice, Quot.sound]
'Verif.Registry.C28_platform_32' depends on axioms: [propext, Classical.choice, Quot.sound]
'Verif.Registry.C28_platform_64' depends on axioms: [propext, Classical.choice, Quot.sound]
'Verif.Registry.C28_refcount' depends on axioms: [propext, Classical.choice, Quot.sound]
'Verif.Registry.C28_register' depends on axioms: [propext, Classical.choice, Quot.sound]
'Verif.Registry.C28_same_state_iff_same_object' depends on axioms: [propext, Classical.choice, Quot.sound]
'Verif.Registry.C28_table_shape' depends on axioms: [propext, Classical.choice, Quot.sound]
'Verif.Registry.C28_unregister' depends on axioms: [propext, Classical.choice, Quot.sound]
'Verif.Registry.C28_waiter_signalled_iff' depends on axioms: [propext, Classical.choice, Quot.sound]
'Verif.Registry.C38_alive_while_waiting' depends on axioms: [propext, Classical.choice, Quot.sound]
'Verif.Registry.C38_all_released' depends on axioms: [propext, Classical.choice, Quot.sound]
'Verif.Registry.C38_cleanup_leaves_no_spare' depends on axioms: [propext, Classical.choice, Quot.sound]
'Verif.Registry.C38_cleanup_releases_table' depends on axioms: [propext, Classical.choice, Quot.sound]
'Verif.Registry.C38_never_released_in_use' depends on axioms: [propext, Classical.choice, Quot.sound]
'Verif.Registry.C38_not_leaked' depends on axioms: [propext, Classical.choice, Quot.sound]
'Verif.Registry.C38_registered_once' depends on axioms: [propext, Quot.sound]
'Verif.Registry.C38_table_after_cleanup_violated' depends on axioms: [propext, Quot.sound]
'Verif.Registry.C38_usable_after_cleanup' depends on axioms: [propext, Classical.choice, Quot.sound]
'Verif.Select.C16_atomic_fits' depends on axioms: [propext, Classical.choice, Quot.sound]
'Verif.Select.C16_native_alignment' depends on axioms: [propext, Classical.choice, Quot.sound]
'Verif.Select.C16_ref_any_object' depends on axioms: [propext, Quot.sound]
'Verif.Select.C16_ref_footprint' depends on axioms: [propext, Classical.choice, Quot.sound]
'Verif.Select.C16_ref_lock_free' depends on axioms: [propext, Classical.choice, Quot.sound]
'Verif.Select.C16_ref_size' depends on axioms: [propext, Quot.sound]
'Verif.Select.C16_storage_size' depends on axioms: [propext, Classical.choice, Quot.sound]
'Verif.Select.C17_alignment_matters' depends on axioms: [propext, Quot.sound]
'Verif.Select.C17_every_lock_used' depends on axioms: [propext, Classical.choice, Quot.sound]
'Verif.Select.C17_index_in_range' depends on axioms: [propext, Classical.choice, Quot.sound]
'Verif.Select.C17_one_lock' depends on axioms: [propext, Quot.sound]
'Verif.Select.C17_refs_share_lock' depends on axioms: [propext, Classical.choice, Quot.sound]
'Verif.Select.C32_exact_when_available' depends on axioms: [propext, Classical.choice, Quot.sound]
'Verif.Select.C32_fits' depends on axioms: [propext, Classical.choice, Quot.sound]
'Verif.Select.C32_native_iff_macro' depends on axioms: [propext, Classical.choice, Quot.sound]
'Verif.Select.C32_unique_partial' depends on axioms: [propext, Classical.choice, Quot.sound]
'Verif.Select.C32_unique_violated' depends on axioms: [propext]
'Verif.Select.C39_always_lock_free_partial' depends on axioms: [propext, Classical.choice, Quot.sound]
'Verif.Select.C39_macro' depends on axioms: [propext, Classical.choice, Quot.sound]
'Verif.Select.C39_narrower_lock_free' depends on axioms: [propext, Classical.choice, Quot.sound]
'Verif.Select.C39_sometimes_lock_free_violated' depends on axioms: [propext]
'Verif.Signal.C71_happens_before' depends on axioms: [propext, Quot.sound]
'Verif.Signal.C71_happens_before_partial' depends on axioms: [propext, Quot.sound]
'Verif.Signal.C71_happens_before_x86' depends on axioms: [propext, Quot.sound]
'Verif.Signal.C71_signal_fences' depends on axioms: [propext, Quot.sound]
'Verif.Signal.C71_violated' depends on axioms: [propext, Quot.sound]
'Verif.Signal.C72_lock_free' depends on axioms: [propext, Classical.choice, Quot.sound]
'Verif.Signal.C72_lock_free_kernel' depends on axioms: [propext, Classical.choice, Quot.sound]
'Verif.Signal.C72_locks_never_return' depends on axioms: [propext, Quot.sound]
'Verif.Sleep.C57_few_cumulative_partial' depends on axioms: [propext, Classical.choice, Quot.sound]
'Verif.Sleep.C57_few_partial' depends on axioms: [propext, Classical.choice, Quot.sound]
'Verif.Sleep.C57_woken' depends on axioms: [propext, Classical.choice, Quot.sound]
'Verif.Sleep.C57_woken_cumulative_partial' depends on axioms: [propext, Classical.choice, Quot.sound]
'Verif.Sleep.C57_woken_partial' depends on axioms: [propext, Classical.choice, Quot.sound]
'Verif.Sleep.C58_condition_partial' depends on axioms: [propext, Classical.choice, Quot.sound]
'Verif.Sleep.C58_notify_all' depends on axioms: [propext, Classical.choice, Quot.sound]
'Verif.Sleep.C58_notify_all_cumulative_partial' depends on axioms: [propext, Classical.choice, Quot.sound]
'Verif.Sleep.C58_notify_all_partial' depends on axioms: [propext, Classical.choice, Quot.sound]
'Verif.Sleep.C58_notify_one_cumulative_partial' depends on axioms: [propext, Classical.choice, Quot.sound]
'Verif.Sleep.C58_notify_one_partial' depends on axioms: [propext, Classical.choice, Quot.sound]
'Verif.Target.C53_arm_power_alpha' depends on axioms: [propext, Classical.choice, Quot.sound]
'Verif.Target.C53_code_of_call' depends on axioms: [propext, Quot.sound]
'Verif.Target.C53_every_call_has_code' depends on axioms: [propext, Quot.sound]
'Verif.Target.C53_exact' depends on axioms: [propext, Quot.sound]
'Verif.Target.C53_exact_consume_fence' depends on axioms: [propext, Quot.sound]
'Verif.Target.C53_happens_before_cumulative_partial' depends on axioms: [propext, Classical.choice, Quot.sound]
'Verif.Target.C53_happens_before_partial' depends on axioms: [propext, Quot.sound]
'Verif.Target.C53_happens_before_windows' depends on axioms: [propext, Quot.sound]
'Verif.Target.C53_intrinsics' depends on axioms: [propext, Classical.choice, Quot.sound]
'Verif.Target.C53_no_exceptions' depends on axioms: [propext]
'Verif.Target.C53_publication_violated' depends on axioms: [propext, Quot.sound]
'Verif.Target.C53_selected_iff' depends on axioms: [propext, Quot.sound]
'Verif.Target.C53_seq_cst_mixed_cumulative_partial' depends on axioms: [propext, Classical.choice, Quot.sound]
'Verif.Target.C53_seq_cst_mixed_partial' depends on axioms: [propext, Classical.choice, Quot.sound]
'Verif.Target.C53_seq_cst_objects_cumulative_partial' depends on axioms: [propext, Classical.choice, Quot.sound]
'Verif.Target.C53_seq_cst_objects_partial' depends on axioms: [propext, Classical.choice, Quot.sound]
'Verif.Tso.C20_fence_publishes' depends on axioms: [propext, Quot.sound]
'Verif.Tso.C20_relaxed_store_buffering_possible' depends on axioms: [propext]
'Verif.Tso.C20_seq_cst' depends on axioms: [propext, Quot.sound]
'Verif.Tso.C20_store_buffering' depends on axioms: [propext, Classical.choice, Quot.sound]
'Verif.Tso.C21_coherence' depends on axioms: [propext, Quot.sound]
'Verif.Tso.C21_publication' depends on axioms: [propext, Quot.sound]
'Verif.Use.C45_claim_bit' depends on axioms: [propext, Classical.choice, Quot.sound]
'Verif.Use.C45_consensus' depends on axioms: [propext, Classical.choice, Quot.sound]
'Verif.Use.C45_exchange' depends on axioms: [propext, Classical.choice, Quot.sound]
'Verif.Use.C45_last_reference' depends on axioms: [propext, Classical.choice, Quot.sound]
'Verif.Use.C45_last_reference_test' depends on axioms: [propext, Classical.choice, Quot.sound]
'Verif.Use.C45_no_lost_update' depends on axioms: [propext, Classical.choice, Quot.sound]
'Verif.Use.C45_tickets' depends on axioms: [propext, Classical.choice, Quot.sound]
'Verif.View.C69_big_endian_violated' depends on axioms: [propext, Classical.choice, Quot.sound]
'Verif.View.C69_bool_partial' depends on axioms: [propext, Classical.choice, Quot.sound]
'Verif.View.C69_bool_violated' depends on axioms: [propext, Quot.sound]
'Verif.View.C69_enumeration' depends on axioms: [propext, Classical.choice, Quot.sound]
'Verif.View.C69_integer' depends on axioms: [propext, Classical.choice, Quot.sound]
'Verif.View.C69_object' depends on axioms: [propext, Classical.choice, Quot.sound]
'Verif.View.C69_pointer' depends on axioms: [propext, Classical.choice, Quot.sound]
'Verif.View.C69_signed_wide_partial' depends on axioms: [propext, Classical.choice, Quot.sound]
'Verif.View.C69_signed_wide_violated' depends on axioms: [propext, Quot.sound]
'Verif.View.C69_unsigned_wide_partial' depends on axioms: [propext, Classical.choice, Quot.sound]
'Verif.View.assign_bytes' depends on axioms: [propext, Quot.sound]
'Verif.View.value_bytes' depends on axioms: [propext, Quot.sound]
'Verif.Wait.C26_limits' depends on axioms: [propext, Classical.choice, Quot.sound]
'Verif.Wait.C26_no_false_timeout' does not depend on any axioms
'Verif.Wait.C26_returns_after_deadline' depends on axioms: [propext, Classical.choice, Quot.sound]
'Verif.Wait.C26_same_instant' depends on axioms: [propext, Classical.choice, Quot.sound]
'Verif.Wait.C26_wait_emulated' depends on axioms: [propext, Quot.sound]
'Verif.Wait.C26_wait_for_futex' depends on axioms: [propext, Classical.choice, Quot.sound]
'Verif.Wait.C26_wait_for_native' depends on axioms: [propext, Classical.choice, Quot.sound]
'Verif.Wait.C26_wait_for_pool' depends on axioms: [propext, Classical.choice, Quot.sound]
'Verif.Wait.C26_wait_generic' depends on axioms: [propext, Quot.sound]
'Verif.Wait.C26_wait_native' depends on axioms: [propext, Quot.sound]
'Verif.Wait.C26_wait_until_freebsd' depends on axioms: [propext, Quot.sound]
'Verif.Wait.C26_wait_until_futex' depends on axioms: [propext, Classical.choice, Quot.sound]
'Verif.Wait.C26_wait_until_native' depends on axioms: [propext, Classical.choice, Quot.sound]
'Verif.Wait.C26_wait_until_pool' depends on axioms: [propext, Classical.choice, Quot.sound]
'Verif.Wait.C26_wait_until_pool_posix' depends on axioms: [propext, Classical.choice, Quot.sound]
'Verif.Wait.C27_native_wait_steps' depends on axioms: [propext, Quot.sound]
'Verif.Wait.C37_wait' depends on axioms: [propext, Quot.sound]
'Verif.Wait.C37_wait_for' depends on axioms: [propext, Quot.sound]
'Verif.Wait.C37_wait_no_notify' depends on axioms: [propext, Quot.sound]
'Verif.Wait.C37_wait_until' depends on axioms: [propext, Quot.sound]
'Verif.Wait.C37_wait_until_deadline' depends on axioms: [propext, Classical.choice, Quot.sound]
'Verif.Wait.C37_wait_until_no_notify' depends on axioms: [propext, Quot.sound]
'Verif.Wait.Native.C25_native_notify_all' depends on axioms: [propext]
'Verif.Wait.Native.C25_native_notify_one' depends on axioms: [propext]
'Verif.Wait.Native.C27_native_notify_all' depends on axioms: [propext, Quot.sound]
'Verif.Wait.Native.C27_native_notify_one' depends on axioms: [propext, Quot.sound]
'Verif.WaitSel.C47_compares_storage' depends on axioms: [propext, Quot.sound]
'Verif.WaitSel.C47_flag_macro_partial' depends on axioms: [propext, Classical.choice, Quot.sound]
'Verif.WaitSel.C47_float_macro_partial' depends on axioms: [propext, Classical.choice, Quot.sound]
'Verif.WaitSel.C47_force_fallback' depends on axioms: [propext, Quot.sound]
'Verif.WaitSel.C47_ipc_address_free' depends on axioms: [propext, Quot.sound]
'Verif.WaitSel.C47_ipc_requires_lock_free' depends on axioms: [propext, Quot.sound]
'Verif.WaitSel.C47_macro_overstates_violated' depends on axioms: [propext]
'Verif.WaitSel.C47_macro_partial' depends on axioms: [propext, Classical.choice, Quot.sound]
'Verif.WaitSel.C47_macro_sometimes_violated' depends on axioms: [propext]
'Verif.WaitSel.C47_macro_understates_violated' depends on axioms: [propext]
'Verif.WaitSel.C47_native_iff' depends on axioms: [propext, Quot.sound]
'Verif.WaitSel.C47_not_native' depends on axioms: [propext, Quot.sound]
'Verif.WaitSel.C47_notify_reaches' depends on axioms: [propext, Quot.sound]
'Verif.WaitSel.C47_released' depends on axioms: [propext, Quot.sound]
'Verif.WaitSel.C47_unique' depends on axioms: [propext, Classical.choice, Quot.sound]
'Verif.Weak.C44_exclusive' depends on axioms: [propext, Classical.choice, Quot.sound]
'Verif.Weak.C44_handover' depends on axioms: [propext, Classical.choice, Quot.sound]
'Verif.Weak.C44_no_data_race' depends on axioms: [propext, Classical.choice, Quot.sound]
'Verif.Weak.C44_reads_latest' depends on axioms: [propext, Classical.choice, Quot.sound]
'Verif.Weak.C44_visible' depends on axioms: [propext, Classical.choice, Quot.sound]
'Verif.Whole.C55_interleaving' depends on axioms: [propext, Classical.choice, Quot.sound]
'Verif.Whole.C55_interleaving_cumulative' depends on axioms: [propext, Classical.choice, Quot.sound]
'Verif.Whole.C55_interleaving_cumulative_partial' depends on axioms: [propext, Classical.choice, Quot.sound]
'Verif.Whole.C55_interleaving_partial' depends on axioms: [propext, Classical.choice, Quot.sound]
'Verif.Whole.C55_reads' depends on axioms: [propext]
'Verif.Whole.C55_writes' depends on axioms: [propext, Quot.sound]
