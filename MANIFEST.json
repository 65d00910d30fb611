{"claims": [
 {"property": "C01", "status": "partial", "theorems": ["Verif.Concurrent.C01_cas_loops_linearizable", "Verif.Concurrent.C01_instructions_linearizable", "Verif.Concurrent.C01_kernel_helper_linearizable", "Verif.Concurrent.C01_mixed_linearizable", "Verif.Concurrent.C01_emulated_linearizable_partial", "Verif.Bytes.C01_any_type", "Verif.Concurrent.C01_emulated_exact", "Verif.Concurrent.C01_emulated_violated", "Verif.Concurrent.C01_mixed_emulated_exact"], "note": "Every integral operation, every back-end table, any interleaving, torn snapshots, spurious failures. For values emulated in a wider word only the operations whose emulation is right (F14, see C07). C01_emulated_exact: for every pair of widths and every operation, the histories of a program using it with load and compare_exchange_strong are linearizable if and only if the operation is one of these, so the full statement is false (C01_emulated_violated)."},
 {"property": "C02", "status": "partial", "theorems": ["Verif.Concurrent.C02_llsc_linearizable", "Verif.Concurrent.C02_emulated_linearizable_partial", "Verif.Concurrent.C01_mixed_linearizable", "Verif.Bytes.C02_any_type", "Verif.Pair.C02_torn_pair_partial", "Verif.Concurrent.C02_emulated_exact", "Verif.Concurrent.C02_emulated_violated", "Verif.Concurrent.C01_mixed_emulated_exact"], "note": "LL/SC with arbitrary store-conditional failures. For values emulated in a wider word only the operations whose emulation is right (F14); C02_emulated_exact: these are exactly the linearizable ones, so the full statement is false (C02_emulated_violated). With a load-exclusive pair that may be torn (AArch64 16-byte without FEAT_LSE2) a failed compare-exchange may report anything (F32)."},
 {"property": "C03", "status": "proved", "theorems": ["Verif.Concurrent.C03_lock_based_linearizable", "Verif.Concurrent.C03_critical_sections_exclusive", "Verif.Bytes.C03_any_type"], "note": "All objects of a process, arbitrary address-to-lock map, plus absence of data races on the storage. The lock itself: C23."},
 {"property": "C04", "status": "partial", "theorems": ["Verif.Concurrent.C04_strong_not_spurious", "Verif.Concurrent.C04_lock_based", "Verif.Concurrent.C04_narrow_compare_arm", "Verif.Concurrent.C04_narrow_compare_ppc_partial", "Verif.Concurrent.C04_narrow_compare_ppc_violated"], "note": "Proved for all machines with whole-word comparison and for the ARM family's narrow operands; PowerPC narrow compare relies on zero-extended argument registers (F15)."},
 {"property": "C05", "status": "partial", "theorems": ["Verif.Concurrent.C05_weak_success_exact", "Verif.Concurrent.C05_weak_effect", "Verif.Concurrent.C05_at_most_one_winner", "Verif.Concurrent.C04_lock_based", "Verif.Pair.C02_torn_pair_partial", "Verif.Pair.C05_torn_pair_violated"], "note": "Proved for every back end but the AArch64 16-byte one without FEAT_LSE2, where the value reported by a failed compare-exchange may be torn (F32, violation proved); there everything else is proved."},
 {"property": "C06", "status": "partial", "theorems": ["Verif.Integral.C06_native_sequences", "Verif.Integral.C06_wraps", "Verif.Integral.C06_wraps_sub", "Verif.Integral.C06_wraps_negate", "Verif.Integral.C06_emulated_violated", "Verif.Integral.C06_emulated_exact"], "note": "Proved for every back end when the value has its own storage width. False for values emulated in a wider word (finding F14); negation proved. C06_emulated_exact settles it for every pair of widths: an operation, used with load and compare_exchange_strong, always gives results modulo 2^N if and only if it is in EmulSafe."},
 {"property": "C07", "status": "partial", "theorems": ["Verif.Integral.C07_intended_emulation", "Verif.Integral.C07_emulated_partial", "Verif.Integral.C07_emulated_violated", "Verif.Integral.C07_emulated_negate_violated", "Verif.Integral.C07_emulated_bitset_violated", "Verif.Integral.C07_emulated_exact"], "note": "Holds for the operations in EmulSafe; violated for every other operation and every pair of widths (C07_emulated_exact) because extra operations are instantiated with the storage width (F14)."},
 {"property": "C08", "status": "partial", "theorems": ["Verif.Integral.C08_op_and_test", "Verif.Integral.C08_emulated_violated", "Verif.Integral.C07_emulated_exact"], "note": "Proved for native-width storage; violated under emulation (F14). Which *_and_test operations remain right under emulation, and for which arguments, is settled by C07_emulated_exact."},
 {"property": "C09", "status": "proved", "theorems": ["Verif.Integral.C09_bit_test_and"], "note": "All back ends, all widths."},
 {"property": "C10", "status": "proved", "theorems": ["Verif.Integral.C10_flavours_agree", "Verif.Integral.C10_backends_agree"], "note": "All back ends, all widths."},
 {"property": "C11", "status": "proved", "theorems": ["Verif.Pair.C11_halves", "Verif.Pair.C11_operations", "Verif.Pair.C11_linearizable", "Verif.Pair.C11_linearizable_ldrexd"], "note": "All half widths, both byte orders, all operations."},
 {"property": "C12", "status": "proved", "theorems": ["Verif.Concurrent.C12_load_keeps_value", "Verif.Concurrent.C12_concurrent_loads"], "note": ""},
 {"property": "C13", "status": "partial", "theorems": ["Verif.Api.C13_linearizable", "Verif.Api.C13_emulated_partial", "Verif.Api.C13_element", "Verif.Api.C13_narrow_size_t_violated", "Verif.Api.C13_emulated_exact"], "note": "Proved for all element sizes, offsets and back ends when the storage has the width of the pointer and size_t is no narrower than uintptr_t. Negation proved when size_t is narrower. Wider storage: only the operations whose emulation is right. C13_emulated_exact: for every pair of widths these are exactly the right ones."},
 {"property": "C14", "status": "partial", "theorems": ["Verif.Bytes.C14_round_trip", "Verif.Bytes.C14_storage_clean", "Verif.Bytes.C14_padding_irrelevant", "Verif.Bytes.C14_wait_compare", "Verif.Bytes.C14_ref_construct", "Verif.Bytes.C14_concurrent_construction_partial", "Verif.Bytes.C14_interior_padding_violated", "Verif.Bytes.C14_noncontiguous_fp_violated", "Verif.Bytes.C14_concurrent_construction_violated", "Verif.Bytes.C33_compare_by_representation"], "note": "Proved for every type whose padding the library can know (a padding-clearing builtin, no padding at all, or floating point with leading value bytes). False otherwise: interior padding without the builtin (F26), floating-point formats with interior padding (F25); constructing an atomic_ref concurrently with operations is safe except for padding bits inside value bytes (F24)."},
 {"property": "C15", "status": "proved", "theorems": ["Verif.Bytes.C15_not", "Verif.Bytes.C15_eq"], "note": "All sizes, contents and surrounding memory, including the shortcut that reads the first byte and compares the buffer with itself shifted by one."},
 {"property": "C16", "status": "proved", "theorems": ["Verif.Select.C16_storage_size", "Verif.Select.C16_atomic_fits", "Verif.Select.C16_native_alignment", "Verif.Select.C16_ref_size", "Verif.Select.C16_ref_footprint", "Verif.Select.C16_ref_lock_free", "Verif.Select.C16_ref_any_object"], "note": "All sizes, all architecture feature sets and compiler back ends; ABI alignments are assumed to divide the sizes of their types, as C++ guarantees."},
 {"property": "C17", "status": "proved", "theorems": ["Verif.Select.C17_index_in_range", "Verif.Select.C17_every_lock_used", "Verif.Select.C17_one_lock", "Verif.Select.C17_refs_share_lock", "Verif.Select.C17_alignment_matters"], "note": "All addresses, alignments, pool sizes and pointer widths."},
 {"property": "C18", "status": "proved", "theorems": ["Verif.Order.C18_deduced_failure_order", "Verif.Order.C18_assertion_exact", "Verif.Order.C18_load_store_asserts", "Verif.Order.C18_bit_tests", "Verif.Order.C18_gcc_constants"], "note": "All orders and all pairs. The assertion additionally admits (release, consume) and (release, acquire); C18_assertion_exact states this exactly."},
 {"property": "C19", "status": "partial", "theorems": ["Verif.Order.C19_acquire_partial", "Verif.Order.C19_release", "Verif.Order.C19_seq_cst_partial", "Verif.Order.C19_gcc_sync_exchange", "Verif.Order.C19_acquire_violated", "Verif.Order.C19_seq_cst_violated", "Verif.Order.C19_gcc_sync_exchange_seq_cst_violated", "Verif.Order.C19_gcc_sync_wide_store_violated", "Verif.Order.C19_acquire_exact", "Verif.Order.C19_seq_cst_exact"], "note": "Release holds on every back end; acquire and seq_cst hold except in exactly the listed cases, where the code violates the property (negations proved: SPARC fence_after, AArch64/AArch32 failing CAS with (release, acquire), AArch32 8-byte acquire load, kernel-helper failing CAS, __sync exchange and store of objects wider than a pointer under the literal GCC documentation). C19_acquire_exact and C19_seq_cst_exact state the equivalence: the guarantee holds if and only if the operation is not in the list. What the barriers of PowerPC guarantee to third threads is in C50 and C51."},
 {"property": "C20", "status": "proved", "theorems": ["Verif.Tso.C20_seq_cst", "Verif.Tso.C20_fence_publishes", "Verif.Tso.C20_store_buffering", "Verif.Tso.C20_relaxed_store_buffering_possible"], "note": "x86-TSO machine with store buffers; any number of threads, locations, steps; other locations may be accessed with any order."},
 {"property": "C21", "status": "proved", "theorems": ["Verif.Tso.C21_publication", "Verif.Tso.C21_coherence"], "note": "x86-TSO machine; compiler ordering is covered by C19."},
 {"property": "C22", "status": "partial", "theorems": ["Verif.Order.C22_thread_fence_partial", "Verif.Order.C22_signal_fence", "Verif.Order.C22_x86_consume_fence_violated", "Verif.Order.C22_windows_fence_violated", "Verif.Order.C22_thread_fence_exact"], "note": "Holds for all back ends, orders and surrounding programs except the consume fence of the inline-assembly x86 back end and the non-seq_cst fences of the Windows back end on weakly ordered processors, for which the negation is proved; C22_thread_fence_exact states the equivalence."},
 {"property": "C23", "status": "proved", "theorems": ["Verif.Futex.C23_mutual_exclusion", "Verif.Futex.C23_locked_iff_owned", "Verif.Futex.enc_eq_iff", "Verif.Futex.enc_locked", "Verif.Futex.enc_contended", "Verif.Futex.enc_lock", "Verif.Futex.enc_contend", "Verif.Futex.enc_clear", "Verif.Futex.enc_unlock", "Verif.Futex.cond_inc", "Verif.Futex.cond_eq_iff"], "note": "Futex implementation of the lock pool entry, any number of threads, any interleaving, including counter wrap-around. The pthread and Windows variants delegate to OS mutexes, which are trusted."},
 {"property": "C24", "status": "partial", "theorems": ["Verif.Futex.C24_no_lost_wakeup_partial", "Verif.Futex.C24_no_deadlock_partial", "Verif.Futex.C24_release_wakes_partial", "Verif.Futex.C24_wake_wakes", "Verif.Futex.C24_wraparound_violated"], "note": "Holds as long as the 30-bit counter does not make a full turn between two steps of one thread; C24_wraparound_violated proves that the full statement fails otherwise."},
 {"property": "C25", "status": "partial", "theorems": ["Verif.Futex.C25_notify_all_partial", "Verif.Futex.C25_notify_one_partial", "Verif.Wait.Native.C25_native_notify_one", "Verif.Wait.Native.C25_native_notify_all"], "note": "Lock pool: holds as long as the 30-bit and 32-bit counters do not make a full turn under a waiting thread. Native: proved given the kernel's contract."},
 {"property": "C26", "status": "partial", "theorems": ["Verif.Wait.C26_wait_native", "Verif.Wait.C26_wait_emulated", "Verif.Wait.C26_wait_generic", "Verif.Wait.C26_wait_until_native", "Verif.Wait.C26_wait_until_futex", "Verif.Wait.C26_wait_until_freebsd", "Verif.Wait.C26_wait_until_pool", "Verif.Wait.C26_wait_until_pool_posix", "Verif.Wait.C26_same_instant", "Verif.Wait.C26_wait_for_native", "Verif.Wait.C26_wait_for_futex", "Verif.Wait.C26_wait_for_pool", "Verif.Wait.C26_no_false_timeout", "Verif.Wait.C26_limits", "Verif.Wait.C26_returns_after_deadline", "Verif.Call.C26_wait_until_call", "Verif.Call.C26_call_violated"], "note": "All implementations, every world (stores, clocks, wake-ups, error codes). Partial because the arithmetic on time points is exact here: with a 32-bit time_t (C30_to_timespec_32_violated) or when now + timeout overflows (C31) the deadline is not the one asked for. C26_wait_until_call puts the system call in between; on 32-bit Linux with 64-bit time_t the kernel receives an earlier deadline (C26_call_violated, F60)."},
 {"property": "C27", "status": "partial", "theorems": ["Verif.Futex.C27_store_notify_partial", "Verif.Futex.C27_generic_timed_wait_violated", "Verif.Wait.Native.C27_native_notify_all", "Verif.Wait.Native.C27_native_notify_one", "Verif.Wait.C27_native_wait_steps"], "note": "Native waits: proved given the kernel's contract. Lock pool based waits that compare under the lock: proved without counter wrap-around. The generic timed waits violate the property: C27_generic_timed_wait_violated."},
 {"property": "C28", "status": "proved", "theorems": ["Verif.Registry.C28_no_fault", "Verif.Registry.C28_entry_iff_waiter", "Verif.Registry.C28_entry_unique", "Verif.Registry.C28_same_state_iff_same_object", "Verif.Registry.C28_notify_exact", "Verif.Registry.C28_waiter_signalled_iff", "Verif.Registry.C28_refcount", "Verif.Registry.C28_register", "Verif.Registry.C28_unregister", "Verif.Registry.C28_table_shape", "Verif.Registry.C28_platform_64", "Verif.Registry.C28_platform_32"], "note": "Every state reachable by any sequence of register, unregister, use, notify and cleanup calls, any address-to-lock map, allocation failing anywhere; the search function is any that satisfies C29, discharged for the generic, SSE2 and SSE4.1 versions."},
 {"property": "C29", "status": "proved", "theorems": ["Verif.Find.C29_generic", "Verif.Find.C29_sse2_64", "Verif.Find.C29_sse41", "Verif.Find.C29_sse2_32", "Verif.Find.C29_answer_unique", "Verif.Find.C29_agree_64", "Verif.Find.C29_agree_32", "Verif.Find.C29_dispatch_supported", "Verif.Find.C29_portable_ctz", "Verif.Find.C29_set1_epiptr", "Verif.Find.C29_round_up", "Verif.Find.C29_cpuid", "Verif.Find.C29_choose", "Verif.Find.C29_links", "Verif.Find.C29_concurrent_supported", "Verif.Find.C29_concurrent_64", "Verif.Find.C29_concurrent_32", "Verif.Find.C29_cpuid_rbx", "Verif.Find.C29_fault"], "note": "Lane-level models of the vector programs; all sizes, contents and addresses with the capacity multiples the table guarantees (C28_table_shape); out-of-bounds and misaligned loads are faults and proved absent. The blocks of cpuid.hpp are executed on registers; C29_links is for builds the configuration tests can produce (a counterexample shows the hypothesis is needed); concurrent first calls may read any value ever stored in the pointer."},
 {"property": "C30", "status": "partial", "theorems": ["Verif.Chrono.C30_ceil_std", "Verif.Chrono.C30_ceil_fallback", "Verif.Chrono.C30_ceil_not_shorter", "Verif.Chrono.C30_no_early_timeout", "Verif.Chrono.C30_timeout_recognised", "Verif.Chrono.C30_ceil_fallback_negative_violated", "Verif.Chrono.C30_to_timespec_partial", "Verif.Chrono.C30_to_timespec_64", "Verif.Chrono.C30_to_timespec_32_violated", "Verif.Chrono.C30_rel_timespec", "Verif.Chrono.C30_abs_timespec", "Verif.Chrono.C30_abs_timespec_sat", "Verif.Chrono.C30_reached", "Verif.Chrono.C30_clamp"], "note": "Rounding, saturation and deadline comparison proved for every duration and clock reading. Partial because conversion of a time point to timespec is exact only if the seconds fit time_t: with a 32-bit time_t the claim is false (C30_to_timespec_32_violated)."},
 {"property": "C31", "status": "partial", "theorems": ["Verif.Chrono.C31_futex_wait_for_iff", "Verif.Chrono.C31_futex_wait_for_partial", "Verif.Chrono.C31_futex_wait_for_violated", "Verif.Chrono.C31_deadline_iff", "Verif.Chrono.C31_deadline_violated", "Verif.Chrono.C31_pthread_wait_for_iff"], "note": "The property is false in full: durations near the maximum overflow the deadline computation (proved). The exact ranges without overflow are proved."},
 {"property": "C32", "status": "partial", "theorems": ["Verif.Select.C32_unique_partial", "Verif.Select.C32_unique_violated", "Verif.Select.C32_fits", "Verif.Select.C32_native_iff_macro", "Verif.Select.C32_exact_when_available"], "note": "Uniqueness fails when only 16-byte intrinsics are lock-free (core_ops_gcc_atomic.hpp:213 specializes the wrong size, C32_unique_violated); it and the native/locked dichotomy are proved when 64-bit intrinsics are at least as lock-free as 128-bit ones. Storage size is proved without that assumption."},
 {"property": "C33", "status": "proved", "theorems": ["Verif.Bytes.C01_any_type", "Verif.Bytes.C02_any_type", "Verif.Bytes.C03_any_type", "Verif.Bytes.C33_compare_by_representation", "Verif.Bytes.C33_negate_flips_sign", "Verif.Bytes.C33_result_forms", "Verif.Bytes.C33_big_endian_wide_storage_violated"], "note": "Arbitrary floating-point functions, all bit patterns. Negation through the sign bit assumes that the type's negation flips the top bit (SignOk), and on big-endian machines that the storage is as wide as the value, which is always so in the library; C33_big_endian_wide_storage_violated shows that the latter is needed."},
 {"property": "C34", "status": "proved", "theorems": ["Verif.Flag.C34_linearizable", "Verif.Flag.C34_lock_based_linearizable", "Verif.Flag.C34_one_winner", "Verif.Flag.C34_exactly_one"], "note": "All back ends including the byte-wise GCC intrinsics on either byte order; any number of calls and interleavings."},
 {"property": "C35", "status": "proved", "theorems": ["Verif.Concurrent.C35_cas_retries_bounded_by_progress", "Verif.Concurrent.C35_cas_solo_terminates", "Verif.Concurrent.C35_cas_never_stuck", "Verif.Concurrent.C35_llsc_retries_bounded_by_progress", "Verif.Concurrent.CasStep.commit_finishes", "Verif.Concurrent.LlStep.commit_finishes", "Verif.Concurrent.C35_mix_retries_bounded_by_progress", "Verif.Concurrent.C35_mix_store_finishes", "Verif.Concurrent.C35_kernel_retries_bounded_by_progress", "Verif.Concurrent.C35_kernel_commit_finishes"], "note": "Under the stated assumption that CAS/SC do not fail spuriously. For single mechanisms, for any mixture of them on one object, and for the kernel's compare-exchange function."},
 {"property": "C36", "status": "proved", "theorems": ["Verif.Concurrent.C36_no_deadlock"], "note": ""},
 {"property": "C37", "status": "proved", "theorems": ["Verif.Wait.C37_wait", "Verif.Wait.C37_wait_until", "Verif.Wait.C37_wait_for", "Verif.Wait.C37_wait_no_notify", "Verif.Wait.C37_wait_until_no_notify", "Verif.Wait.C37_wait_until_deadline"], "note": "Every world, every spin count."},
 {"property": "C38", "status": "proved", "theorems": ["Verif.Registry.C38_registered_once", "Verif.Registry.C38_alive_while_waiting", "Verif.Registry.C38_never_released_in_use", "Verif.Registry.C38_not_leaked", "Verif.Registry.C38_cleanup_leaves_no_spare", "Verif.Registry.C38_all_released", "Verif.Registry.C38_cleanup_releases_table", "Verif.Registry.C38_usable_after_cleanup", "Verif.Registry.C38_table_after_cleanup_violated"], "note": "Registration race for any number of threads; memory of wait states at every reachable state of the pool. C38_table_after_cleanup_violated records finding F22 (an empty table can stay allocated after the cleanup), which is outside the property's statement."},
 {"property": "C39", "status": "partial", "theorems": ["Verif.Select.C39_always_lock_free_partial", "Verif.Select.C39_sometimes_lock_free_violated", "Verif.Select.C39_narrower_lock_free", "Verif.Select.C39_macro"], "note": "False for sizes whose macro is 1 (C39_sometimes_lock_free_violated: i486 with gcc); proved for all others. C39_macro: without exception the macros say what the operations do."},
 {"property": "C40", "status": "partial", "theorems": ["Verif.Flag.C40_wait_partial", "Verif.Flag.C40_wait_until_partial", "Verif.Flag.C40_storage_canonical", "Verif.Flag.C40_big_endian_wait_violated"], "note": "Proved when a set flag is stored as 1. False on big-endian machines with the GCC intrinsics (F29): a set flag is stored as 0x01000000 and wait(true) returns true at once."},
 {"property": "C41", "status": "partial", "theorems": ["Verif.Api.C41_linearizable", "Verif.Api.C41_emulated_partial", "Verif.Api.C41_big_endian_wide_storage_violated", "Verif.Api.C41_signed_top_bit_violated", "Verif.Api.C41_bool_partial", "Verif.Api.C41_bool_violated", "Verif.Api.C41_emulated_exact"], "note": "Proved for storage of the enumeration's own width. Wider storage: negations proved for big-endian machines and for the top bit of signed types; the remaining operations proved on little-endian machines. Underlying type bool: proved for all operations but the complements, which leave a byte that is no value of the type (negation proved). C41_emulated_exact: on little-endian machines these are exactly the right ones, for every pair of widths."},
 {"property": "C42", "status": "partial", "theorems": ["Verif.Api.C42_linearizable", "Verif.Api.C42_emulated_partial", "Verif.Api.C42_emulated_exact"], "note": "Proved for integers in storage of their own width; wider storage: the operators whose emulation is right. Operators of pointers and enumerations are covered by C13 and C41. C42_emulated_exact: for every pair of widths these are exactly the right ones."},
 {"property": "C43", "status": "proved", "theorems": ["Verif.Api.C43_linearizable", "Verif.Api.C43_emulated_linearizable", "Verif.Api.C43_storage_zero_or_one"], "note": "All back ends and storage widths, both ways of passing expected."},
 {"property": "C44", "status": "proved", "theorems": ["Verif.Weak.C44_exclusive", "Verif.Weak.C44_handover", "Verif.Weak.C44_visible", "Verif.Weak.C44_no_data_race", "Verif.Weak.C44_reads_latest"], "note": "Futex version of the lock with the memory orders in the code, on a view-based C++20 memory machine without load buffering; seq_cst treated as acq_rel. The pthread and Windows versions delegate to OS mutexes."},
 {"property": "C45", "status": "proved", "theorems": ["Verif.Use.C45_no_lost_update", "Verif.Use.C45_tickets", "Verif.Use.C45_last_reference", "Verif.Use.C45_last_reference_test", "Verif.Use.C45_exchange", "Verif.Use.C45_claim_bit", "Verif.Use.C45_consensus"], "note": "For every history any implementation can produce, the value having storage of its own width (for values emulated in wider storage see C07). The lock pool case includes all other objects sharing the pool."},
 {"property": "C46", "status": "partial", "theorems": ["Verif.Cond.C46_mutual_exclusion", "Verif.Cond.C46_condition_variables", "Verif.Cond.C46_not_destroyed", "Verif.Cond.C46_woken_only_by_notify", "Verif.Cond.C46_notify_all", "Verif.Cond.C46_notify_one", "Verif.Cond.C46_store_notify_partial", "Verif.Cond.C46_timed_wait_violated", "Verif.Cond.C46_wait_until_loop_violated", "Verif.Cond.C46_lock_given_up", "Verif.Cond.C46_no_deadlock"], "note": "Whole pool (all locks, concrete registry tables) with system mutexes and condition variables. Everything is proved except that a store followed by a notification can be missed by two kinds of timed waits, which the code really does (findings F1, F33): proved as C46_timed_wait_violated and C46_wait_until_loop_violated."},
 {"property": "C47", "status": "partial", "theorems": ["Verif.WaitSel.C47_notify_reaches", "Verif.WaitSel.C47_ipc_address_free", "Verif.WaitSel.C47_ipc_requires_lock_free", "Verif.WaitSel.C47_released", "Verif.WaitSel.C47_force_fallback", "Verif.WaitSel.C47_compares_storage", "Verif.WaitSel.C47_unique", "Verif.WaitSel.C47_native_iff", "Verif.WaitSel.C47_not_native", "Verif.WaitSel.C47_macro_partial", "Verif.WaitSel.C47_flag_macro_partial", "Verif.WaitSel.C47_float_macro_partial", "Verif.WaitSel.C47_macro_understates_violated", "Verif.WaitSel.C47_macro_overstates_violated", "Verif.WaitSel.C47_macro_sometimes_violated"], "note": "Everything but the macros is proved in full, with the queues addressed by the systems' primitives as trusted base. The macros agree with has_native_wait_notify for types kept in storage of their own size whose lock-freedom macro is not 1; for the others they do not (F34, F35, F36)."},
 {"property": "C48", "status": "partial", "theorems": ["Verif.Asm.C48_arm_1", "Verif.Asm.C48_arm_1_partial", "Verif.Asm.C48_arm_1_violated", "Verif.Asm.C48_arm_2", "Verif.Asm.C48_arm_2_partial", "Verif.Asm.C48_arm_2_violated", "Verif.Asm.C48_arm_4", "Verif.Asm.C48_arm_4_partial", "Verif.Asm.C48_arm_4_violated", "Verif.Asm.C48_arm_8", "Verif.Asm.C48_arm_8_partial", "Verif.Asm.C48_arm_8_violated", "Verif.Asm.C48_arm_word", "Verif.Asm.C48_aarch32_1", "Verif.Asm.C48_aarch32_1_partial", "Verif.Asm.C48_aarch32_1_violated", "Verif.Asm.C48_aarch32_2", "Verif.Asm.C48_aarch32_2_partial", "Verif.Asm.C48_aarch32_2_violated", "Verif.Asm.C48_aarch32_4", "Verif.Asm.C48_aarch32_8", "Verif.Asm.C48_aarch64_1", "Verif.Asm.C48_aarch64_1_partial", "Verif.Asm.C48_aarch64_1_violated", "Verif.Asm.C48_aarch64_lse_1", "Verif.Asm.C48_aarch64_2", "Verif.Asm.C48_aarch64_2_partial", "Verif.Asm.C48_aarch64_2_violated", "Verif.Asm.C48_aarch64_lse_2", "Verif.Asm.C48_aarch64_4", "Verif.Asm.C48_aarch64_lse_4", "Verif.Asm.C48_aarch64_8", "Verif.Asm.C48_aarch64_lse_8", "Verif.Asm.C48_aarch64_16", "Verif.Asm.C48_aarch64_16_partial", "Verif.Asm.C48_aarch64_16_violated", "Verif.Asm.C48_ppc_1", "Verif.Asm.C48_ppc_1_partial", "Verif.Asm.C48_ppc_1_violated", "Verif.Asm.C48_ppc_2", "Verif.Asm.C48_ppc_2_partial", "Verif.Asm.C48_ppc_2_violated", "Verif.Asm.C48_ppc_4", "Verif.Asm.C48_ppc_8", "Verif.Asm.C48_ppc_word", "Verif.Asm.C48_alpha_4", "Verif.Asm.C48_alpha_4_partial", "Verif.Asm.C48_alpha_4_violated", "Verif.Asm.C48_alpha_8", "Verif.Asm.C48_alpha_word", "Verif.Asm.C48_sparc_4", "Verif.Asm.C48_sparc_8", "Verif.Asm.C48_sparc_v8plus_8_violated", "Verif.Asm.C48_x86_1", "Verif.Asm.C48_x86_2", "Verif.Asm.C48_x86_4", "Verif.Asm.C48_x86_8", "Verif.Asm.C48_x86_dcas_8", "Verif.Asm.C48_x86_dcas_8_store_partial", "Verif.Asm.C48_x86_dcas_8_violated", "Verif.Asm.C48_x86_dcas_16", "Verif.Asm.C48_msvc_asm_1", "Verif.Asm.C48_msvc_asm_2", "Verif.Asm.C48_msvc_asm_4", "Verif.Asm.C48_msvc_asm_8", "Verif.Asm.C48_msvc_arm_calls"], "note": "ARM, AArch32 and AArch64 (with and without LSE), PowerPC (32 and 64 bits), Alpha, SPARC and x86, all sizes and functions. Violated for compare-and-exchange on ARM (missing early-clobber on success: desired value 0), for narrow compare-and-exchange on AArch32 and AArch64 without LSE (changes an input-only operand), for narrow strong compare-and-exchange on PowerPC and 4 bytes on Alpha (compares bits the compiler need not have extended), for 8 bytes on SPARC in 32-bit mode (operands are register pairs), for the 8-byte store on x86 in 32-bit code that preserves ebx (changes registers it does not declare), and for the value a failing 16-byte compare-and-exchange reports on AArch64 (halves read at different moments); the _partial theorems cover the remaining arguments, the function with the constraint corrected, or all but the reported value. Microsoft's __asm blocks: all functions (of the functions defined twice, either definition); interlocked functions: which are called is proved for all compilers, their effect is their documented one."},
 {"property": "C49", "status": "partial", "theorems": ["Verif.Asm.C49_arm_1_partial", "Verif.Asm.C49_arm_2_partial", "Verif.Asm.C49_arm_4_partial", "Verif.Asm.C49_arm_8_partial", "Verif.Asm.C49_aarch32_1_partial", "Verif.Asm.C49_aarch32_2_partial", "Verif.Asm.C49_aarch32_4", "Verif.Asm.C49_aarch32_8", "Verif.Asm.C49_aarch64_1_partial", "Verif.Asm.C49_aarch64_lse_1", "Verif.Asm.C49_aarch64_2_partial", "Verif.Asm.C49_aarch64_lse_2", "Verif.Asm.C49_aarch64_4", "Verif.Asm.C49_aarch64_lse_4", "Verif.Asm.C49_aarch64_8", "Verif.Asm.C49_aarch64_lse_8", "Verif.Asm.C49_aarch64_16_partial", "Verif.Asm.C49_ppc_1_partial", "Verif.Asm.C49_ppc_2_partial", "Verif.Asm.C49_ppc_4", "Verif.Asm.C49_ppc_8", "Verif.Asm.C49_alpha_4_partial", "Verif.Asm.C49_alpha_8", "Verif.Asm.C49_sparc_4", "Verif.Asm.C49_sparc_8", "Verif.Asm.C49_x86_1", "Verif.Asm.C49_x86_2", "Verif.Asm.C49_x86_4", "Verif.Asm.C49_x86_8", "Verif.Asm.C49_x86_dcas_8", "Verif.Asm.C49_x86_dcas_8_preserve_partial", "Verif.Asm.C49_x86_dcas_16", "Verif.Asm.C49_msvc_arm", "Verif.Asm.C49_msvc_amd64", "Verif.Asm.C49_msvc_amd64_16", "Verif.Asm.C49_msvc_x86_1", "Verif.Asm.C49_msvc_x86_2", "Verif.Asm.C49_msvc_x86_4", "Verif.Asm.C49_msvc_x86_8", "Verif.Asm.C49_windows"], "note": "ARM, AArch32 and AArch64 (with and without LSE), PowerPC, Alpha, SPARC V9 and x86, all operations of the integral interface. The _partial theorems exclude compare-and-exchange to 0 (ARM), assume the corrected constraint (narrow AArch32 and AArch64, 8 bytes on x86 with ebx preserved), assume extended operands (narrow PowerPC, 4 bytes on Alpha), or allow any value to be reported by a failing compare-and-exchange (16 bytes on AArch64), see C48. Microsoft's compilers on ARM, 32- and 64-bit x86 and the Windows back end (4 bytes; 1 and 2 bytes of older compilers go through the extending loops of C02)."},
 {"property": "C50", "status": "partial", "theorems": ["Verif.Mca.C50_happens_before_partial", "Verif.Mca.C50_happens_before", "Verif.Mca.C50_happens_before_x86", "Verif.Mca.C50_happens_before_aarch64", "Verif.Mca.C50_publication_violated", "Verif.Mca.C50_consume_fence_violated", "Verif.Pow.C50_happens_before_cumulative_partial", "Verif.Pow.C50_happens_before_cumulative", "Verif.Pow.C50_machine_is_weaker", "Verif.Mca.C50_exact_operation", "Verif.Mca.C50_exact_exchange", "Verif.Mca.C50_exact_consume_fence", "Verif.Mca.C50_happens_before_windows"], "note": "Proved without exception for MSVC on x86 and ARM, gcc assembly on PowerPC, ARM and Alpha (PowerPC, ARM and Alpha also without multi-copy atomicity), __sync, __atomic and Windows on x86; false for SPARC RMO acquire loads, AArch64 failing CAS(release, acquire), AArch32 8-byte acquire loads, failing CAS of the kernel helper back end, consume fences on x86 (_violated). C50_exact_operation and C50_exact_exchange: every operation and exchange that is left out, for every back end, kind and order, has a program in which nothing else is left out with an execution that violates the guarantee. C50_happens_before_windows: on Windows for weakly ordered processors, whose fences are in C22's list, no program is left out, because the operations beside a fence are full barriers; happens-before is there that of the standard, with atomic operations beside fences."},
 {"property": "C51", "status": "partial", "theorems": ["Verif.Mca.C51_seq_cst_total_order_partial", "Verif.Mca.C51_seq_cst_total_order", "Verif.Mca.C51_store_buffering", "Verif.Mca.C51_gcc_sync_exchange_violated", "Verif.Mca.C51_gcc_sync_wide_store_violated", "Verif.Mca.C51_linux_arm_cas_violated", "Verif.Pow.C51_seq_cst_total_order_cumulative_partial", "Verif.Pow.C51_seq_cst_total_order_cumulative", "Verif.Pow.C51_independent_reads"], "note": "Proved for all operations of all back ends but exchange/test_and_set and stores of wide objects of __sync (false) and failing CAS of the kernel helper back end (false); for PowerPC, ARM and Alpha also without multi-copy atomicity."},
 {"property": "C52", "status": "partial", "theorems": ["Verif.Mca.C52_seq_cst_mixed_partial", "Verif.Mca.C52_seq_cst_mixed", "Verif.Mca.C52_fence_store_buffering", "Verif.Mca.C52_literal_rule_violated", "Verif.Pow.C52_seq_cst_mixed_cumulative_partial", "Verif.Pow.C52_seq_cst_mixed_cumulative", "Verif.Pow.C52_fence_independent_reads"], "note": "Proved for all back ends but for operations and fences that C19 and C22 show to be too weak; for PowerPC, ARM and Alpha also without multi-copy atomicity and with the rule about coherence as printed in C++20. On one shared memory that rule is proved for single steps of coherence order: the transitive form fails on x86 (_violated), as for every compiler whose seq_cst load is a plain load."},
 {"property": "C53", "status": "partial", "theorems": ["Verif.Target.C53_selected_iff", "Verif.Target.C53_every_call_has_code", "Verif.Target.C53_code_of_call", "Verif.Target.C53_happens_before_partial", "Verif.Target.C53_happens_before_cumulative_partial", "Verif.Target.C53_seq_cst_objects_partial", "Verif.Target.C53_seq_cst_objects_cumulative_partial", "Verif.Target.C53_seq_cst_mixed_partial", "Verif.Target.C53_seq_cst_mixed_cumulative_partial", "Verif.Target.C53_no_exceptions", "Verif.Target.C53_intrinsics", "Verif.Target.C53_arm_power_alpha", "Verif.Target.C53_publication_violated", "Verif.Target.C53_exact", "Verif.Target.C53_exact_consume_fence", "Verif.Target.C53_happens_before_windows"], "note": "Proved for all targets and programs except for the calls in the tables Target.Weak and Target.WeakSeqCst (Target/Spec.lean), which list, by target and call, the findings of C19, C22 and C51; C53_no_exceptions names the targets on which no call is in the tables, C53_publication_violated shows that the exception of AArch64 is real with compilers that have intrinsics. Objects that use the lock pool have no code in this model (C27, C44). C53_exact: every operation in Target.Weak, on every target on which its object does not use the lock pool, is the cause of a violation in a program without other calls of the table; the same for consume fences on x86. For the fences of the Windows back end outside of x86 no violation is claimed. The exception for fences on Windows for other processors than x86 is lifted by C53_happens_before_windows."},
 {"property": "C54", "status": "partial", "theorems": ["Verif.Locked.C54_sections_synchronize_partial", "Verif.Locked.C54_one_order_partial", "Verif.Locked.C54_one_order", "Verif.Locked.C54_sections_synchronize_cumulative_partial", "Verif.Locked.C54_one_order_cumulative_partial", "Verif.Locked.C54_one_order_cumulative", "Verif.Locked.C54_sparc_violated"], "note": "proved for the futex mutex of the lock pool, whose word is itself an object of the library. Without exception for the back ends listed in C54_one_order and for PowerPC, ARM and Alpha (C54_one_order_cumulative). In the _partial theorems programs are excluded that contain an operation or fence which its back end makes too weak (C19, C22). False on SPARC (C54_sparc_violated: two increments, one lost), where the barrier of memory_order_acquire orders the wrong accesses. The mutexes of POSIX and Windows are not code of the library; the theorems apply to them as far as they are lock words that are taken with acquire and returned with release."},
 {"property": "C55", "status": "partial", "theorems": ["Verif.Whole.C55_interleaving_partial", "Verif.Whole.C55_interleaving_cumulative_partial", "Verif.Whole.C55_interleaving", "Verif.Whole.C55_interleaving_cumulative", "Verif.Whole.C55_reads", "Verif.Whole.C55_writes"], "note": "without exception for Microsoft's compilers, GCC-compatible compilers on ARM before version 8, POWER and Alpha, and x86 with intrinsics (C55_interleaving, C55_interleaving_cumulative). In the _partial theorems, for all targets, calls in the tables Target.Weak and Target.WeakSeqCst are excluded (findings of C19 and C22), and SPARC if the mutexes use inline assembly (false there: C54_sparc_violated). Objects that are not lock-free have any number of words. Both kinds of lock pool: the mutexes of the library (futex), and those of the system by their contract (Whole.SystemCode: a lock word taken with acquire and returned with release). Operations of lock-free objects that are also used with weaker orders are not part of the sequence (for those: C50, C52)."},
 {"property": "C56", "status": "partial", "theorems": ["Verif.Notify.C56_notify_all_partial", "Verif.Notify.C56_notify_one_partial", "Verif.Notify.C56_notify_all", "Verif.Notify.C56_notify_all_cumulative_partial", "Verif.Notify.C56_notify_one_cumulative_partial", "Verif.Notify.C56_notify_all_cumulative", "Verif.Notify.C56_sparc_violated"], "note": "Without exception for the back ends listed in C56_notify_all and, where writes become visible to one thread after another, for PowerPC, ARM and Alpha with inline assembly. In the _partial theorems programs are excluded that contain an operation or fence which its back end makes too weak (C19, C22). On SPARC the claim is false (C56_sparc_violated). The waiters of an object are one variable guarded by the mutex; that the lists and queues implement it is C25, C27, C28. Timed waits of lock-free objects compare before they take the mutex (finding F1), so nothing is claimed for them."},
 {"property": "C57", "status": "partial", "theorems": ["Verif.Sleep.C57_woken_partial", "Verif.Sleep.C57_few_partial", "Verif.Sleep.C57_woken", "Verif.Sleep.C57_woken_cumulative_partial", "Verif.Sleep.C57_few_cumulative_partial"], "note": "Without exception for the back ends listed in C57_woken. In the _partial theorems programs are excluded that contain an operation or fence which its back end makes too weak (C19, C22). That the counter makes no full turn is assumed because the claim is false otherwise (C24). The kernel's queues are variables guarded by a lock; the model of the calls is part of the trusted base. Only the futex implementation of the lock pool."},
 {"property": "C58", "status": "partial", "theorems": ["Verif.Sleep.C58_notify_all_partial", "Verif.Sleep.C58_condition_partial", "Verif.Sleep.C58_notify_one_partial", "Verif.Sleep.C58_notify_all", "Verif.Sleep.C58_notify_all_cumulative_partial", "Verif.Sleep.C58_notify_one_cumulative_partial"], "note": "Without exception for the back ends listed in C58_notify_all. Exceptions of the _partial theorems and model of the kernel as in C57. The entry of an object in the list of wait states is one variable guarded by the mutex; that the list implements it is C25. Timed waits of lock-free objects are not covered (finding F1)."},
 {"property": "C59", "status": "partial", "theorems": ["Verif.Await.C59_synchronizes_partial", "Verif.Await.C59_sees_partial", "Verif.Await.C59_sees", "Verif.Await.C59_synchronizes_cumulative_partial", "Verif.Await.C59_sees_cumulative_partial", "Verif.Await.C59_sees_cumulative", "Verif.Await.C59_sees_target_partial", "Verif.Await.C59_pool_partial", "Verif.Await.C59_pool_cumulative_partial", "Verif.Await.C59_violated"], "note": "Without exception for the back ends listed in C59_sees and for PowerPC, ARM and Alpha with inline assembly. C59_violated: on SPARC, and for objects of 8 bytes on ARMv8 in 32-bit mode, the data is not seen. The _partial theorems exclude operations and fences which the back end makes too weak (findings of C19 and C22). What else a call does (system calls, mutexes) is any sequence of operations, without effect on the order of accesses."},
 {"property": "C60", "status": "partial", "theorems": ["Verif.Idiom.C60_deleted_partial", "Verif.Idiom.C60_deleted", "Verif.Idiom.C60_deleted_cumulative_partial", "Verif.Idiom.C60_deleted_cumulative", "Verif.Idiom.C60_deleted_target_partial"], "note": "Proved without exception for the back ends listed in the theorem without suffix and for PowerPC, ARM and Alpha; the _partial theorems exclude programs with operations that a back end makes too weak (C19, C22)."},
 {"property": "C61", "status": "partial", "theorems": ["Verif.Idiom.C61_spinlock_partial", "Verif.Idiom.C61_spinlock", "Verif.Idiom.C61_spinlock_cumulative_partial", "Verif.Idiom.C61_spinlock_cumulative", "Verif.Idiom.C61_spinlock_target_partial", "Verif.Idiom.C61_violated"], "note": "Proved without exception for the back ends listed in the theorem without suffix and for PowerPC, ARM and Alpha; the _partial theorems exclude programs with operations that a back end makes too weak (C19, C22). C61_violated: on SPARC an acquire exchange is too weak, and data written in one section is missed in the next one."},
 {"property": "C62", "status": "partial", "theorems": ["Verif.Idiom.C62_transfers_partial", "Verif.Idiom.C62_transfers", "Verif.Idiom.C62_transfers_cumulative_partial", "Verif.Idiom.C62_transfers_cumulative", "Verif.Idiom.C62_transfers_target_partial", "Verif.Idiom.C62_refuses_partial", "Verif.Idiom.C62_refuses", "Verif.Idiom.C62_refuses_cumulative_partial", "Verif.Idiom.C62_refuses_cumulative", "Verif.Idiom.C62_refuses_target_partial", "Verif.Idiom.C62_violated"], "note": "Proved without exception for the back ends listed in the theorem without suffix and for PowerPC, ARM and Alpha; the _partial theorems exclude programs with operations that a back end makes too weak (C19, C22). 'Before the call' is happens-before: what a thread cannot know of does not count. C62_violated: on SPARC an acquire load is too weak, and pop reads what was in the array before."},
 {"property": "C63", "status": "partial", "theorems": ["Verif.Idiom.C63_delivers_partial", "Verif.Idiom.C63_delivers", "Verif.Idiom.C63_delivers_cumulative_partial", "Verif.Idiom.C63_delivers_cumulative", "Verif.Idiom.C63_delivers_target_partial"], "note": "Proved without exception for the back ends listed in the theorem without suffix and for PowerPC, ARM and Alpha; the _partial theorems exclude programs with operations that a back end makes too weak (C19, C22). The memory of a node is not used again; consume is treated as acquire, as every back end does. No violation is shown on SPARC: the accesses of nodes depend on the address found, and machines of this kind respect such dependencies, which the model leaves out."},
 {"property": "C64", "status": "partial", "theorems": ["Verif.Idiom.C64_instance_partial", "Verif.Idiom.C64_instance", "Verif.Idiom.C64_instance_cumulative_partial", "Verif.Idiom.C64_instance_cumulative", "Verif.Idiom.C64_instance_target_partial", "Verif.Idiom.C64_spinlock_partial", "Verif.Idiom.C64_spinlock", "Verif.Idiom.C64_spinlock_cumulative_partial", "Verif.Idiom.C64_spinlock_cumulative"], "note": "Proved without exception for the back ends listed in the theorem without suffix and for PowerPC, ARM and Alpha; the _partial theorems exclude programs with operations that a back end makes too weak (C19, C22). In C64_instance the mutex is a hypothesis (sections are ordered); in C64_spinlock it is the documented spinlock, and nothing is assumed. No violation is shown on SPARC (accesses of the object depend on the address found)."},
 {"property": "C65", "status": "partial", "theorems": ["Verif.Kind.C65_members_partial", "Verif.Kind.C65_common", "Verif.Kind.C65_volatile_violated"], "note": "Proved for all value types with and without top-level qualifiers except for qualified bool and qualified pointers to objects; for these only the common operations are proved and the rest is false: atomic_ref<volatile bool> has arithmetic, atomic_ref<U* volatile> has none."},
 {"property": "C66", "status": "partial", "theorems": ["Verif.Kind.C66_lock_free", "Verif.Kind.C66_exists", "Verif.Kind.C66_native_partial", "Verif.Kind.C66_native_compilers_partial", "Verif.Kind.C66_native_violated", "Verif.Kind.C66_prefers_32"], "note": "Native waiting is proved but for compilers with __sync operations of 16 and not of 8 bytes, where it is false (integers kept in 16 bytes on Windows)."},
 {"property": "C67", "status": "partial", "theorems": ["Verif.Kind.C67_int_size", "Verif.Kind.C67_llong_size", "Verif.Kind.C67_wchar_size", "Verif.Kind.C67_pointer_size", "Verif.Kind.C67_int_macro", "Verif.Kind.C67_llong_macro", "Verif.Kind.C67_wchar_macro", "Verif.Kind.C67_pointer_macro_partial", "Verif.Kind.C67_pointer_macro_violated"], "note": "Proved for all types but pointers of 2 bytes, for which the macro is 0 though they may be always lock-free. 'Lock-free' is what the operations do; for the constant is_always_lock_free see C39."},
 {"property": "C68", "status": "partial", "theorems": ["Verif.Init.C68_value", "Verif.Init.C68_default_partial", "Verif.Init.C68_first_load_partial", "Verif.Init.C68_default_violated", "Verif.Init.C68_integer", "Verif.Init.C68_integer_emulated_partial", "Verif.Init.C68_enumeration", "Verif.Init.C68_pointer", "Verif.Init.C68_bool"], "note": "Construction from a value is proved for all types whose padding the library can clear (as C12). Construction without argument is proved where null pointers are zero bytes and is false otherwise: pointers to data members, and structures containing them, under the Itanium ABI. Integers in wider storage: the operations of C07. Exceptions of default constructors are not modelled."},
 {"property": "C69", "status": "partial", "theorems": ["Verif.View.C69_integer", "Verif.View.C69_enumeration", "Verif.View.C69_pointer", "Verif.View.C69_object", "Verif.View.C69_unsigned_wide_partial", "Verif.View.C69_signed_wide_partial", "Verif.View.C69_signed_wide_violated", "Verif.View.C69_big_endian_violated", "Verif.View.C69_bool_partial", "Verif.View.C69_bool_violated", "Verif.View.value_bytes", "Verif.View.assign_bytes"], "note": "Proved for storage of the size of the type, and for structures and floating point in storage of any size. Integers and bool in wider storage: proved on little-endian machines for unsigned types and for looking; false for writing signed values (C69_signed_wide_violated) and on big-endian machines (C69_big_endian_violated, C69_bool_violated). value_bytes and assign_bytes tie the model of the reference to bytes in memory."},
 {"property": "C70", "status": "proved", "theorems": ["Verif.Pool.C70_initialised", "Verif.Pool.C70_count", "Verif.Pool.C70_accepted", "Verif.Pool.C70_separate_lines", "Verif.Pool.C70_line_pos", "Verif.Pool.C70_cleanup"], "note": "The preprocessor's inclusion of the .ipp files is modelled as tokens, with its limit of 256 inclusions; `IsList` is the grammar of initialiser lists. Cache lines: the array is aligned as declared (trusted)."},
 {"property": "C71", "status": "partial", "theorems": ["Verif.Signal.C71_happens_before_partial", "Verif.Signal.C71_signal_fences", "Verif.Signal.C71_happens_before", "Verif.Signal.C71_happens_before_x86", "Verif.Signal.C71_violated"], "note": "Proved without exception for signal fences with relaxed operations, for all back ends but three, and on x86 for programs without consume fences; the three exceptions are real (F59) and shown by executions."},
 {"property": "C72", "status": "proved", "theorems": ["Verif.Signal.C72_lock_free", "Verif.Signal.C72_lock_free_kernel", "Verif.Signal.C72_locks_never_return"], "note": "Spurious failures are defined in the statement. The second half, about locks, is C72_locks_never_return."},
 {"property": "C73", "status": "partial", "theorems": ["Verif.Call.C73_wait_notify", "Verif.Call.C73_wait_for_partial", "Verif.Call.C73_wait_until_partial", "Verif.Call.C73_which_clocks", "Verif.Call.C73_requeue", "Verif.Call.C73_result", "Verif.Call.C73_freebsd", "Verif.Call.C73_remaining_time", "Verif.Call.C73_violated", "Verif.Call.C73_violated_big_endian", "Verif.Call.C73_num_untimed", "Verif.Call.C73_num_timed", "Verif.Call.C73_num_value"], "note": "Untimed requests for all targets; time limits for all targets except 32-bit Linux with 64-bit time_t, where the kernel reads another structure than the library writes (finding F60, C73_violated: the nanoseconds of every deadline are lost). C73_num_*: Windows, Darwin and DragonFly, whose limits are numbers."}
]}
