{"id": "C01", "title": "Read-modify-write operations built on compare-and-swap loops are linearizable", "statement": "When an operation of atomic<T> (store, load, exchange, fetch_add/sub/and/or/xor, fetch_negate, fetch_complement, negate, complement, add, sub, opaque_*, *_and_test, bit_test_and_*) is implemented by repeating compare_exchange_weak from a snapshot, every concurrent history of such calls on one object is linearizable: there is one sequential order of the calls, consistent with real time, in which each call takes effect once and returns exactly what the sequential operation returns.", "quantifier": "every number of concurrent calls, every interleaving of their individual memory steps, every pattern of spurious compare_exchange_weak failures, and every value (even a torn one) returned by the initial non-atomic snapshot", "why_tests_cant": "tests sample a handful of schedules; atomicity is a statement about all interleavings and all spurious-failure patterns", "anchors": ["include/boost/atomic/detail/core_ops_cas_based.hpp: core_operations_cas_based", "include/boost/atomic/detail/cas_based_exchange.hpp: cas_based_exchange", "include/boost/atomic/detail/extending_cas_based_arithmetic.hpp", "include/boost/atomic/detail/extra_ops_generic.hpp: extra_operations_generic", "include/boost/atomic/detail/core_arch_ops_gcc_x86.hpp: BOOST_ATOMIC_DETAIL_CAS_LOOP"]}
{"id": "C02", "title": "Read-modify-write operations built on load-linked/store-conditional are linearizable", "statement": "On PowerPC, ARM, AArch64 and Alpha, each operation is a load-linked / compute / store-conditional retry loop (compare_exchange_weak: a single attempt). Every concurrent history of such calls on one object is linearizable with respect to the sequential operation.", "quantifier": "every number of calls, every interleaving, every pattern of spurious store-conditional failures (including failures forever for some calls)", "why_tests_cant": "reservation loss is timing- and hardware-dependent; no test run can enumerate it", "anchors": ["include/boost/atomic/detail/core_arch_ops_gcc_ppc.hpp: core_arch_operations<4u>", "include/boost/atomic/detail/core_arch_ops_gcc_aarch64.hpp", "include/boost/atomic/detail/core_arch_ops_gcc_arm.hpp", "include/boost/atomic/detail/core_arch_ops_gcc_alpha.hpp", "include/boost/atomic/detail/extra_ops_gcc_ppc.hpp", "include/boost/atomic/detail/extra_ops_gcc_aarch64.hpp"]}
{"id": "C03", "title": "Lock-based atomics are linearizable across all objects sharing the lock pool", "statement": "For types that are not lock-free, every concurrent history of operations on any collection of objects is linearizable, although different objects may hash to the same internal lock: each call appears to act atomically on its own object and no call changes any other object.", "quantifier": "every set of addresses, every hash collision pattern, every pool size, every number of threads and every interleaving of lock, read, write and unlock steps", "why_tests_cant": "the property ranges over address layouts and schedules; a data race here shows up only under specific timing", "anchors": ["include/boost/atomic/detail/core_operations_emulated.hpp: core_operations_emulated_base", "include/boost/atomic/detail/extra_ops_emulated.hpp: extra_operations_emulated", "include/boost/atomic/detail/lock_pool.hpp: scoped_lock", "src/lock_pool.cpp: short_lock"]}
{"id": "C04", "title": "compare_exchange_strong never fails spuriously", "statement": "compare_exchange_strong(expected, desired) returns true exactly when the object holds the value of expected at the call's linearization point, in which case desired is stored; otherwise it stores nothing, returns false and sets expected to the value held at that point (which therefore differs from the original expected). This holds on every back end, including those whose underlying primitive can fail spuriously.", "quantifier": "all values of expected and desired, all interleavings, all spurious failures of the underlying primitive", "why_tests_cant": "spurious failures of the hardware primitive cannot be provoked on demand and depend on schedule", "anchors": ["include/boost/atomic/detail/core_arch_ops_gcc_ppc.hpp: compare_exchange_strong", "include/boost/atomic/detail/core_ops_linux_arm.hpp: compare_exchange_strong", "include/boost/atomic/detail/core_operations_emulated.hpp: compare_exchange_strong", "include/boost/atomic/detail/core_ops_gcc_sync.hpp: compare_exchange_strong", "include/boost/atomic/detail/core_arch_ops_gcc_alpha.hpp: compare_exchange_strong"]}
{"id": "C05", "title": "compare_exchange_weak is exact apart from permitted spurious failure", "statement": "compare_exchange_weak returns true only if the object held expected's value at the linearization point and desired was stored there; when it returns false nothing was stored, and expected was overwritten with a value the object really held at some instant during the call.", "quantifier": "all values, all interleavings, all spurious failures", "why_tests_cant": "the failure paths depend on timing; a test can only see the outcomes the machine happens to produce", "anchors": ["include/boost/atomic/detail/core_arch_ops_gcc_ppc.hpp: compare_exchange_weak", "include/boost/atomic/detail/core_arch_ops_gcc_aarch64.hpp: compare_exchange_weak", "include/boost/atomic/detail/core_ops_linux_arm.hpp: compare_exchange_weak", "include/boost/atomic/detail/core_operations_emulated.hpp: compare_exchange_weak"]}
{"id": "C06", "title": "Integer arithmetic wraps modulo 2^N at the value type's width on every storage width", "statement": "For an N-bit integral T stored in a wider machine word, after any sequence of atomic operations load() returns the result of the same sequence of operations on N-bit two's complement integers with silent wraparound, and every fetch_* / non-fetch operation returns the N-bit result of the sequential operation.", "quantifier": "every N up to the storage width, both signednesses, every sequence of operations and operands", "why_tests_cant": "the operand/width/history space is unbounded; tests check a few constants", "anchors": ["include/boost/atomic/detail/integral_conversions.hpp: integral_extend", "include/boost/atomic/detail/extending_cas_based_arithmetic.hpp: fetch_add", "include/boost/atomic/detail/extra_ops_generic.hpp: fetch_negate", "include/boost/atomic/detail/core_arch_ops_gcc_ppc.hpp: rlwinm/extsb variants", "include/boost/atomic/detail/core_arch_ops_gcc_alpha.hpp: zapnot/sextb variants", "include/boost/atomic/detail/core_arch_ops_gcc_arm.hpp: uxtb/sxtb variants"]}
{"id": "C07", "title": "The stored representation is always the canonical extension of the value", "statement": "For an N-bit integral T in a wider storage word, after every operation the storage word is exactly the zero-extension (unsigned T) or sign-extension (signed T) of the current value; consequently compare_exchange with a value equal to the current value always finds the representations equal, and waiting operations compare values and not stale padding.", "quantifier": "every N, both signednesses, every sequence of store/exchange/CAS/arithmetic/bitwise/negate/complement/bit_test operations", "why_tests_cant": "a single operation that leaves a non-canonical word makes a later compare_exchange fail; only an invariant over all histories rules that out", "anchors": ["include/boost/atomic/detail/integral_conversions.hpp", "include/boost/atomic/detail/extending_cas_based_arithmetic.hpp", "include/boost/atomic/detail/extra_ops_generic.hpp: bitwise_complement, bit_test_and_set", "include/boost/atomic/detail/core_arch_ops_gcc_ppc.hpp", "include/boost/atomic/detail/core_arch_ops_gcc_alpha.hpp"]}
{"id": "C08", "title": "*_and_test operations report whether the new value is non-zero", "statement": "add_and_test, sub_and_test, negate_and_test, and_and_test, or_and_test, xor_and_test, complement_and_test return true exactly when the value of the object after the operation is non-zero, and they modify the object exactly as the corresponding fetch_* operation does.", "quantifier": "every width, signedness, stored value and operand", "why_tests_cant": "the wrap-to-zero corner cases are spread over the whole operand domain and storage widths", "anchors": ["include/boost/atomic/detail/extra_ops_generic.hpp: add_and_test, negate_and_test", "include/boost/atomic/detail/extra_ops_emulated.hpp: add_and_test", "include/boost/atomic/detail/extra_ops_gcc_x86.hpp: add_and_test", "include/boost/atomic/detail/extra_ops_gcc_ppc.hpp: extra_operations_gcc_ppc_common"]}
{"id": "C09", "title": "bit_test_and_set/reset/complement return the old bit and touch only that bit", "statement": "bit_test_and_set(k), bit_test_and_reset(k), bit_test_and_complement(k) return the previous value of bit k and set, clear or flip exactly bit k of the value, for every k below the value's width; every other bit of the value is unchanged.", "quantifier": "every width, every bit index below the width, every stored value, including the sign bit of signed emulated types", "why_tests_cant": "all (value, bit) pairs at all widths cannot be enumerated", "anchors": ["include/boost/atomic/detail/extra_ops_generic.hpp: bit_test_and_set", "include/boost/atomic/detail/extra_ops_emulated.hpp: bit_test_and_reset", "include/boost/atomic/detail/extra_ops_gcc_x86.hpp: bit_test_and_complement"]}
{"id": "C10", "title": "fetch_op, op and opaque_op have the same effect and complementary results", "statement": "For every arithmetic/bitwise operation: fetch_op returns the old value, op returns the new value, opaque_op returns nothing, and the three leave the object in the same state; fetch_sub(v) equals fetch_add(-v), fetch_and via bit-clear of ~v equals and with v, negate equals complement plus one.", "quantifier": "all values, operands, widths", "why_tests_cant": "algebraic identities over the full domain", "anchors": ["include/boost/atomic/detail/extra_ops_generic.hpp", "include/boost/atomic/detail/core_arch_ops_gcc_x86.hpp: fetch_sub", "include/boost/atomic/detail/core_arch_ops_gcc_aarch64.hpp: fetch_and (ldclr)", "include/boost/atomic/detail/extra_ops_gcc_aarch64.hpp: negate 16u"]}
{"id": "C11", "title": "Double-width arithmetic assembled from register halves equals full-width arithmetic", "statement": "On AArch64 (16-byte) and ARM/AArch32 (8-byte) fetch_add, fetch_sub, negate and the bitwise operations computed on two half-width registers with carry (adds/adc, subs/sbc, mvn+adds+adc) produce exactly the full-width wrapped result, for either endianness.", "quantifier": "every half width, all operand values, both endiannesses", "why_tests_cant": "carry/borrow propagation depends on all operand bits", "anchors": ["include/boost/atomic/detail/core_arch_ops_gcc_aarch64.hpp: core_arch_operations<16u>", "include/boost/atomic/detail/extra_ops_gcc_aarch64.hpp: extra_operations_gcc_aarch64<16u>", "include/boost/atomic/detail/core_arch_ops_gcc_arm.hpp: core_arch_operations<8u>", "include/boost/atomic/detail/extra_ops_gcc_arm.hpp: 8u", "include/boost/atomic/detail/ops_gcc_aarch64_common.hpp: ASM_ARG_LO/HI"]}
{"id": "C12", "title": "Loads implemented by compare-and-swap never change the object", "statement": "Where load() is implemented with a compare-exchange or a store-conditional of the value just read (cmpxchg8b/16b, __sync_val_compare_and_swap(0,0), ldxp/stxp), the load returns the current value and leaves the object unchanged, whatever it contains.", "quantifier": "all stored values and all initial register contents, all interleavings", "why_tests_cant": "the dangerous inputs are specific bit patterns coinciding with the dummy comparand", "anchors": ["include/boost/atomic/detail/core_arch_ops_gcc_x86.hpp: load (cmpxchg8b, cmpxchg16b)", "include/boost/atomic/detail/core_ops_gcc_sync.hpp: load", "include/boost/atomic/detail/core_arch_ops_gcc_aarch64.hpp: core_arch_operations<16u>::load"]}
{"id": "C13", "title": "Pointer arithmetic moves by whole elements", "statement": "atomic<T*>::fetch_add(n)/fetch_sub(n)/+=/-=/++/-- change the pointer by n*sizeof(T) bytes (modulo the address width), return the old (fetch_*, postfix) or new (+=, prefix) pointer, and add_and_test/sub_and_test report whether the new pointer is non-null.", "quantifier": "every element size, offset, pointer value and address width", "why_tests_cant": "all offsets including negative and wrapping ones", "anchors": ["include/boost/atomic/detail/atomic_impl.hpp: base_atomic<T*> fetch_add, operator++", "include/boost/atomic/detail/atomic_ref_impl.hpp: base_atomic_ref<T*>"]}
{"id": "C14", "title": "Values round-trip through the atomic storage; padding never influences comparison", "statement": "For every trivially copyable T, store(v) followed by load() yields the value bits of v; the storage bytes beyond sizeof(T) and the padding bits of T are always zero, so compare_exchange with an expected value equal in its value bits succeeds no matter what the padding bits of the argument contain.", "quantifier": "every size of T and of the storage, every padding mask, every content of value and padding bytes", "why_tests_cant": "padding contents are indeterminate at run time", "anchors": ["include/boost/atomic/detail/bitwise_cast.hpp: bitwise_cast, clear_tail_padding_bits", "include/boost/atomic/detail/bitwise_fp_cast.hpp", "include/boost/atomic/detail/atomic_impl.hpp: base_atomic<T, void>", "include/boost/atomic/detail/atomic_ref_impl.hpp: base_atomic_ref_common ctor"]}
{"id": "C15", "title": "Byte-buffer storage tests zero and equality over every byte", "statement": "For objects stored as a raw byte buffer, `!x` is true exactly when all bytes are zero and equality is equality of all bytes.", "quantifier": "every buffer size at least 1 and every content", "why_tests_cant": "the overlapping-memcmp trick must be right for all contents and lengths", "anchors": ["include/boost/atomic/detail/storage_traits.hpp: buffer_storage"]}
{"id": "C16", "title": "The chosen storage fits the value, and atomic_ref never touches bytes outside the object", "statement": "The storage selected for atomic<T> is at least sizeof(T) bytes (and a power of two up to 16); atomic_ref<T> uses a native operation only when its storage has exactly sizeof(T) bytes and otherwise the lock-based one of exactly sizeof(T) bytes, so an operation through atomic_ref never reads or writes bytes outside the referenced object.", "quantifier": "every sizeof(T) and every set of sizes supported natively", "why_tests_cant": "ranges over all sizes and platforms", "anchors": ["include/boost/atomic/detail/storage_traits.hpp: storage_size_of", "include/boost/atomic/detail/atomic_ref_impl.hpp: base_atomic_ref_common, is_atomic_ref_lock_free", "include/boost/atomic/detail/core_ops_gcc_atomic.hpp: core_operations size dispatch"]}
{"id": "C17", "title": "All operations on one object use one lock", "statement": "Every lock-based data operation, waiting operation and notifying operation on a given object selects the same lock of the pool, and the selected index is always inside the pool.", "quantifier": "every address, every alignment parameter, every pool size exponent, 32- and 64-bit pointers", "why_tests_cant": "a mismatch appears only for particular addresses", "anchors": ["include/boost/atomic/detail/lock_pool.hpp: hash_ptr, scoped_lock, scoped_wait_state", "src/lock_pool.cpp: get_lock_index", "include/boost/atomic/detail/wait_ops_emulated.hpp", "include/boost/atomic/detail/wait_ops_generic.hpp", "include/boost/atomic/detail/core_operations_emulated.hpp"]}
{"id": "C18", "title": "The implicit failure order of compare_exchange is valid and the order checks are sound", "statement": "compare_exchange called with a single order uses a failure order that is never release or acq_rel, satisfies the documented not-stronger check, keeps the acquire/seq_cst strength of the success order, and the assertion accepts every pair the language allows with failure weaker than success.", "quantifier": "all memory orders and pairs of memory orders", "why_tests_cant": "decision logic over the whole table; must agree with the standard's strength order", "anchors": ["include/boost/atomic/detail/memory_order_utils.hpp: deduce_failure_order, cas_failure_order_must_not_be_stronger_than_success_order", "include/boost/memory_order.hpp", "include/boost/atomic/detail/gcc_atomic_memory_order_utils.hpp"]}
{"id": "C19", "title": "Acquire and release requests emit sufficient ordering on every back end", "statement": "For every order argument: a load or successful/failed read-modify-write with acquire (or stronger) semantics is ordered before every later memory access of the thread, and a store or read-modify-write with release (or stronger) semantics is ordered after every earlier access of the thread, according to the architecture's ordering rules for the emitted instructions and barriers (including the compiler's reordering).", "quantifier": "every back end, operation, memory order (and success/failure order pair accepted by the assertion), and every surrounding program", "why_tests_cant": "reordering is rare, machine dependent and compiler dependent", "anchors": ["include/boost/atomic/detail/ops_gcc_ppc_common.hpp", "include/boost/atomic/detail/ops_gcc_arm_common.hpp", "include/boost/atomic/detail/core_arch_ops_gcc_sparc.hpp: fence_after", "include/boost/atomic/detail/core_arch_ops_gcc_aarch64.hpp", "include/boost/atomic/detail/core_arch_ops_gcc_aarch32.hpp: load 8u", "include/boost/atomic/detail/core_arch_ops_gcc_alpha.hpp", "include/boost/atomic/detail/core_ops_gcc_sync.hpp", "include/boost/atomic/detail/core_ops_linux_arm.hpp", "include/boost/atomic/detail/core_arch_ops_gcc_x86.hpp"]}
{"id": "C20", "title": "Sequentially consistent operations are totally ordered on x86", "statement": "On x86 (store buffers), a program in which all accesses to atomic objects are seq_cst operations has only sequentially consistent executions with respect to those objects.", "quantifier": "every number of threads, programs, store-buffer drain schedules", "why_tests_cant": "store-buffer reordering (Dekker) is a schedule-dependent effect", "anchors": ["include/boost/atomic/detail/core_arch_ops_gcc_x86.hpp: store, load, exchange", "include/boost/atomic/detail/fence_arch_ops_gcc_x86.hpp"]}
{"id": "C21", "title": "Release/acquire publication works on x86", "statement": "If a thread writes ordinary data and then performs a release store of a flag value, any thread whose acquire load returns that value sees, for each location, that data or something newer in every later load.", "quantifier": "every program, every number of threads and locations, every store-buffer drain schedule", "why_tests_cant": "visibility of buffered stores is schedule dependent", "anchors": ["include/boost/atomic/detail/core_arch_ops_gcc_x86.hpp: store, load, fence_before, fence_after"]}
{"id": "C22", "title": "Fences have at least the requested strength", "statement": "atomic_thread_fence(o) orders the accesses required by o (acquire/consume: earlier loads before later accesses; release: earlier accesses before later stores; seq_cst: everything including store-load) on every back end; atomic_signal_fence(o) prevents the corresponding compiler reordering.", "quantifier": "every memory order, back end, and surrounding program", "why_tests_cant": "same as for memory ordering: reorderings are not reproducible", "anchors": ["include/boost/atomic/detail/fence_arch_ops_gcc_x86.hpp", "include/boost/atomic/detail/fence_arch_ops_gcc_ppc.hpp", "include/boost/atomic/detail/fence_arch_ops_gcc_sparc.hpp", "include/boost/atomic/detail/fence_arch_ops_gcc_aarch64.hpp", "include/boost/atomic/detail/fence_arch_ops_gcc_arm.hpp", "include/boost/atomic/detail/fence_arch_ops_gcc_alpha.hpp", "include/boost/atomic/detail/fence_ops_gcc_sync.hpp"]}
{"id": "C23", "title": "The internal lock provides mutual exclusion", "statement": "At most one thread at a time is between acquiring and releasing a given pool lock, whatever the mix of short, long, contended acquisitions, condition waits and notifications.", "quantifier": "any number of threads, all interleavings of individual atomic steps and kernel calls, spurious wake-ups, counter wrap-around", "why_tests_cant": "mutual exclusion bugs appear only in specific interleavings", "anchors": ["src/lock_pool.cpp: lock_state (futex) short_lock, long_lock, lock_slow_path, unlock"]}
{"id": "C24", "title": "No wake-up of a blocked locker is lost", "statement": "A thread blocked in the kernel waiting for a pool lock is never left sleeping while the lock is free and nobody is going to wake it: whenever some thread sleeps on the lock, either the lock is held with the contended mark (so its release will wake a sleeper) or another thread is already committed to waking or taking the lock.", "quantifier": "any number of threads, all interleavings, spurious wake-ups and failed weak CAS", "why_tests_cant": "lost wake-ups need a precise interleaving around the sleep", "anchors": ["src/lock_pool.cpp: lock_slow_path, unlock, wait_state::wait, notify_one, notify_all"]}
{"id": "C25", "title": "notify_one and notify_all reach blocked waiters (futex lock pool)", "statement": "With the lock-pool implementation, a thread that has begun to block in a waiting operation and has not been notified yet is guaranteed to be made runnable by notify_all on the same object; notify_one makes at least one such thread runnable if there is one.", "quantifier": "any number of waiters, notifiers and objects, all interleavings", "why_tests_cant": "depends on interleavings between registering, unlocking and sleeping", "anchors": ["src/lock_pool.cpp: wait_state::wait, wait_state::notify_one, wait_state::notify_all, wait, notify_one, notify_all"]}
{"id": "C26", "title": "wait returns only a value different from the one waited on; timed waits report timeout consistently", "statement": "wait(old) returns a value that differs from old and was held by the object when read. wait_until/wait_for return timeout == false only with a value different from old, and timeout == true only with a value equal to old and only when the deadline had passed according to the clock used.", "quantifier": "every clock behaviour, every sequence of wake-ups, spurious wake-ups, error codes and concurrent stores", "why_tests_cant": "depends on all possible orderings of wake-ups, stores and clock readings", "anchors": ["include/boost/atomic/detail/wait_ops_generic.hpp", "include/boost/atomic/detail/wait_ops_emulated.hpp", "include/boost/atomic/detail/wait_ops_futex.hpp", "include/boost/atomic/detail/wait_ops_windows.hpp", "include/boost/atomic/detail/wait_ops_darwin_ulock.hpp", "include/boost/atomic/detail/wait_ops_dragonfly_umtx.hpp", "include/boost/atomic/detail/wait_ops_freebsd_umtx.hpp", "include/boost/atomic/wait_result.hpp"]}
{"id": "C27", "title": "A store followed by a notification is never missed by a waiter", "statement": "If a thread stores a value different from old and then calls notify_all (or notify_one, with a single waiter), a concurrent wait/wait_until/wait_for(old) on the same object does not stay blocked: either it observes the new value before blocking or the notification unblocks it.", "quantifier": "all interleavings of the waiter's steps with the store and notification", "why_tests_cant": "the window between the value check and the blocking is a few instructions wide", "anchors": ["include/boost/atomic/detail/wait_ops_generic.hpp: wait, wait_until_fallback, wait_until_abs_timeout, notify_one", "include/boost/atomic/detail/wait_ops_emulated.hpp", "include/boost/atomic/detail/wait_ops_futex.hpp", "src/lock_pool.cpp: wait, notify_all"]}
{"id": "C28", "title": "Notifications and wait states of different objects do not mix", "statement": "The registry that maps an object's address to its waiters behaves as a finite map with reference counts: a waiter always waits on the state registered for its own address, a notification signals exactly the waiters of that address, the entry lives as long as it has waiters and disappears when the last one leaves, no matter how objects come and go, how the array grows, or which entry is removed.", "quantifier": "every sequence of register/unregister/notify calls on any addresses, any collision pattern, memory-allocation failures at any point", "why_tests_cant": "an unbounded set of histories with swap-removal, growth and buffer reuse", "anchors": ["src/lock_pool.cpp: wait_state_list, find_or_create, erase, allocate_buffer, free_spare, allocate_wait_state, free_wait_state"]}
{"id": "C29", "title": "Vectorised address search agrees with the plain linear search", "statement": "Whatever instruction set the address search was dispatched to, looking up an object's address in the waiter table gives the same answer: the index of an entry holding that address, or not-found. The function that is called exists in the build and uses only instructions the processor has, also when several threads make their first call at the same time.", "quantifier": "all table sizes and contents (including spare entries), all addresses, 32- and 64-bit; all builds the configuration tests can produce, all answers of cpuid, all interleavings of calls", "why_tests_cant": "block boundaries, lane shuffles and mask/shift arithmetic must be right for all sizes and positions", "anchors": ["src/find_address_sse2.cpp", "src/find_address_sse41.cpp", "src/lock_pool.cpp: find_address_generic, find_address_dispatch", "src/bit_operation_tools.hpp: count_trailing_zeros", "src/cpuid.hpp: cpuid", "src/lock_pool.cpp: g_find_address, find_address"]}
{"id": "C30", "title": "Timed waits do not time out early because of duration conversion", "statement": "A timeout given in any duration unit is converted to the internal unit by rounding up, absolute deadlines are converted to a normalised seconds/nanoseconds pair denoting the same instant, and over-long timeouts are saturated; so a timed wait never reports a timeout before the requested time.", "quantifier": "every duration, unit ratio, clock value representable without overflow", "why_tests_cant": "rounding and overflow corner cases over 64-bit ranges", "anchors": ["include/boost/atomic/detail/chrono.hpp: ceil, posix_clock_traits::to_timespec", "include/boost/atomic/detail/wait_ops_futex.hpp: wait_for, wait_until_fallback", "src/lock_pool.cpp: wait_state::wait_for, wait_until"]}
{"id": "C31", "title": "Very long timeouts do not overflow", "statement": "wait_for accepts every non-negative timeout representable in its duration type; the deadline computation never overflows.", "quantifier": "every non-negative 64-bit nanosecond count and every current clock value", "why_tests_cant": "only extreme inputs overflow", "anchors": ["include/boost/atomic/detail/wait_ops_futex.hpp: wait_for", "include/boost/atomic/detail/wait_ops_generic.hpp: wait_for", "src/lock_pool.cpp: wait_state::wait_for"]}
{"id": "C32", "title": "Every object size is served by a sufficiently large native operation or by the lock pool", "statement": "For every combination of natively lock-free sizes reported by the compiler, each object size 1, 2, 4, 8, 16 is bound to exactly one implementation, whose storage is at least as large as the object, and native sizes are used when available.", "quantifier": "every combination of lock-free capabilities, every size", "why_tests_cant": "each platform exercises only one combination", "anchors": ["include/boost/atomic/detail/core_ops_gcc_atomic.hpp: core_operations size dispatch", "include/boost/atomic/detail/core_ops_gcc_sync.hpp: core_operations", "include/boost/atomic/detail/core_operations.hpp"]}
{"id": "C33", "title": "Floating-point operations are atomic and compare by representation", "statement": "fetch_add/fetch_sub/negate/... on atomic floating-point objects are linearizable with respect to the sequential floating-point function for any rounding mode or NaN behaviour, compare_exchange compares object representations (so a loop holding a NaN terminates and -0.0 differs from +0.0), and negation of IEEE values flips exactly the sign bit.", "quantifier": "every floating-point function (treated as arbitrary), all bit patterns, all interleavings", "why_tests_cant": "NaN payloads, signed zeros and interleavings cannot be enumerated", "anchors": ["include/boost/atomic/detail/fp_ops_generic.hpp", "include/boost/atomic/detail/fp_ops_emulated.hpp", "include/boost/atomic/detail/extra_fp_ops_generic.hpp", "include/boost/atomic/detail/extra_fp_ops_emulated.hpp"]}
{"id": "C34", "title": "atomic_flag is an exact test-and-set flag", "statement": "test_and_set returns the previous state and leaves the flag set, clear leaves it clear, test reads it; among concurrent test_and_set calls on a clear flag exactly one returns false between two clears.", "quantifier": "every number of threads and every interleaving", "why_tests_cant": "mutual exclusion of winners is a schedule property", "anchors": ["include/boost/atomic/detail/atomic_flag_impl.hpp", "include/boost/atomic/detail/core_ops_cas_based.hpp: test_and_set, clear"]}
{"id": "C35", "title": "CAS-based operations are lock-free and run alone they finish", "statement": "Whenever a compare-and-swap retry of one operation fails for a non-spurious reason, some other operation on the object has taken effect since that operation read its snapshot; an operation running without interference and without spurious failures finishes in a bounded number of steps.", "quantifier": "all interleavings, all states", "why_tests_cant": "progress is a statement about unbounded executions", "anchors": ["include/boost/atomic/detail/core_ops_cas_based.hpp", "include/boost/atomic/detail/cas_based_exchange.hpp", "include/boost/atomic/detail/extra_ops_generic.hpp"]}
{"id": "C36", "title": "Lock-based operations cannot deadlock", "statement": "Every lock-based operation holds at most one pool lock at a time and never blocks while holding it (waiting releases the lock first), so from every reachable state some pending operation can complete.", "quantifier": "any number of threads, objects, collision patterns and interleavings", "why_tests_cant": "deadlock freedom quantifies over all reachable states", "anchors": ["include/boost/atomic/detail/lock_pool.hpp: scoped_lock, scoped_wait_state", "include/boost/atomic/detail/core_operations_emulated.hpp", "src/lock_pool.cpp: wait"]}
{"id": "C37", "title": "Interprocess waits without native support poll correctly", "statement": "For IPC atomics without native wait support, wait returns only when the value differs, a timed wait reports timeout only if the deadline passed and the value still equals old, and an already-changed value is returned without needing any notification.", "quantifier": "every sequence of values read, every clock behaviour, every spin count", "why_tests_cant": "quantifies over all polling schedules", "anchors": ["include/boost/atomic/detail/wait_ops_generic.hpp: wait_operations_generic<Base, true>"]}
{"id": "C38", "title": "Lock-pool cleanup is registered at most once and the pool stays usable", "statement": "However many threads cause the first wait-state allocation concurrently, the process-exit cleanup is registered at most once, and memory of wait states is never released while a waiter uses it.", "quantifier": "any number of threads, all interleavings", "why_tests_cant": "a race at first use", "anchors": ["src/lock_pool.cpp: allocate_buffer, cleanup_lock_pool, free_spare", "include/boost/atomic/detail/once_flag.hpp"]}
{"id": "C39", "title": "Lock-freedom constants agree with each other and with the implementation", "statement": "For every native size, is_always_lock_free is true exactly when the corresponding BOOST_ATOMIC_*_LOCK_FREE macro is 2, and when it is true no operation on an object of that size takes a lock; if a size is always lock-free so are all smaller native sizes.", "quantifier": "every combination of architecture features and compiler lock-freedom macros, every size", "why_tests_cant": "each platform exercises one combination, and a locking implementation behaves like a lock-free one in a test", "anchors": ["include/boost/atomic/detail/caps_gcc_atomic.hpp", "include/boost/atomic/detail/capabilities.hpp", "include/boost/atomic/detail/core_ops_gcc_atomic.hpp: core_operations_gcc_atomic::is_always_lock_free", "include/boost/atomic/detail/caps_gcc_sync.hpp"]}
{"id": "C40", "title": "Waiting on atomic_flag compares states", "statement": "atomic_flag::wait(old), wait_until and wait_for return without timeout only when the flag's state differed from old at some time during the call, and return that state; the wait blocks (does not return spuriously) as long as the flag keeps the state old.", "quantifier": "every schedule of concurrent test_and_set and clear calls, every clock, every waiting implementation, byte order and representation of a set flag", "why_tests_cant": "Depends on byte order and on which byte of the word the compiler's test_and_set intrinsic writes; tests on little-endian machines cannot show it, and wake-up schedules are unbounded.", "anchors": ["include/boost/atomic/detail/atomic_flag_impl.hpp: wait, wait_until, wait_for", "include/boost/atomic/detail/core_ops_gcc_atomic.hpp: test_and_set, clear"]}
{"id": "C41", "title": "Atomic enumerations behave as the bits of their underlying type", "statement": "load, store, exchange, compare_exchange_*, the bitwise operations, bit_test_and_* and the compound operators of an atomic enumeration act indivisibly on the bits of its underlying type and return the value or flag they are documented to, whatever the signedness of that type.", "quantifier": "every enumeration width and signedness, storage width, byte order, back end, argument and schedule", "why_tests_cant": "wider storage and big-endian targets are rare on test machines, and all values and schedules must be covered", "anchors": ["include/boost/atomic/detail/atomic_impl.hpp: base_atomic<T, const int>", "include/boost/atomic/detail/atomic_ref_impl.hpp: base_atomic_ref<T, const int>", "include/boost/atomic/detail/bitwise_cast.hpp: bitwise_cast"]}
{"id": "C42", "title": "Overloaded operators are the named operations", "statement": "Assignment stores the value and yields it, the conversion loads, prefix ++/-- and the compound assignments perform one indivisible update and yield the new value, and postfix ++/-- one indivisible update and yield the old value.", "quantifier": "every integer width and signedness, storage width, back end, value and schedule", "why_tests_cant": "a compound operator implemented as load and store, or reading back after the update, agrees with the specification in every single-threaded test", "anchors": ["include/boost/atomic/atomic.hpp: operator=, operator value_type", "include/boost/atomic/detail/atomic_impl.hpp: base_atomic<T, int> operator++, operator+="]}
{"id": "C43", "title": "atomic<bool> holds and returns proper booleans", "statement": "load, store, exchange and compare_exchange_* of atomic<bool> act indivisibly as on a boolean; the value left in the expected argument is a valid bool, and a strong compare-exchange succeeds exactly when the object's value equals the expected one.", "quantifier": "every storage width, back end, argument, schedule and both ways of passing the expected argument", "why_tests_cant": "depends on every path keeping the stored word 0 or 1, for all histories", "anchors": ["include/boost/atomic/detail/atomic_impl.hpp: base_atomic<bool, int>", "include/boost/atomic/detail/atomic_ref_impl.hpp: base_atomic_ref<bool, int>"]}
{"id": "C44", "title": "Lock-based operations synchronise under the C++ memory model", "statement": "If one thread completes an operation on an object that uses a lock (or is inside such an operation) and another thread later performs an operation using the same lock, everything the first thread did before happens before what the second does after: it sees the same or newer values of all variables, and accesses to the data protected by the lock never race and always find the latest value, even though threads may read stale values of the lock word itself.", "quantifier": "any number of threads, locks, objects and operations, every execution of the C++ memory model (stale reads, arbitrary modification order, release sequences, fences), spurious compare-exchange failures and spurious kernel wake-ups", "why_tests_cant": "weak-memory executions cannot be enumerated or provoked; most hardware is stronger than the model the code must be correct for", "anchors": ["src/lock_pool.cpp: lock_state::long_lock, lock_state::lock_slow_path, lock_state::unlock, wait_state::notify_one, wait_state::notify_all", "include/boost/atomic/detail/lock_pool.hpp: scoped_lock, scoped_wait_state", "include/boost/atomic/detail/core_operations_emulated.hpp"]}
{"id": "C45", "title": "Counters, tickets, reference counts, hand-over and consensus work", "statement": "Concurrent additions to an atomic integer are never lost: a load after all of them returns the initial value plus their sum modulo 2^N. fetch_add(1) gives every caller a different ticket, in real-time order and without gaps. When as many references are dropped with fetch_sub(1) or sub_and_test(1) as were counted, exactly one caller learns that it dropped the last one. exchange hands every value to exactly one caller. bit_test_and_set lets exactly one caller claim a bit. compare_exchange_strong from the initial value has exactly one winner, and every other caller is told the winner's value.", "quantifier": "any number of threads and calls, any interleaving, any width, every back end including the lock pool shared with other objects", "why_tests_cant": "a lost update or a duplicate ticket needs one particular interleaving among unboundedly many", "anchors": ["include/boost/atomic/detail/atomic_impl.hpp: base_atomic::fetch_add, fetch_sub, exchange, compare_exchange_strong, bit_test_and_set, sub_and_test", "include/boost/atomic/detail/core_operations_emulated.hpp", "include/boost/atomic/detail/core_arch_ops_gcc_x86.hpp", "include/boost/atomic/detail/extra_ops_generic.hpp"]}
{"id": "C46", "title": "Waiting and notifying through the lock pool on system mutexes and condition variables", "statement": "Where waiting is built on system mutexes and condition variables (POSIX threads without futex, Windows), for all objects together: every system object used is alive and used correctly (a condition variable is never destroyed while a thread is blocked on it or about to return from it, is used with one mutex only, and a lock is released only by its owner); threads blocked on different objects never share a condition variable, threads blocked on the same object always do; notify_all wakes every thread blocked on the object when it is called, notify_one at least one, and neither wakes a thread waiting on another object; when the value has changed and a notification that began after the change has returned, no thread stays blocked waiting for the old value to go away; a thread gives up a lock after a bounded number of its own steps and there is no deadlock, even when memory is exhausted.", "quantifier": "any number of threads, objects, locks and lock collisions, any interleaving of waits, timed waits, notifications, stores and the exit-time cleanup, any pattern of allocation failures, timeouts and spurious wake-ups", "why_tests_cant": "the failing schedules need a store and a notification to fall between two specific steps of a waiter; the number of schedules is unbounded", "anchors": ["src/lock_pool.cpp: wait_state::wait, wait_until, wait_for, notify_one, notify_all, lock_state::long_lock, unlock, allocate_wait_state, free_wait_state, lock_pool::wait, cleanup_lock_pool", "include/boost/atomic/detail/lock_pool.hpp: scoped_wait_state", "include/boost/atomic/detail/wait_ops_emulated.hpp", "include/boost/atomic/detail/wait_ops_generic.hpp"]}
{"id": "C47", "title": "The selected waiting and notifying operations fit together and are reported correctly", "statement": "On every supported operating system and for every object: a blocked waiting operation is in the very queue that the notifying operations of the object address, notify_all releases all blocked threads and notify_one exactly one of them, and the system compares exactly the object's storage before it blocks. For interprocess objects this holds between processes that map the memory at different addresses, or the waiting operation polls; interprocess objects that are not lock-free are rejected at compile time. has_native_wait_notify() is true exactly if the operating system does the blocking, and the BOOST_ATOMIC_HAS_NATIVE_*_WAIT_NOTIFY macros (2 always, 0 not available) agree with it. With BOOST_ATOMIC_FORCE_FALLBACK no object uses a blocking primitive of the system.", "quantifier": "every operating system and version switch, every storage size, lock-free or not, interprocess or not, every process and address mapping, any number of waiting threads below 2^31, every target platform and type size for the macros", "why_tests_cant": "tests run on one system with one compiler configuration and within one process; a mismatch of private and shared wait queues shows up only as a lost wake-up", "anchors": ["include/boost/atomic/detail/platform.hpp: BOOST_ATOMIC_DETAIL_WAIT_BACKEND", "include/boost/atomic/detail/wait_operations_fwd.hpp: wait_operations", "include/boost/atomic/detail/wait_ops_windows.hpp", "include/boost/atomic/detail/wait_ops_futex.hpp: futex_private_flag", "include/boost/atomic/detail/wait_ops_darwin_ulock.hpp: ulock_op", "include/boost/atomic/detail/wait_ops_freebsd_umtx.hpp: uint_umtx_ops, ulong_umtx_ops", "include/boost/atomic/detail/wait_ops_dragonfly_umtx.hpp", "include/boost/atomic/detail/wait_ops_generic.hpp", "include/boost/atomic/detail/wait_ops_emulated.hpp", "include/boost/atomic/detail/wait_capabilities.hpp", "include/boost/atomic/detail/wait_caps_*.hpp"]}
{"id": "C48", "title": "Inline assembly does what the operation prescribes", "statement": "Every inline assembly block that implements an operation performs it atomically and returns its result, whatever registers the compiler chooses for the operands within the declared constraints, whatever they contained before, whatever other processors store to the object meanwhile and however often store-conditional instructions fail: it accesses no other memory, executes no unpredictable instruction, stores at most once and then exactly what the operation prescribes for the value the object had at that moment, returns a result that is right for a single moment during the call, changes no register it does not declare as changed, and comes to an end if it is left alone. A function that calls an interlocked function of the compiler or the operating system calls the one for the type and the operation, with the right arguments, and one that guarantees the memory order demanded.", "quantifier": "all functions with inline assembly, argument values, register assignments permitted by the constraints, initial register and flag contents, interleavings with stores by others, store-conditional failures; for interlocked functions all compilers and versions, types and memory orders", "why_tests_cant": "a test sees the registers one compiler chose for one caller, and interference at the few moments it happens to occur", "anchors": ["include/boost/atomic/detail/core_arch_ops_gcc_arm.hpp: core_arch_operations", "include/boost/atomic/detail/core_arch_ops_gcc_aarch32.hpp: core_arch_operations", "include/boost/atomic/detail/core_arch_ops_gcc_aarch64.hpp: core_arch_operations", "include/boost/atomic/detail/core_arch_ops_gcc_ppc.hpp: core_arch_operations", "include/boost/atomic/detail/core_arch_ops_gcc_alpha.hpp: core_arch_operations", "include/boost/atomic/detail/core_arch_ops_gcc_sparc.hpp: core_arch_operations", "include/boost/atomic/detail/core_arch_ops_gcc_x86.hpp: core_arch_operations", "include/boost/atomic/detail/extra_ops_gcc_arm.hpp", "include/boost/atomic/detail/extra_ops_gcc_aarch32.hpp", "include/boost/atomic/detail/extra_ops_gcc_aarch64.hpp", "include/boost/atomic/detail/extra_ops_gcc_ppc.hpp", "include/boost/atomic/detail/extra_ops_gcc_x86.hpp", "include/boost/atomic/detail/core_arch_ops_gcc_x86.hpp: gcc_dcas_x86, gcc_dcas_x86_64", "include/boost/atomic/detail/core_arch_ops_msvc_x86.hpp: core_arch_operations, msvc_dcas_x86", "include/boost/atomic/detail/extra_ops_msvc_x86.hpp: extra_operations", "include/boost/atomic/detail/core_arch_ops_msvc_arm.hpp: core_arch_operations", "include/boost/atomic/detail/extra_ops_msvc_arm.hpp: extra_operations", "include/boost/atomic/detail/core_ops_windows.hpp: core_operations", "include/boost/atomic/detail/interlocked.hpp"]}
{"id": "C49", "title": "Atomic objects are linearizable down to single machine instructions", "statement": "If any number of processors concurrently execute the machine code of any operations of an atomic integer on one object, instruction by instruction in any interleaving, all results and all values of the object are those of some sequential order of the operations that respects their order in time.", "quantifier": "all histories: any number of calls and processors, all interleavings of instructions, all register assignments, all initial values and addresses, all compilers and versions on Windows", "why_tests_cant": "the number of interleavings of instructions is unbounded, and a test cannot choose them", "anchors": ["include/boost/atomic/detail/core_arch_ops_gcc_arm.hpp: core_arch_operations", "include/boost/atomic/detail/core_arch_ops_gcc_aarch32.hpp: core_arch_operations", "include/boost/atomic/detail/core_arch_ops_gcc_aarch64.hpp: core_arch_operations", "include/boost/atomic/detail/core_arch_ops_gcc_ppc.hpp: core_arch_operations", "include/boost/atomic/detail/extra_ops_gcc_ppc.hpp: extra_operations_gcc_ppc_common", "include/boost/atomic/detail/core_arch_ops_gcc_alpha.hpp: core_arch_operations", "include/boost/atomic/detail/core_arch_ops_gcc_sparc.hpp: core_arch_operations", "include/boost/atomic/detail/core_ops_cas_based.hpp: core_operations_cas_based", "include/boost/atomic/detail/extra_ops_gcc_aarch64.hpp: extra_operations_gcc_aarch64", "include/boost/atomic/detail/extra_ops_gcc_arm.hpp: extra_operations", "include/boost/atomic/detail/extra_ops_gcc_aarch32.hpp: extra_operations", "include/boost/atomic/detail/extra_ops_generic.hpp: extra_operations_generic", "include/boost/atomic/detail/core_arch_ops_gcc_x86.hpp: gcc_dcas_x86, gcc_dcas_x86_64, core_arch_operations", "include/boost/atomic/detail/extra_ops_gcc_x86.hpp: extra_operations", "include/boost/atomic/detail/core_arch_ops_msvc_x86.hpp: core_arch_operations, msvc_dcas_x86", "include/boost/atomic/detail/extra_ops_msvc_x86.hpp: extra_operations", "include/boost/atomic/detail/core_arch_ops_msvc_arm.hpp: core_arch_operations", "include/boost/atomic/detail/extra_ops_msvc_arm.hpp: extra_operations", "include/boost/atomic/detail/core_ops_windows.hpp: core_operations", "include/boost/atomic/detail/interlocked.hpp"]}
{"id": "C50", "title": "Threads that synchronise through atomic objects see each other's writes in every program", "statement": "In every execution of every program, all writes of an object are in one order on which all threads agree, and a read-modify-write reads the last write before its own. If one access happens before another \u2013 through the order of a thread, a release operation or fence, any chain of read-modify-writes that continues it, and an acquire operation or fence that reads from it, over any number of threads \u2013 then the later access sees the earlier one: a read never finds a value older than a write that happens before it, two reads or writes of one object are never seen in the opposite order, and nothing happens before itself.", "quantifier": "all programs of any number of threads made of atomic operations and fences with all accepted orders and accesses to other variables; objects of different sizes and fences may come from different back ends for the same processor; all reorderings that the compiler and the processor of each back end allow, all schedules", "why_tests_cant": "which reorderings a processor makes depends on its model and on timing; a test on one machine shows a few of the allowed executions of a few programs", "anchors": ["include/boost/atomic/detail/core_arch_ops_gcc_arm.hpp: core_arch_operations_gcc_arm_base", "include/boost/atomic/detail/core_arch_ops_gcc_aarch64.hpp: core_arch_operations", "include/boost/atomic/detail/core_arch_ops_gcc_aarch32.hpp: core_arch_operations", "include/boost/atomic/detail/core_arch_ops_gcc_x86.hpp: core_arch_operations_gcc_x86_base", "include/boost/atomic/detail/core_arch_ops_gcc_alpha.hpp", "include/boost/atomic/detail/core_arch_ops_gcc_sparc.hpp", "include/boost/atomic/detail/core_ops_gcc_sync.hpp", "include/boost/atomic/detail/core_ops_gcc_atomic.hpp", "include/boost/atomic/detail/core_ops_linux_arm.hpp", "include/boost/atomic/detail/core_ops_windows.hpp", "include/boost/atomic/detail/core_arch_ops_msvc_x86.hpp", "include/boost/atomic/detail/core_arch_ops_msvc_arm.hpp", "include/boost/atomic/detail/fence_operations.hpp", "include/boost/atomic/fences.hpp: atomic_thread_fence", "include/boost/atomic/detail/ops_gcc_ppc_common.hpp: fence_before, fence_after"]}
{"id": "C51", "title": "Objects used with seq_cst only behave sequentially consistently", "statement": "In every execution of every program, if all operations on some atomic objects use memory_order_seq_cst, these operations can be put into one order which contains the order of each thread, such that every operation finds the value left by the last modification of the object before it; for example, two threads that each store into one object and then load the other one never both load the initial value; and two threads never find two independent modifications in opposite orders.", "quantifier": "all programs of any number of threads, all sets of objects, all uses of other objects and variables; objects of different sizes and fences may come from different back ends for the same processor; all reorderings the compiler and the processor of each back end allow, all schedules", "why_tests_cant": "the property is about a global order of all operations in all allowed executions; tests observe few executions and cannot force the reorderings", "anchors": ["include/boost/atomic/detail/core_arch_ops_gcc_arm.hpp: core_arch_operations_gcc_arm_base", "include/boost/atomic/detail/core_arch_ops_gcc_aarch64.hpp: core_arch_operations", "include/boost/atomic/detail/core_arch_ops_gcc_x86.hpp: core_arch_operations_gcc_x86_base", "include/boost/atomic/detail/core_ops_gcc_sync.hpp: exchange, load, store", "include/boost/atomic/detail/core_ops_linux_arm.hpp: compare_exchange_strong", "include/boost/atomic/detail/core_ops_windows.hpp: load, store", "include/boost/atomic/atomic.hpp: atomic", "include/boost/atomic/detail/core_arch_ops_gcc_ppc.hpp: core_arch_operations"]}
{"id": "C52", "title": "seq_cst operations and fences are in one order also in programs that mix orders", "statement": "In every execution of every program, all operations with memory_order_seq_cst and all fences with memory_order_seq_cst can be put into one order, whatever other operations of weaker orders the program has, such that: it contains the order of each thread, and strongly-happens-before; an operation that reads from the release sequence of another comes after it; what is coherence-ordered after an operation, or after something a fence happens before, comes after that operation or fence, if it belongs to a seq_cst operation or happens before a fence. For example, of two threads that each store into one object, execute a seq_cst fence and load the other object, all with any orders, at most one misses the store of the other.", "quantifier": "all programs of any number of threads made of atomic operations and fences with all accepted orders and accesses to other variables; objects of different sizes and fences may come from different back ends for the same processor; all reorderings the compiler and the processor of each back end allow, all schedules", "why_tests_cant": "the order ranges over all seq_cst operations and fences of an execution of unbounded length; no test can observe or force it", "anchors": ["include/boost/atomic/fences.hpp: atomic_thread_fence", "include/boost/atomic/detail/fence_operations.hpp", "include/boost/atomic/detail/core_arch_ops_gcc_arm.hpp: core_arch_operations_gcc_arm_base", "include/boost/atomic/detail/core_arch_ops_gcc_ppc.hpp: core_arch_operations", "include/boost/atomic/detail/core_arch_ops_gcc_x86.hpp: core_arch_operations_gcc_x86_base", "include/boost/atomic/detail/fence_arch_ops_gcc_x86.hpp: thread_fence", "include/boost/atomic/detail/fence_arch_ops_gcc_ppc.hpp: thread_fence", "include/boost/atomic/detail/fence_arch_ops_gcc_arm.hpp: thread_fence"]}
{"id": "C53", "title": "Programs keep their memory order whatever the library selects for the target", "statement": "For every target of compilation and every program written with the API - atomic objects and references of any sizes, flags, fences and the program's own variables - each call on a lock-free object becomes code for the target's processor, on the same object and with the orders of the call, and the program as a whole, in which objects of different sizes may be served by intrinsics of the compiler, inline assembly or system functions, has the order the C++ standard promises: happens-before means visibility, objects used with seq_cst only are sequentially consistent, and all seq_cst operations and fences are in one order. This holds without exception for Microsoft's compilers, for GCC-compatible compilers on ARM before version 8, POWER and Alpha, for x86 with intrinsics, and wherever the compiler has lock-free intrinsics for the objects used.", "quantifier": "all targets (compiler, architecture and its extensions, lock-free macros of the intrinsics), all assignments of sizes and of atomic or atomic_ref to objects, all programs of any number of threads, all orders the API accepts, all reorderings the compiler and the processor allow, all schedules", "why_tests_cant": "a test runs on one target with one compiler; the combinations of back ends, sizes and orders in one program are unbounded, and the reorderings that would reveal a weak combination are rare or absent on the machine at hand", "anchors": ["include/boost/atomic/detail/platform.hpp", "include/boost/atomic/detail/core_operations.hpp: core_operations", "include/boost/atomic/detail/core_arch_operations.hpp: core_arch_operations", "include/boost/atomic/detail/core_ops_gcc_atomic.hpp: core_operations_gcc_atomic", "include/boost/atomic/detail/extra_operations.hpp", "include/boost/atomic/detail/fence_operations.hpp", "include/boost/atomic/detail/fence_arch_operations.hpp", "include/boost/atomic/detail/atomic_impl.hpp: base_atomic", "include/boost/atomic/detail/atomic_ref_impl.hpp: base_atomic_ref", "include/boost/atomic/detail/atomic_flag_impl.hpp: atomic_flag_impl"]}
{"id": "C54", "title": "Objects that are not lock-free and objects that are work together in one order", "statement": "Operations on one atomic object that is not lock-free exclude each other and hand over all effects: of any two operations that use the same internal mutex, everything the one does happens before everything the other does, whatever memory orders were passed. If a program uses its lock-free objects with memory_order_seq_cst, the operations on them and all operations on objects that are not lock-free, with any order arguments, take effect in one order that contains the order of each thread: each finds in its object what the last one before it left there.", "quantifier": "all programs of any number of threads, objects and mutexes, all operations on storage guarded by the internal mutexes, any number of failed attempts, waits and wake-ups while taking and returning a mutex, all reorderings that compiler and processor allow, on processors with one shared memory and on those where writes become visible to one thread after another, all schedules", "why_tests_cant": "a lost update needs an access of one critical section to be performed outside of it, which depends on reorderings a test cannot force, and the one order ranges over all operations of an execution of unbounded length", "anchors": ["src/lock_pool.cpp: mutex::lock, mutex::unlock, lock_slow_path", "include/boost/atomic/detail/core_operations_emulated.hpp: core_operations_emulated", "include/boost/atomic/detail/lock_pool.hpp: scoped_lock", "include/boost/atomic/detail/core_arch_ops_gcc_sparc.hpp: fence_after"]}
{"id": "C55", "title": "A program without data races behaves as if its operations were executed one at a time", "statement": "If a program has no data race and uses each of its lock-free atomic objects either with memory_order_seq_cst only or merely for synchronisation, then what its threads get to know - the results of all operations on the seq_cst objects and on the objects that are not lock-free (with any order arguments), and the values they read from ordinary variables - is what they would get if all these operations were executed one at a time, in the order of each thread, on a memory with one value for each variable: loads return the current value, stores replace it, exchange returns the old value, compare_exchange succeeds exactly if the value is the expected one (the weak form may fail spuriously), and fetch operations apply their function to the current value.", "quantifier": "all targets of compilation, all programs of any number of threads and calls, all assignments of sizes to objects, any choice of which objects are lock-free on the target, any number of machine words for objects that are not, all orders the API accepts, all schedules, all reorderings that compiler and processor allow, on processors with one shared memory and on those where writes become visible to one thread after another", "why_tests_cant": "the claim is about the results of all operations of an execution together, for all programs and all reorderings; a test observes some results of one program on one machine", "anchors": ["include/boost/atomic/detail/core_operations_emulated.hpp: core_operations_emulated", "include/boost/atomic/detail/extra_ops_emulated.hpp: extra_operations_emulated", "include/boost/atomic/detail/lock_pool.hpp: scoped_lock", "src/lock_pool.cpp: mutex::lock, mutex::unlock", "include/boost/atomic/detail/core_operations.hpp: core_operations", "include/boost/atomic/detail/core_arch_operations.hpp: core_arch_operations", "include/boost/atomic/detail/core_ops_gcc_atomic.hpp: core_operations_gcc_atomic"]}
{"id": "C56", "title": "A store followed by a notification is not missed on processors that reorder accesses", "statement": "If a thread modifies an atomic object, with any memory order, and then calls notify_all on it, and the object does not get the value old again, then no thread is left blocked in wait(old), whatever order it passed: neither one that blocked before the notification nor one that compares later. The same if the modification was made by another thread and happens before the call. After notify_one a thread is left blocked only if the notification woke another thread that waited for the object.", "quantifier": "all programs of any number of threads, objects, waiters and notifications, lock-free objects and others, all orders of the modification and of the wait, all contention on the internal mutex, all reorderings that compiler and processor allow, on processors with one shared memory and on those where writes become visible to one thread after another, all schedules", "why_tests_cant": "a missed notification needs the load of the waiter or the store of the notifier to be reordered with the internal mutex at the right moment; a test cannot force this, and a blocked thread looks like one that is not scheduled", "anchors": ["include/boost/atomic/detail/wait_ops_generic.hpp: wait, notify_one, notify_all", "include/boost/atomic/detail/wait_ops_emulated.hpp: wait, notify_one, notify_all", "src/lock_pool.cpp: wait_state::wait, wait_state::notify_one, wait_state::notify_all", "include/boost/atomic/detail/lock_pool.hpp: scoped_wait_state", "include/boost/atomic/detail/core_arch_ops_gcc_sparc.hpp: fence_after"]}
{"id": "C57", "title": "No thread stays blocked inside the library for the internal mutex, on processors that reorder accesses", "statement": "A thread that any operation blocks because another thread is inside the library for the same object (or one that shares the internal mutex), or that a notification has moved to the queue of this mutex, is woken: when the mutex is given back some thread takes a thread from the queue, and so on until every thread that was added to the queue has been taken from it. This does not depend on the accesses to the word of the mutex being performed in the order of the program.", "quantifier": "all programs of any number of threads, critical sections, waiting threads and notifications, all contention, spurious wake-ups and timeouts, all reorderings that compiler and processor allow, on processors with one shared memory and on those where writes become visible to one thread after another, all schedules, as long as a mutex is taken less than 2^30 times (or its counter makes no full turn)", "why_tests_cant": "a lost wake-up of the mutex needs a thread to clear or miss the mark of contention between two accesses of another thread, in an order that processors allow rarely; the effect is a thread that never returns from a load or store", "anchors": ["src/lock_pool.cpp: lock_state::lock_slow_path, lock_state::unlock, wait_state::notify_one, wait_state::notify_all", "include/boost/atomic/detail/futex.hpp: futex_wait, futex_signal, futex_requeue"]}
{"id": "C58", "title": "A notification ends the blocking call in the kernel, on processors that reorder accesses", "statement": "If a thread modifies an atomic object, with any memory order, and then calls notify_all on it, and the object does not get the value old again, then no thread stays blocked in the kernel in wait(old): it is taken from the queue it blocks in, and if the notification moves it to the queue of the internal mutex it is taken from there too. After notify_one a thread is left in the queue only if the notification took another one from it.", "quantifier": "all programs of any number of threads, objects, waiters and notifications, all orders of the modification and of the wait, waits that end and begin again, all contention on the internal mutex, all reorderings that compiler and processor allow, on processors with one shared memory and on those where writes become visible to one thread after another, all schedules, as long as the counters make no full turn", "why_tests_cant": "the waiter releases the mutex before it calls the kernel; whether the counter it compares there is incremented in time depends on the schedule and on the order in which the processor performs the accesses", "anchors": ["src/lock_pool.cpp: wait_state::wait, wait_state::notify_one, wait_state::notify_all, lock_state::unlock", "include/boost/atomic/detail/futex.hpp: futex_wait, futex_requeue", "include/boost/atomic/detail/wait_ops_generic.hpp: wait, notify_one, notify_all"]}
{"id": "C59", "title": "A thread that has waited sees what was written before the modification that ended the wait", "statement": "If an atomic object has the value old until other threads, after writing data, give it other values by release operations (or after a release fence), and wait(old), wait_until or wait_for returns without a timeout in a thread that passes an acquire order (or executes an acquire fence afterwards), then a read after the call finds the data or something written later. More generally the value returned is that of a modification, and the call synchronises with the release sequence this modification belongs to. A timed wait reports a timeout exactly if it returns the old value. For objects that are not lock-free all this holds whatever the orders.", "quantifier": "all programs of any number of threads, all waiting functions, timed or not, with native support, on the lock pool and for objects shared by processes, all numbers of loads they make, all orders and values, all reorderings that compiler and processor allow, on processors with one shared memory and on those where writes become visible to one thread after another", "why_tests_cant": "on a machine with a strong memory order the data is always there; on others the load that ends the wait and the read after the call are reordered only in rare executions", "anchors": ["include/boost/atomic/detail/wait_ops_futex.hpp: wait, wait_until, wait_for", "include/boost/atomic/detail/wait_ops_generic.hpp: wait, wait_until, wait_for", "include/boost/atomic/detail/wait_ops_emulated.hpp: wait, wait_until, wait_for", "include/boost/atomic/detail/wait_operations.hpp: wait_operations", "include/boost/atomic/detail/core_arch_ops_gcc_sparc.hpp: fence_after"]}
{"id": "C60", "title": "A counter with relaxed increments and release decrements tells the last user of an object", "statement": "Threads count their references to an object by fetch_add(1, relaxed) and fetch_sub(1, release), and one that finds 1 executes an acquire fence before it deletes the object (the reference counter of the documentation; a new reference is made from an existing one, and passing one on synchronises). Then at most one thread finds 1; one does if all references are dropped; and when it has executed the fence, everything that any thread did before it dropped its reference happens before what follows, so that nobody uses the object any more.", "quantifier": "all programs of any number of threads that use the example, all lengths of their runs, all reorderings that compiler and processor allow, on processors with one shared memory and on those where writes become visible to one thread after another; any number of references", "why_tests_cant": "the data races and lost elements that a wrong order would cause appear in rare executions of processors that reorder accesses", "anchors": ["doc/examples.qbk: Reference counting", "include/boost/atomic/detail/atomic_impl.hpp: fetch_add, fetch_sub", "include/boost/atomic/fences.hpp: atomic_thread_fence"]}
{"id": "C61", "title": "A spinlock made of an acquire exchange and a release store excludes and synchronises", "statement": "A lock is taken by repeating exchange(Locked, acquire) until it does not return Locked (or by relaxed exchanges followed by an acquire fence), and released by store(Unlocked, release). Then of any two sections one has been left before the other one is entered, and everything its thread did up to then happens before everything the thread of the other section does in it.", "quantifier": "all programs of any number of threads that use the example, all lengths of their runs, all reorderings that compiler and processor allow, on processors with one shared memory and on those where writes become visible to one thread after another; any number of threads and sections", "why_tests_cant": "the data races and lost elements that a wrong order would cause appear in rare executions of processors that reorder accesses", "anchors": ["doc/examples.qbk: Spinlock", "include/boost/atomic/detail/atomic_impl.hpp: exchange, store", "include/boost/atomic/fences.hpp: atomic_thread_fence"]}
{"id": "C62", "title": "A ring buffer with release stores and acquire loads of two indices passes elements in order without races", "statement": "One thread puts elements into a ring buffer and another one takes them out, with the two indices as atomic objects: each loads its own index relaxed and the other one with acquire, accesses the element, and stores the new index with release. Then the j-th element taken out is the j-th one put in; it was written before it is read, and is read before its place is used again. A call that puts an element in fails only if, of the elements put in so far, no more than all but size - 1 were taken out before the call; a call that takes one out fails only if all that were put in before the call have been taken out.", "quantifier": "all programs of any number of threads that use the example, all lengths of their runs, all reorderings that compiler and processor allow, on processors with one shared memory and on those where writes become visible to one thread after another; any size of the buffer and any number of elements", "why_tests_cant": "the data races and lost elements that a wrong order would cause appear in rare executions of processors that reorder accesses", "anchors": ["doc/examples.qbk: Wait-free ring buffer", "include/boost/atomic/detail/atomic_impl.hpp: load, store"]}
{"id": "C63", "title": "A queue made of a release compare_exchange and a consume exchange delivers every object once, in order", "statement": "Any number of threads put nodes into a list by compare_exchange_weak(head, node, release), after they have stored the old head in the node; one thread takes the whole list by exchange(0, consume) and turns it round. Then a call takes out exactly the nodes that were put in since the previous call, and returns them in the order of the modifications of the head (in the opposite order without turning round); what a producer did before it put a node in happens before what the consumer does after it has taken it out.", "quantifier": "all programs of any number of threads that use the example, all lengths of their runs, all reorderings that compiler and processor allow, on processors with one shared memory and on those where writes become visible to one thread after another; any number of producers, nodes and calls", "why_tests_cant": "the data races and lost elements that a wrong order would cause appear in rare executions of processors that reorder accesses", "anchors": ["doc/examples.qbk: Lock-free multi-producer queue", "include/boost/atomic/detail/atomic_impl.hpp: compare_exchange_weak, exchange"]}
{"id": "C64", "title": "Double-checked locking with a consume load and a release store creates one object, which every caller sees complete", "statement": "A function loads a pointer with memory_order_consume; if it is null, it locks a mutex, loads the pointer again, and if it is still null creates the object and stores its address with release. Then one object is created, all calls return its address, and everything that was done before the address was stored happens before everything after any call that has returned.", "quantifier": "all programs of any number of threads that use the example, all lengths of their runs, all reorderings that compiler and processor allow, on processors with one shared memory and on those where writes become visible to one thread after another; any number of calls", "why_tests_cant": "the data races and lost elements that a wrong order would cause appear in rare executions of processors that reorder accesses", "anchors": ["doc/examples.qbk: Singleton with double-checked locking pattern", "include/boost/atomic/detail/atomic_impl.hpp: load, store"]}
{"id": "C65", "title": "A value type has exactly the operations the documentation lists for it", "statement": "For every value type, atomic<T> and atomic_ref<T> exist and have: the operations common to all atomic objects; addition and subtraction in all their forms for integers, pointers to objects and (unless support is disabled) floating point numbers; increment, decrement and tested sums for integers and pointers to objects; negation for integers and floating point numbers; bitwise operations for integers and enumerations; and no others: none of the additional ones for bool, classes, member pointers, pointers to void and to functions.", "quantifier": "all C++ value types, of any depth of indirection and any qualification of the types pointed to; with and without floating point support; const and volatile qualification of the type itself", "why_tests_cant": "there is no end of types, and a missing or superfluous member shows only if a program uses it with a type of that kind", "anchors": ["include/boost/atomic/detail/classify.hpp: classify, classify_pointer", "include/boost/atomic/detail/atomic_impl.hpp: base_atomic and its specializations", "include/boost/atomic/detail/atomic_ref_impl.hpp: base_atomic_ref and its specializations", "doc/atomic.qbk"]}
{"id": "C66", "title": "atomic_unsigned_lock_free and atomic_signed_lock_free name lock-free integers, with native waiting if there are any", "statement": "Where the aliases exist, the objects they name are always lock-free. They exist if any integer of 8 to 64 bits is always lock-free. If any of these integers is always lock-free and has native waiting and notifying operations, the one that is named has them. It is the 32-bit integer unless another one is better in this respect.", "quantifier": "all targets: architectures, compiler features, values of the lock-freedom macros, operating systems and the waiting facilities they have", "why_tests_cant": "a test runs on one target; the choice has to be right on all combinations of processor, compiler and operating system", "anchors": ["include/boost/atomic/atomic.hpp: atomic_unsigned_lock_free, atomic_signed_lock_free", "include/boost/atomic/capabilities.hpp", "include/boost/atomic/detail/wait_capabilities.hpp"]}
{"id": "C67", "title": "The macros for the named types agree with the objects: sizes of short, int, long, long long, wchar_t and pointers", "statement": "The size of a named type that the library works with is its size, whether the compiler gives it or it is deduced from the limits of the type. BOOST_ATOMIC_SHORT_LOCK_FREE, ..._INT_..., ..._LONG_..., ..._WCHAR_T_... and ..._POINTER_... are 2 exactly if the operations of atomic objects of the type never take a lock, and 0 exactly if they use the lock pool.", "quantifier": "all sizes of the types, all limits that belong to a size, compilers with and without size macros, all targets", "why_tests_cant": "a test sees the sizes of one target and one source of them", "anchors": ["include/boost/atomic/detail/int_sizes.hpp", "include/boost/atomic/capabilities.hpp: BOOST_ATOMIC_INT_LOCK_FREE, BOOST_ATOMIC_WCHAR_T_LOCK_FREE, BOOST_ATOMIC_POINTER_LOCK_FREE"]}
{"id": "C68", "title": "A new atomic object holds the value it is constructed with, and without an argument the value T()", "statement": "atomic<T> obj(v) behaves, from its first operation on and in every interleaving of later operations, as an object holding v; atomic<T> obj behaves as an object holding T() (value initialisation): 0 for arithmetic types, the null pointer for pointers and pointers to members, the result of the default constructor for classes that have one, and members initialised in the same way for other structures. In particular a first load returns that value and a first compare_exchange expecting it can succeed.", "quantifier": "every value type and layout with padding, every value, every result of a default constructor, storage as large as the type or larger, every later history of operations and schedule", "why_tests_cant": "The value is put in storage that may be larger than the type and contains padding; whether every later compare_exchange and read-modify-write sees the constructed value depends on all bytes for every layout. Tests check int-like types, where zero storage and T() coincide.", "anchors": ["include/boost/atomic/detail/atomic_impl.hpp: base_atomic_common(), base_atomic_generic, base_atomic", "include/boost/atomic/detail/aligned_variable.hpp", "include/boost/atomic/detail/bitwise_cast.hpp", "doc/atomic.qbk:620-630, 715-718"]}
{"id": "C69", "title": "External operations on value() and the operations of the library act on the same value", "statement": "For a lock-free object, the reference returned by value() refers to the bytes that hold its value: in any interleaving with operations of the library, an indivisible operation of someone else on that object (a futex looking at it, an instruction changing it) sees the value the object has, and what it writes is from then on the value of the object for every operation of the library.", "quantifier": "every value type, value, storage size and byte order, every external operation, every history and interleaving of library and external operations", "why_tests_cant": "The type may be kept in wider storage, and only combinations of byte order, storage width and signedness that are not on the test machines break the correspondence; external operations may occur between any two steps of a CAS or LL/SC loop.", "anchors": ["include/boost/atomic/detail/atomic_impl.hpp:98-101 value()", "include/boost/atomic/detail/atomic_ref_impl.hpp:99", "doc/atomic.qbk:722-726"]}
{"id": "C70", "title": "Every lock of the pool exists, starts unlocked and has cache lines of its own, for every configured pool size", "statement": "For every value of BOOST_ATOMIC_LOCK_POOL_SIZE_LOG2 that the library accepts, each lock of the pool has its own initialiser (the list is well formed, neither too short nor too long), so that each lock starts in the unlocked state also on systems whose unlocked state is not zero. The accepted sizes are exactly those up to 65536 locks. Different locks never share a cache line. At the end of the program each lock is taken and returned once to free its memory, and nothing outside of the pool is accessed.", "quantifier": "every configured pool size, every size of a lock and of a cache line, every state of the pool", "why_tests_cant": "a test is built with one pool size and one kind of lock; a missing initialiser goes unnoticed where the unlocked state is zero, and sharing of cache lines has no visible result", "anchors": ["src/lock_pool.cpp: g_lock_pool, padded_lock_state, cleanup_lock_pool, BOOST_ATOMIC_LOCK_POOL_SIZE_LOG2", "src/lock_pool_init1.ipp", "src/lock_pool_init256.ipp"]}
{"id": "C71", "title": "A thread and the signal handlers executed in it synchronise through operations and atomic_signal_fence", "statement": "If a thread writes ordinary data and then sets an atomic object, with release order or after an atomic_signal_fence with release order, and a signal handler executed in the same thread finds the object set, with acquire order or followed by an atomic_signal_fence with acquire order, the handler sees the data; and the same from the handler to the thread and between handlers. No instruction of the processor is needed for that, so relaxed operations with signal fences suffice. More generally the coherence rules of the standard hold with the happens-before relation of these operations and fences. Without any fence stale data can be seen.", "quantifier": "every program of a thread and any number of handlers, every back end, every order of accesses the compiler may produce, every point of interruption", "why_tests_cant": "the compiler decides whether accesses are moved, and a signal must arrive between two particular instructions to show it", "anchors": ["include/boost/atomic/fences.hpp: atomic_signal_fence", "include/boost/atomic/detail/fence_operations.hpp", "include/boost/atomic/detail/fence_ops_gcc_atomic.hpp", "include/boost/atomic/detail/fence_ops_gcc_sync.hpp", "include/boost/atomic/detail/fence_arch_ops_gcc_x86.hpp", "include/boost/atomic/detail/fence_arch_ops_gcc_arm.hpp", "doc/atomic.qbk: Fences"]}
{"id": "C72", "title": "Operations of lock-free objects can be called in signal handlers", "statement": "An operation on a lock-free object that is called in a signal handler returns, in a bounded number of steps unless compare-exchange instructions fail spuriously, whatever operation on the same object the handler interrupted and at whatever point, although the interrupted operation cannot go on. For objects that are implemented with locks this does not hold: an operation that needs the lock of an interrupted operation, even of another object, never returns.", "quantifier": "every operation, every state of the object, every point of the interrupted operations, every number of other threads", "why_tests_cant": "a signal must arrive at each instruction of each operation, and not returning is not observable in finite time", "anchors": ["include/boost/atomic/detail/core_ops_cas_based.hpp", "include/boost/atomic/detail/core_arch_ops_gcc_arm.hpp", "include/boost/atomic/detail/core_ops_linux_arm.hpp", "include/boost/atomic/detail/core_operations_emulated.hpp", "include/boost/atomic/detail/lock_pool.hpp: scoped_lock", "doc/atomic.qbk: is_lock_free"]}
{"id": "C73", "title": "Blocking and notification reach the kernel as they were meant", "statement": "A waiting operation with native support asks the kernel to block the thread at the address of the object if it holds the old value, with the time limit that the operation calls for: none, the remaining time, or the deadline on the clock of the user. A notification asks to wake one thread, or all, at the same address among the same set of processes, so that it finds the threads that wait; for objects for several processes that set includes the other processes. Errors reported by the kernel are recognised as such.", "quantifier": "every supported operating system, size of long and time_t, byte order and set of system headers, every object, value, time limit and clock", "why_tests_cant": "a test runs on one target; a wrong field of a structure shows only as a timeout that comes early by less than a second or as a thread that spins", "anchors": ["include/boost/atomic/detail/futex.hpp: futex_invoke, futex_wait, futex_wait_for, futex_wait_until, futex_signal, futex_broadcast, futex_requeue, futex_timespec", "include/boost/atomic/detail/wait_ops_futex.hpp: select_futex_wait, wait_until_abs_timeout", "include/boost/atomic/detail/wait_ops_freebsd_umtx.hpp: wait_until_abs_timeout, wait_until_fallback", "src/lock_pool.cpp: wait_state::wait_until, wait_state::notify_one, wait_state::notify_all"]}
