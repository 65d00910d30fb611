# Formal model of boostorg/atomic in Lean 4

Source modelled: /repo (Boost.Atomic, header library in `include/boost/atomic`, compiled part in `src`).
All proofs are in `/verif/lean/Verif`. The English properties are in `properties.jsonl`; `MANIFEST.json`
maps each to theorem names.

## Trusted base

* Lean 4.33.0 kernel; Mathlib / core lemmas are re-checked by the kernel.
* Axioms: only `propext`, `Classical.choice`, `Quot.sound`. No own axioms, `sorry`, `native_decide`, `bv_decide`.
  `AXIOMS.txt` lists, for every theorem of `MANIFEST.json`, the axioms it depends on (output of `#print axioms`).
* The model is hand-written from the C++ text. Every definition cites the file and lines it models and
  says where it simplifies.
* In `Verif/Asm` the files `*Code.lean` (the blocks), `*Ops.lean` (tables) and `*Proofs.lean`, `*Props.lean` were written by
  `tools/asmgen.py` from the source text, with the original instructions as comments; the generator is not trusted for the proofs,
  only, like a human reader, for the transcription. The meaning of the instructions (`Isa*.lean`) and of operand constraints
  (`Machine.lean`) is hand-written.
* Semantics given to things outside the library (stated in the model files, not axioms):
  * machine integers: `BitVec w`;
  * hardware primitives: `lock cmpxchg`, `xchg`, `xadd`, LL/SC with reservations that may be lost spuriously;
  * kernel futex: atomic compare-and-block, wake n, requeue n, spurious returns; on processors that reorder accesses (`Sleep`) the
    queue of an address is a variable guarded by a lock of the kernel, and a thread that is woken goes on after the call that woke it;
  * memory ordering: (a) x86-TSO store buffers, (b) per-architecture ordering rules of barrier instructions, (c) for whole programs
    (Mca) one shared memory in which a write becomes visible to all other threads at once, and accesses of one thread to one
    variable are in order, but for a read that takes its value from an own write before it is performed, (d) for whole programs on
    PowerPC, ARMv7 and Alpha (Pow) the storage subsystem of Sarkar et al. (PLDI 2011): one order of the writes of each variable,
    writes and barriers that arrive at one thread after another or, when overtaken, not at all, and cumulative barriers;
  * instructions of inline assembly and GCC operand constraints: `Asm/Machine.lean`, `Asm/Isa*.lean`;
  * interlocked functions of Microsoft's compilers and of Windows: their documented effect and order, `Asm/Interlocked.lean`;
  * floating-point arithmetic: an arbitrary function on bit patterns.

## Layout

`Verif/<Area>/Model.lean` is the model of the code, `Spec.lean` a small independent specification,
`Lemmas.lean` (and other files without `Props` in their name) helper lemmas, `Props.lean` the property theorems with
non-vacuity examples beside them. `MANIFEST.json` lists the property theorems.

| area | what it models |
|------|----------------|
| Common | specification vocabulary: histories, linearizability (Herlihy–Wing), call machines, `Code` (the atomic action of one operation on its storage word) |
| Integral | `core_operations` / `extra_operations` of all back ends as tables of word functions, the integral interface of `atomic` and `atomic_ref` |
| Concurrent | small-step machines: CAS loop, single instruction, LL/SC, kernel helper, mixed, lock pool; progress |
| Pair | double-width register pairs (ARM/AArch32/AArch64 8 and 16 bytes), carries, torn load-exclusive pairs |
| Api | pointer, bool, enumeration and operator interfaces |
| Bytes | value representation: `bitwise_cast`, `bitwise_fp_cast`, padding, `buffer_storage`, floating-point operations, `atomic_ref` construction |
| Select | back-end selection, storage sizes and alignments, lock-freedom constants, lock index |
| Order | memory orders: deduction and assertions, the instruction sequence of every operation on every back end, fences |
| Tso | x86-TSO machine running the x86 mapping |
| Futex | lock pool entry built on futex: mutex word, condition counters, requeue |
| Weak | the same lock with its memory orders on a view-based C++ memory machine |
| Use | what programs build on atomic integers (counters, tickets, reference counts, hand-over, claiming, consensus), for the histories of all machines |
| Cond | the lock pool as a whole on system mutexes and condition variables (POSIX threads, Windows): all locks, the concrete registry, waiters, notifiers, stores, cleanup |
| WaitSel | which waiting and notifying primitives serve an object: back end selection, specializations by size and interprocess flag, queues addressed, capability macros |
| Asm | the inline assembly blocks instruction by instruction: operands and their constraints, every register assignment the compiler may choose, exclusive monitors, interference; machines of cores executing them |
| Mca | whole programs on processors that reorder accesses: happens-before and sequential consistency from the instruction sequences of Order, on memory that is multi-copy atomic |
| Pow | the same programs on memory that is not multi-copy atomic (PowerPC, ARMv7, Alpha, kernel helpers), with cumulative barriers |
| Target | from calls of the API to executed code: which back end serves a call on an object of a given size on a target, joining Select, Order, Mca and Pow |
| Locked | programs with objects that are not lock-free, on the machines of Mca and Pow: critical sections of the futex mutex around plain accesses, mixed with lock-free objects |
| Whole | whole programs as written: calls with arguments and results on lock-free objects, objects of the lock pool and the program's own variables, compiled for a target; joins Target and Locked |
| Notify | waiting and notifying in the programs of Locked: comparison and registration in one section, notification in another |
| Sleep | blocking and waking on the machines of Mca and Pow: the futex mutex with its queue in the kernel, the condition of a wait state, `notify_one` and `notify_all`, nested sections |
| Await | what a thread sees when a wait has returned: the loads of the functions of Wait as operations of the programs of Mca, Pow and Locked |
| Idiom | the examples of doc/examples.qbk as programs of Mca and Pow: reference counter, spinlock, singleton, ring buffer, queue |
| Kind | compile-time choices by value type: `classify`, the specializations of `base_atomic` and `base_atomic_ref` and their members, the lock-free aliases, sizes and macros of the named types |
| Init | the constructors of `atomic<T>`: from a value and without argument |
| View | the reference returned by `value()` and operations of others on it |
| Pool | the definition of the lock pool: initialisers, padding, cleaning up |
| Signal | a thread and the handlers that interrupt it: the code of Order with the compiler's freedom and a processor that keeps the order of its own accesses; operations called in handlers on the machines of Concurrent |
| Call | the system calls for blocking and waking: what the library puts in registers and memory (futex.hpp, the calls in wait_ops_futex.hpp, wait_ops_freebsd_umtx.hpp, wait_ops_windows.hpp, wait_ops_darwin_ulock.hpp, wait_ops_dragonfly_umtx.hpp and src/lock_pool.cpp), and what a kernel reads there |
| Registry | table of wait states of a lock pool entry, allocation, cleanup |
| Find | address search, generic, SSE2 and SSE4.1 |
| Wait | wait / wait_until / wait_for of all implementations against an arbitrary world; polling for interprocess objects |
| Chrono | duration and time point conversions |
| Flag | `atomic_flag` |

## Modelled and not modelled

Modelled, function by function (every definition cites lines):

* `atomic_impl.hpp`, `atomic_ref_impl.hpp`, `atomic_flag_impl.hpp`, `atomic.hpp`, `atomic_ref.hpp` (operations, operators, constructors);
* `core_arch_ops_*`, `core_ops_*`, `core_operations_emulated.hpp`, `extra_ops_*` (gcc and Microsoft, generic, emulated), `interlocked.hpp`, `fp_ops_*`, `extra_fp_ops_*`,
  `cas_based_exchange.hpp`, `core_ops_cas_based.hpp`, `extending_cas_based_arithmetic.hpp`, `integral_conversions.hpp`;
* `bitwise_cast.hpp`, `bitwise_fp_cast.hpp`, `storage_traits.hpp`, `string_ops.hpp`, `aligned_variable.hpp`, `float_sizes.hpp`, `int_sizes.hpp`, `classify.hpp`;
* `capabilities.hpp`, `caps_*`, `core_operations.hpp`, `core_arch_operations.hpp`, `platform.hpp` as a function of the feature macros;
* `memory_order.hpp`, `memory_order_utils.hpp`, `gcc_atomic_memory_order_utils.hpp`, `fence_*`, `ops_gcc_*_common.hpp`;
* `doc/examples.qbk` (the programs of the documentation, as users of the library; in Idiom);
* `wait_ops_*`, `wait_operations*.hpp`, `wait_capabilities.hpp`, `wait_caps_*`, `futex.hpp`, `chrono.hpp`, `lock_pool.hpp`, `once_flag.hpp`, `src/lock_pool.cpp`, `src/find_address*.cpp`, `src/bit_operation_tools.hpp`, `src/x86_vector_tools.hpp`, `src/cpuid.hpp`, `src/lock_pool_init*.ipp`.

Not modelled, or trusted:

* the C++ language and compiler: templates are instantiated by hand, overload resolution is read off the text; outside of `Asm`
  inline assembly is read, not executed;
* pthread and Windows mutexes and condition variables, `WaitOnAddress`, `umtx`, `ulock`, the kernel futex: their documented contract is the model (on weak memory: `Whole.SystemCode`, a lock word taken with acquire and returned with release)
  (which wait queue a call addresses and how many threads it releases: `WaitSel/Spec.lean`);
* the interlocked functions have their documented effect and order (the macros that select them, the functions that call them and the `__asm` blocks are modelled, in Asm);
* consume ordering through dependencies;
* the code that compilers make of the `__atomic` intrinsics: on x86 and ARMv8 as in `Order.trace` of `gccAtomicX86` and `gccAtomic`, on POWER
  and on ARM before version 8 the code of `ppc64`/`ppc32` and `gccArm` (a program of `Mca` and `Pow` may mix the back ends of one processor: `Order.Cpu.runs`);
  objects of two words are back ends of their own in `Order` (`x86Wide`, `gccArmWide`, `aarch64Wide`, `aarch32 true`, `gccSyncWide`;
  the `__atomic` intrinsics treat them like others), and `Kind.loop` is every read-modify-write built of `compare_exchange_weak`;
* `thread_pause.hpp`, `link.hpp`, `header.hpp`/`footer.hpp`, `config.hpp` beyond the macros used, `type_traits/*` (their documented meaning is used),
  what the processor answers to `cpuid` (arbitrary).

Arguments and the address count as given to a block only in operands that it declares as inputs (`Block.Loads`, `Block.addressed`).
Operands of inline assembly that are kept apart for a reason other than their constraint kinds are listed in `differ` of the block:
on x86 `fetch_and` and similar loops have `"+a" (res)`, where `res` was initialised by a volatile read of the object, so that the compiler
cannot know it to be equal to the address or the argument and to share their register; an SSE register is not a general one; `setcc`
cannot name `esi`.  Vector and x87 accesses of 8 and 16 bytes are taken to be atomic if they are aligned (`Asm.X86.vector`).  Not modelled:
the depth of the x87 register stack (`fildll` needs a free register, which the block does not ask for).

## Plan per property

| id | what is modelled | how it is proved |
|----|------------------|------------------|
| C01 | calls as small-step machines: torn snapshot, `compare_exchange_weak` with arbitrary spurious failure, retry; any number of calls interleaved | generic forward-simulation theorem: machine with commit steps ⇒ every history linearizable (definition by Herlihy–Wing); instantiate |
| C02 | LL/SC loops with reservation (version) and spurious failure | same generic theorem |
| C03 | lock pool as array of locks, call = hash, lock, read, write, unlock, return; memory = address → value | invariant (mutual exclusion, no pending write by non-holder) + generic theorem |
| C04, C05 | CAS strong/weak machines per back end (LL/SC, kernel helper loop, `__sync`, emulated) | same, spec of compare_exchange distinguishes spurious failure |
| C06, C07 | storage word `BitVec W`, value `BitVec N`, every op of core/extra ops on words | induction on operation sequence, refinement to `BitVec N` object |
| C08, C09, C10 | op functions per back end | BitVec algebra for all widths |
| C11 | half-word register programs | BitVec append/carry algebra for all half widths |
| C12 | load-by-CAS functions | case analysis, plus machine version in C01/C02 framework |
| C13 | pointer ops as scaled offset on `BitVec w` | BitVec ring algebra |
| C14, C15 | byte lists; bitwise_cast as copy/mask/clear tail | list induction |
| C16, C32 | storage_size_of, dispatch tables as Lean functions of capability record | case analysis over all sizes / capability combinations (finite, complete) |
| C17 | hash_ptr and get_lock_index on Nat/BitVec | arithmetic |
| C18 | order encodings as numbers | complete case analysis (6 or 36 cases; the quantifier is that finite set) |
| C19, C22 | each op compiled to an instruction/barrier list per back end; ordering relation between positions defined from barrier semantics | for all surrounding programs; negations for the back ends where it fails, so that the lists of exceptions are exact (`Order/Exact.lean`) |
| C20, C21 | x86-TSO machine: per-thread FIFO store buffer | invariants by induction on executions |
| C23, C24, C25 | futex word bit-level lock, kernel wait queues for mutex and condition words, requeue; any number of threads | inductive invariants |
| C26 | waiting operations as step functions driven by an arbitrary environment (values read, clock, wake results) | induction on run length |
| C27 | waiter/notifier interleaving machines for emulated, generic, futex variants | invariant; for the generic timed waits the property is false: negation by witness run |
| C28 | wait_state_list with arrays, capacity, spare entries, ref counts, allocation failure | refinement to finite map by induction over operations |
| C29 | SSE2/SSE4.1 programs at lane level (32/64-bit lanes, packs, movemask, ctz) | equality with first-index search for all sizes; `Find/Dispatch*.lean`: the blocks of `cpuid.hpp`, the initial value of `g_find_address` in every build, and an invariant of concurrent first calls |
| C30, C31 | truncating C++ division, int64 overflow as distinct outcome | integer arithmetic; negation for the overflowing input |
| C33 | fp loops over representation with an arbitrary value function; sign-bit xor | C01 framework; BitVec |
| C34 | flag machine | C01 framework + counting argument |
| C35 | same machines as C01, the mixture of a lock pool and native operations, and the kernel's compare-exchange function of old ARM Linux | version argument; bounded solo run; retries counted against the steps of others that changed the object |
| C36 | C03 machine | from every reachable state some step sequence completes a call |
| C37 | polling loop | induction on polls |
| C38 | once flag exchange, free list | invariant |
| C39–C43 | see Select, Flag, Api | complete case analysis; C01 framework |
| C44 | lock pool mutex with memory orders, view machine | invariant: what the last owner knew is carried by the mutex word or known to the owner |
| C45 | histories of the machines of C01–C03 | linearization of calls of one kind is a chain; locality for the lock pool |
| C46 | `Cond.Step` composed with `Registry.step` | invariant linking lock owners, positions and registered waiters; trace of a notifying call; counterexample executions |
| C47 | `WaitSel.Os.waitOps` on top of `Select` | case analysis over all back ends and specializations; queues of the primitives as a separate specification; counterexample platforms for the macros |
| C48 | `Asm.*Code`: every assembly block as a list of instructions, `Machine.Reach`: executions with interference | symbolic execution between loop heads (`Rule.correct_of`), liveness check that covers all legal register assignments, bit-vector lemmas for narrow and double-width values; on AArch64, PowerPC and Alpha each shape of block is proved once for all widths and operations (`A64Shape*.lean`, `PpcShape.lean`, `AlphaShape.lean`, `X86Shape.lean`; PowerPC and x86 also for all register widths); for Microsoft's compilers the blocks of `MsvcCode.lean` and the macros of `InterlockedCode.lean` (generated by `tools/msvcgen.py` and `tools/intrgen.py`); `_violated` where a constraint is wrong |
| C49 | `Asm.opsMachine`: any number of cores executing the blocks; `Asm.routineMachine`: the same with the generic operations, which repeat a compare-and-exchange block (Alpha, SPARC, x86 for objects of two registers) | backward simulation (`Sim`) from C48 |
| C50 | `Mca.Run`: any number of threads executing instruction sequences of `Order` and accesses of their own, with the moment at which each access is performed | `Order.Ordered` implies order in time (induction); happens-before implies order in time of the accesses concerned, which gives the four coherence rules of the C++ standard; modification order and atomicity of read-modify-writes from the shape of every trace (`Mca/Shape.lean`); fences of the Windows back end on processors that are not x86, which are compiler barriers only, by reading every trace as that of the same call with a stronger order (`Mca/Interlocked.lean`); `Pow`: what is seen by a released access is in the group of a barrier that arrives everywhere before the releasing write (cumulativity), by induction along release sequences and happens-before; counterexample executions, one for each operation in the list of exceptions (`Mca/Exact.lean`) |
| C51 | the same executions with values | the moments of the modifications (or of the reads, for operations that modify nothing) of seq_cst operations are the total order; `Pow`: a heavy barrier lies between any two seq_cst operations of a thread, hence program order and the order of each object have no cycle, and a linear extension is the total order |
| C52 | `Mca.Run.mixed`: the same executions as the accesses, operations and fences of the C++ standard | `Mca.Mixed.ScOrder` states the order of seq_cst operations and fences as in [atomics.order]; an operation stands at the moment of its main access, a fence between the accesses before and after it; the transitive form of the coherence rule printed in C++20 does not hold for the plain seq_cst loads of x86, so the rule is for single steps (`Mixed.Literal` and its counterexample show the difference); `Pow`: accesses and fences are ordered weakly (coherence order, or carried by a fence) and strongly (visible everywhere before the other starts); weak then strong is strong and both are irreflexive, so a linear extension exists, with the transitive rule |
| C53 | `Target.Emits`: the code of a call, by the selection of `Select` and the instructions of `Order`; a program is a list of calls per thread | each call's item meets the conditions of C50–C52 unless it is in the tables `Target.Weak`, `Target.WeakSeqCst` (stated in terms of targets and calls); case analysis over the selection; an execution on AArch64 shows an exception; `Target/Exact.lean`: the items of the excepted calls really miss the condition |
| C54 | `Locked.Section`, `Locked.Follows`: taking and returning the mutex as operations of the library with the words the code computes | the bit `locked` of the mutex word makes the sections of one mutex a chain in modification order, each give a release sequence that reaches the next take (`Locked/Exclusion.lean`), from the rules of happens-before alone, so for both kinds of memory; the order of C52 restricted to lock-free operations is extended by the sections (`Locked/OneOrder.lean`); `Locked.History.OneOrder` is the specification; counterexample execution on SPARC |
| C55 | `Whole.Executes`: the calls, the code `Target.Emits` gives them or a section of the lock pool, what they found and left in the run, and what they replied | the order of C54 is extended by the program's own accesses, which happens-before puts in order if there is no data race (`Whole/Race.lean`); each thread's calls are matched with the operations of that order (`Whole/Link.lean`; who last wrote one word of an object that is not lock-free last wrote all of its words), sorted, and executed one at a time (`Whole/Interleave.lean`); `Whole.Observed.Interleaving` is the specification (`Whole/Spec.lean`) |
| C56 | `Notify.Records`: what the sections of `wait`, `notify_one` and `notify_all` do with the waiters of an object, in programs of `Locked` | a section after the registration finds the waiter, by induction over the sections of the mutex (C54); if the notification is before it, the modification happens before the load (`Notify/Lemmas.lean`) |
| C57 | `Sleep.Waits`: the words of the mutex and the calls of the kernel, in any program with sections that may contain one another | the queue's lock orders the calls of the kernel (C54), the mutex its owners; a thread in the queue always has an owner ahead of it that will find `contended` and call `futex_signal`, or a woken thread that has not yet taken the mutex: induction over the last section that is known to be after the thread was added (`Sleep/Mutex.lean`) |
| C58 | `Sleep.Conditions`: the entry of the object, the counter `m_cond` and the calls of the kernel for it | a waiter that has compared the object before the modification is found in the entry by the notification, so `m_cond` is incremented after it was read; the call of the kernel that the waiter makes compares it, so it comes before that of the notification, which takes the waiter from the queue (`Sleep/Cond.lean`); moved to the queue of the mutex, it is woken by C57 |
| C59 | `Await.Performs`: the loads a waiting function makes are operations of a program, and its result is what the function computes from the values they find; `Await.Published`: release operations | every function returns what its last load found, and reports a timeout exactly if this is the old value (`Await/Loaded.lean`, by induction over runs); this load reads from the modification, or from copies of it that belong to its release sequence, so acquire and release synchronise; for objects of the lock pool the sections do (C54) |
| C60 | `Idiom.RefCount`: which operations of the program make and drop references, and what the discussion in the documentation demands of the program; `Idiom.DeletedOnce` | the modifications of the counter are numbered along reads-from (`Idiom/Hist.lean`); induction over the number: the value is the number of references made and not dropped; the release sequence of every decrement reaches the last one |
| C61 | `Idiom.Spinlock` with both versions of `lock`; `Idiom.OneAtATime` | sections are numbered: an exchange that finds Unlocked reads from the store of one section or the initial value, and no two find the same |
| C62 | `Idiom.Ring`: calls that succeed, as loads, accesses and stores with the values they find; `Idiom.PushFails`, `Idiom.PopFails`: calls that fail; `Idiom.Transfers`, `Idiom.Refuses` | each index has one writer, so its stores are numbered (`Idiom/Buffer.lean`); induction: the number of elements seen is between those of the two threads; acquire and release order the accesses |
| C63 | `Idiom.Queue` with `push`, `pop_all` with its loop, and `pop_all_reverse`; `Idiom.Delivers`, `Idiom.Taken` | modifications of the head are numbered; the list after modification n is defined by recursion; strong induction over the operations of the consumer: every `next` it reads is what `push` or its own loop wrote |
| C64 | `Idiom.Singleton`, with the order of the sections of the mutex as a hypothesis, or `Idiom.Instances` and `Idiom.Guarded`, where the mutex is the spinlock of C61; `Idiom.OneInstance` | the second load after another section has stored reads from that store or a later one, so there is one store; loads that find an address synchronise with it |
| C65 | `Kind.Ty`: types as a tree of pointers over base types; `Kind.Spec.Promised`: the lists of the documentation | the class of a type is computed for each form of type; that its members are those promised is a finite table |
| C66 | `Kind.lockFreeAlias` over the targets of Select and the systems of WaitSel | the alternatives of the `#elif` chain, with C39 and the theorem of WaitSel about the waiting macros |
| C67 | `Kind.Spec.unsignedMax`, `signedMax`: the limits of a type of k bytes, for any k | powers of two are equal only if the exponents are, so each limit belongs to one size; then C39 |
| C68 | `Init.Spec.valueInit`: `T()` as bytes, from the scalars of a type and the null pointers of the ABI | what is constructed represents the value (Bytes, Integral, Api); then the theorems about all histories |
| C69 | `View.anySpec`: calls of the library and external operations on one value | the bytes at the address of the storage hold the value, and replacing them leaves a proper word; then all machines without locks |
| C70 | the initialiser list as tokens that the preprocessor makes of the `.ipp` files; sizes modulo the cache line | `Pool.IsList`, the grammar of initialiser lists, by induction on the number of inclusions; loop invariant for the cleanup |
| C71 | `Signal.Run`: flows (a thread, its handlers) that take turns in any way; each access has one time, what the compiler may move is what `Mca.CompKeeps` allows; `Signal.Synchronizes` counts signal fences | happens-before implies order in time unless the code is `movable`; then coherence as in C50 |
| C72 | the machines of Concurrent with all calls but one stopped; `Signal.ReturnsWithin` | a measure that every step that is not a spurious failure makes smaller; for locks: the lock of a stopped call stays taken |
| C73 | `Call.Target` (operating system, sizes of `long` and `time_t`, byte order, macros), the functions of futex.hpp as makers of arguments; `Call.kernel` reads the arguments, from the documentation of the kernels; `Call.Req` is the request in plain terms | cases over targets; reading a 64-bit integer back from two words |

## Findings in the code (disagreements between property and code)

Each line names the theorem that proves it about the model; the ones without a theorem were found by reading.

| no | where | what | theorem |
|----|-------|------|---------|
| F1 | `wait_ops_generic.hpp` 92–113, 127–150 | timed waits do not reload the value after registering: a store and notification in between is lost until the timeout | `C27_generic_timed_wait_violated` |
| F2 | `core_ops_gcc_atomic.hpp` 213 | the 4-byte-in-16-byte branch specialises `core_operations< 8u >` instead of `< 4u >` | `C32_unique_violated` |
| F3 | `core_arch_ops_gcc_sparc.hpp` fence_after | acquire barrier orders the wrong pair of accesses | `C19_acquire_violated` |
| F4 | `fence_arch_ops_gcc_x86.hpp` | consume fence emits no compiler barrier | `C22_x86_consume_fence_violated` |
| F5 | `chrono.hpp` ceil fallback | rounds negative durations wrongly | `C30_ceil_fallback_negative_violated` |
| F6 | `atomic_impl.hpp` 1561–1576 | pointer `wait_until` / `wait_for` cast the storage without the `uintptr_t` step used everywhere else | – |
| F7 | `extra_ops_generic.hpp` | negate/and/or/xor `_and_test` do not truncate (harmless while storage is canonical) | – |
| F8 | `core_arch_ops_gcc_aarch64.hpp`, `…aarch32.hpp` | compare-exchange ignores the failure order; (release, acquire) loses acquire on failure | `C19_acquire_violated` |
| F9 | `core_arch_ops_gcc_aarch32.hpp` | 8-byte acquire load lacks a `memory` clobber | `C19_acquire_violated` |
| F10 | `core_arch_ops_gcc_aarch64.hpp`, `…aarch32.hpp` | 1- and 2-byte compare-exchange modifies an input-only operand | `C48_aarch32_1_violated`, `C48_aarch32_2_violated`, `C48_aarch64_1_violated`, `C48_aarch64_2_violated` |
| F11, F13 | `atomic_impl.hpp` / `wait_ops_*` | `now + timeout` overflows for long timeouts | `C31_futex_wait_for_violated`, `C31_deadline_violated` |
| F12 | `lock_pool.cpp` futex mutex | 30-bit counter wraps: a sleeping thread can be forgotten | `C24_wraparound_violated` |
| F14 | `extra_operations_fwd.hpp` 28 | default `Size` is that of the storage, so extra operations of emulated narrow types do not truncate | `C06_emulated_violated`, `C07_emulated_violated`, `C08_emulated_violated`; `C01_emulated_violated`, `C02_emulated_violated`; the affected operations are listed exactly by `C01_emulated_exact`, `C02_emulated_exact` (in terms of histories), `C06_emulated_exact` and `C07_emulated_exact` |
| F15 | `core_arch_ops_gcc_ppc.hpp` | narrow compare-exchange compares whole registers | `C04_narrow_compare_ppc_violated` |
| F16 | `core_ops_windows.hpp`, `core_arch_ops_msvc_*` | `fetch_sub` negates a signed value: undefined for the minimum | – |
| F17 | `core_ops_linux_arm.hpp` 128–142 | value of a failing compare-exchange re-read without the acquire fence | `C19_acquire_violated` |
| F18 | `core_ops_gcc_sync.hpp` | seq_cst exchange, and the store of an object wider than a pointer, use an acquire-only builtin; whole program: store buffering with `exchange` or such a `store`, and `load` | `C19_gcc_sync_exchange_seq_cst_violated`, `C19_gcc_sync_wide_store_violated`, `C51_gcc_sync_exchange_violated`, `C51_gcc_sync_wide_store_violated` |
| F19 | `core_ops_windows.hpp` 106 | syntax error in a partial specialisation | – |
| F20 | `fence_ops_windows.hpp` | no hardware barrier for fences weaker than seq_cst on weakly ordered processors | `C22_windows_fence_violated` |
| F21 | `chrono.hpp` 74 | seconds truncated to a 32-bit `time_t` | `C30_to_timespec_32_violated` |
| F22 | `lock_pool.cpp` 987–1022 | after the cleanup, a table whose first wait state could not be allocated stays allocated for good | `C38_table_after_cleanup_violated` |
| F23 | `core_ops_gcc_atomic.hpp` 64–67 | `is_always_lock_free` is true for sizes the compiler reports as only sometimes lock-free (i486, 8 bytes) | `C39_sometimes_lock_free_violated` |
| F24 | `atomic_ref_impl.hpp` 94–97 | the constructor clears padding with plain writes | `C14_concurrent_construction_violated` |
| F25 | `bitwise_fp_cast.hpp` | value bytes are assumed to come first: with unused bytes in the middle (m68k 96-bit format) a stored value does not come back | `C14_noncontiguous_fp_violated` |
| F26 | `bitwise_cast.hpp`, `BOOST_ATOMIC_NO_CLEAR_PADDING` | interior padding takes part in compare-exchange | `C14_interior_padding_violated` |
| F27 | `atomic_impl.hpp` `cxchg_use_bitwise_cast` | alignment comparison reversed (performance only) | – |
| F28 | `extra_fp_ops_generic.hpp` | on big-endian machines with storage wider than the value the mask hits the wrong byte (no such combination is selected, C16) | `C33_big_endian_wide_storage_violated` |
| F29 | `core_ops_gcc_atomic.hpp` 149 | `__atomic_test_and_set` sets one byte of the 4-byte flag; on big-endian machines a set flag is not 1 and `wait(true)` returns at once | `C40_big_endian_wait_violated` |
| F30 | `atomic_impl.hpp` enumerations | reading an enumeration out of wider storage takes the wrong bytes on big-endian machines | `C41_big_endian_wide_storage_violated` |
| F31 | `atomic_impl.hpp` enumerations | bit operations on the top bit of a signed enumeration in wider storage leave it zero-extended, after which a compare-exchange expecting the value just loaded fails | `C41_signed_top_bit_violated` |
| F32 | `core_arch_ops_gcc_aarch64.hpp` 1797–1864 | 16-byte compare-exchange returns an unvalidated `ldxp` result on failure | `C05_torn_pair_violated`, `C48_aarch64_16_violated` |
| F33 | `src/lock_pool.cpp` 468–485 | on POSIX threads, a timed wait on a clock the condition variable does not support loops inside `wait_until`; if its relative wait times out before the deadline (clock set back, `time_t` saturation) and a store and notification happen before it owns the mutex again, it blocks again without comparing and the notification is lost until the deadline | `C46_wait_until_loop_violated` |
| F34 | `wait_caps_futex.hpp`, `wait_capabilities.hpp` 260–266 | where 1- and 2-byte objects are kept in 4 bytes (ARMv6 without byte exclusives, older POWER, SPARC, Alpha, the `linux_arm` back end) they wait with a futex and report `has_native_wait_notify() == true`, but the macros for their types say 0, "not available"; the comment "We store bools in 1-byte storage in all backends" is not true there | `C47_macro_understates_violated` |
| F35 | `wait_caps_futex.hpp` and the other `wait_caps_*.hpp` | if a compiler only has wider atomic operations, so that 4-byte objects are kept in 8 bytes, the macro says 2, "always available", and the objects use the lock pool (no such compiler is known) | `C47_macro_overstates_violated` |
| F36 | `wait_caps_windows.hpp` 33 | for sometimes lock-free types (F23) the macro is 1, "determined at run time", while the constant `always_has_native_wait_notify` is true | `C47_macro_sometimes_violated` |
| F37 | `core_arch_ops_gcc_arm.hpp` (`compare_exchange_*`, all sizes) | `[success] "+r"` is not an early-clobber operand although `strexeq` writes it while `desired` and `storage` are live: if `desired` is 0 like `success`, the compiler may use one register for both, and `strex` with equal status and source registers is unpredictable | `C48_arm_1_violated`, …, `C48_arm_8_violated` |
| F38 | `core_arch_ops_gcc_ppc.hpp` 419–484, 787–852 | the blocks behind F15: strong compare-and-exchange of 1 and 2 bytes compares 32 bits of a register the compiler need not have extended, and fails although the value is the expected one; weak ones fail too, which they may | `C48_ppc_1_violated`, `C48_ppc_2_violated` |
| F39 | `core_arch_ops_gcc_alpha.hpp` 171–207 | strong compare-and-exchange of 4 bytes compares 64 bits of a register that the constraints do not require to be sign-extended (compilers for Alpha usually keep it so) | `C48_alpha_4_violated` |
| F40 | `core_arch_ops_gcc_sparc.hpp` 175–194, `platform.hpp` 77, `caps_arch_gcc_sparc.hpp` 28 | in 32-bit mode (`__sparcv8plus`) a 64-bit operand is a pair of registers, of which `casx` is given the first only: 8-byte compare-and-exchange, and all that is made of it, does not work | `C48_sparc_v8plus_8_violated` |
| F41 | `core_arch_ops_gcc_x86.hpp` 510–523, `config.hpp` 67–71 | 8-byte `store` in position-independent 32-bit code of gcc before 5.1: the block keeps `ebx` in `esi` and loads the old value to `eax`, but declares `eax` as input only and `esi` not at all, whose contents are lost | `C48_x86_dcas_8_violated` |
| F42 | `extra_ops_msvc_x86.hpp` 104/286, 245/333 (and 488/670, 629/717, 922/1104, 1063/1151) | `opaque_negate` and `opaque_complement` are defined twice with the same signature in each structure: ill-formed for 32-bit x86; the theorems hold for either definition (`MsvcCfg.second`) | – |
| F43 | `extra_ops_msvc_arm.hpp` 36–37 | the template parameter `Size` of the partial specialisation cannot be deduced: ill-formed | – |
| F44 | `interlocked.hpp` 536–537, 543–544 | `InterlockedIncrement` and `InterlockedDecrement` are declared with two parameters and called with one: `fence_ops_windows.hpp` 55 is ill-formed without `windows.h` and Microsoft's compiler | – |
| F45 | `platform.hpp` 52–93, `extra_ops_gcc_ppc.hpp` 301–505 | no `BOOST_ATOMIC_DETAIL_EXTRA_BACKEND` is named for Microsoft's compilers: `extra_ops_msvc_x86.hpp` and `extra_ops_msvc_arm.hpp` (F42, F43) are never included; on PowerPC `extra_operations_gcc_ppc` for 2-byte objects is not used by any specialisation (the generic version is) | – (no effect on the results: C53) |
| F46 | `core_arch_ops_gcc_aarch64.hpp` 1684–2027 with compilers that have intrinsics | the compiler's intrinsics are not lock-free for 16 bytes, so inline assembly serves these objects, and `compare_exchange` with orders release and acquire that fails is not an acquire operation (as in C19) | `C53_publication_violated` |
| F47 | `core_arch_ops_gcc_sparc.hpp` fence_after (F3) with `lock_pool.cpp` 576–599 | the mutex of the lock pool is taken with `memory_order_acquire`; with F3 an access of a critical section can be performed before the mutex is taken: of two increments of an object that is not lock-free one is lost | `C54_sparc_violated` |
| F48 | the same | with F3 the load of `wait` can be performed before the mutex is taken: a store followed by `notify_all` is missed, and the waiter is blocked for ever | `C56_sparc_violated` |
| F49 | seq_cst loads on x86 (`core_arch_ops_gcc_x86.hpp`, also what compilers emit) | not a fault of the code: the rule as printed in C++20, with a transitive coherence order, does not hold; the rule for single steps does | `C52_literal_rule_violated` |
| F50 | F3 and F9 (acquire loads on SPARC and of 8 bytes on ARMv8 in 32-bit mode) with the loads of `wait` | a thread whose `wait(old, memory_order_acquire)` has returned does not see data that was written before the release store which ended the wait | `C59_violated` |
| F51 | F3 (acquire operations on SPARC) with the `exchange` of the documented spinlock and the loads of the documented ring buffer | data written in one section of the lock is missed in the next one; `pop` reads what was in the array before | `C61_violated`, `C62_violated` |
| F52 | doc/examples.qbk:337–342 and 371–373: `pop_all` keeps the addresses of nodes in variables of type `T *`, and the usage example has `X * tmp = x` | the code of the documentation does not compile as it is written; the model takes the variables as `node *` | none (types) |
| F53 | atomic_impl.hpp:454–457, 474–477, 494–497, 514–517 and atomic_ref_impl.hpp (class for enumerations): the complement operations work on all bits of the storage | for an enumeration with the underlying type `bool` they leave the byte 254 or 255, which is no value of the type; doc/atomic.qbk:1002–1003 promises the value of the operation on `bool` (`true`) | `C41_bool_violated`, `C41_bool_partial` |
| F54 | classify.hpp:65–79 and the specializations for `bool` and `T*` match unqualified types only, but `atomic_ref` supports qualified ones (atomic_ref_impl.hpp: `unqualified_value_type`) | `atomic_ref< volatile bool >` has the arithmetic and bitwise operations of integers; `atomic_ref< U* volatile >` has no pointer arithmetic | `C65_volatile_violated`, `C65_common` |
| F55 | atomic.hpp:144–170: the choice of the alias trusts the waiting macros, which go by the size of the type and not of the storage (F34, F35) | on Windows with operations of 1, 2 and 16 bytes only, the alias is a 32-bit integer without native waiting though 16-bit integers have it (no known compiler has this set) | `C66_native_violated` |
| F56 | capabilities.hpp:141–151: no case for pointers of 2 bytes, which int_sizes.hpp recognises | the macro says never lock-free for objects that are | `C67_pointer_macro_violated` |
| F57 | atomic_impl.hpp:90–92 and 144–155: without argument the storage is filled with zeros if `T` has a trivial default constructor; doc/atomic.qbk:623 and 718 promise `T()` | null pointers to data members are −1 in the Itanium ABI and with Microsoft's compilers, so `atomic< int S::* >` starts as a pointer to the first member instead of the null pointer, and so do structures that contain such pointers | `C68_default_violated`, `C68_default_partial` |
| F58 | atomic_impl.hpp:98–101: `value()` is the first bytes of the storage whatever its size | for integers and `bool` kept in wider storage (POWER before version 8 and SPARC with compilers that lack the `__atomic` intrinsics) on big-endian machines it refers to the most significant bytes, which are 0; on little-endian ones (ARMv6, `linux_arm`) a negative number written there leaves the sign bytes as they were, and compare-exchange operations expecting the value fail | `C69_big_endian_violated`, `C69_bool_violated`, `C69_signed_wide_violated` |
| F59 | F4, F9 and F17 also between a thread and its signal handlers | the compiler may move reads up over the consume fence on x86, the 8-byte acquire load on AArch32 and the value of a failed compare-exchange with the kernel's function; a handler that runs in between makes the thread find a flag set and old data | `C71_violated` |
| F60 | timed waits on 32-bit Linux where `time_t` has 64 bits (musl 1.2, glibc with `_TIME_BITS=64`) | futex.hpp:30 prefers `SYS_futex`, whose kernel side reads two 32-bit integers, while `futex_timespec` is the `timespec` of the C library with 64-bit seconds. On little-endian machines the nanoseconds of every deadline are lost and `wait_until` and `wait_for` report timeout up to a second early; on big-endian machines the call is refused and the thread spins | `C73_violated`, `C73_violated_big_endian`, `C26_call_violated` |
