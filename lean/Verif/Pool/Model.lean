/-
Model of the definition of the lock pool: the size, the list of initialisers that the
preprocessor makes of `lock_pool_init1.ipp` and `lock_pool_init256.ipp`, the padding of an
entry to whole cache lines, and the loop that cleans the pool up.

Sources (all in /repo/src): `lock_pool.cpp` 88-97, 640-643, 913-972, `lock_pool_init1.ipp`,
`lock_pool_init256.ipp`.
-/

namespace Verif.Pool

/-- A token of the initialiser list of `g_lock_pool`: `{ BOOST_ATOMIC_LOCK_STATE_INIT }`
(one token, since it is always written as a whole) or a comma. -/
inductive Token where
  | init
  | comma
  deriving DecidableEq, Repr

/-- `BOOST_ATOMIC_DETAIL_LOCK_POOL_SIZE` and `lock_pool_size` (lock_pool.cpp:941, 944); `log2` is
`BOOST_ATOMIC_LOCK_POOL_SIZE_LOG2`.  Simplified: the shift is of an unbounded number; only sizes up
to 65536 are accepted. -/
def poolSize (log2 : Nat) : Nat := 2 ^ log2

/-- `BOOST_PP_LIMIT_ITERATION` of Boost.Preprocessor, the largest number of iterations. -/
def limitIteration : Nat := 256

/-- The value is accepted: no `#error` (lock_pool.cpp:938-940, 948-951). -/
def accepted (log2 : Nat) : Bool :=
  if poolSize log2 > 256 then !(poolSize log2 / 256 > limitIteration) else true

/-- A line of four initialisers (lock_pool_init256.ipp:14-77), without what follows the last. -/
def row : List Token := [.init, .comma, .init, .comma, .init, .comma, .init]

/-- The text of an `.ipp` file before the initialisers: `#if BOOST_PP_ITERATION() > 1 , #endif`
(lock_pool_init1.ipp:9-11, lock_pool_init256.ipp:9-11). -/
def leading (iteration : Nat) : List Token := if iteration > 1 then [.comma] else []

/-- `lock_pool_init1.ipp`. -/
def init1 (iteration : Nat) : List Token := leading iteration ++ [.init]

/-- `lock_pool_init256.ipp`: 63 lines that end with a comma and one that does not. -/
def init256 (iteration : Nat) : List Token :=
  leading iteration ++ (List.replicate 63 (row ++ [Token.comma])).flatten ++ row

/-- `#include BOOST_PP_ITERATE()` with bounds `(1, last)` (lock_pool.cpp:952-956): the file is
included for 1, ..., `last`, and at most 256 times (Boost.Preprocessor has no more copies of the
test whether to include it). -/
def iterate (last : Nat) (file : Nat → List Token) : List Token :=
  ((List.range (min last limitIteration)).map fun i => file (i + 1)).flatten

/-- The initialiser list of `g_lock_pool` (lock_pool.cpp:946-958). -/
def initialisers (log2 : Nat) : List Token :=
  if poolSize log2 > 256 then iterate (poolSize log2 / 256) init256 else iterate (poolSize log2) init1

/-- `BOOST_ATOMIC_CACHE_LINE_SIZE` (lock_pool.cpp:90-96). -/
def cacheLine (s390 powerpc : Bool) : Nat := if s390 then 256 else if powerpc then 128 else 64

/-- `padding_size` (lock_pool.cpp:913-917) for a `lock_state` of `size` bytes. -/
def paddingSize (line size : Nat) : Nat :=
  let tail_size := size % line
  if tail_size > 0 then line - tail_size else 0

/-- `sizeof(padded_lock_state_t)` (lock_pool.cpp:919-933): members, and what the compiler adds to
reach a multiple of the alignment, which is the size of a cache line. -/
def paddedSize (line size : Nat) : Nat :=
  let members := size + paddingSize line size
  (members + line - 1) / line * line

/-- The address of `g_lock_pool[i]`; `base` is the address of the array. -/
def entry (base line size i : Nat) : Nat := base + i * paddedSize line size

/-- A lock of the pool as far as `cleanup_lock_pool` looks at it: `m_free_memory` and the number of
times the lock was taken and returned. -/
structure Lock where
  freeMemory : Bool
  cleaned : Nat
  deriving DecidableEq, Repr

/-- The body of the loop (lock_pool.cpp:963-970). -/
def cleanOne (l : Lock) : Lock := { freeMemory := true, cleaned := l.cleaned + 1 }

/-- `cleanup_lock_pool` (lock_pool.cpp:961-971): the loop from `i` on, for a pool of `size` locks.
Leaving the array is the outcome `none`. -/
def cleanupFrom (size : Nat) (i : Nat) (pool : Array Lock) : Option (Array Lock) :=
  if i < size then
    if h : i < pool.size then cleanupFrom size (i + 1) (pool.set i (cleanOne pool[i])) else none
  else some pool
termination_by size - i

/-- `cleanup_lock_pool`. -/
def cleanup (size : Nat) (pool : Array Lock) : Option (Array Lock) := cleanupFrom size 0 pool

end Verif.Pool
