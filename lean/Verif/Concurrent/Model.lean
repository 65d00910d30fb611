import Verif.Common.Lin
import Verif.Common.Code

/-
The concurrency skeletons of the back ends: how the body of an operation (`Code`) is made
indivisible.  Each machine runs any number of calls on shared memory, interleaved step by step.
Paths are relative to /repo/include/boost/atomic/detail.

Memory is sequentially consistent in these machines (one total order of the individual accesses);
what the memory-order arguments add on top of coherence of a single object is treated in
`Verif.Order` and `Verif.Tso`.
-/

namespace Verif.Concurrent

variable {W Op Ret : Type}

/-! ### One indivisible instruction -/

/-- Private state of a call whose effect is one instruction. -/
inductive OneLoc (Ret : Type) where
  | begin
  | fin (r : Ret)

/-- Back ends whose operations are single instructions: `__atomic_*` intrinsics
(core_ops_gcc_atomic.hpp:65–142), `__sync_*` (core_ops_gcc_sync.hpp:107–181), `lock xadd`, `xchg`,
`lock cmpxchg` (core_arch_ops_gcc_x86.hpp:130–160, 230–270, 340–380), LSE
`swp/ldadd/ldclr/ldset/ldeor/cas` (core_arch_ops_gcc_aarch64.hpp:118–420),
`_InterlockedExchangeAdd` etc. (core_ops_windows.hpp:60–110). -/
def oneMachine (code : Op → Code W Ret) : Machine W Op Ret where
  Loc := OneLoc Ret
  start _ := .begin
  step op w l w' l' := l = .begin ∧ ∃ r, (code op).Run w w' r ∧ l' = .fin r
  result | .fin r => some r | _ => none

/-! ### CAS loop -/

/-- Private state of a call in a CAS loop: not started, in the loop with the value it expects to
find (`old_val`), finished. -/
inductive CasLoc (W Ret : Type) where
  | begin
  | loop (old : W)
  | fin (r : Ret)

/-- The CAS loop of core_ops_cas_based.hpp:37–85, cas_based_exchange.hpp:35–41,
extending_cas_based_arithmetic.hpp:39–63, extra_ops_generic.hpp:52–100, 215–300, fp_ops_generic.hpp:42–70
and the x86 `cmpxchg` loops (core_arch_ops_gcc_x86.hpp:165–219; extra_ops_gcc_x86.hpp:36–150):
```
storage_type old_val;
atomics::detail::non_atomic_load(storage, old_val);
while (!base_type::compare_exchange_weak(storage, old_val, f(old_val), order, relaxed)) {}
return old_val;
```
`snapshot`: the non-atomic load may deliver any value (it may be torn or stale).
`loopFail`: `compare_exchange_weak` may fail at any time, also spuriously, and then leaves the current
word in `old_val`. -/
inductive CasStep (code : Op → Code W Ret) : Op → W → CasLoc W Ret → W → CasLoc W Ret → Prop where
  | load {op k w} : code op = .load k → CasStep code op w .begin w (.fin (k w))
  | store {op v r w} : code op = .store v r → CasStep code op w .begin v (.fin r)
  | weakOk {op d k w} : code op = .casWeak w d k → CasStep code op w .begin d (.fin (k true w))
  | weakFail {op e d k w} : code op = .casWeak e d k → CasStep code op w .begin w (.fin (k false w))
  | strongOk {op d k w} : code op = .casStrong w d k → CasStep code op w .begin d (.fin (k true w))
  | strongFail {op e d k w} : code op = .casStrong e d k → w ≠ e →
      CasStep code op w .begin w (.fin (k false w))
  | snapshot {op f k w} (old : W) : code op = .rmw f k → CasStep code op w .begin w (.loop old)
  | loopOk {op f k w} : code op = .rmw f k →
      CasStep code op w (.loop w) (f w) (.fin (k w (f w)))
  | loopFail {op f k w old} : code op = .rmw f k → CasStep code op w (.loop old) w (.loop w)

/-- CAS-loop back ends. -/
def casMachine (code : Op → Code W Ret) : Machine W Op Ret where
  Loc := CasLoc W Ret
  start _ := .begin
  step := CasStep code
  result | .fin r => some r | _ => none

/-! ### Load-linked / store-conditional loop -/

/-- Memory with reservations: the word and the number of stores made to it so far.  A reservation is
the store count seen by the load-linked; it is lost when the count has moved on. -/
structure LlMem (W : Type) where
  word : W
  ver : Nat

/-- Private state of a call in an LL/SC loop. -/
inductive LlLoc (W Ret : Type) where
  | begin
  | linked (x : W) (ver : Nat)
  | fin (r : Ret)

/-- LL/SC loops: core_arch_ops_gcc_arm.hpp:120–330 (`ldrex`/`strex`), core_arch_ops_gcc_aarch64.hpp:88–420,
core_arch_ops_gcc_aarch32.hpp:70–420, core_arch_ops_gcc_ppc.hpp:95–350 (`lwarx`/`stwcx.`),
core_arch_ops_gcc_alpha.hpp:90–350 (`ldl_l`/`stl_c`) and the extra_ops files of the same back ends.
* `sc`: the store-conditional may succeed only if no store was made since the load-linked;
* `scFail`: it may fail at any time; read-modify-write operations and the strong compare-exchange then
  start over, the weak compare-exchange returns `false` and the value read by the load-linked;
* a compare-exchange whose load-linked reads something else than `expected` returns without storing;
* plain loads and stores are single instructions. -/
inductive LlStep (code : Op → Code W Ret) :
    Op → LlMem W → LlLoc W Ret → LlMem W → LlLoc W Ret → Prop where
  | load {op k m} : code op = .load k → LlStep code op m .begin m (.fin (k m.word))
  | store {op v r m} : code op = .store v r →
      LlStep code op m .begin ⟨v, m.ver + 1⟩ (.fin r)
  | rmwLink {op f k m} : code op = .rmw f k → LlStep code op m .begin m (.linked m.word m.ver)
  | rmwSc {op f k m x} : code op = .rmw f k →
      LlStep code op m (.linked x m.ver) ⟨f x, m.ver + 1⟩ (.fin (k x (f x)))
  | rmwScFail {op f k m x v} : code op = .rmw f k → LlStep code op m (.linked x v) m .begin
  | weakLink {op d k m} : code op = .casWeak m.word d k →
      LlStep code op m .begin m (.linked m.word m.ver)
  | weakMiss {op e d k m} : code op = .casWeak e d k → m.word ≠ e →
      LlStep code op m .begin m (.fin (k false m.word))
  | weakSc {op e d k m x} : code op = .casWeak e d k →
      LlStep code op m (.linked x m.ver) ⟨d, m.ver + 1⟩ (.fin (k true x))
  | weakScFail {op e d k m x v} : code op = .casWeak e d k →
      LlStep code op m (.linked x v) m (.fin (k false x))
  | strongLink {op d k m} : code op = .casStrong m.word d k →
      LlStep code op m .begin m (.linked m.word m.ver)
  | strongMiss {op e d k m} : code op = .casStrong e d k → m.word ≠ e →
      LlStep code op m .begin m (.fin (k false m.word))
  | strongSc {op e d k m x} : code op = .casStrong e d k →
      LlStep code op m (.linked x m.ver) ⟨d, m.ver + 1⟩ (.fin (k true x))
  | strongScFail {op e d k m x v} : code op = .casStrong e d k →
      LlStep code op m (.linked x v) m .begin

/-- LL/SC back ends. -/
def llMachine (code : Op → Code W Ret) : Machine (LlMem W) Op Ret where
  Loc := LlLoc W Ret
  start _ := .begin
  step := LlStep code
  result | .fin r => some r | _ => none

/-! ### Mixtures of the above on one object -/

/-- Private state of a call in the mixed machine. -/
inductive MixLoc (W Ret : Type) where
  | begin
  | loop (old : W)
  | loopLinked (old : W) (ver : Nat)
  | linked (x : W) (ver : Nat)
  | fin (r : Ret)

/-- One back end usually mixes the skeletons on the same object: on x86 `fetch_add` is `lock xadd` while
`fetch_or` is a `cmpxchg` loop; on ARM and PowerPC `fetch_add` is an LL/SC loop while the generic `negate`
(extra_ops_generic.hpp:52–75) is a CAS loop around the LL/SC `compare_exchange_weak`.  Here every call may
at every point use any of them:
* `one`: a single instruction with the whole effect;
* `snapshot`, `loopOk`, `loopFail`: CAS loop around a CAS instruction;
* `loopLink`, `loopSc`, `loopScFail`: CAS loop around an LL/SC `compare_exchange_weak` (a mismatch or a
  failed store-conditional leaves the value read in `old_val`);
* the LL/SC loops of `LlStep`.
Every store increments the version, which cancels all reservations. -/
inductive MixStep (code : Op → Code W Ret) :
    Op → LlMem W → MixLoc W Ret → LlMem W → MixLoc W Ret → Prop where
  | one {op m w' r} : (code op).Run m.word w' r →
      MixStep code op m .begin ⟨w', m.ver + 1⟩ (.fin r)
  | snapshot {op f k m} (old : W) : code op = .rmw f k → MixStep code op m .begin m (.loop old)
  | loopOk {op f k m} : code op = .rmw f k →
      MixStep code op m (.loop m.word) ⟨f m.word, m.ver + 1⟩ (.fin (k m.word (f m.word)))
  | loopFail {op f k m old} : code op = .rmw f k → MixStep code op m (.loop old) m (.loop m.word)
  | loopLink {op f k m} : code op = .rmw f k →
      MixStep code op m (.loop m.word) m (.loopLinked m.word m.ver)
  | loopSc {op f k m x} : code op = .rmw f k →
      MixStep code op m (.loopLinked x m.ver) ⟨f x, m.ver + 1⟩ (.fin (k x (f x)))
  | loopScFail {op f k m x v} : code op = .rmw f k →
      MixStep code op m (.loopLinked x v) m (.loop x)
  | rmwLink {op f k m} : code op = .rmw f k → MixStep code op m .begin m (.linked m.word m.ver)
  | rmwSc {op f k m x} : code op = .rmw f k →
      MixStep code op m (.linked x m.ver) ⟨f x, m.ver + 1⟩ (.fin (k x (f x)))
  | rmwScFail {op f k m x v} : code op = .rmw f k → MixStep code op m (.linked x v) m .begin
  | weakLink {op d k m} : code op = .casWeak m.word d k →
      MixStep code op m .begin m (.linked m.word m.ver)
  | weakSc {op e d k m x} : code op = .casWeak e d k →
      MixStep code op m (.linked x m.ver) ⟨d, m.ver + 1⟩ (.fin (k true x))
  | weakScFail {op e d k m x v} : code op = .casWeak e d k →
      MixStep code op m (.linked x v) m (.fin (k false x))
  | strongLink {op d k m} : code op = .casStrong m.word d k →
      MixStep code op m .begin m (.linked m.word m.ver)
  | strongSc {op e d k m x} : code op = .casStrong e d k →
      MixStep code op m (.linked x m.ver) ⟨d, m.ver + 1⟩ (.fin (k true x))
  | strongScFail {op e d k m x v} : code op = .casStrong e d k →
      MixStep code op m (.linked x v) m .begin

/-- Any mixture of single instructions, CAS loops and LL/SC loops on one object. -/
def mixMachine (code : Op → Code W Ret) : Machine (LlMem W) Op Ret where
  Loc := MixLoc W Ret
  start _ := .begin
  step := MixStep code
  result | .fin r => some r | _ => none

/-! ### The Linux/ARM kernel helper -/

/-- Private state of a call on the kernel-helper back end. `reread`: the helper reported failure,
`expected = storage` (core_ops_linux_arm.hpp:137) has not been executed yet. -/
inductive KhLoc (W Ret : Type) where
  | begin
  | loop (old : W)
  | reread
  | fin (r : Ret)

/-- core_ops_linux_arm.hpp.  `compare_exchange_weak` (128–142) calls the kernel's cmpxchg helper, which
exchanges or fails (possibly although the comparison holds, if it was interrupted); after a failure the
current value is fetched by a *separate* volatile read (137).  `compare_exchange_strong` (112–126) repeats
until the exchange succeeds or the value read differs from `expected`.  Read-modify-write operations
are the CAS loops of core_ops_cas_based.hpp over that weak compare-exchange. Loads and stores (98–110)
are plain. -/
inductive KhStep (code : Op → Code W Ret) : Op → W → KhLoc W Ret → W → KhLoc W Ret → Prop where
  | load {op k w} : code op = .load k → KhStep code op w .begin w (.fin (k w))
  | store {op v r w} : code op = .store v r → KhStep code op w .begin v (.fin r)
  | weakOk {op d k w} : code op = .casWeak w d k → KhStep code op w .begin d (.fin (k true w))
  | weakHelperFail {op e d k w} : code op = .casWeak e d k → KhStep code op w .begin w .reread
  | weakReread {op e d k w} : code op = .casWeak e d k → KhStep code op w .reread w (.fin (k false w))
  | strongOk {op d k w} : code op = .casStrong w d k → KhStep code op w .begin d (.fin (k true w))
  | strongHelperFail {op e d k w} : code op = .casStrong e d k → KhStep code op w .begin w .reread
  | strongReturn {op e d k w} : code op = .casStrong e d k → w ≠ e →
      KhStep code op w .reread w (.fin (k false w))
  | strongRetry {op d k w} : code op = .casStrong w d k → KhStep code op w .reread w .begin
  | snapshot {op f k w} (old : W) : code op = .rmw f k → KhStep code op w .begin w (.loop old)
  | loopOk {op f k w} : code op = .rmw f k → KhStep code op w (.loop w) (f w) (.fin (k w (f w)))
  | loopHelperFail {op f k w old} : code op = .rmw f k → KhStep code op w (.loop old) w .reread
  | loopReread {op f k w} : code op = .rmw f k → KhStep code op w .reread w (.loop w)

/-- Kernel-helper back end. -/
def khMachine (code : Op → Code W Ret) : Machine W Op Ret where
  Loc := KhLoc W Ret
  start _ := .begin
  step := KhStep code
  result | .fin r => some r | _ => none

/-! ### Lock pool -/

/-- A storage cell accessed with plain (multi-instruction) reads and writes: either it holds a value
or a write to it is in progress (`old` is what it held before; no step of the model reads it). -/
inductive Cell (W : Type) where
  | whole (w : W)
  | writing (old : W)

/-- Shared memory of the lock-based back end: all cells of the process and all locks of the pool. -/
structure LkMem (Addr W : Type) where
  cell : Addr → Cell W
  locked : Nat → Bool

/-- Private state of a call on the lock-based back end. `race` is the undefined behaviour of touching a
cell that another call is in the middle of writing. -/
inductive LkLoc (W Ret : Type) where
  | begin
  | locked
  | toWrite (w' : W) (r : Ret)
  | midWrite (w' : W) (r : Ret)
  | unlocking (r : Ret)
  | fin (r : Ret)
  | race

/-- core_operations_emulated.hpp:69–173, extra_ops_emulated.hpp:41–242, fp_ops_emulated.hpp:42–62 and
extra_fp_ops_emulated.hpp:42–102: every operation, loads and stores included, constructs a `scoped_lock`
on the address of the storage (lock_pool.hpp:94–122), reads the storage, possibly writes it, and
releases the lock when it goes out of scope.  `idx a` is the lock chosen for address `a`
(lock_pool.cpp:977–980 of `hash_ptr`); different addresses may share a lock.
`bodyNoWrite`: loads and failed compare-exchanges leave the storage alone.
`acquire` is the successful end of `short_lock`; how the lock itself works is modelled in `Verif.Mutex`. -/
inductive LkStep {Addr : Type} [DecidableEq Addr] (idx : Addr → Nat) (code : Op → Code W Ret) :
    Addr × Op → LkMem Addr W → LkLoc W Ret → LkMem Addr W → LkLoc W Ret → Prop where
  | acquire {a op m} : m.locked (idx a) = false →
      LkStep idx code (a, op) m .begin ⟨m.cell, upd m.locked (idx a) true⟩ .locked
  | body {a op m w w' r} : m.cell a = .whole w → (code op).Run w w' r →
      LkStep idx code (a, op) m .locked m (.toWrite w' r)
  | bodyNoWrite {a op m w r} : m.cell a = .whole w → (code op).Run w w r →
      LkStep idx code (a, op) m .locked m (.unlocking r)
  | bodyRace {a op m old} : m.cell a = .writing old → LkStep idx code (a, op) m .locked m .race
  | writeBegin {a op m w w' r} : m.cell a = .whole w →
      LkStep idx code (a, op) m (.toWrite w' r) ⟨upd m.cell a (.writing w), m.locked⟩ (.midWrite w' r)
  | writeRace {a op m w' r old} : m.cell a = .writing old →
      LkStep idx code (a, op) m (.toWrite w' r) m .race
  | writeEnd {a op m w' r} :
      LkStep idx code (a, op) m (.midWrite w' r) ⟨upd m.cell a (.whole w'), m.locked⟩ (.unlocking r)
  | release {a op m r} :
      LkStep idx code (a, op) m (.unlocking r) ⟨m.cell, upd m.locked (idx a) false⟩ (.fin r)

/-- Lock-based back end, for all objects of the process at once. -/
def lkMachine {Addr : Type} [DecidableEq Addr] (idx : Addr → Nat) (code : Op → Code W Ret) :
    Machine (LkMem Addr W) (Addr × Op) Ret where
  Loc := LkLoc W Ret
  start _ := .begin
  step := LkStep idx code
  result | .fin r => some r | _ => none

/-! ### Double-width back ends: loads and stores without a wide load or store instruction -/

/-- Where the hardware has a wide compare-exchange but no wide load/store: `load` is a
compare-exchange of some value `j` with itself (core_arch_ops_gcc_x86.hpp:573–650 `cmpxchg8b` with
`ebx:ecx = edx:eax`, and the 16-byte analogue; core_ops_gcc_sync.hpp:98–105
`__sync_val_compare_and_swap(&storage, 0, 0)`), and `store` is a compare-exchange loop
(core_arch_ops_gcc_x86.hpp:500–570). -/
def viaCas (j : W) : Code W Ret → Code W Ret
  | .load k => .casStrong j j fun _ w => k w
  | .store v r => .rmw (fun _ => v) (fun _ _ => r)
  | c => c

/-- Where the hardware has wide LL/SC but no wide single-copy-atomic load/store: `load` links and stores
back the value read (core_arch_ops_gcc_aarch64.hpp:1740–1790 `ldxp`/`stxp`), `store` is an LL/SC loop
(1710–1738; core_arch_ops_gcc_arm.hpp:1145–1190 `ldrexd`/`strexd`). Also the load of
core_ops_windows.hpp:77–80, `fetch_add(storage, 0)`. -/
def viaRmw : Code W Ret → Code W Ret
  | .load k => .rmw (fun w => w) (fun w _ => k w)
  | .store v r => .rmw (fun _ => v) (fun _ _ => r)
  | c => c

end Verif.Concurrent
