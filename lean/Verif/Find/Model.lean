/-
Model of the address search of the lock pool: the generic search and its SSE2 and SSE4.1
versions, instruction by instruction (C29).

* `src/lock_pool.cpp` 102-112 (`find_address_generic`), 146-187 (dispatch);
* `src/find_address_sse2.cpp` 71-281, `src/find_address_sse41.cpp` 36-146;
* `src/bit_operation_tools.hpp` 36-72 (`count_trailing_zeros`);
* `src/x86_vector_tools.hpp` 33-42 (`mm_set1_epiptr`).

A 128-bit register is a `BitVec 128`; each intrinsic is defined from Intel's description of
it, on lanes numbered from the least significant end.  `std::size_t` quantities are `Nat`:
they are bounded by the number of elements of an array in memory, so the additions `size + 1`
and `pos + 16` cannot wrap (`C29_round_up` relates the mask expression to the division used
here for every word size).
-/

namespace Verif.Find

/-! ### Memory -/

/-- The array of addresses `addrs` points to: `cap` elements of `w` bits, the first at an
address aligned to 16 bytes (`wait_state_list::entries_alignment`, src/lock_pool.cpp:248,
and `buffer_alignment`, :246).  `get` beyond `cap` is memory that does not belong to the array. -/
structure Arr (w : Nat) where
  cap : Nat
  get : Nat → BitVec w

/-- Reading one element; outside of the array it is a fault (`none`). -/
def Arr.read {w : Nat} (A : Arr w) (i : Nat) : Option (BitVec w) :=
  if i < A.cap then some (A.get i) else none

/-! ### Registers and intrinsics -/

/-- The word whose bit `i` is `f i`. -/
def ofBits : (w : Nat) → (Nat → Bool) → BitVec w
  | 0, _ => 0#0
  | w + 1, f => BitVec.cons (f w) (ofBits w f)

/-- An SSE register (`__m128i`). -/
abbrev M128 := BitVec 128

/-- Lane `i` of a register viewed as lanes of `k` bits. -/
def lane (k i : Nat) (v : M128) : BitVec k := v.extractLsb' (k * i) k

/-- The register whose lanes of `k` bits are given by `f`. -/
def ofLanes (k : Nat) (f : Nat → BitVec k) : M128 :=
  ofBits 128 (fun j => (f (j / k)).getLsbD (j % k))

/-- `_mm_load_si128(addrs + pos)` for 64-bit elements: two consecutive elements.  The address
must be a multiple of 16 bytes, i.e. `pos` even, and the elements must lie in the array;
otherwise the access faults. -/
def load64 (A : Arr 64) (pos : Nat) : Option M128 :=
  if pos % 2 = 0 ∧ pos + 2 ≤ A.cap then some (ofLanes 64 (fun i => A.get (pos + i))) else none

/-- `_mm_load_si128(addrs + pos)` for 32-bit elements: four consecutive elements, `pos` a
multiple of four. -/
def load32 (A : Arr 32) (pos : Nat) : Option M128 :=
  if pos % 4 = 0 ∧ pos + 4 ≤ A.cap then some (ofLanes 32 (fun i => A.get (pos + i))) else none

/-- `_mm_set1_epi64x` / `_mm_set1_epi32`. -/
def set1 (k : Nat) (x : BitVec k) : M128 := ofLanes k (fun _ => x)

/-- `mm_set1_epiptr` (x86_vector_tools.hpp:33-42), branch for old MSVC: the register is put
together from 32-bit halves. -/
def set1_epiptr_msvc (ptr : BitVec 64) : M128 :=
  let lo : BitVec 32 := ptr.truncate 32
  let hi : BitVec 32 := (ptr >>> 32).truncate 32
  -- _mm_set_epi32(hi, lo, hi, lo): arguments from the most significant lane down
  ofLanes 32 (fun i => if i % 2 = 0 then lo else hi)

/-- `_mm_cmpeq_epi32` (`k = 32`), `_mm_cmpeq_epi64` (`k = 64`). -/
def cmpeq (k : Nat) (a b : M128) : M128 :=
  ofLanes k (fun i => if lane k i a = lane k i b then BitVec.allOnes k else 0#k)

/-- `_MM_SHUFFLE(z, y, x, w)`. -/
def mmShuffle (z y x w : Nat) : Nat := z * 64 + y * 16 + x * 4 + w

/-- The selector for lane `i` in an immediate. -/
def sel (imm i : Nat) : Nat := imm / 4 ^ i % 4

/-- `_mm_shuffle_ps`: the two low lanes come from `a`, the two high lanes from `b`. -/
def shuffle_ps (a b : M128) (imm : Nat) : M128 :=
  ofLanes 32 (fun i => if i < 2 then lane 32 (sel imm i) a else lane 32 (sel imm i) b)

/-- `_mm_shuffle_epi32`. -/
def shuffle_epi32 (a : M128) (imm : Nat) : M128 :=
  ofLanes 32 (fun i => lane 32 (sel imm i) a)

/-- `_mm_and_si128` / `pand`. -/
def pand (a b : M128) : M128 := a &&& b

/-- Signed saturation to `k` bits. -/
def sat (k : Nat) {m : Nat} (x : BitVec m) : BitVec k :=
  if x.toInt > 2 ^ (k - 1) - 1 then BitVec.ofInt k (2 ^ (k - 1) - 1)
  else if x.toInt < -(2 ^ (k - 1)) then BitVec.ofInt k (-(2 ^ (k - 1)))
  else BitVec.ofInt k x.toInt

/-- `_mm_packs_epi32`. -/
def packs_epi32 (a b : M128) : M128 :=
  ofLanes 16 (fun i => if i < 4 then sat 16 (lane 32 i a) else sat 16 (lane 32 (i - 4) b))

/-- `_mm_packs_epi16`. -/
def packs_epi16 (a b : M128) : M128 :=
  ofLanes 8 (fun i => if i < 8 then sat 8 (lane 16 i a) else sat 8 (lane 16 (i - 8) b))

/-- `_mm_movemask_epi8`. -/
def movemask_epi8 (v : M128) : BitVec 32 := ofBits 32 (fun i => decide (i < 16) && (lane 8 i v).msb)

/-- `_mm_movemask_ps`. -/
def movemask_ps (v : M128) : BitVec 32 := ofBits 32 (fun i => decide (i < 4) && (lane 32 i v).msb)

/-- `_mm_movemask_pd`. -/
def movemask_pd (v : M128) : BitVec 32 := ofBits 32 (fun i => decide (i < 2) && (lane 64 i v).msb)

/-! ### count_trailing_zeros (src/bit_operation_tools.hpp:36-72) -/

/-- `__builtin_ctz` / `_BitScanForward`: the position of the lowest set bit; undefined for
zero (`none`). -/
def builtin_ctz (x : BitVec 32) : Option Nat :=
  if x = 0 then none else (List.range 32).find? (fun i => x.getLsbD i)

/-- The portable branch (bit_operation_tools.hpp:45-70). -/
def portable_ctz (x : BitVec 32) : Nat :=
  let index := 0
  let (x, index) := if x &&& 0xFFFF#32 = 0#32 then (x >>> 16, index + 16) else (x, index)
  let (x, index) := if x &&& 0xFF#32 = 0#32 then (x >>> 8, index + 8) else (x, index)
  let (x, index) := if x &&& 0xF#32 = 0#32 then (x >>> 4, index + 4) else (x, index)
  let (x, index) := if x &&& 0x3#32 = 0#32 then (x >>> 2, index + 2) else (x, index)
  let index := if x &&& 0x1#32 = 0#32 then index + 1 else index
  index

/-! ### Control flow of the search functions -/

/-- How a fragment of a search function ends: an invalid memory access or undefined
intrinsic, `goto done` with the position found, or falling through with a new position. -/
inductive Res where
  | fault
  | done (pos : Nat)
  | next (pos : Nat)
  deriving DecidableEq

/-- Continue after a fragment that fell through. -/
def Res.andThen (r : Res) (k : Nat → Res) : Res :=
  match r with
  | .fault => .fault
  | .done p => .done p
  | .next p => k p

/-- The label `done:` at the end of each function: return `pos`. -/
def Res.result : Res → Option Nat
  | .fault => none
  | .done p => some p
  | .next p => some p

/-- `if (mask) { pos += count_trailing_zeros(mask) / div; goto done; }  pos += step;`
where the mask was computed from loads that may fault. -/
def blockTail (mask : Option (BitVec 32)) (pos div step : Nat) : Res :=
  match mask with
  | none => .fault
  | some mask =>
    if mask ≠ 0 then
      match builtin_ctz mask with
      | none => .fault
      | some c => .done (pos + c / div)
    else .next (pos + step)

/-- `for (m = …; pos < m; pos += 16u) { … }` with body `block`. -/
def loop16 (block : Nat → Option (BitVec 32)) (m : Nat) (pos : Nat) : Res :=
  if _h : pos < m then
    (blockTail (block pos) pos 1 16).andThen (fun _ => loop16 block m (pos + 16))
  else .next pos
termination_by m - pos

/-- `find_address_generic` (src/lock_pool.cpp:103-112), from index `i` on. -/
def genericFrom {w : Nat} (addr : BitVec w) (A : Arr w) (size i : Nat) : Option Nat :=
  if _h : i < size then
    match A.read i with
    | none => none
    | some a => if a = addr then some i else genericFrom addr A size (i + 1)
  else some size
termination_by size - i

/-- `find_address_generic` (src/lock_pool.cpp:103-112). -/
def find_address_generic {w : Nat} (addr : BitVec w) (A : Arr w) (size : Nat) : Option Nat :=
  genericFrom addr A size 0

/-! ### SSE2, 64-bit (src/find_address_sse2.cpp:73-206) -/

/-- The body of the 16-element loop (find_address_sse2.cpp:83-123), with the comparand
register `mm_addr`. -/
def sse2_64_block16 (A : Arr 64) (mm_addr : M128) (pos : Nat) : Option (BitVec 32) := do
  let mm1 ← load64 A pos
  let mm2 ← load64 A (pos + 2)
  let mm3 ← load64 A (pos + 4)
  let mm4 ← load64 A (pos + 6)
  let mm5 ← load64 A (pos + 8)
  let mm6 ← load64 A (pos + 10)
  let mm7 ← load64 A (pos + 12)
  let mm8 ← load64 A (pos + 14)
  let mm1 := cmpeq 32 mm1 mm_addr
  let mm2 := cmpeq 32 mm2 mm_addr
  let mm3 := cmpeq 32 mm3 mm_addr
  let mm4 := cmpeq 32 mm4 mm_addr
  let mm5 := cmpeq 32 mm5 mm_addr
  let mm6 := cmpeq 32 mm6 mm_addr
  let mm7 := cmpeq 32 mm7 mm_addr
  let mm8 := cmpeq 32 mm8 mm_addr
  let mm_mask1_lo := shuffle_ps mm1 mm2 (mmShuffle 2 0 2 0)
  let mm_mask1_hi := shuffle_ps mm1 mm2 (mmShuffle 3 1 3 1)
  let mm_mask2_lo := shuffle_ps mm3 mm4 (mmShuffle 2 0 2 0)
  let mm_mask2_hi := shuffle_ps mm3 mm4 (mmShuffle 3 1 3 1)
  let mm_mask3_lo := shuffle_ps mm5 mm6 (mmShuffle 2 0 2 0)
  let mm_mask3_hi := shuffle_ps mm5 mm6 (mmShuffle 3 1 3 1)
  let mm_mask4_lo := shuffle_ps mm7 mm8 (mmShuffle 2 0 2 0)
  let mm_mask4_hi := shuffle_ps mm7 mm8 (mmShuffle 3 1 3 1)
  let mm_mask1_lo := pand mm_mask1_lo mm_mask1_hi
  let mm_mask2_lo := pand mm_mask2_lo mm_mask2_hi
  let mm_mask3_lo := pand mm_mask3_lo mm_mask3_hi
  let mm_mask4_lo := pand mm_mask4_lo mm_mask4_hi
  let mm_mask1_lo := packs_epi32 mm_mask1_lo mm_mask2_lo
  let mm_mask3_lo := packs_epi32 mm_mask3_lo mm_mask4_lo
  let mm_mask1_lo := packs_epi16 mm_mask1_lo mm_mask3_lo
  pure (movemask_epi8 mm_mask1_lo)

/-- The 8-element step (find_address_sse2.cpp:133-154). -/
def sse2_64_block8 (A : Arr 64) (mm_addr : M128) (pos : Nat) : Option (BitVec 32) := do
  let mm1 ← load64 A pos
  let mm2 ← load64 A (pos + 2)
  let mm3 ← load64 A (pos + 4)
  let mm4 ← load64 A (pos + 6)
  let mm1 := cmpeq 32 mm1 mm_addr
  let mm2 := cmpeq 32 mm2 mm_addr
  let mm3 := cmpeq 32 mm3 mm_addr
  let mm4 := cmpeq 32 mm4 mm_addr
  let mm_mask1_lo := shuffle_ps mm1 mm2 (mmShuffle 2 0 2 0)
  let mm_mask1_hi := shuffle_ps mm1 mm2 (mmShuffle 3 1 3 1)
  let mm_mask2_lo := shuffle_ps mm3 mm4 (mmShuffle 2 0 2 0)
  let mm_mask2_hi := shuffle_ps mm3 mm4 (mmShuffle 3 1 3 1)
  let mm_mask1_lo := pand mm_mask1_lo mm_mask1_hi
  let mm_mask2_lo := pand mm_mask2_lo mm_mask2_hi
  let mm_mask1_lo := packs_epi32 mm_mask1_lo mm_mask2_lo
  pure (movemask_epi8 mm_mask1_lo)

/-- The 4-element step (find_address_sse2.cpp:166-177). -/
def sse2_64_block4 (A : Arr 64) (mm_addr : M128) (pos : Nat) : Option (BitVec 32) := do
  let mm1 ← load64 A pos
  let mm2 ← load64 A (pos + 2)
  let mm1 := cmpeq 32 mm1 mm_addr
  let mm2 := cmpeq 32 mm2 mm_addr
  let mm_mask1_lo := shuffle_ps mm1 mm2 (mmShuffle 2 0 2 0)
  let mm_mask1_hi := shuffle_ps mm1 mm2 (mmShuffle 3 1 3 1)
  let mm_mask1_lo := pand mm_mask1_lo mm_mask1_hi
  pure (movemask_ps mm_mask1_lo)

/-- The 2-element step (find_address_sse2.cpp:189-195). -/
def sse2_64_block2 (A : Arr 64) (mm_addr : M128) (pos : Nat) : Option (BitVec 32) := do
  let mm1 ← load64 A pos
  let mm1 := cmpeq 32 mm1 mm_addr
  let mm_mask := shuffle_epi32 mm1 (mmShuffle 2 3 0 1)
  let mm_mask := pand mm_mask mm1
  pure (movemask_pd mm_mask)

/-- `find_address_sse2` for 64-bit pointers (find_address_sse2.cpp:71-206). -/
def find_address_sse2_64 (addr : BitVec 64) (A : Arr 64) (size : Nat) : Option Nat :=
  if size < 12 then find_address_generic addr A size
  else
    let mm_addr := set1 64 addr
    let n := (size + 1) / 2 * 2
    let m := n / 16 * 16
    ((((loop16 (sse2_64_block16 A mm_addr) m 0).andThen fun pos =>
        if n - pos ≥ 8 then blockTail (sse2_64_block8 A mm_addr pos) pos 2 8 else .next pos).andThen fun pos =>
        if n - pos ≥ 4 then blockTail (sse2_64_block4 A mm_addr pos) pos 1 4 else .next pos).andThen fun pos =>
        if pos < n then blockTail (sse2_64_block2 A mm_addr pos) pos 1 2 else .next pos).result

/-! ### SSE4.1, 64-bit (src/find_address_sse41.cpp:36-146) -/

/-- The body of the 16-element loop (find_address_sse41.cpp:46-74). -/
def sse41_block16 (A : Arr 64) (mm_addr : M128) (pos : Nat) : Option (BitVec 32) := do
  let mm1 ← load64 A pos
  let mm2 ← load64 A (pos + 2)
  let mm3 ← load64 A (pos + 4)
  let mm4 ← load64 A (pos + 6)
  let mm5 ← load64 A (pos + 8)
  let mm6 ← load64 A (pos + 10)
  let mm7 ← load64 A (pos + 12)
  let mm8 ← load64 A (pos + 14)
  let mm1 := cmpeq 64 mm1 mm_addr
  let mm2 := cmpeq 64 mm2 mm_addr
  let mm3 := cmpeq 64 mm3 mm_addr
  let mm4 := cmpeq 64 mm4 mm_addr
  let mm5 := cmpeq 64 mm5 mm_addr
  let mm6 := cmpeq 64 mm6 mm_addr
  let mm7 := cmpeq 64 mm7 mm_addr
  let mm8 := cmpeq 64 mm8 mm_addr
  let mm1 := shuffle_ps mm1 mm2 (mmShuffle 2 0 2 0)
  let mm3 := shuffle_ps mm3 mm4 (mmShuffle 2 0 2 0)
  let mm5 := shuffle_ps mm5 mm6 (mmShuffle 2 0 2 0)
  let mm7 := shuffle_ps mm7 mm8 (mmShuffle 2 0 2 0)
  let mm1 := packs_epi32 mm1 mm3
  let mm5 := packs_epi32 mm5 mm7
  let mm1 := packs_epi16 mm1 mm5
  pure (movemask_epi8 mm1)

/-- The 8-element step (find_address_sse41.cpp:84-99). -/
def sse41_block8 (A : Arr 64) (mm_addr : M128) (pos : Nat) : Option (BitVec 32) := do
  let mm1 ← load64 A pos
  let mm2 ← load64 A (pos + 2)
  let mm3 ← load64 A (pos + 4)
  let mm4 ← load64 A (pos + 6)
  let mm1 := cmpeq 64 mm1 mm_addr
  let mm2 := cmpeq 64 mm2 mm_addr
  let mm3 := cmpeq 64 mm3 mm_addr
  let mm4 := cmpeq 64 mm4 mm_addr
  let mm1 := shuffle_ps mm1 mm2 (mmShuffle 2 0 2 0)
  let mm3 := shuffle_ps mm3 mm4 (mmShuffle 2 0 2 0)
  let mm1 := packs_epi32 mm1 mm3
  pure (movemask_epi8 mm1)

/-- The 4-element step (find_address_sse41.cpp:111-119). -/
def sse41_block4 (A : Arr 64) (mm_addr : M128) (pos : Nat) : Option (BitVec 32) := do
  let mm1 ← load64 A pos
  let mm2 ← load64 A (pos + 2)
  let mm1 := cmpeq 64 mm1 mm_addr
  let mm2 := cmpeq 64 mm2 mm_addr
  let mm1 := shuffle_ps mm1 mm2 (mmShuffle 2 0 2 0)
  pure (movemask_ps mm1)

/-- The 2-element step (find_address_sse41.cpp:131-134). -/
def sse41_block2 (A : Arr 64) (mm_addr : M128) (pos : Nat) : Option (BitVec 32) := do
  let mm1 ← load64 A pos
  let mm1 := cmpeq 64 mm1 mm_addr
  pure (movemask_pd mm1)

/-- `find_address_sse41` (find_address_sse41.cpp:36-146). -/
def find_address_sse41 (addr : BitVec 64) (A : Arr 64) (size : Nat) : Option Nat :=
  if size < 12 then find_address_generic addr A size
  else
    let mm_addr := set1 64 addr
    let n := (size + 1) / 2 * 2
    let m := n / 16 * 16
    ((((loop16 (sse41_block16 A mm_addr) m 0).andThen fun pos =>
        if n - pos ≥ 8 then blockTail (sse41_block8 A mm_addr pos) pos 2 8 else .next pos).andThen fun pos =>
        if n - pos ≥ 4 then blockTail (sse41_block4 A mm_addr pos) pos 1 4 else .next pos).andThen fun pos =>
        if pos < n then blockTail (sse41_block2 A mm_addr pos) pos 1 2 else .next pos).result

/-! ### SSE2, 32-bit (src/find_address_sse2.cpp:208-278) -/

/-- The body of the 16-element loop (find_address_sse2.cpp:218-233). -/
def sse2_32_block16 (A : Arr 32) (mm_addr : M128) (pos : Nat) : Option (BitVec 32) := do
  let mm1 ← load32 A pos
  let mm2 ← load32 A (pos + 4)
  let mm3 ← load32 A (pos + 8)
  let mm4 ← load32 A (pos + 12)
  let mm1 := cmpeq 32 mm1 mm_addr
  let mm2 := cmpeq 32 mm2 mm_addr
  let mm3 := cmpeq 32 mm3 mm_addr
  let mm4 := cmpeq 32 mm4 mm_addr
  let mm1 := packs_epi32 mm1 mm2
  let mm3 := packs_epi32 mm3 mm4
  let mm1 := packs_epi16 mm1 mm3
  pure (movemask_epi8 mm1)

/-- The 8-element step (find_address_sse2.cpp:243-251). -/
def sse2_32_block8 (A : Arr 32) (mm_addr : M128) (pos : Nat) : Option (BitVec 32) := do
  let mm1 ← load32 A pos
  let mm2 ← load32 A (pos + 4)
  let mm1 := cmpeq 32 mm1 mm_addr
  let mm2 := cmpeq 32 mm2 mm_addr
  let mm1 := packs_epi32 mm1 mm2
  pure (movemask_epi8 mm1)

/-- The 4-element step (find_address_sse2.cpp:263-267). -/
def sse2_32_block4 (A : Arr 32) (mm_addr : M128) (pos : Nat) : Option (BitVec 32) := do
  let mm1 ← load32 A pos
  let mm1 := cmpeq 32 mm1 mm_addr
  pure (movemask_ps mm1)

/-- `find_address_sse2` for 32-bit pointers (find_address_sse2.cpp:208-278). -/
def find_address_sse2_32 (addr : BitVec 32) (A : Arr 32) (size : Nat) : Option Nat :=
  if size < 10 then find_address_generic addr A size
  else
    let mm_addr := set1 32 addr
    let n := (size + 3) / 4 * 4
    let m := n / 16 * 16
    (((loop16 (sse2_32_block16 A mm_addr) m 0).andThen fun pos =>
        if n - pos ≥ 8 then blockTail (sse2_32_block8 A mm_addr pos) pos 2 8 else .next pos).andThen fun pos =>
        if pos < n then blockTail (sse2_32_block4 A mm_addr pos) pos 1 4 else .next pos).result

/-! ### Run-time dispatch (src/lock_pool.cpp:146-178) -/

/-- The search functions that can be selected. -/
inductive Impl where
  | generic
  | sse2
  | sse41
  deriving DecidableEq

/-- What `cpuid` reports: the largest function number (leaf 0) and the feature words of
leaf 1. -/
structure Cpu where
  maxLeaf : BitVec 32
  edx : BitVec 32
  ecx : BitVec 32

/-- `find_address_dispatch` (src/lock_pool.cpp:146-178): the function selected.  `ptr64` is
`BOOST_ATOMIC_DETAIL_SIZEOF_POINTER == 8`, `useSse41` is `BOOST_ATOMIC_USE_SSE41`. -/
def dispatch (ptr64 useSse41 : Bool) (c : Cpu) : Impl :=
  let find_addr := Impl.generic
  if 1#32 ≤ c.maxLeaf then
    let find_addr := if c.edx &&& (1#32 <<< 26) ≠ 0#32 then Impl.sse2 else find_addr
    if useSse41 && ptr64 then
      if c.ecx &&& (1#32 <<< 19) ≠ 0#32 then Impl.sse41 else find_addr
    else find_addr
  else find_addr

/-- Calling the selected function, 64-bit pointers. -/
def runImpl64 : Impl → BitVec 64 → Arr 64 → Nat → Option Nat
  | .generic => find_address_generic
  | .sse2 => find_address_sse2_64
  | .sse41 => find_address_sse41

/-- Calling the selected function, 32-bit pointers (`find_address_sse41` exists only for
64-bit pointers, src/find_address.hpp:34-36). -/
def runImpl32 : Impl → BitVec 32 → Arr 32 → Nat → Option Nat
  | .generic => find_address_generic
  | .sse2 => find_address_sse2_32
  | .sse41 => fun _ _ _ => none

end Verif.Find
