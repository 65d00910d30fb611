import Verif.Asm.IsaArm

/-
The SPARC V9 instructions used by include/boost/atomic/detail/core_arch_ops_gcc_sparc.hpp, after The SPARC
Architecture Manual, Version 9.  Registers have 64 bits.
-/

namespace Verif.Asm.Sparc

variable {M : Nat}

/-- `cas [a], e, d` (32 bits), `casx [a], e, d` (64 bits): compares the word in memory with the low part of `e`,
exchanges it with the low part of `d` if they are equal, and loads it into `d`, zero-extended, otherwise. -/
@[asm] def casN (a e d : Slot) : Ins 64 M := .rmw a [e, d] [d] fun m v fl =>
  (if m == (v0 v).setWidth M then some ((v1 v).setWidth M) else none, [m.setWidth 64], fl)
/-- `cas [a], e, d`. -/
@[asm] def cas (a e d : Slot) : Ins 64 32 := casN a e d
/-- `casx [a], e, d`. -/
@[asm] def casx (a e d : Slot) : Ins 64 64 := casN a e d
/-- `swap [a], d`: exchanges the word in memory with the low part of `d`. -/
@[asm] def swap (a d : Slot) : Ins 64 32 := .rmw a [d] [d] fun m v fl => (some ((v0 v).setWidth 32), [m.setWidth 64], fl)

end Verif.Asm.Sparc
