import Verif.Asm.IsaX86

/-
The x86 instructions used by the `__asm` blocks of include/boost/atomic/detail/core_arch_ops_msvc_x86.hpp and
extra_ops_msvc_x86.hpp that are not in `Verif.Asm.IsaX86`.  The blocks are written in Intel syntax (destination first);
here, as there, the source comes first.

An `__asm` block accesses variables of the enclosing function by their names, and registers.  Both are modelled as
slots: variables have the numbers 0 to 39 and, as objects in memory, never share a place; the registers `eax`, `ecx`,
`edx`, `ebx`, `esi`, `edi` have the numbers 40, 41, 42, 43, 46 and 47.

Simplification: `expected` is a reference.  An access through `esi` after `mov esi, expected` is modelled as an access
to the variable `expected`; the generator checks that `esi` still holds the address.
-/

namespace Verif.Asm.X86

variable {R M : Nat}

/-- `mov d, s` with operands of `w` bits. -/
@[asm] def movw (w : Nat) (s d : Slot) : Ins R M :=
  .comp [s, d] [d] fun v fl => ([put (v1 v) ((v0 v).setWidth w)], fl)
/-- `movzx d, [a]` or, for objects of the size of a register, `mov d, [a]`: loads the object. -/
@[asm] def ldz (a d : Slot) : Ins R M := .load a .plain true [d] fun m => [m.setWidth R]
/-- `test d, s` with operands of `w` bits. -/
@[asm] def testr (w : Nat) (s d : Slot) : Ins R M := .comp [s, d] [] fun v _ =>
  ([], ⟨(v1 v).setWidth w &&& (v0 v).setWidth w == 0#w, false⟩)

end Verif.Asm.X86
