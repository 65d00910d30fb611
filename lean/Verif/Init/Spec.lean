import Verif.Bytes.Spec

/-
What `T()` is, as far as bytes are concerned.

Value-initialisation of a type without a constructor of its own is zero-initialisation ([dcl.init]): every scalar in it is set to
the value the literal 0 converts to, and padding is set to zero bits.  For arithmetic types and enumerations that is zero, for
pointers and pointers to members it is the null pointer.  How null pointers are represented is a matter of the implementation.
-/

namespace Verif.Init.Spec

open Verif.Bytes

/-- The scalars zero-initialisation tells apart. -/
inductive Scalar where
  /-- integers, characters, `bool`, enumerations and floating point -/
  | arithmetic
  /-- pointers to objects and functions, `std::nullptr_t` -/
  | pointer
  /-- pointers to data members -/
  | dataMember
  /-- pointers to member functions -/
  | memberFunction
  deriving DecidableEq, Repr

/-- The byte that null pointers of an implementation consist of. -/
structure Abi where
  pointer : Byte
  dataMember : Byte
  memberFunction : Byte

/-- A byte of the scalar 0 converts to. -/
def Abi.zero (abi : Abi) : Scalar → Byte
  | .arithmetic => 0
  | .pointer => abi.pointer
  | .dataMember => abi.dataMember
  | .memberFunction => abi.memberFunction

/-- The Itanium C++ ABI, sections 2.3.1 and 2.3.2: a pointer to a data member is an offset, and −1 is the null pointer; the null
pointer to a member function is zero.  Microsoft's compilers also represent the null pointer to a data member of a class by −1. -/
def itanium : Abi := ⟨0, 0xff, 0⟩

/-- A scalar in an object: a member, an element of an array, a part of a base class, or the object itself.  Of the members of a
union only the first one is initialised. -/
structure Part where
  offset : Nat
  size : Nat
  kind : Scalar

/-- The part that byte `i` belongs to. -/
def Part.has (p : Part) (i : Nat) : Bool := p.offset ≤ i && i < p.offset + p.size

/-- The zero-initialised object. -/
def zeroInit (abi : Abi) (parts : List Part) (n : Nat) : Bytes n := fun i =>
  match parts.find? (·.has i.1) with
  | some p => abi.zero p.kind
  | none => 0

/-- `T()`: what the constructor makes, or, for types whose default constructor is trivial, the zero-initialised object. -/
def valueInit (abi : Abi) (parts : List Part) {n : Nat} (ctor : Option (Bytes n)) : Bytes n :=
  ctor.getD (zeroInit abi parts n)

end Verif.Init.Spec
