import Verif.Asm.Interlocked

/-
The macros of interlocked.hpp and their uses.  Written by tools/intrgen.py from the source text.
-/

namespace Verif.Asm.Interlocked

/-- Macros defined by interlocked.hpp. -/
def table0 : List (Name × Call) := [
  (⟨.compareExchange, 32, .full⟩, ⟨⟨.compareExchange, 32, .full⟩, [.param 0 32, .param 1 32, .param 2 32]⟩),
  (⟨.exchangeAdd, 32, .full⟩, ⟨⟨.exchangeAdd, 32, .full⟩, [.param 0 32, .param 1 32]⟩),
  (⟨.exchange, 32, .full⟩, ⟨⟨.exchange, 32, .full⟩, [.param 0 32, .param 1 32]⟩)]

/-- Macros defined by interlocked.hpp. -/
def table1 : List (Name × Call) := [
  (⟨.compareExchange, 32, .full⟩, ⟨⟨.compareExchange, 32, .full⟩, [.param 0 32, .param 1 32, .param 2 32]⟩),
  (⟨.exchangeAdd, 32, .full⟩, ⟨⟨.exchangeAdd, 32, .full⟩, [.param 0 32, .param 1 32]⟩),
  (⟨.exchange, 32, .full⟩, ⟨⟨.exchange, 32, .full⟩, [.param 0 32, .param 1 32]⟩),
  (⟨.and, 32, .full⟩, ⟨⟨.and, 32, .full⟩, [.param 0 32, .param 1 32]⟩),
  (⟨.or, 32, .full⟩, ⟨⟨.or, 32, .full⟩, [.param 0 32, .param 1 32]⟩),
  (⟨.xor, 32, .full⟩, ⟨⟨.xor, 32, .full⟩, [.param 0 32, .param 1 32]⟩),
  (⟨.bts, 32, .full⟩, ⟨⟨.bts, 32, .full⟩, [.param 0 32, .param 1 32]⟩),
  (⟨.btr, 32, .full⟩, ⟨⟨.btr, 32, .full⟩, [.param 0 32, .param 1 32]⟩),
  (⟨.compareExchange, 64, .full⟩, ⟨⟨.compareExchange, 64, .full⟩, [.param 0 64, .param 1 64, .param 2 64]⟩)]

/-- Macros defined by interlocked.hpp. -/
def table2 : List (Name × Call) := [
  (⟨.compareExchange, 32, .full⟩, ⟨⟨.compareExchange, 32, .full⟩, [.param 0 32, .param 1 32, .param 2 32]⟩),
  (⟨.exchangeAdd, 32, .full⟩, ⟨⟨.exchangeAdd, 32, .full⟩, [.param 0 32, .param 1 32]⟩),
  (⟨.exchange, 32, .full⟩, ⟨⟨.exchange, 32, .full⟩, [.param 0 32, .param 1 32]⟩),
  (⟨.and, 32, .full⟩, ⟨⟨.and, 32, .full⟩, [.param 0 32, .param 1 32]⟩),
  (⟨.or, 32, .full⟩, ⟨⟨.or, 32, .full⟩, [.param 0 32, .param 1 32]⟩),
  (⟨.xor, 32, .full⟩, ⟨⟨.xor, 32, .full⟩, [.param 0 32, .param 1 32]⟩),
  (⟨.bts, 32, .full⟩, ⟨⟨.bts, 32, .full⟩, [.param 0 32, .param 1 32]⟩),
  (⟨.btr, 32, .full⟩, ⟨⟨.btr, 32, .full⟩, [.param 0 32, .param 1 32]⟩),
  (⟨.compareExchange, 64, .full⟩, ⟨⟨.compareExchange, 64, .full⟩, [.param 0 64, .param 1 64, .param 2 64]⟩),
  (⟨.compareExchange, 8, .full⟩, ⟨⟨.compareExchange, 8, .full⟩, [.param 0 8, .param 1 8, .param 2 8]⟩),
  (⟨.exchangeAdd, 8, .full⟩, ⟨⟨.exchangeAdd, 8, .full⟩, [.param 0 8, .param 1 8]⟩),
  (⟨.exchange, 8, .full⟩, ⟨⟨.exchange, 8, .full⟩, [.param 0 8, .param 1 8]⟩),
  (⟨.and, 8, .full⟩, ⟨⟨.and, 8, .full⟩, [.param 0 8, .param 1 8]⟩),
  (⟨.or, 8, .full⟩, ⟨⟨.or, 8, .full⟩, [.param 0 8, .param 1 8]⟩),
  (⟨.xor, 8, .full⟩, ⟨⟨.xor, 8, .full⟩, [.param 0 8, .param 1 8]⟩),
  (⟨.compareExchange, 16, .full⟩, ⟨⟨.compareExchange, 16, .full⟩, [.param 0 16, .param 1 16, .param 2 16]⟩),
  (⟨.exchangeAdd, 16, .full⟩, ⟨⟨.exchangeAdd, 16, .full⟩, [.param 0 16, .param 1 16]⟩),
  (⟨.exchange, 16, .full⟩, ⟨⟨.exchange, 16, .full⟩, [.param 0 16, .param 1 16]⟩),
  (⟨.and, 16, .full⟩, ⟨⟨.and, 16, .full⟩, [.param 0 16, .param 1 16]⟩),
  (⟨.or, 16, .full⟩, ⟨⟨.or, 16, .full⟩, [.param 0 16, .param 1 16]⟩),
  (⟨.xor, 16, .full⟩, ⟨⟨.xor, 16, .full⟩, [.param 0 16, .param 1 16]⟩)]

/-- Macros defined by interlocked.hpp. -/
def table3 : List (Name × Call) := [
  (⟨.compareExchange, 32, .full⟩, ⟨⟨.compareExchange, 32, .full⟩, [.param 0 32, .param 1 32, .param 2 32]⟩),
  (⟨.exchangeAdd, 32, .full⟩, ⟨⟨.exchangeAdd, 32, .full⟩, [.param 0 32, .param 1 32]⟩),
  (⟨.exchange, 32, .full⟩, ⟨⟨.exchange, 32, .full⟩, [.param 0 32, .param 1 32]⟩),
  (⟨.and, 32, .full⟩, ⟨⟨.and, 32, .full⟩, [.param 0 32, .param 1 32]⟩),
  (⟨.or, 32, .full⟩, ⟨⟨.or, 32, .full⟩, [.param 0 32, .param 1 32]⟩),
  (⟨.xor, 32, .full⟩, ⟨⟨.xor, 32, .full⟩, [.param 0 32, .param 1 32]⟩),
  (⟨.bts, 32, .full⟩, ⟨⟨.bts, 32, .full⟩, [.param 0 32, .param 1 32]⟩),
  (⟨.btr, 32, .full⟩, ⟨⟨.btr, 32, .full⟩, [.param 0 32, .param 1 32]⟩),
  (⟨.bts, 64, .full⟩, ⟨⟨.bts, 64, .full⟩, [.param 0 64, .param 1 64]⟩),
  (⟨.btr, 64, .full⟩, ⟨⟨.btr, 64, .full⟩, [.param 0 64, .param 1 64]⟩),
  (⟨.compareExchange, 64, .full⟩, ⟨⟨.compareExchange, 64, .full⟩, [.param 0 64, .param 1 64, .param 2 64]⟩),
  (⟨.exchangeAdd, 64, .full⟩, ⟨⟨.exchangeAdd, 64, .full⟩, [.param 0 64, .param 1 64]⟩),
  (⟨.exchange, 64, .full⟩, ⟨⟨.exchange, 64, .full⟩, [.param 0 64, .param 1 64]⟩),
  (⟨.and, 64, .full⟩, ⟨⟨.and, 64, .full⟩, [.param 0 64, .param 1 64]⟩),
  (⟨.or, 64, .full⟩, ⟨⟨.or, 64, .full⟩, [.param 0 64, .param 1 64]⟩),
  (⟨.xor, 64, .full⟩, ⟨⟨.xor, 64, .full⟩, [.param 0 64, .param 1 64]⟩)]

/-- Macros defined by interlocked.hpp. -/
def table4 : List (Name × Call) := [
  (⟨.compareExchange, 32, .full⟩, ⟨⟨.compareExchange, 32, .full⟩, [.param 0 32, .param 1 32, .param 2 32]⟩),
  (⟨.exchangeAdd, 32, .full⟩, ⟨⟨.exchangeAdd, 32, .full⟩, [.param 0 32, .param 1 32]⟩),
  (⟨.exchange, 32, .full⟩, ⟨⟨.exchange, 32, .full⟩, [.param 0 32, .param 1 32]⟩),
  (⟨.and, 32, .full⟩, ⟨⟨.and, 32, .full⟩, [.param 0 32, .param 1 32]⟩),
  (⟨.or, 32, .full⟩, ⟨⟨.or, 32, .full⟩, [.param 0 32, .param 1 32]⟩),
  (⟨.xor, 32, .full⟩, ⟨⟨.xor, 32, .full⟩, [.param 0 32, .param 1 32]⟩),
  (⟨.bts, 32, .full⟩, ⟨⟨.bts, 32, .full⟩, [.param 0 32, .param 1 32]⟩),
  (⟨.btr, 32, .full⟩, ⟨⟨.btr, 32, .full⟩, [.param 0 32, .param 1 32]⟩),
  (⟨.bts, 64, .full⟩, ⟨⟨.bts, 64, .full⟩, [.param 0 64, .param 1 64]⟩),
  (⟨.btr, 64, .full⟩, ⟨⟨.btr, 64, .full⟩, [.param 0 64, .param 1 64]⟩),
  (⟨.compareExchange, 64, .full⟩, ⟨⟨.compareExchange, 64, .full⟩, [.param 0 64, .param 1 64, .param 2 64]⟩),
  (⟨.compareExchange, 128, .full⟩, ⟨⟨.compareExchange, 128, .full⟩, [.param 0 64, .part 1 1, .part 1 0, .param 2 64]⟩),
  (⟨.exchangeAdd, 64, .full⟩, ⟨⟨.exchangeAdd, 64, .full⟩, [.param 0 64, .param 1 64]⟩),
  (⟨.exchange, 64, .full⟩, ⟨⟨.exchange, 64, .full⟩, [.param 0 64, .param 1 64]⟩),
  (⟨.and, 64, .full⟩, ⟨⟨.and, 64, .full⟩, [.param 0 64, .param 1 64]⟩),
  (⟨.or, 64, .full⟩, ⟨⟨.or, 64, .full⟩, [.param 0 64, .param 1 64]⟩),
  (⟨.xor, 64, .full⟩, ⟨⟨.xor, 64, .full⟩, [.param 0 64, .param 1 64]⟩)]

/-- Macros defined by interlocked.hpp. -/
def table5 : List (Name × Call) := [
  (⟨.compareExchange, 32, .full⟩, ⟨⟨.compareExchange, 32, .full⟩, [.param 0 32, .param 1 32, .param 2 32]⟩),
  (⟨.exchangeAdd, 32, .full⟩, ⟨⟨.exchangeAdd, 32, .full⟩, [.param 0 32, .param 1 32]⟩),
  (⟨.exchange, 32, .full⟩, ⟨⟨.exchange, 32, .full⟩, [.param 0 32, .param 1 32]⟩),
  (⟨.and, 32, .full⟩, ⟨⟨.and, 32, .full⟩, [.param 0 32, .param 1 32]⟩),
  (⟨.or, 32, .full⟩, ⟨⟨.or, 32, .full⟩, [.param 0 32, .param 1 32]⟩),
  (⟨.xor, 32, .full⟩, ⟨⟨.xor, 32, .full⟩, [.param 0 32, .param 1 32]⟩),
  (⟨.bts, 32, .full⟩, ⟨⟨.bts, 32, .full⟩, [.param 0 32, .param 1 32]⟩),
  (⟨.btr, 32, .full⟩, ⟨⟨.btr, 32, .full⟩, [.param 0 32, .param 1 32]⟩),
  (⟨.bts, 64, .full⟩, ⟨⟨.bts, 64, .full⟩, [.param 0 64, .param 1 64]⟩),
  (⟨.btr, 64, .full⟩, ⟨⟨.btr, 64, .full⟩, [.param 0 64, .param 1 64]⟩),
  (⟨.compareExchange, 64, .full⟩, ⟨⟨.compareExchange, 64, .full⟩, [.param 0 64, .param 1 64, .param 2 64]⟩),
  (⟨.compareExchange, 128, .full⟩, ⟨⟨.compareExchange, 128, .full⟩, [.param 0 64, .part 1 1, .part 1 0, .param 2 64]⟩),
  (⟨.compareExchange, 8, .full⟩, ⟨⟨.compareExchange, 8, .full⟩, [.param 0 8, .param 1 8, .param 2 8]⟩),
  (⟨.exchangeAdd, 8, .full⟩, ⟨⟨.exchangeAdd, 8, .full⟩, [.param 0 8, .param 1 8]⟩),
  (⟨.exchange, 8, .full⟩, ⟨⟨.exchange, 8, .full⟩, [.param 0 8, .param 1 8]⟩),
  (⟨.and, 8, .full⟩, ⟨⟨.and, 8, .full⟩, [.param 0 8, .param 1 8]⟩),
  (⟨.or, 8, .full⟩, ⟨⟨.or, 8, .full⟩, [.param 0 8, .param 1 8]⟩),
  (⟨.xor, 8, .full⟩, ⟨⟨.xor, 8, .full⟩, [.param 0 8, .param 1 8]⟩),
  (⟨.compareExchange, 16, .full⟩, ⟨⟨.compareExchange, 16, .full⟩, [.param 0 16, .param 1 16, .param 2 16]⟩),
  (⟨.exchangeAdd, 16, .full⟩, ⟨⟨.exchangeAdd, 16, .full⟩, [.param 0 16, .param 1 16]⟩),
  (⟨.exchange, 16, .full⟩, ⟨⟨.exchange, 16, .full⟩, [.param 0 16, .param 1 16]⟩),
  (⟨.and, 16, .full⟩, ⟨⟨.and, 16, .full⟩, [.param 0 16, .param 1 16]⟩),
  (⟨.or, 16, .full⟩, ⟨⟨.or, 16, .full⟩, [.param 0 16, .param 1 16]⟩),
  (⟨.xor, 16, .full⟩, ⟨⟨.xor, 16, .full⟩, [.param 0 16, .param 1 16]⟩),
  (⟨.exchangeAdd, 64, .full⟩, ⟨⟨.exchangeAdd, 64, .full⟩, [.param 0 64, .param 1 64]⟩),
  (⟨.exchange, 64, .full⟩, ⟨⟨.exchange, 64, .full⟩, [.param 0 64, .param 1 64]⟩),
  (⟨.and, 64, .full⟩, ⟨⟨.and, 64, .full⟩, [.param 0 64, .param 1 64]⟩),
  (⟨.or, 64, .full⟩, ⟨⟨.or, 64, .full⟩, [.param 0 64, .param 1 64]⟩),
  (⟨.xor, 64, .full⟩, ⟨⟨.xor, 64, .full⟩, [.param 0 64, .param 1 64]⟩)]

/-- Macros defined by interlocked.hpp. -/
def table6 : List (Name × Call) := [
  (⟨.compareExchange, 32, .full⟩, ⟨⟨.compareExchange, 32, .full⟩, [.param 0 32, .param 1 32, .param 2 32]⟩),
  (⟨.exchangeAdd, 32, .full⟩, ⟨⟨.exchangeAdd, 32, .full⟩, [.param 0 32, .param 1 32]⟩),
  (⟨.exchange, 32, .full⟩, ⟨⟨.exchange, 32, .full⟩, [.param 0 32, .param 1 32]⟩),
  (⟨.and, 32, .full⟩, ⟨⟨.and, 32, .full⟩, [.param 0 32, .param 1 32]⟩),
  (⟨.or, 32, .full⟩, ⟨⟨.or, 32, .full⟩, [.param 0 32, .param 1 32]⟩),
  (⟨.xor, 32, .full⟩, ⟨⟨.xor, 32, .full⟩, [.param 0 32, .param 1 32]⟩),
  (⟨.bts, 32, .full⟩, ⟨⟨.bts, 32, .full⟩, [.param 0 32, .param 1 32]⟩),
  (⟨.btr, 32, .full⟩, ⟨⟨.btr, 32, .full⟩, [.param 0 32, .param 1 32]⟩)]

/-- Macros defined by interlocked.hpp. -/
def table7 : List (Name × Call) := [
  (⟨.compareExchange, 32, .full⟩, ⟨⟨.compareExchange, 32, .full⟩, [.param 0 32, .param 1 32, .param 2 32]⟩),
  (⟨.exchangeAdd, 32, .full⟩, ⟨⟨.exchangeAdd, 32, .full⟩, [.param 0 32, .param 1 32]⟩),
  (⟨.exchange, 32, .full⟩, ⟨⟨.exchange, 32, .full⟩, [.param 0 32, .param 1 32]⟩),
  (⟨.and, 32, .full⟩, ⟨⟨.and, 32, .full⟩, [.param 0 32, .param 1 32]⟩),
  (⟨.or, 32, .full⟩, ⟨⟨.or, 32, .full⟩, [.param 0 32, .param 1 32]⟩),
  (⟨.xor, 32, .full⟩, ⟨⟨.xor, 32, .full⟩, [.param 0 32, .param 1 32]⟩),
  (⟨.bts, 32, .full⟩, ⟨⟨.bts, 32, .full⟩, [.param 0 32, .param 1 32]⟩),
  (⟨.btr, 32, .full⟩, ⟨⟨.btr, 32, .full⟩, [.param 0 32, .param 1 32]⟩),
  (⟨.compareExchange, 8, .full⟩, ⟨⟨.compareExchange, 8, .full⟩, [.param 0 8, .param 1 8, .param 2 8]⟩),
  (⟨.exchangeAdd, 8, .full⟩, ⟨⟨.exchangeAdd, 8, .full⟩, [.param 0 8, .param 1 8]⟩),
  (⟨.exchange, 8, .full⟩, ⟨⟨.exchange, 8, .full⟩, [.param 0 8, .param 1 8]⟩),
  (⟨.and, 8, .full⟩, ⟨⟨.and, 8, .full⟩, [.param 0 8, .param 1 8]⟩),
  (⟨.or, 8, .full⟩, ⟨⟨.or, 8, .full⟩, [.param 0 8, .param 1 8]⟩),
  (⟨.xor, 8, .full⟩, ⟨⟨.xor, 8, .full⟩, [.param 0 8, .param 1 8]⟩),
  (⟨.compareExchange, 16, .full⟩, ⟨⟨.compareExchange, 16, .full⟩, [.param 0 16, .param 1 16, .param 2 16]⟩),
  (⟨.exchangeAdd, 16, .full⟩, ⟨⟨.exchangeAdd, 16, .full⟩, [.param 0 16, .param 1 16]⟩),
  (⟨.exchange, 16, .full⟩, ⟨⟨.exchange, 16, .full⟩, [.param 0 16, .param 1 16]⟩),
  (⟨.and, 16, .full⟩, ⟨⟨.and, 16, .full⟩, [.param 0 16, .param 1 16]⟩),
  (⟨.or, 16, .full⟩, ⟨⟨.or, 16, .full⟩, [.param 0 16, .param 1 16]⟩),
  (⟨.xor, 16, .full⟩, ⟨⟨.xor, 16, .full⟩, [.param 0 16, .param 1 16]⟩)]

/-- Macros defined by interlocked.hpp. -/
def table8 : List (Name × Call) := [
  (⟨.compareExchange, 32, .full⟩, ⟨⟨.compareExchange, 32, .full⟩, [.param 0 32, .param 1 32, .param 2 32]⟩),
  (⟨.exchangeAdd, 32, .full⟩, ⟨⟨.exchangeAdd, 32, .full⟩, [.param 0 32, .param 1 32]⟩),
  (⟨.exchange, 32, .full⟩, ⟨⟨.exchange, 32, .full⟩, [.param 0 32, .param 1 32]⟩),
  (⟨.and, 32, .full⟩, ⟨⟨.and, 32, .full⟩, [.param 0 32, .param 1 32]⟩),
  (⟨.or, 32, .full⟩, ⟨⟨.or, 32, .full⟩, [.param 0 32, .param 1 32]⟩),
  (⟨.xor, 32, .full⟩, ⟨⟨.xor, 32, .full⟩, [.param 0 32, .param 1 32]⟩),
  (⟨.bts, 32, .full⟩, ⟨⟨.bts, 32, .full⟩, [.param 0 32, .param 1 32]⟩),
  (⟨.btr, 32, .full⟩, ⟨⟨.btr, 32, .full⟩, [.param 0 32, .param 1 32]⟩),
  (⟨.compareExchange, 8, .full⟩, ⟨⟨.compareExchange, 8, .full⟩, [.param 0 8, .param 1 8, .param 2 8]⟩),
  (⟨.exchangeAdd, 8, .full⟩, ⟨⟨.exchangeAdd, 8, .full⟩, [.param 0 8, .param 1 8]⟩),
  (⟨.exchange, 8, .full⟩, ⟨⟨.exchange, 8, .full⟩, [.param 0 8, .param 1 8]⟩),
  (⟨.and, 8, .full⟩, ⟨⟨.and, 8, .full⟩, [.param 0 8, .param 1 8]⟩),
  (⟨.or, 8, .full⟩, ⟨⟨.or, 8, .full⟩, [.param 0 8, .param 1 8]⟩),
  (⟨.xor, 8, .full⟩, ⟨⟨.xor, 8, .full⟩, [.param 0 8, .param 1 8]⟩),
  (⟨.compareExchange, 16, .full⟩, ⟨⟨.compareExchange, 16, .full⟩, [.param 0 16, .param 1 16, .param 2 16]⟩),
  (⟨.exchangeAdd, 16, .full⟩, ⟨⟨.exchangeAdd, 16, .full⟩, [.param 0 16, .param 1 16]⟩),
  (⟨.exchange, 16, .full⟩, ⟨⟨.exchange, 16, .full⟩, [.param 0 16, .param 1 16]⟩),
  (⟨.and, 16, .full⟩, ⟨⟨.and, 16, .full⟩, [.param 0 16, .param 1 16]⟩),
  (⟨.or, 16, .full⟩, ⟨⟨.or, 16, .full⟩, [.param 0 16, .param 1 16]⟩),
  (⟨.xor, 16, .full⟩, ⟨⟨.xor, 16, .full⟩, [.param 0 16, .param 1 16]⟩),
  (⟨.exchangeAdd, 64, .full⟩, ⟨⟨.exchangeAdd, 64, .full⟩, [.param 0 64, .param 1 64]⟩),
  (⟨.exchange, 64, .full⟩, ⟨⟨.exchange, 64, .full⟩, [.param 0 64, .param 1 64]⟩),
  (⟨.and, 64, .full⟩, ⟨⟨.and, 64, .full⟩, [.param 0 64, .param 1 64]⟩),
  (⟨.or, 64, .full⟩, ⟨⟨.or, 64, .full⟩, [.param 0 64, .param 1 64]⟩),
  (⟨.xor, 64, .full⟩, ⟨⟨.xor, 64, .full⟩, [.param 0 64, .param 1 64]⟩),
  (⟨.compareExchange, 8, .relaxed⟩, ⟨⟨.compareExchange, 8, .relaxed⟩, [.param 0 8, .param 1 8, .param 2 8]⟩),
  (⟨.compareExchange, 8, .acquire⟩, ⟨⟨.compareExchange, 8, .acquire⟩, [.param 0 8, .param 1 8, .param 2 8]⟩),
  (⟨.compareExchange, 8, .release⟩, ⟨⟨.compareExchange, 8, .release⟩, [.param 0 8, .param 1 8, .param 2 8]⟩),
  (⟨.compareExchange, 16, .relaxed⟩, ⟨⟨.compareExchange, 16, .relaxed⟩, [.param 0 16, .param 1 16, .param 2 16]⟩),
  (⟨.compareExchange, 16, .acquire⟩, ⟨⟨.compareExchange, 16, .acquire⟩, [.param 0 16, .param 1 16, .param 2 16]⟩),
  (⟨.compareExchange, 16, .release⟩, ⟨⟨.compareExchange, 16, .release⟩, [.param 0 16, .param 1 16, .param 2 16]⟩),
  (⟨.compareExchange, 32, .relaxed⟩, ⟨⟨.compareExchange, 32, .relaxed⟩, [.param 0 32, .param 1 32, .param 2 32]⟩),
  (⟨.compareExchange, 32, .acquire⟩, ⟨⟨.compareExchange, 32, .acquire⟩, [.param 0 32, .param 1 32, .param 2 32]⟩),
  (⟨.compareExchange, 32, .release⟩, ⟨⟨.compareExchange, 32, .release⟩, [.param 0 32, .param 1 32, .param 2 32]⟩),
  (⟨.compareExchange, 64, .full⟩, ⟨⟨.compareExchange, 64, .full⟩, [.param 0 64, .param 1 64, .param 2 64]⟩),
  (⟨.compareExchange, 64, .relaxed⟩, ⟨⟨.compareExchange, 64, .relaxed⟩, [.param 0 64, .param 1 64, .param 2 64]⟩),
  (⟨.compareExchange, 64, .acquire⟩, ⟨⟨.compareExchange, 64, .acquire⟩, [.param 0 64, .param 1 64, .param 2 64]⟩),
  (⟨.compareExchange, 64, .release⟩, ⟨⟨.compareExchange, 64, .release⟩, [.param 0 64, .param 1 64, .param 2 64]⟩),
  (⟨.exchangeAdd, 8, .relaxed⟩, ⟨⟨.exchangeAdd, 8, .relaxed⟩, [.param 0 8, .param 1 8]⟩),
  (⟨.exchangeAdd, 8, .acquire⟩, ⟨⟨.exchangeAdd, 8, .acquire⟩, [.param 0 8, .param 1 8]⟩),
  (⟨.exchangeAdd, 8, .release⟩, ⟨⟨.exchangeAdd, 8, .release⟩, [.param 0 8, .param 1 8]⟩),
  (⟨.exchangeAdd, 16, .relaxed⟩, ⟨⟨.exchangeAdd, 16, .relaxed⟩, [.param 0 16, .param 1 16]⟩),
  (⟨.exchangeAdd, 16, .acquire⟩, ⟨⟨.exchangeAdd, 16, .acquire⟩, [.param 0 16, .param 1 16]⟩),
  (⟨.exchangeAdd, 16, .release⟩, ⟨⟨.exchangeAdd, 16, .release⟩, [.param 0 16, .param 1 16]⟩),
  (⟨.exchangeAdd, 32, .relaxed⟩, ⟨⟨.exchangeAdd, 32, .relaxed⟩, [.param 0 32, .param 1 32]⟩),
  (⟨.exchangeAdd, 32, .acquire⟩, ⟨⟨.exchangeAdd, 32, .acquire⟩, [.param 0 32, .param 1 32]⟩),
  (⟨.exchangeAdd, 32, .release⟩, ⟨⟨.exchangeAdd, 32, .release⟩, [.param 0 32, .param 1 32]⟩),
  (⟨.exchangeAdd, 64, .relaxed⟩, ⟨⟨.exchangeAdd, 64, .relaxed⟩, [.param 0 64, .param 1 64]⟩),
  (⟨.exchangeAdd, 64, .acquire⟩, ⟨⟨.exchangeAdd, 64, .acquire⟩, [.param 0 64, .param 1 64]⟩),
  (⟨.exchangeAdd, 64, .release⟩, ⟨⟨.exchangeAdd, 64, .release⟩, [.param 0 64, .param 1 64]⟩),
  (⟨.exchange, 8, .relaxed⟩, ⟨⟨.exchange, 8, .relaxed⟩, [.param 0 8, .param 1 8]⟩),
  (⟨.exchange, 8, .acquire⟩, ⟨⟨.exchange, 8, .acquire⟩, [.param 0 8, .param 1 8]⟩),
  (⟨.exchange, 16, .relaxed⟩, ⟨⟨.exchange, 16, .relaxed⟩, [.param 0 16, .param 1 16]⟩),
  (⟨.exchange, 16, .acquire⟩, ⟨⟨.exchange, 16, .acquire⟩, [.param 0 16, .param 1 16]⟩),
  (⟨.exchange, 32, .relaxed⟩, ⟨⟨.exchange, 32, .relaxed⟩, [.param 0 32, .param 1 32]⟩),
  (⟨.exchange, 32, .acquire⟩, ⟨⟨.exchange, 32, .acquire⟩, [.param 0 32, .param 1 32]⟩),
  (⟨.exchange, 64, .relaxed⟩, ⟨⟨.exchange, 64, .relaxed⟩, [.param 0 64, .param 1 64]⟩),
  (⟨.exchange, 64, .acquire⟩, ⟨⟨.exchange, 64, .acquire⟩, [.param 0 64, .param 1 64]⟩),
  (⟨.exchange, 8, .release⟩, ⟨⟨.exchange, 8, .full⟩, [.param 0 8, .param 1 8]⟩),
  (⟨.exchange, 16, .release⟩, ⟨⟨.exchange, 16, .full⟩, [.param 0 16, .param 1 16]⟩),
  (⟨.exchange, 32, .release⟩, ⟨⟨.exchange, 32, .full⟩, [.param 0 32, .param 1 32]⟩),
  (⟨.exchange, 64, .release⟩, ⟨⟨.exchange, 64, .full⟩, [.param 0 64, .param 1 64]⟩),
  (⟨.and, 8, .relaxed⟩, ⟨⟨.and, 8, .relaxed⟩, [.param 0 8, .param 1 8]⟩),
  (⟨.and, 8, .acquire⟩, ⟨⟨.and, 8, .acquire⟩, [.param 0 8, .param 1 8]⟩),
  (⟨.and, 8, .release⟩, ⟨⟨.and, 8, .release⟩, [.param 0 8, .param 1 8]⟩),
  (⟨.and, 16, .relaxed⟩, ⟨⟨.and, 16, .relaxed⟩, [.param 0 16, .param 1 16]⟩),
  (⟨.and, 16, .acquire⟩, ⟨⟨.and, 16, .acquire⟩, [.param 0 16, .param 1 16]⟩),
  (⟨.and, 16, .release⟩, ⟨⟨.and, 16, .release⟩, [.param 0 16, .param 1 16]⟩),
  (⟨.and, 32, .relaxed⟩, ⟨⟨.and, 32, .relaxed⟩, [.param 0 32, .param 1 32]⟩),
  (⟨.and, 32, .acquire⟩, ⟨⟨.and, 32, .acquire⟩, [.param 0 32, .param 1 32]⟩),
  (⟨.and, 32, .release⟩, ⟨⟨.and, 32, .release⟩, [.param 0 32, .param 1 32]⟩),
  (⟨.and, 64, .relaxed⟩, ⟨⟨.and, 64, .relaxed⟩, [.param 0 64, .param 1 64]⟩),
  (⟨.and, 64, .acquire⟩, ⟨⟨.and, 64, .acquire⟩, [.param 0 64, .param 1 64]⟩),
  (⟨.and, 64, .release⟩, ⟨⟨.and, 64, .release⟩, [.param 0 64, .param 1 64]⟩),
  (⟨.or, 8, .relaxed⟩, ⟨⟨.or, 8, .relaxed⟩, [.param 0 8, .param 1 8]⟩),
  (⟨.or, 8, .acquire⟩, ⟨⟨.or, 8, .acquire⟩, [.param 0 8, .param 1 8]⟩),
  (⟨.or, 8, .release⟩, ⟨⟨.or, 8, .release⟩, [.param 0 8, .param 1 8]⟩),
  (⟨.or, 16, .relaxed⟩, ⟨⟨.or, 16, .relaxed⟩, [.param 0 16, .param 1 16]⟩),
  (⟨.or, 16, .acquire⟩, ⟨⟨.or, 16, .acquire⟩, [.param 0 16, .param 1 16]⟩),
  (⟨.or, 16, .release⟩, ⟨⟨.or, 16, .release⟩, [.param 0 16, .param 1 16]⟩),
  (⟨.or, 32, .relaxed⟩, ⟨⟨.or, 32, .relaxed⟩, [.param 0 32, .param 1 32]⟩),
  (⟨.or, 32, .acquire⟩, ⟨⟨.or, 32, .acquire⟩, [.param 0 32, .param 1 32]⟩),
  (⟨.or, 32, .release⟩, ⟨⟨.or, 32, .release⟩, [.param 0 32, .param 1 32]⟩),
  (⟨.or, 64, .relaxed⟩, ⟨⟨.or, 64, .relaxed⟩, [.param 0 64, .param 1 64]⟩),
  (⟨.or, 64, .acquire⟩, ⟨⟨.or, 64, .acquire⟩, [.param 0 64, .param 1 64]⟩),
  (⟨.or, 64, .release⟩, ⟨⟨.or, 64, .release⟩, [.param 0 64, .param 1 64]⟩),
  (⟨.xor, 8, .relaxed⟩, ⟨⟨.xor, 8, .relaxed⟩, [.param 0 8, .param 1 8]⟩),
  (⟨.xor, 8, .acquire⟩, ⟨⟨.xor, 8, .acquire⟩, [.param 0 8, .param 1 8]⟩),
  (⟨.xor, 8, .release⟩, ⟨⟨.xor, 8, .release⟩, [.param 0 8, .param 1 8]⟩),
  (⟨.xor, 16, .relaxed⟩, ⟨⟨.xor, 16, .relaxed⟩, [.param 0 16, .param 1 16]⟩),
  (⟨.xor, 16, .acquire⟩, ⟨⟨.xor, 16, .acquire⟩, [.param 0 16, .param 1 16]⟩),
  (⟨.xor, 16, .release⟩, ⟨⟨.xor, 16, .release⟩, [.param 0 16, .param 1 16]⟩),
  (⟨.xor, 32, .relaxed⟩, ⟨⟨.xor, 32, .relaxed⟩, [.param 0 32, .param 1 32]⟩),
  (⟨.xor, 32, .acquire⟩, ⟨⟨.xor, 32, .acquire⟩, [.param 0 32, .param 1 32]⟩),
  (⟨.xor, 32, .release⟩, ⟨⟨.xor, 32, .release⟩, [.param 0 32, .param 1 32]⟩),
  (⟨.xor, 64, .relaxed⟩, ⟨⟨.xor, 64, .relaxed⟩, [.param 0 64, .param 1 64]⟩),
  (⟨.xor, 64, .acquire⟩, ⟨⟨.xor, 64, .acquire⟩, [.param 0 64, .param 1 64]⟩),
  (⟨.xor, 64, .release⟩, ⟨⟨.xor, 64, .release⟩, [.param 0 64, .param 1 64]⟩),
  (⟨.bts, 32, .relaxed⟩, ⟨⟨.bts, 32, .relaxed⟩, [.param 0 32, .param 1 32]⟩),
  (⟨.bts, 32, .acquire⟩, ⟨⟨.bts, 32, .acquire⟩, [.param 0 32, .param 1 32]⟩),
  (⟨.bts, 32, .release⟩, ⟨⟨.bts, 32, .release⟩, [.param 0 32, .param 1 32]⟩),
  (⟨.btr, 32, .relaxed⟩, ⟨⟨.btr, 32, .relaxed⟩, [.param 0 32, .param 1 32]⟩),
  (⟨.btr, 32, .acquire⟩, ⟨⟨.btr, 32, .acquire⟩, [.param 0 32, .param 1 32]⟩),
  (⟨.btr, 32, .release⟩, ⟨⟨.btr, 32, .release⟩, [.param 0 32, .param 1 32]⟩)]

/-- Macros defined by interlocked.hpp. -/
def table9 : List (Name × Call) := [
  (⟨.compareExchange, 32, .full⟩, ⟨⟨.compareExchange, 32, .full⟩, [.param 0 32, .param 1 32, .param 2 32]⟩),
  (⟨.exchangeAdd, 32, .full⟩, ⟨⟨.exchangeAdd, 32, .full⟩, [.param 0 32, .param 1 32]⟩),
  (⟨.exchange, 32, .full⟩, ⟨⟨.exchange, 32, .full⟩, [.param 0 32, .param 1 32]⟩),
  (⟨.and, 32, .full⟩, ⟨⟨.and, 32, .full⟩, [.param 0 32, .param 1 32]⟩),
  (⟨.or, 32, .full⟩, ⟨⟨.or, 32, .full⟩, [.param 0 32, .param 1 32]⟩),
  (⟨.xor, 32, .full⟩, ⟨⟨.xor, 32, .full⟩, [.param 0 32, .param 1 32]⟩),
  (⟨.bts, 32, .full⟩, ⟨⟨.bts, 32, .full⟩, [.param 0 32, .param 1 32]⟩),
  (⟨.btr, 32, .full⟩, ⟨⟨.btr, 32, .full⟩, [.param 0 32, .param 1 32]⟩),
  (⟨.compareExchange, 8, .full⟩, ⟨⟨.compareExchange, 8, .full⟩, [.param 0 8, .param 1 8, .param 2 8]⟩),
  (⟨.exchangeAdd, 8, .full⟩, ⟨⟨.exchangeAdd, 8, .full⟩, [.param 0 8, .param 1 8]⟩),
  (⟨.exchange, 8, .full⟩, ⟨⟨.exchange, 8, .full⟩, [.param 0 8, .param 1 8]⟩),
  (⟨.and, 8, .full⟩, ⟨⟨.and, 8, .full⟩, [.param 0 8, .param 1 8]⟩),
  (⟨.or, 8, .full⟩, ⟨⟨.or, 8, .full⟩, [.param 0 8, .param 1 8]⟩),
  (⟨.xor, 8, .full⟩, ⟨⟨.xor, 8, .full⟩, [.param 0 8, .param 1 8]⟩),
  (⟨.compareExchange, 16, .full⟩, ⟨⟨.compareExchange, 16, .full⟩, [.param 0 16, .param 1 16, .param 2 16]⟩),
  (⟨.exchangeAdd, 16, .full⟩, ⟨⟨.exchangeAdd, 16, .full⟩, [.param 0 16, .param 1 16]⟩),
  (⟨.exchange, 16, .full⟩, ⟨⟨.exchange, 16, .full⟩, [.param 0 16, .param 1 16]⟩),
  (⟨.and, 16, .full⟩, ⟨⟨.and, 16, .full⟩, [.param 0 16, .param 1 16]⟩),
  (⟨.or, 16, .full⟩, ⟨⟨.or, 16, .full⟩, [.param 0 16, .param 1 16]⟩),
  (⟨.xor, 16, .full⟩, ⟨⟨.xor, 16, .full⟩, [.param 0 16, .param 1 16]⟩),
  (⟨.exchangeAdd, 64, .full⟩, ⟨⟨.exchangeAdd, 64, .full⟩, [.param 0 64, .param 1 64]⟩),
  (⟨.exchange, 64, .full⟩, ⟨⟨.exchange, 64, .full⟩, [.param 0 64, .param 1 64]⟩),
  (⟨.and, 64, .full⟩, ⟨⟨.and, 64, .full⟩, [.param 0 64, .param 1 64]⟩),
  (⟨.or, 64, .full⟩, ⟨⟨.or, 64, .full⟩, [.param 0 64, .param 1 64]⟩),
  (⟨.xor, 64, .full⟩, ⟨⟨.xor, 64, .full⟩, [.param 0 64, .param 1 64]⟩),
  (⟨.compareExchange, 8, .relaxed⟩, ⟨⟨.compareExchange, 8, .relaxed⟩, [.param 0 8, .param 1 8, .param 2 8]⟩),
  (⟨.compareExchange, 8, .acquire⟩, ⟨⟨.compareExchange, 8, .acquire⟩, [.param 0 8, .param 1 8, .param 2 8]⟩),
  (⟨.compareExchange, 8, .release⟩, ⟨⟨.compareExchange, 8, .release⟩, [.param 0 8, .param 1 8, .param 2 8]⟩),
  (⟨.compareExchange, 16, .relaxed⟩, ⟨⟨.compareExchange, 16, .relaxed⟩, [.param 0 16, .param 1 16, .param 2 16]⟩),
  (⟨.compareExchange, 16, .acquire⟩, ⟨⟨.compareExchange, 16, .acquire⟩, [.param 0 16, .param 1 16, .param 2 16]⟩),
  (⟨.compareExchange, 16, .release⟩, ⟨⟨.compareExchange, 16, .release⟩, [.param 0 16, .param 1 16, .param 2 16]⟩),
  (⟨.compareExchange, 32, .relaxed⟩, ⟨⟨.compareExchange, 32, .relaxed⟩, [.param 0 32, .param 1 32, .param 2 32]⟩),
  (⟨.compareExchange, 32, .acquire⟩, ⟨⟨.compareExchange, 32, .acquire⟩, [.param 0 32, .param 1 32, .param 2 32]⟩),
  (⟨.compareExchange, 32, .release⟩, ⟨⟨.compareExchange, 32, .release⟩, [.param 0 32, .param 1 32, .param 2 32]⟩),
  (⟨.compareExchange, 64, .full⟩, ⟨⟨.compareExchange, 64, .full⟩, [.param 0 64, .param 1 64, .param 2 64]⟩),
  (⟨.compareExchange, 64, .relaxed⟩, ⟨⟨.compareExchange, 64, .relaxed⟩, [.param 0 64, .param 1 64, .param 2 64]⟩),
  (⟨.compareExchange, 64, .acquire⟩, ⟨⟨.compareExchange, 64, .acquire⟩, [.param 0 64, .param 1 64, .param 2 64]⟩),
  (⟨.compareExchange, 64, .release⟩, ⟨⟨.compareExchange, 64, .release⟩, [.param 0 64, .param 1 64, .param 2 64]⟩),
  (⟨.exchangeAdd, 8, .relaxed⟩, ⟨⟨.exchangeAdd, 8, .relaxed⟩, [.param 0 8, .param 1 8]⟩),
  (⟨.exchangeAdd, 8, .acquire⟩, ⟨⟨.exchangeAdd, 8, .acquire⟩, [.param 0 8, .param 1 8]⟩),
  (⟨.exchangeAdd, 8, .release⟩, ⟨⟨.exchangeAdd, 8, .release⟩, [.param 0 8, .param 1 8]⟩),
  (⟨.exchangeAdd, 16, .relaxed⟩, ⟨⟨.exchangeAdd, 16, .relaxed⟩, [.param 0 16, .param 1 16]⟩),
  (⟨.exchangeAdd, 16, .acquire⟩, ⟨⟨.exchangeAdd, 16, .acquire⟩, [.param 0 16, .param 1 16]⟩),
  (⟨.exchangeAdd, 16, .release⟩, ⟨⟨.exchangeAdd, 16, .release⟩, [.param 0 16, .param 1 16]⟩),
  (⟨.exchangeAdd, 32, .relaxed⟩, ⟨⟨.exchangeAdd, 32, .relaxed⟩, [.param 0 32, .param 1 32]⟩),
  (⟨.exchangeAdd, 32, .acquire⟩, ⟨⟨.exchangeAdd, 32, .acquire⟩, [.param 0 32, .param 1 32]⟩),
  (⟨.exchangeAdd, 32, .release⟩, ⟨⟨.exchangeAdd, 32, .release⟩, [.param 0 32, .param 1 32]⟩),
  (⟨.exchangeAdd, 64, .relaxed⟩, ⟨⟨.exchangeAdd, 64, .relaxed⟩, [.param 0 64, .param 1 64]⟩),
  (⟨.exchangeAdd, 64, .acquire⟩, ⟨⟨.exchangeAdd, 64, .acquire⟩, [.param 0 64, .param 1 64]⟩),
  (⟨.exchangeAdd, 64, .release⟩, ⟨⟨.exchangeAdd, 64, .release⟩, [.param 0 64, .param 1 64]⟩),
  (⟨.exchange, 8, .relaxed⟩, ⟨⟨.exchange, 8, .relaxed⟩, [.param 0 8, .param 1 8]⟩),
  (⟨.exchange, 8, .acquire⟩, ⟨⟨.exchange, 8, .acquire⟩, [.param 0 8, .param 1 8]⟩),
  (⟨.exchange, 16, .relaxed⟩, ⟨⟨.exchange, 16, .relaxed⟩, [.param 0 16, .param 1 16]⟩),
  (⟨.exchange, 16, .acquire⟩, ⟨⟨.exchange, 16, .acquire⟩, [.param 0 16, .param 1 16]⟩),
  (⟨.exchange, 32, .relaxed⟩, ⟨⟨.exchange, 32, .relaxed⟩, [.param 0 32, .param 1 32]⟩),
  (⟨.exchange, 32, .acquire⟩, ⟨⟨.exchange, 32, .acquire⟩, [.param 0 32, .param 1 32]⟩),
  (⟨.exchange, 64, .relaxed⟩, ⟨⟨.exchange, 64, .relaxed⟩, [.param 0 64, .param 1 64]⟩),
  (⟨.exchange, 64, .acquire⟩, ⟨⟨.exchange, 64, .acquire⟩, [.param 0 64, .param 1 64]⟩),
  (⟨.exchange, 8, .release⟩, ⟨⟨.exchange, 8, .release⟩, [.param 0 8, .param 1 8]⟩),
  (⟨.exchange, 16, .release⟩, ⟨⟨.exchange, 16, .release⟩, [.param 0 16, .param 1 16]⟩),
  (⟨.exchange, 32, .release⟩, ⟨⟨.exchange, 32, .release⟩, [.param 0 32, .param 1 32]⟩),
  (⟨.exchange, 64, .release⟩, ⟨⟨.exchange, 64, .release⟩, [.param 0 64, .param 1 64]⟩),
  (⟨.and, 8, .relaxed⟩, ⟨⟨.and, 8, .relaxed⟩, [.param 0 8, .param 1 8]⟩),
  (⟨.and, 8, .acquire⟩, ⟨⟨.and, 8, .acquire⟩, [.param 0 8, .param 1 8]⟩),
  (⟨.and, 8, .release⟩, ⟨⟨.and, 8, .release⟩, [.param 0 8, .param 1 8]⟩),
  (⟨.and, 16, .relaxed⟩, ⟨⟨.and, 16, .relaxed⟩, [.param 0 16, .param 1 16]⟩),
  (⟨.and, 16, .acquire⟩, ⟨⟨.and, 16, .acquire⟩, [.param 0 16, .param 1 16]⟩),
  (⟨.and, 16, .release⟩, ⟨⟨.and, 16, .release⟩, [.param 0 16, .param 1 16]⟩),
  (⟨.and, 32, .relaxed⟩, ⟨⟨.and, 32, .relaxed⟩, [.param 0 32, .param 1 32]⟩),
  (⟨.and, 32, .acquire⟩, ⟨⟨.and, 32, .acquire⟩, [.param 0 32, .param 1 32]⟩),
  (⟨.and, 32, .release⟩, ⟨⟨.and, 32, .release⟩, [.param 0 32, .param 1 32]⟩),
  (⟨.and, 64, .relaxed⟩, ⟨⟨.and, 64, .relaxed⟩, [.param 0 64, .param 1 64]⟩),
  (⟨.and, 64, .acquire⟩, ⟨⟨.and, 64, .acquire⟩, [.param 0 64, .param 1 64]⟩),
  (⟨.and, 64, .release⟩, ⟨⟨.and, 64, .release⟩, [.param 0 64, .param 1 64]⟩),
  (⟨.or, 8, .relaxed⟩, ⟨⟨.or, 8, .relaxed⟩, [.param 0 8, .param 1 8]⟩),
  (⟨.or, 8, .acquire⟩, ⟨⟨.or, 8, .acquire⟩, [.param 0 8, .param 1 8]⟩),
  (⟨.or, 8, .release⟩, ⟨⟨.or, 8, .release⟩, [.param 0 8, .param 1 8]⟩),
  (⟨.or, 16, .relaxed⟩, ⟨⟨.or, 16, .relaxed⟩, [.param 0 16, .param 1 16]⟩),
  (⟨.or, 16, .acquire⟩, ⟨⟨.or, 16, .acquire⟩, [.param 0 16, .param 1 16]⟩),
  (⟨.or, 16, .release⟩, ⟨⟨.or, 16, .release⟩, [.param 0 16, .param 1 16]⟩),
  (⟨.or, 32, .relaxed⟩, ⟨⟨.or, 32, .relaxed⟩, [.param 0 32, .param 1 32]⟩),
  (⟨.or, 32, .acquire⟩, ⟨⟨.or, 32, .acquire⟩, [.param 0 32, .param 1 32]⟩),
  (⟨.or, 32, .release⟩, ⟨⟨.or, 32, .release⟩, [.param 0 32, .param 1 32]⟩),
  (⟨.or, 64, .relaxed⟩, ⟨⟨.or, 64, .relaxed⟩, [.param 0 64, .param 1 64]⟩),
  (⟨.or, 64, .acquire⟩, ⟨⟨.or, 64, .acquire⟩, [.param 0 64, .param 1 64]⟩),
  (⟨.or, 64, .release⟩, ⟨⟨.or, 64, .release⟩, [.param 0 64, .param 1 64]⟩),
  (⟨.xor, 8, .relaxed⟩, ⟨⟨.xor, 8, .relaxed⟩, [.param 0 8, .param 1 8]⟩),
  (⟨.xor, 8, .acquire⟩, ⟨⟨.xor, 8, .acquire⟩, [.param 0 8, .param 1 8]⟩),
  (⟨.xor, 8, .release⟩, ⟨⟨.xor, 8, .release⟩, [.param 0 8, .param 1 8]⟩),
  (⟨.xor, 16, .relaxed⟩, ⟨⟨.xor, 16, .relaxed⟩, [.param 0 16, .param 1 16]⟩),
  (⟨.xor, 16, .acquire⟩, ⟨⟨.xor, 16, .acquire⟩, [.param 0 16, .param 1 16]⟩),
  (⟨.xor, 16, .release⟩, ⟨⟨.xor, 16, .release⟩, [.param 0 16, .param 1 16]⟩),
  (⟨.xor, 32, .relaxed⟩, ⟨⟨.xor, 32, .relaxed⟩, [.param 0 32, .param 1 32]⟩),
  (⟨.xor, 32, .acquire⟩, ⟨⟨.xor, 32, .acquire⟩, [.param 0 32, .param 1 32]⟩),
  (⟨.xor, 32, .release⟩, ⟨⟨.xor, 32, .release⟩, [.param 0 32, .param 1 32]⟩),
  (⟨.xor, 64, .relaxed⟩, ⟨⟨.xor, 64, .relaxed⟩, [.param 0 64, .param 1 64]⟩),
  (⟨.xor, 64, .acquire⟩, ⟨⟨.xor, 64, .acquire⟩, [.param 0 64, .param 1 64]⟩),
  (⟨.xor, 64, .release⟩, ⟨⟨.xor, 64, .release⟩, [.param 0 64, .param 1 64]⟩),
  (⟨.bts, 32, .relaxed⟩, ⟨⟨.bts, 32, .relaxed⟩, [.param 0 32, .param 1 32]⟩),
  (⟨.bts, 32, .acquire⟩, ⟨⟨.bts, 32, .acquire⟩, [.param 0 32, .param 1 32]⟩),
  (⟨.bts, 32, .release⟩, ⟨⟨.bts, 32, .release⟩, [.param 0 32, .param 1 32]⟩),
  (⟨.btr, 32, .relaxed⟩, ⟨⟨.btr, 32, .relaxed⟩, [.param 0 32, .param 1 32]⟩),
  (⟨.btr, 32, .acquire⟩, ⟨⟨.btr, 32, .acquire⟩, [.param 0 32, .param 1 32]⟩),
  (⟨.btr, 32, .release⟩, ⟨⟨.btr, 32, .release⟩, [.param 0 32, .param 1 32]⟩)]

/-- Macros defined by interlocked.hpp. -/
def table10 : List (Name × Call) := [
  (⟨.compareExchange, 32, .full⟩, ⟨⟨.compareExchange, 32, .full⟩, [.param 0 32, .param 1 32, .param 2 32]⟩),
  (⟨.exchangeAdd, 32, .full⟩, ⟨⟨.exchangeAdd, 32, .full⟩, [.param 0 32, .param 1 32]⟩),
  (⟨.exchange, 32, .full⟩, ⟨⟨.exchange, 32, .full⟩, [.param 0 32, .param 1 32]⟩),
  (⟨.and, 32, .full⟩, ⟨⟨.and, 32, .full⟩, [.param 0 32, .param 1 32]⟩),
  (⟨.or, 32, .full⟩, ⟨⟨.or, 32, .full⟩, [.param 0 32, .param 1 32]⟩),
  (⟨.xor, 32, .full⟩, ⟨⟨.xor, 32, .full⟩, [.param 0 32, .param 1 32]⟩),
  (⟨.bts, 32, .full⟩, ⟨⟨.bts, 32, .full⟩, [.param 0 32, .param 1 32]⟩),
  (⟨.btr, 32, .full⟩, ⟨⟨.btr, 32, .full⟩, [.param 0 32, .param 1 32]⟩),
  (⟨.compareExchange, 8, .full⟩, ⟨⟨.compareExchange, 8, .full⟩, [.param 0 8, .param 1 8, .param 2 8]⟩),
  (⟨.exchangeAdd, 8, .full⟩, ⟨⟨.exchangeAdd, 8, .full⟩, [.param 0 8, .param 1 8]⟩),
  (⟨.exchange, 8, .full⟩, ⟨⟨.exchange, 8, .full⟩, [.param 0 8, .param 1 8]⟩),
  (⟨.and, 8, .full⟩, ⟨⟨.and, 8, .full⟩, [.param 0 8, .param 1 8]⟩),
  (⟨.or, 8, .full⟩, ⟨⟨.or, 8, .full⟩, [.param 0 8, .param 1 8]⟩),
  (⟨.xor, 8, .full⟩, ⟨⟨.xor, 8, .full⟩, [.param 0 8, .param 1 8]⟩),
  (⟨.compareExchange, 16, .full⟩, ⟨⟨.compareExchange, 16, .full⟩, [.param 0 16, .param 1 16, .param 2 16]⟩),
  (⟨.exchangeAdd, 16, .full⟩, ⟨⟨.exchangeAdd, 16, .full⟩, [.param 0 16, .param 1 16]⟩),
  (⟨.exchange, 16, .full⟩, ⟨⟨.exchange, 16, .full⟩, [.param 0 16, .param 1 16]⟩),
  (⟨.and, 16, .full⟩, ⟨⟨.and, 16, .full⟩, [.param 0 16, .param 1 16]⟩),
  (⟨.or, 16, .full⟩, ⟨⟨.or, 16, .full⟩, [.param 0 16, .param 1 16]⟩),
  (⟨.xor, 16, .full⟩, ⟨⟨.xor, 16, .full⟩, [.param 0 16, .param 1 16]⟩),
  (⟨.exchangeAdd, 64, .full⟩, ⟨⟨.exchangeAdd, 64, .full⟩, [.param 0 64, .param 1 64]⟩),
  (⟨.exchange, 64, .full⟩, ⟨⟨.exchange, 64, .full⟩, [.param 0 64, .param 1 64]⟩),
  (⟨.and, 64, .full⟩, ⟨⟨.and, 64, .full⟩, [.param 0 64, .param 1 64]⟩),
  (⟨.or, 64, .full⟩, ⟨⟨.or, 64, .full⟩, [.param 0 64, .param 1 64]⟩),
  (⟨.xor, 64, .full⟩, ⟨⟨.xor, 64, .full⟩, [.param 0 64, .param 1 64]⟩),
  (⟨.compareExchange, 8, .relaxed⟩, ⟨⟨.compareExchange, 8, .relaxed⟩, [.param 0 8, .param 1 8, .param 2 8]⟩),
  (⟨.compareExchange, 8, .acquire⟩, ⟨⟨.compareExchange, 8, .acquire⟩, [.param 0 8, .param 1 8, .param 2 8]⟩),
  (⟨.compareExchange, 8, .release⟩, ⟨⟨.compareExchange, 8, .release⟩, [.param 0 8, .param 1 8, .param 2 8]⟩),
  (⟨.compareExchange, 16, .relaxed⟩, ⟨⟨.compareExchange, 16, .relaxed⟩, [.param 0 16, .param 1 16, .param 2 16]⟩),
  (⟨.compareExchange, 16, .acquire⟩, ⟨⟨.compareExchange, 16, .acquire⟩, [.param 0 16, .param 1 16, .param 2 16]⟩),
  (⟨.compareExchange, 16, .release⟩, ⟨⟨.compareExchange, 16, .release⟩, [.param 0 16, .param 1 16, .param 2 16]⟩),
  (⟨.compareExchange, 32, .relaxed⟩, ⟨⟨.compareExchange, 32, .relaxed⟩, [.param 0 32, .param 1 32, .param 2 32]⟩),
  (⟨.compareExchange, 32, .acquire⟩, ⟨⟨.compareExchange, 32, .acquire⟩, [.param 0 32, .param 1 32, .param 2 32]⟩),
  (⟨.compareExchange, 32, .release⟩, ⟨⟨.compareExchange, 32, .release⟩, [.param 0 32, .param 1 32, .param 2 32]⟩),
  (⟨.compareExchange, 64, .full⟩, ⟨⟨.compareExchange, 64, .full⟩, [.param 0 64, .param 1 64, .param 2 64]⟩),
  (⟨.compareExchange, 64, .relaxed⟩, ⟨⟨.compareExchange, 64, .relaxed⟩, [.param 0 64, .param 1 64, .param 2 64]⟩),
  (⟨.compareExchange, 64, .acquire⟩, ⟨⟨.compareExchange, 64, .acquire⟩, [.param 0 64, .param 1 64, .param 2 64]⟩),
  (⟨.compareExchange, 64, .release⟩, ⟨⟨.compareExchange, 64, .release⟩, [.param 0 64, .param 1 64, .param 2 64]⟩),
  (⟨.compareExchange, 128, .full⟩, ⟨⟨.compareExchange, 128, .full⟩, [.param 0 64, .part 1 1, .part 1 0, .param 2 64]⟩),
  (⟨.compareExchange, 128, .relaxed⟩, ⟨⟨.compareExchange, 128, .relaxed⟩, [.param 0 64, .part 1 1, .part 1 0, .param 2 64]⟩),
  (⟨.compareExchange, 128, .acquire⟩, ⟨⟨.compareExchange, 128, .acquire⟩, [.param 0 64, .part 1 1, .part 1 0, .param 2 64]⟩),
  (⟨.compareExchange, 128, .release⟩, ⟨⟨.compareExchange, 128, .release⟩, [.param 0 64, .part 1 1, .part 1 0, .param 2 64]⟩),
  (⟨.exchangeAdd, 8, .relaxed⟩, ⟨⟨.exchangeAdd, 8, .relaxed⟩, [.param 0 8, .param 1 8]⟩),
  (⟨.exchangeAdd, 8, .acquire⟩, ⟨⟨.exchangeAdd, 8, .acquire⟩, [.param 0 8, .param 1 8]⟩),
  (⟨.exchangeAdd, 8, .release⟩, ⟨⟨.exchangeAdd, 8, .release⟩, [.param 0 8, .param 1 8]⟩),
  (⟨.exchangeAdd, 16, .relaxed⟩, ⟨⟨.exchangeAdd, 16, .relaxed⟩, [.param 0 16, .param 1 16]⟩),
  (⟨.exchangeAdd, 16, .acquire⟩, ⟨⟨.exchangeAdd, 16, .acquire⟩, [.param 0 16, .param 1 16]⟩),
  (⟨.exchangeAdd, 16, .release⟩, ⟨⟨.exchangeAdd, 16, .release⟩, [.param 0 16, .param 1 16]⟩),
  (⟨.exchangeAdd, 32, .relaxed⟩, ⟨⟨.exchangeAdd, 32, .relaxed⟩, [.param 0 32, .param 1 32]⟩),
  (⟨.exchangeAdd, 32, .acquire⟩, ⟨⟨.exchangeAdd, 32, .acquire⟩, [.param 0 32, .param 1 32]⟩),
  (⟨.exchangeAdd, 32, .release⟩, ⟨⟨.exchangeAdd, 32, .release⟩, [.param 0 32, .param 1 32]⟩),
  (⟨.exchangeAdd, 64, .relaxed⟩, ⟨⟨.exchangeAdd, 64, .relaxed⟩, [.param 0 64, .param 1 64]⟩),
  (⟨.exchangeAdd, 64, .acquire⟩, ⟨⟨.exchangeAdd, 64, .acquire⟩, [.param 0 64, .param 1 64]⟩),
  (⟨.exchangeAdd, 64, .release⟩, ⟨⟨.exchangeAdd, 64, .release⟩, [.param 0 64, .param 1 64]⟩),
  (⟨.exchange, 8, .relaxed⟩, ⟨⟨.exchange, 8, .relaxed⟩, [.param 0 8, .param 1 8]⟩),
  (⟨.exchange, 8, .acquire⟩, ⟨⟨.exchange, 8, .acquire⟩, [.param 0 8, .param 1 8]⟩),
  (⟨.exchange, 16, .relaxed⟩, ⟨⟨.exchange, 16, .relaxed⟩, [.param 0 16, .param 1 16]⟩),
  (⟨.exchange, 16, .acquire⟩, ⟨⟨.exchange, 16, .acquire⟩, [.param 0 16, .param 1 16]⟩),
  (⟨.exchange, 32, .relaxed⟩, ⟨⟨.exchange, 32, .relaxed⟩, [.param 0 32, .param 1 32]⟩),
  (⟨.exchange, 32, .acquire⟩, ⟨⟨.exchange, 32, .acquire⟩, [.param 0 32, .param 1 32]⟩),
  (⟨.exchange, 64, .relaxed⟩, ⟨⟨.exchange, 64, .relaxed⟩, [.param 0 64, .param 1 64]⟩),
  (⟨.exchange, 64, .acquire⟩, ⟨⟨.exchange, 64, .acquire⟩, [.param 0 64, .param 1 64]⟩),
  (⟨.exchange, 8, .release⟩, ⟨⟨.exchange, 8, .release⟩, [.param 0 8, .param 1 8]⟩),
  (⟨.exchange, 16, .release⟩, ⟨⟨.exchange, 16, .release⟩, [.param 0 16, .param 1 16]⟩),
  (⟨.exchange, 32, .release⟩, ⟨⟨.exchange, 32, .release⟩, [.param 0 32, .param 1 32]⟩),
  (⟨.exchange, 64, .release⟩, ⟨⟨.exchange, 64, .release⟩, [.param 0 64, .param 1 64]⟩),
  (⟨.and, 8, .relaxed⟩, ⟨⟨.and, 8, .relaxed⟩, [.param 0 8, .param 1 8]⟩),
  (⟨.and, 8, .acquire⟩, ⟨⟨.and, 8, .acquire⟩, [.param 0 8, .param 1 8]⟩),
  (⟨.and, 8, .release⟩, ⟨⟨.and, 8, .release⟩, [.param 0 8, .param 1 8]⟩),
  (⟨.and, 16, .relaxed⟩, ⟨⟨.and, 16, .relaxed⟩, [.param 0 16, .param 1 16]⟩),
  (⟨.and, 16, .acquire⟩, ⟨⟨.and, 16, .acquire⟩, [.param 0 16, .param 1 16]⟩),
  (⟨.and, 16, .release⟩, ⟨⟨.and, 16, .release⟩, [.param 0 16, .param 1 16]⟩),
  (⟨.and, 32, .relaxed⟩, ⟨⟨.and, 32, .relaxed⟩, [.param 0 32, .param 1 32]⟩),
  (⟨.and, 32, .acquire⟩, ⟨⟨.and, 32, .acquire⟩, [.param 0 32, .param 1 32]⟩),
  (⟨.and, 32, .release⟩, ⟨⟨.and, 32, .release⟩, [.param 0 32, .param 1 32]⟩),
  (⟨.and, 64, .relaxed⟩, ⟨⟨.and, 64, .relaxed⟩, [.param 0 64, .param 1 64]⟩),
  (⟨.and, 64, .acquire⟩, ⟨⟨.and, 64, .acquire⟩, [.param 0 64, .param 1 64]⟩),
  (⟨.and, 64, .release⟩, ⟨⟨.and, 64, .release⟩, [.param 0 64, .param 1 64]⟩),
  (⟨.or, 8, .relaxed⟩, ⟨⟨.or, 8, .relaxed⟩, [.param 0 8, .param 1 8]⟩),
  (⟨.or, 8, .acquire⟩, ⟨⟨.or, 8, .acquire⟩, [.param 0 8, .param 1 8]⟩),
  (⟨.or, 8, .release⟩, ⟨⟨.or, 8, .release⟩, [.param 0 8, .param 1 8]⟩),
  (⟨.or, 16, .relaxed⟩, ⟨⟨.or, 16, .relaxed⟩, [.param 0 16, .param 1 16]⟩),
  (⟨.or, 16, .acquire⟩, ⟨⟨.or, 16, .acquire⟩, [.param 0 16, .param 1 16]⟩),
  (⟨.or, 16, .release⟩, ⟨⟨.or, 16, .release⟩, [.param 0 16, .param 1 16]⟩),
  (⟨.or, 32, .relaxed⟩, ⟨⟨.or, 32, .relaxed⟩, [.param 0 32, .param 1 32]⟩),
  (⟨.or, 32, .acquire⟩, ⟨⟨.or, 32, .acquire⟩, [.param 0 32, .param 1 32]⟩),
  (⟨.or, 32, .release⟩, ⟨⟨.or, 32, .release⟩, [.param 0 32, .param 1 32]⟩),
  (⟨.or, 64, .relaxed⟩, ⟨⟨.or, 64, .relaxed⟩, [.param 0 64, .param 1 64]⟩),
  (⟨.or, 64, .acquire⟩, ⟨⟨.or, 64, .acquire⟩, [.param 0 64, .param 1 64]⟩),
  (⟨.or, 64, .release⟩, ⟨⟨.or, 64, .release⟩, [.param 0 64, .param 1 64]⟩),
  (⟨.xor, 8, .relaxed⟩, ⟨⟨.xor, 8, .relaxed⟩, [.param 0 8, .param 1 8]⟩),
  (⟨.xor, 8, .acquire⟩, ⟨⟨.xor, 8, .acquire⟩, [.param 0 8, .param 1 8]⟩),
  (⟨.xor, 8, .release⟩, ⟨⟨.xor, 8, .release⟩, [.param 0 8, .param 1 8]⟩),
  (⟨.xor, 16, .relaxed⟩, ⟨⟨.xor, 16, .relaxed⟩, [.param 0 16, .param 1 16]⟩),
  (⟨.xor, 16, .acquire⟩, ⟨⟨.xor, 16, .acquire⟩, [.param 0 16, .param 1 16]⟩),
  (⟨.xor, 16, .release⟩, ⟨⟨.xor, 16, .release⟩, [.param 0 16, .param 1 16]⟩),
  (⟨.xor, 32, .relaxed⟩, ⟨⟨.xor, 32, .relaxed⟩, [.param 0 32, .param 1 32]⟩),
  (⟨.xor, 32, .acquire⟩, ⟨⟨.xor, 32, .acquire⟩, [.param 0 32, .param 1 32]⟩),
  (⟨.xor, 32, .release⟩, ⟨⟨.xor, 32, .release⟩, [.param 0 32, .param 1 32]⟩),
  (⟨.xor, 64, .relaxed⟩, ⟨⟨.xor, 64, .relaxed⟩, [.param 0 64, .param 1 64]⟩),
  (⟨.xor, 64, .acquire⟩, ⟨⟨.xor, 64, .acquire⟩, [.param 0 64, .param 1 64]⟩),
  (⟨.xor, 64, .release⟩, ⟨⟨.xor, 64, .release⟩, [.param 0 64, .param 1 64]⟩),
  (⟨.bts, 32, .relaxed⟩, ⟨⟨.bts, 32, .relaxed⟩, [.param 0 32, .param 1 32]⟩),
  (⟨.bts, 32, .acquire⟩, ⟨⟨.bts, 32, .acquire⟩, [.param 0 32, .param 1 32]⟩),
  (⟨.bts, 32, .release⟩, ⟨⟨.bts, 32, .release⟩, [.param 0 32, .param 1 32]⟩),
  (⟨.btr, 32, .relaxed⟩, ⟨⟨.btr, 32, .relaxed⟩, [.param 0 32, .param 1 32]⟩),
  (⟨.btr, 32, .acquire⟩, ⟨⟨.btr, 32, .acquire⟩, [.param 0 32, .param 1 32]⟩),
  (⟨.btr, 32, .release⟩, ⟨⟨.btr, 32, .release⟩, [.param 0 32, .param 1 32]⟩)]

/-- Macros defined by interlocked.hpp. -/
def table11 : List (Name × Call) := [
  (⟨.compareExchange, 32, .full⟩, ⟨⟨.compareExchange, 32, .full⟩, [.param 0 32, .param 1 32, .param 2 32]⟩),
  (⟨.exchange, 32, .full⟩, ⟨⟨.exchange, 32, .full⟩, [.param 0 32, .param 1 32]⟩),
  (⟨.exchangeAdd, 32, .full⟩, ⟨⟨.exchangeAdd, 32, .full⟩, [.param 0 32, .param 1 32]⟩)]

/-- Macros defined by interlocked.hpp. -/
def table12 : List (Name × Call) := [
  (⟨.compareExchange, 32, .full⟩, ⟨⟨.compareExchange, 32, .full⟩, [.param 0 32, .param 1 32, .param 2 32]⟩),
  (⟨.exchange, 32, .full⟩, ⟨⟨.exchange, 32, .full⟩, [.param 0 32, .param 1 32]⟩),
  (⟨.exchangeAdd, 32, .full⟩, ⟨⟨.exchangeAdd, 32, .full⟩, [.param 0 32, .param 1 32]⟩),
  (⟨.compareExchange, 64, .full⟩, ⟨⟨.compareExchange, 64, .full⟩, [.param 0 64, .param 1 64, .param 2 64]⟩),
  (⟨.exchange, 64, .full⟩, ⟨⟨.exchange, 64, .full⟩, [.param 0 64, .param 1 64]⟩),
  (⟨.exchangeAdd, 64, .full⟩, ⟨⟨.exchangeAdd, 64, .full⟩, [.param 0 64, .param 1 64]⟩)]

/-- What interlocked.hpp 53–487 defines for Microsoft's compilers. -/
def msvcTable : Arch → Era → List (Name × Call)
  | .x86, .v1310 => table0
  | .x86, .v1400 => table1
  | .x86, .v1500 => table1
  | .x86, .v1600 => table2
  | .x86, .v1700 => table2
  | .x86, .v1800 => table2
  | .x86, .v1900 => table2
  | .amd64, .v1310 => table0
  | .amd64, .v1400 => table3
  | .amd64, .v1500 => table4
  | .amd64, .v1600 => table5
  | .amd64, .v1700 => table5
  | .amd64, .v1800 => table5
  | .amd64, .v1900 => table5
  | .arm, .v1310 => table0
  | .arm, .v1400 => table6
  | .arm, .v1500 => table6
  | .arm, .v1600 => table7
  | .arm, .v1700 => table8
  | .arm, .v1800 => table9
  | .arm, .v1900 => table9
  | .arm64, .v1310 => table0
  | .arm64, .v1400 => table6
  | .arm64, .v1500 => table6
  | .arm64, .v1600 => table7
  | .arm64, .v1700 => table8
  | .arm64, .v1800 => table9
  | .arm64, .v1900 => table10
  | .arm64ec, .v1310 => table0
  | .arm64ec, .v1400 => table6
  | .arm64ec, .v1500 => table6
  | .arm64ec, .v1600 => table7
  | .arm64ec, .v1700 => table8
  | .arm64ec, .v1800 => table9
  | .arm64ec, .v1900 => table10

/-- What interlocked.hpp defines: 17–51, 53–487, 491–517, 519–581. -/
def Compiler.table : Compiler → List (Name × Call)
  | .wce ver => if 0x600 ≤ ver then table0 else table0
  | .msvc arch ver => msvcTable arch (era ver)
  | .windowsH win64 => if win64 then table12 else table11
  | .declared win64 => if win64 then table12 else table11

/-! ### Uses -/

namespace Arm

/-- `fetch_add`, core_arch_ops_msvc_arm.hpp 174–195, 339–360, 504–525, 669–690: the macro used for
objects of `N` bits, given the value of the memory order. -/
def fetchAdd : Nat → Nat → Option Use
  | 8, 0 => some ⟨⟨.exchangeAdd, 8, .relaxed⟩, [0, 1]⟩
  | 8, 1 => some ⟨⟨.exchangeAdd, 8, .acquire⟩, [0, 1]⟩
  | 8, 2 => some ⟨⟨.exchangeAdd, 8, .acquire⟩, [0, 1]⟩
  | 8, 4 => some ⟨⟨.exchangeAdd, 8, .release⟩, [0, 1]⟩
  | 8, 6 => some ⟨⟨.exchangeAdd, 8, .full⟩, [0, 1]⟩
  | 8, 14 => some ⟨⟨.exchangeAdd, 8, .full⟩, [0, 1]⟩
  | 8, _ => some ⟨⟨.exchangeAdd, 8, .full⟩, [0, 1]⟩
  | 16, 0 => some ⟨⟨.exchangeAdd, 16, .relaxed⟩, [0, 1]⟩
  | 16, 1 => some ⟨⟨.exchangeAdd, 16, .acquire⟩, [0, 1]⟩
  | 16, 2 => some ⟨⟨.exchangeAdd, 16, .acquire⟩, [0, 1]⟩
  | 16, 4 => some ⟨⟨.exchangeAdd, 16, .release⟩, [0, 1]⟩
  | 16, 6 => some ⟨⟨.exchangeAdd, 16, .full⟩, [0, 1]⟩
  | 16, 14 => some ⟨⟨.exchangeAdd, 16, .full⟩, [0, 1]⟩
  | 16, _ => some ⟨⟨.exchangeAdd, 16, .full⟩, [0, 1]⟩
  | 32, 0 => some ⟨⟨.exchangeAdd, 32, .relaxed⟩, [0, 1]⟩
  | 32, 1 => some ⟨⟨.exchangeAdd, 32, .acquire⟩, [0, 1]⟩
  | 32, 2 => some ⟨⟨.exchangeAdd, 32, .acquire⟩, [0, 1]⟩
  | 32, 4 => some ⟨⟨.exchangeAdd, 32, .release⟩, [0, 1]⟩
  | 32, 6 => some ⟨⟨.exchangeAdd, 32, .full⟩, [0, 1]⟩
  | 32, 14 => some ⟨⟨.exchangeAdd, 32, .full⟩, [0, 1]⟩
  | 32, _ => some ⟨⟨.exchangeAdd, 32, .full⟩, [0, 1]⟩
  | 64, 0 => some ⟨⟨.exchangeAdd, 64, .relaxed⟩, [0, 1]⟩
  | 64, 1 => some ⟨⟨.exchangeAdd, 64, .acquire⟩, [0, 1]⟩
  | 64, 2 => some ⟨⟨.exchangeAdd, 64, .acquire⟩, [0, 1]⟩
  | 64, 4 => some ⟨⟨.exchangeAdd, 64, .release⟩, [0, 1]⟩
  | 64, 6 => some ⟨⟨.exchangeAdd, 64, .full⟩, [0, 1]⟩
  | 64, 14 => some ⟨⟨.exchangeAdd, 64, .full⟩, [0, 1]⟩
  | 64, _ => some ⟨⟨.exchangeAdd, 64, .full⟩, [0, 1]⟩
  | _, _ => none

/-- `exchange`, core_arch_ops_msvc_arm.hpp 197–218, 362–383, 527–548, 692–713: the macro used for
objects of `N` bits, given the value of the memory order. -/
def exchange : Nat → Nat → Option Use
  | 8, 0 => some ⟨⟨.exchange, 8, .relaxed⟩, [0, 1]⟩
  | 8, 1 => some ⟨⟨.exchange, 8, .acquire⟩, [0, 1]⟩
  | 8, 2 => some ⟨⟨.exchange, 8, .acquire⟩, [0, 1]⟩
  | 8, 4 => some ⟨⟨.exchange, 8, .release⟩, [0, 1]⟩
  | 8, 6 => some ⟨⟨.exchange, 8, .full⟩, [0, 1]⟩
  | 8, 14 => some ⟨⟨.exchange, 8, .full⟩, [0, 1]⟩
  | 8, _ => some ⟨⟨.exchange, 8, .full⟩, [0, 1]⟩
  | 16, 0 => some ⟨⟨.exchange, 16, .relaxed⟩, [0, 1]⟩
  | 16, 1 => some ⟨⟨.exchange, 16, .acquire⟩, [0, 1]⟩
  | 16, 2 => some ⟨⟨.exchange, 16, .acquire⟩, [0, 1]⟩
  | 16, 4 => some ⟨⟨.exchange, 16, .release⟩, [0, 1]⟩
  | 16, 6 => some ⟨⟨.exchange, 16, .full⟩, [0, 1]⟩
  | 16, 14 => some ⟨⟨.exchange, 16, .full⟩, [0, 1]⟩
  | 16, _ => some ⟨⟨.exchange, 16, .full⟩, [0, 1]⟩
  | 32, 0 => some ⟨⟨.exchange, 32, .relaxed⟩, [0, 1]⟩
  | 32, 1 => some ⟨⟨.exchange, 32, .acquire⟩, [0, 1]⟩
  | 32, 2 => some ⟨⟨.exchange, 32, .acquire⟩, [0, 1]⟩
  | 32, 4 => some ⟨⟨.exchange, 32, .release⟩, [0, 1]⟩
  | 32, 6 => some ⟨⟨.exchange, 32, .full⟩, [0, 1]⟩
  | 32, 14 => some ⟨⟨.exchange, 32, .full⟩, [0, 1]⟩
  | 32, _ => some ⟨⟨.exchange, 32, .full⟩, [0, 1]⟩
  | 64, 0 => some ⟨⟨.exchange, 64, .relaxed⟩, [0, 1]⟩
  | 64, 1 => some ⟨⟨.exchange, 64, .acquire⟩, [0, 1]⟩
  | 64, 2 => some ⟨⟨.exchange, 64, .acquire⟩, [0, 1]⟩
  | 64, 4 => some ⟨⟨.exchange, 64, .release⟩, [0, 1]⟩
  | 64, 6 => some ⟨⟨.exchange, 64, .full⟩, [0, 1]⟩
  | 64, 14 => some ⟨⟨.exchange, 64, .full⟩, [0, 1]⟩
  | 64, _ => some ⟨⟨.exchange, 64, .full⟩, [0, 1]⟩
  | _, _ => none

/-- `compare_exchange_strong`, core_arch_ops_msvc_arm.hpp 220–246, 385–411, 550–576, 715–741: the
macro used for objects of `N` bits, given the value of the memory order. -/
def compareExchangeStrong : Nat → Nat → Option Use
  | 8, 0 => some ⟨⟨.compareExchange, 8, .relaxed⟩, [0, 2, 3]⟩
  | 8, 1 => some ⟨⟨.compareExchange, 8, .acquire⟩, [0, 2, 3]⟩
  | 8, 2 => some ⟨⟨.compareExchange, 8, .acquire⟩, [0, 2, 3]⟩
  | 8, 4 => some ⟨⟨.compareExchange, 8, .release⟩, [0, 2, 3]⟩
  | 8, 6 => some ⟨⟨.compareExchange, 8, .full⟩, [0, 2, 3]⟩
  | 8, 14 => some ⟨⟨.compareExchange, 8, .full⟩, [0, 2, 3]⟩
  | 8, _ => some ⟨⟨.compareExchange, 8, .full⟩, [0, 2, 3]⟩
  | 16, 0 => some ⟨⟨.compareExchange, 16, .relaxed⟩, [0, 2, 3]⟩
  | 16, 1 => some ⟨⟨.compareExchange, 16, .acquire⟩, [0, 2, 3]⟩
  | 16, 2 => some ⟨⟨.compareExchange, 16, .acquire⟩, [0, 2, 3]⟩
  | 16, 4 => some ⟨⟨.compareExchange, 16, .release⟩, [0, 2, 3]⟩
  | 16, 6 => some ⟨⟨.compareExchange, 16, .full⟩, [0, 2, 3]⟩
  | 16, 14 => some ⟨⟨.compareExchange, 16, .full⟩, [0, 2, 3]⟩
  | 16, _ => some ⟨⟨.compareExchange, 16, .full⟩, [0, 2, 3]⟩
  | 32, 0 => some ⟨⟨.compareExchange, 32, .relaxed⟩, [0, 2, 3]⟩
  | 32, 1 => some ⟨⟨.compareExchange, 32, .acquire⟩, [0, 2, 3]⟩
  | 32, 2 => some ⟨⟨.compareExchange, 32, .acquire⟩, [0, 2, 3]⟩
  | 32, 4 => some ⟨⟨.compareExchange, 32, .release⟩, [0, 2, 3]⟩
  | 32, 6 => some ⟨⟨.compareExchange, 32, .full⟩, [0, 2, 3]⟩
  | 32, 14 => some ⟨⟨.compareExchange, 32, .full⟩, [0, 2, 3]⟩
  | 32, _ => some ⟨⟨.compareExchange, 32, .full⟩, [0, 2, 3]⟩
  | 64, 0 => some ⟨⟨.compareExchange, 64, .relaxed⟩, [0, 2, 3]⟩
  | 64, 1 => some ⟨⟨.compareExchange, 64, .acquire⟩, [0, 2, 3]⟩
  | 64, 2 => some ⟨⟨.compareExchange, 64, .acquire⟩, [0, 2, 3]⟩
  | 64, 4 => some ⟨⟨.compareExchange, 64, .release⟩, [0, 2, 3]⟩
  | 64, 6 => some ⟨⟨.compareExchange, 64, .full⟩, [0, 2, 3]⟩
  | 64, 14 => some ⟨⟨.compareExchange, 64, .full⟩, [0, 2, 3]⟩
  | 64, _ => some ⟨⟨.compareExchange, 64, .full⟩, [0, 2, 3]⟩
  | _, _ => none

/-- `fetch_and`, core_arch_ops_msvc_arm.hpp 248–269, 413–434, 578–599, 743–764: the macro used for
objects of `N` bits, given the value of the memory order. -/
def fetchAnd : Nat → Nat → Option Use
  | 8, 0 => some ⟨⟨.and, 8, .relaxed⟩, [0, 1]⟩
  | 8, 1 => some ⟨⟨.and, 8, .acquire⟩, [0, 1]⟩
  | 8, 2 => some ⟨⟨.and, 8, .acquire⟩, [0, 1]⟩
  | 8, 4 => some ⟨⟨.and, 8, .release⟩, [0, 1]⟩
  | 8, 6 => some ⟨⟨.and, 8, .full⟩, [0, 1]⟩
  | 8, 14 => some ⟨⟨.and, 8, .full⟩, [0, 1]⟩
  | 8, _ => some ⟨⟨.and, 8, .full⟩, [0, 1]⟩
  | 16, 0 => some ⟨⟨.and, 16, .relaxed⟩, [0, 1]⟩
  | 16, 1 => some ⟨⟨.and, 16, .acquire⟩, [0, 1]⟩
  | 16, 2 => some ⟨⟨.and, 16, .acquire⟩, [0, 1]⟩
  | 16, 4 => some ⟨⟨.and, 16, .release⟩, [0, 1]⟩
  | 16, 6 => some ⟨⟨.and, 16, .full⟩, [0, 1]⟩
  | 16, 14 => some ⟨⟨.and, 16, .full⟩, [0, 1]⟩
  | 16, _ => some ⟨⟨.and, 16, .full⟩, [0, 1]⟩
  | 32, 0 => some ⟨⟨.and, 32, .relaxed⟩, [0, 1]⟩
  | 32, 1 => some ⟨⟨.and, 32, .acquire⟩, [0, 1]⟩
  | 32, 2 => some ⟨⟨.and, 32, .acquire⟩, [0, 1]⟩
  | 32, 4 => some ⟨⟨.and, 32, .release⟩, [0, 1]⟩
  | 32, 6 => some ⟨⟨.and, 32, .full⟩, [0, 1]⟩
  | 32, 14 => some ⟨⟨.and, 32, .full⟩, [0, 1]⟩
  | 32, _ => some ⟨⟨.and, 32, .full⟩, [0, 1]⟩
  | 64, 0 => some ⟨⟨.and, 64, .relaxed⟩, [0, 1]⟩
  | 64, 1 => some ⟨⟨.and, 64, .acquire⟩, [0, 1]⟩
  | 64, 2 => some ⟨⟨.and, 64, .acquire⟩, [0, 1]⟩
  | 64, 4 => some ⟨⟨.and, 64, .release⟩, [0, 1]⟩
  | 64, 6 => some ⟨⟨.and, 64, .full⟩, [0, 1]⟩
  | 64, 14 => some ⟨⟨.and, 64, .full⟩, [0, 1]⟩
  | 64, _ => some ⟨⟨.and, 64, .full⟩, [0, 1]⟩
  | _, _ => none

/-- `fetch_or`, core_arch_ops_msvc_arm.hpp 271–292, 436–457, 601–622, 766–787: the macro used for
objects of `N` bits, given the value of the memory order. -/
def fetchOr : Nat → Nat → Option Use
  | 8, 0 => some ⟨⟨.or, 8, .relaxed⟩, [0, 1]⟩
  | 8, 1 => some ⟨⟨.or, 8, .acquire⟩, [0, 1]⟩
  | 8, 2 => some ⟨⟨.or, 8, .acquire⟩, [0, 1]⟩
  | 8, 4 => some ⟨⟨.or, 8, .release⟩, [0, 1]⟩
  | 8, 6 => some ⟨⟨.or, 8, .full⟩, [0, 1]⟩
  | 8, 14 => some ⟨⟨.or, 8, .full⟩, [0, 1]⟩
  | 8, _ => some ⟨⟨.or, 8, .full⟩, [0, 1]⟩
  | 16, 0 => some ⟨⟨.or, 16, .relaxed⟩, [0, 1]⟩
  | 16, 1 => some ⟨⟨.or, 16, .acquire⟩, [0, 1]⟩
  | 16, 2 => some ⟨⟨.or, 16, .acquire⟩, [0, 1]⟩
  | 16, 4 => some ⟨⟨.or, 16, .release⟩, [0, 1]⟩
  | 16, 6 => some ⟨⟨.or, 16, .full⟩, [0, 1]⟩
  | 16, 14 => some ⟨⟨.or, 16, .full⟩, [0, 1]⟩
  | 16, _ => some ⟨⟨.or, 16, .full⟩, [0, 1]⟩
  | 32, 0 => some ⟨⟨.or, 32, .relaxed⟩, [0, 1]⟩
  | 32, 1 => some ⟨⟨.or, 32, .acquire⟩, [0, 1]⟩
  | 32, 2 => some ⟨⟨.or, 32, .acquire⟩, [0, 1]⟩
  | 32, 4 => some ⟨⟨.or, 32, .release⟩, [0, 1]⟩
  | 32, 6 => some ⟨⟨.or, 32, .full⟩, [0, 1]⟩
  | 32, 14 => some ⟨⟨.or, 32, .full⟩, [0, 1]⟩
  | 32, _ => some ⟨⟨.or, 32, .full⟩, [0, 1]⟩
  | 64, 0 => some ⟨⟨.or, 64, .relaxed⟩, [0, 1]⟩
  | 64, 1 => some ⟨⟨.or, 64, .acquire⟩, [0, 1]⟩
  | 64, 2 => some ⟨⟨.or, 64, .acquire⟩, [0, 1]⟩
  | 64, 4 => some ⟨⟨.or, 64, .release⟩, [0, 1]⟩
  | 64, 6 => some ⟨⟨.or, 64, .full⟩, [0, 1]⟩
  | 64, 14 => some ⟨⟨.or, 64, .full⟩, [0, 1]⟩
  | 64, _ => some ⟨⟨.or, 64, .full⟩, [0, 1]⟩
  | _, _ => none

/-- `fetch_xor`, core_arch_ops_msvc_arm.hpp 294–315, 459–480, 624–645, 789–810: the macro used for
objects of `N` bits, given the value of the memory order. -/
def fetchXor : Nat → Nat → Option Use
  | 8, 0 => some ⟨⟨.xor, 8, .relaxed⟩, [0, 1]⟩
  | 8, 1 => some ⟨⟨.xor, 8, .acquire⟩, [0, 1]⟩
  | 8, 2 => some ⟨⟨.xor, 8, .acquire⟩, [0, 1]⟩
  | 8, 4 => some ⟨⟨.xor, 8, .release⟩, [0, 1]⟩
  | 8, 6 => some ⟨⟨.xor, 8, .full⟩, [0, 1]⟩
  | 8, 14 => some ⟨⟨.xor, 8, .full⟩, [0, 1]⟩
  | 8, _ => some ⟨⟨.xor, 8, .full⟩, [0, 1]⟩
  | 16, 0 => some ⟨⟨.xor, 16, .relaxed⟩, [0, 1]⟩
  | 16, 1 => some ⟨⟨.xor, 16, .acquire⟩, [0, 1]⟩
  | 16, 2 => some ⟨⟨.xor, 16, .acquire⟩, [0, 1]⟩
  | 16, 4 => some ⟨⟨.xor, 16, .release⟩, [0, 1]⟩
  | 16, 6 => some ⟨⟨.xor, 16, .full⟩, [0, 1]⟩
  | 16, 14 => some ⟨⟨.xor, 16, .full⟩, [0, 1]⟩
  | 16, _ => some ⟨⟨.xor, 16, .full⟩, [0, 1]⟩
  | 32, 0 => some ⟨⟨.xor, 32, .relaxed⟩, [0, 1]⟩
  | 32, 1 => some ⟨⟨.xor, 32, .acquire⟩, [0, 1]⟩
  | 32, 2 => some ⟨⟨.xor, 32, .acquire⟩, [0, 1]⟩
  | 32, 4 => some ⟨⟨.xor, 32, .release⟩, [0, 1]⟩
  | 32, 6 => some ⟨⟨.xor, 32, .full⟩, [0, 1]⟩
  | 32, 14 => some ⟨⟨.xor, 32, .full⟩, [0, 1]⟩
  | 32, _ => some ⟨⟨.xor, 32, .full⟩, [0, 1]⟩
  | 64, 0 => some ⟨⟨.xor, 64, .relaxed⟩, [0, 1]⟩
  | 64, 1 => some ⟨⟨.xor, 64, .acquire⟩, [0, 1]⟩
  | 64, 2 => some ⟨⟨.xor, 64, .acquire⟩, [0, 1]⟩
  | 64, 4 => some ⟨⟨.xor, 64, .release⟩, [0, 1]⟩
  | 64, 6 => some ⟨⟨.xor, 64, .full⟩, [0, 1]⟩
  | 64, 14 => some ⟨⟨.xor, 64, .full⟩, [0, 1]⟩
  | 64, _ => some ⟨⟨.xor, 64, .full⟩, [0, 1]⟩
  | _, _ => none

end Arm

namespace ArmExtra

/-- `bit_test_and_set`, extra_ops_msvc_arm.hpp 43–69: the macro used for objects of `N` bits, given
the value of the memory order. -/
def bitTestAndSet : Nat → Nat → Option Use
  | 32, 0 => some ⟨⟨.bts, 32, .relaxed⟩, [0, 1]⟩
  | 32, 1 => some ⟨⟨.bts, 32, .acquire⟩, [0, 1]⟩
  | 32, 2 => some ⟨⟨.bts, 32, .acquire⟩, [0, 1]⟩
  | 32, 4 => some ⟨⟨.bts, 32, .release⟩, [0, 1]⟩
  | 32, 6 => some ⟨⟨.bts, 32, .full⟩, [0, 1]⟩
  | 32, 14 => some ⟨⟨.bts, 32, .full⟩, [0, 1]⟩
  | 32, _ => some ⟨⟨.bts, 32, .full⟩, [0, 1]⟩
  | _, _ => none

/-- `bit_test_and_reset`, extra_ops_msvc_arm.hpp 71–97: the macro used for objects of `N` bits,
given the value of the memory order. -/
def bitTestAndReset : Nat → Nat → Option Use
  | 32, 0 => some ⟨⟨.btr, 32, .relaxed⟩, [0, 1]⟩
  | 32, 1 => some ⟨⟨.btr, 32, .acquire⟩, [0, 1]⟩
  | 32, 2 => some ⟨⟨.btr, 32, .acquire⟩, [0, 1]⟩
  | 32, 4 => some ⟨⟨.btr, 32, .release⟩, [0, 1]⟩
  | 32, 6 => some ⟨⟨.btr, 32, .full⟩, [0, 1]⟩
  | 32, 14 => some ⟨⟨.btr, 32, .full⟩, [0, 1]⟩
  | 32, _ => some ⟨⟨.btr, 32, .full⟩, [0, 1]⟩
  | _, _ => none

end ArmExtra

namespace X86

/-- `fetch_add`, core_arch_ops_msvc_x86.hpp 228–231, 403–406, 157–160, 787–790: the macro used for
objects of `N` bits. -/
def fetchAdd : Nat → Option Use
  | 8 => some ⟨⟨.exchangeAdd, 8, .full⟩, [0, 1]⟩
  | 16 => some ⟨⟨.exchangeAdd, 16, .full⟩, [0, 1]⟩
  | 32 => some ⟨⟨.exchangeAdd, 32, .full⟩, [0, 1]⟩
  | 64 => some ⟨⟨.exchangeAdd, 64, .full⟩, [0, 1]⟩
  | _ => none

/-- `exchange`, core_arch_ops_msvc_x86.hpp 233–236, 408–411, 162–165, 792–795: the macro used for
objects of `N` bits. -/
def exchange : Nat → Option Use
  | 8 => some ⟨⟨.exchange, 8, .full⟩, [0, 1]⟩
  | 16 => some ⟨⟨.exchange, 16, .full⟩, [0, 1]⟩
  | 32 => some ⟨⟨.exchange, 32, .full⟩, [0, 1]⟩
  | 64 => some ⟨⟨.exchange, 64, .full⟩, [0, 1]⟩
  | _ => none

/-- `compare_exchange_strong`, core_arch_ops_msvc_x86.hpp 238–245, 413–420, 167–174, 797–804,
875–879: the macro used for objects of `N` bits. -/
def compareExchangeStrong : Nat → Option Use
  | 8 => some ⟨⟨.compareExchange, 8, .full⟩, [0, 2, 3]⟩
  | 16 => some ⟨⟨.compareExchange, 16, .full⟩, [0, 2, 3]⟩
  | 32 => some ⟨⟨.compareExchange, 32, .full⟩, [0, 2, 3]⟩
  | 64 => some ⟨⟨.compareExchange, 64, .full⟩, [0, 2, 3]⟩
  | 128 => some ⟨⟨.compareExchange, 128, .full⟩, [0, 2, 1]⟩
  | _ => none

/-- `fetch_and`, core_arch_ops_msvc_x86.hpp 247–250, 422–425, 177–180, 806–809: the macro used for
objects of `N` bits. -/
def fetchAnd : Nat → Option Use
  | 8 => some ⟨⟨.and, 8, .full⟩, [0, 1]⟩
  | 16 => some ⟨⟨.and, 16, .full⟩, [0, 1]⟩
  | 32 => some ⟨⟨.and, 32, .full⟩, [0, 1]⟩
  | 64 => some ⟨⟨.and, 64, .full⟩, [0, 1]⟩
  | _ => none

/-- `fetch_or`, core_arch_ops_msvc_x86.hpp 252–255, 427–430, 191–194, 811–814: the macro used for
objects of `N` bits. -/
def fetchOr : Nat → Option Use
  | 8 => some ⟨⟨.or, 8, .full⟩, [0, 1]⟩
  | 16 => some ⟨⟨.or, 16, .full⟩, [0, 1]⟩
  | 32 => some ⟨⟨.or, 32, .full⟩, [0, 1]⟩
  | 64 => some ⟨⟨.or, 64, .full⟩, [0, 1]⟩
  | _ => none

/-- `fetch_xor`, core_arch_ops_msvc_x86.hpp 257–260, 432–435, 205–208, 816–819: the macro used for
objects of `N` bits. -/
def fetchXor : Nat → Option Use
  | 8 => some ⟨⟨.xor, 8, .full⟩, [0, 1]⟩
  | 16 => some ⟨⟨.xor, 16, .full⟩, [0, 1]⟩
  | 32 => some ⟨⟨.xor, 32, .full⟩, [0, 1]⟩
  | 64 => some ⟨⟨.xor, 64, .full⟩, [0, 1]⟩
  | _ => none

/-- `store`, core_arch_ops_msvc_x86.hpp 839–855: the macro used for objects of `N` bits. -/
def store_ : Nat → Option Use
  | 128 => some ⟨⟨.compareExchange, 128, .full⟩, [0, 2, 1]⟩
  | _ => none

/-- `load`, core_arch_ops_msvc_x86.hpp 857–873: the macro used for objects of `N` bits. -/
def load_ : Nat → Option Use
  | 128 => some ⟨⟨.compareExchange, 128, .full⟩, [0, 1, 1]⟩
  | _ => none

end X86

namespace X86Extra

/-- `bit_test_and_set`, extra_ops_msvc_x86.hpp 1254–1257, 1309–1312: the macro used for objects of
`N` bits. -/
def bitTestAndSet : Nat → Option Use
  | 32 => some ⟨⟨.bts, 32, .full⟩, [0, 1]⟩
  | 64 => some ⟨⟨.bts, 64, .full⟩, [0, 1]⟩
  | _ => none

/-- `bit_test_and_reset`, extra_ops_msvc_x86.hpp 1276–1279, 1314–1317: the macro used for objects of
`N` bits. -/
def bitTestAndReset : Nat → Option Use
  | 32 => some ⟨⟨.btr, 32, .full⟩, [0, 1]⟩
  | 64 => some ⟨⟨.btr, 64, .full⟩, [0, 1]⟩
  | _ => none

end X86Extra

namespace Windows

/-- `fetch_add`, core_ops_windows.hpp 112–118: the macro used for objects of `N` bits. -/
def fetchAdd : Nat → Option Use
  | 32 => some ⟨⟨.exchangeAdd, 32, .full⟩, [0, 1]⟩
  | _ => none

/-- `exchange`, core_ops_windows.hpp 120–126: the macro used for objects of `N` bits. -/
def exchange : Nat → Option Use
  | 32 => some ⟨⟨.exchange, 32, .full⟩, [0, 1]⟩
  | _ => none

/-- `compare_exchange_strong`, core_ops_windows.hpp 128–138: the macro used for objects of `N` bits.
-/
def compareExchangeStrong : Nat → Option Use
  | 32 => some ⟨⟨.compareExchange, 32, .full⟩, [0, 2, 3]⟩
  | _ => none

/-- `fetch_and`, core_ops_windows.hpp 140–152: the macro used for objects of `N` bits. -/
def fetchAnd : Nat → Option Use
  | 32 => some ⟨⟨.and, 32, .full⟩, [0, 1]⟩
  | _ => none

/-- `fetch_or`, core_ops_windows.hpp 154–166: the macro used for objects of `N` bits. -/
def fetchOr : Nat → Option Use
  | 32 => some ⟨⟨.or, 32, .full⟩, [0, 1]⟩
  | _ => none

/-- `fetch_xor`, core_ops_windows.hpp 168–180: the macro used for objects of `N` bits. -/
def fetchXor : Nat → Option Use
  | 32 => some ⟨⟨.xor, 32, .full⟩, [0, 1]⟩
  | _ => none

end Windows

end Verif.Asm.Interlocked
