import Lean
import Mathlib.Data.Rat.Defs

/-!
# Arithmetic interface

The C++ code computes with `double` (and, in three places, `float`).  The model is written over an arbitrary
type `α` with the operations below and **no laws**: a theorem proved for every `FP α` holds for IEEE doubles
with rounding, for exact reals, and for any other interpretation.
-/

namespace S2P

/-- Byte strings.  One `Char` stands for one byte of a C++ `std::string`; theorems quantify over all lists of
characters, a superset of the byte strings. -/
abbrev Str := List Char

/-- `c!"abc"` is the explicit character list `['a','b','c']`. -/
macro:max "c!" s:str : term => do
  let cs := s.getString.toList.map Lean.Syntax.mkCharLit
  `(([$(cs.toArray),*] : List Char))

/-- Ways in which the C++ process stops abnormally or loses meaning. -/
inductive Abort where
  /-- a failed `CHECK` (absl) terminates the process -/
  | check
  /-- the `CHECK` that an '@' property is a 2D location (stl-to-ps.cc:700, 807); kept apart because C07 is about it -/
  | atCheck
  /-- the C++ standard gives no meaning to what the code does next -/
  | ub
  /-- an uncaught C++ exception terminates the process -/
  | exception
  deriving DecidableEq, Repr

/-- The operations on `double` used by /repo.  No laws. -/
class FP (α : Type) extends Add α, Sub α, Mul α, Div α, Neg α where
  /-- a numeric literal, or an integer converted to `double` -/
  lit : Rat → α
  sqrt : α → α
  sin : α → α
  cos : α → α
  acos : α → α
  atan2 : α → α → α
  /-- C++ `<` (false when an operand is NaN) -/
  lt : α → α → Bool
  /-- C++ `<=` -/
  le : α → α → Bool
  /-- C++ `==`; `!=` is its negation -/
  eq : α → α → Bool
  /-- rounding to `float` (stl-to-ps-impl.h:97 `float scale`, stl-to-ps.cc:80 `float text_at`) -/
  f32 : α → α
  /-- `std::numeric_limits<double>::max()` (ast.cc:66) -/
  dblMax : α
  /-- `strtod` on a decimal numeral with this exact value; `none` when it reports ERANGE -/
  ofDec64 : Rat → Option α
  /-- `std::stof` on a decimal numeral with this exact value, then widened to `double`;
  `none` when it throws `std::out_of_range` (lexer.l:96-97) -/
  ofDec32 : Rat → Option α
  /-- float-to-`int` conversion (parser.y:137); `none` where C++ leaves it undefined -/
  toInt : α → Option Int
  /-- the six significant digits that `absl::Substitute` prints for a `double` (ps.cc:115,122,151) -/
  g6 : α → Str

namespace FP
variable {α : Type} [FP α]
/-- C++ `std::min(a, b)`: `b < a ? b : a`. -/
def min (a b : α) : α := if FP.lt b a then b else a
/-- C++ `std::max(a, b)`: `a < b ? b : a`. -/
def max (a b : α) : α := if FP.lt a b then b else a
/-- `std::abs` on `double`; up to the sign of zero, `x < 0 ? -x : x`. -/
def abs (x : α) : α := if FP.lt x (lit 0) then -x else x
end FP

end S2P
