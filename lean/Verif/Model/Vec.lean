import Verif.Model.FP

/-!
# The fragment of Eigen used by the code

`RowVector2d`, `RowVector3d`, `Matrix3d`.  Operations are defined from the scalar operations coefficientwise, as in Eigen.
Simplification: the association order of three-term sums is fixed to the left; theorems for every `FP α` do not depend on it.
-/

namespace S2P

/-- `Eigen::RowVector2d` -/
@[ext] structure V2 (α : Type) where
  x : α
  y : α
  deriving DecidableEq

/-- `Eigen::RowVector3d` -/
@[ext] structure V3 (α : Type) where
  x : α
  y : α
  z : α
  deriving DecidableEq

/-- `Eigen::Matrix3d`, by rows -/
@[ext] structure M3 (α : Type) where
  r0 : V3 α
  r1 : V3 α
  r2 : V3 α
  deriving DecidableEq

section
variable {α : Type}

instance [Add α] : Add (V2 α) := ⟨fun a b => ⟨a.x + b.x, a.y + b.y⟩⟩
instance [Sub α] : Sub (V2 α) := ⟨fun a b => ⟨a.x - b.x, a.y - b.y⟩⟩
instance [Neg α] : Neg (V2 α) := ⟨fun a => ⟨-a.x, -a.y⟩⟩
instance [Add α] : Add (V3 α) := ⟨fun a b => ⟨a.x + b.x, a.y + b.y, a.z + b.z⟩⟩
instance [Sub α] : Sub (V3 α) := ⟨fun a b => ⟨a.x - b.x, a.y - b.y, a.z - b.z⟩⟩
instance [Neg α] : Neg (V3 α) := ⟨fun a => ⟨-a.x, -a.y, -a.z⟩⟩

namespace V2
/-- `v * s` -/
def smul [Mul α] (v : V2 α) (s : α) : V2 α := ⟨v.x * s, v.y * s⟩
/-- `v / s` -/
def sdiv [Div α] (v : V2 α) (s : α) : V2 α := ⟨v.x / s, v.y / s⟩
def dot [Add α] [Mul α] (a b : V2 α) : α := a.x * b.x + a.y * b.y
def sqNorm [Add α] [Mul α] (a : V2 α) : α := a.dot a
def map {β : Type} (f : α → β) (v : V2 α) : V2 β := ⟨f v.x, f v.y⟩
end V2

namespace V3
/-- `v * s` -/
def smul [Mul α] (v : V3 α) (s : α) : V3 α := ⟨v.x * s, v.y * s, v.z * s⟩
/-- `v / s` -/
def sdiv [Div α] (v : V3 α) (s : α) : V3 α := ⟨v.x / s, v.y / s, v.z / s⟩
def dot [Add α] [Mul α] (a b : V3 α) : α := a.x * b.x + a.y * b.y + a.z * b.z
def sqNorm [Add α] [Mul α] (a : V3 α) : α := a.dot a
def cross [Sub α] [Mul α] (a b : V3 α) : V3 α :=
  ⟨a.y * b.z - a.z * b.y, a.z * b.x - a.x * b.z, a.x * b.y - a.y * b.x⟩
/-- row vector times matrix -/
def mulM [Add α] [Mul α] (v : V3 α) (m : M3 α) : V3 α :=
  ⟨v.x * m.r0.x + v.y * m.r1.x + v.z * m.r2.x,
   v.x * m.r0.y + v.y * m.r1.y + v.z * m.r2.y,
   v.x * m.r0.z + v.y * m.r1.z + v.z * m.r2.z⟩
def map {β : Type} (f : α → β) (v : V3 α) : V3 β := ⟨f v.x, f v.y, f v.z⟩
/-- drop the depth coordinate -/
def xy (v : V3 α) : V2 α := ⟨v.x, v.y⟩
end V3

namespace M3
def map {β : Type} (f : α → β) (m : M3 α) : M3 β := ⟨m.r0.map f, m.r1.map f, m.r2.map f⟩
end M3
end

section
variable {α : Type} [FP α]

namespace V2
/-- Eigen `operator==`: all coefficients equal -/
def eqv (a b : V2 α) : Bool := FP.eq a.x b.x && FP.eq a.y b.y
/-- Eigen `norm()` -/
def norm (a : V2 α) : α := FP.sqrt a.sqNorm
/-- Eigen `normalized()`: divides by the norm when the squared norm is positive, otherwise returns the vector unchanged -/
def normalized (a : V2 α) : V2 α := if FP.lt (FP.lit 0) a.sqNorm then a.sdiv a.norm else a
end V2

namespace V3
/-- Eigen `operator==` -/
def eqv (a b : V3 α) : Bool := FP.eq a.x b.x && FP.eq a.y b.y && FP.eq a.z b.z
/-- Eigen `norm()` -/
def norm (a : V3 α) : α := FP.sqrt a.sqNorm
/-- Eigen `normalized()` -/
def normalized (a : V3 α) : V3 α := if FP.lt (FP.lit 0) a.sqNorm then a.sdiv a.norm else a
/-- geo.h:85 `geo::point::zero` -/
def zero : V3 α := ⟨FP.lit 0, FP.lit 0, FP.lit 0⟩
end V3

namespace M3
/-- Eigen `operator==` on matrices -/
def eqv (a b : M3 α) : Bool := a.r0.eqv b.r0 && a.r1.eqv b.r1 && a.r2.eqv b.r2
end M3
end

end S2P
