import Verif.Spec.Sane

/-! # Round parts: every corner of the model file is exactly on a circle -/

namespace S2P

/-- The numbers on the vertex lines, read exactly, are points of the plane z = 0 on the circle of radius `r` round `(x, y)`. -/
def AllOn (content : Str) (x y r : ℚ) : Prop :=
  ∀ ls, LinesOf content ls → ∀ l ∈ ls, ∀ v : V3 ℚ, LineIs l (.vertex v.fin : StlLine (Ext ℚ)) → v.z = 0 ∧ (v.x - x) ^ 2 + (v.y - y) ^ 2 = r ^ 2

end S2P
