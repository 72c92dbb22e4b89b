import Verif.Spec.Clear
import Verif.Spec.Sane

/-! # The body a model file describes, by its text -/

namespace S2P

/-- the normal of length 1 by the right-hand rule -/
noncomputable def unitNormal (a b c : V3 ℝ) : V3 ℝ := ((b - a).cross (c - a)).sdiv (len3 ((b - a).cross (c - a)))

/-- the triangle with the given corners, taken in the order that fits the declared normal `n` -/
noncomputable def triOf (n a b c : V3 ℝ) : Tri ℝ :=
  if n.dot (unitNormal a b c) < 0 then ⟨-unitNormal a b c, c, b, a, -(unitNormal a b c).dot a⟩ else ⟨unitNormal a b c, a, b, c, (unitNormal a b c).dot a⟩

/-- a triangle that is not all but a line, in a model of size `M`, and a declared normal that is not all but parallel to it -/
structure Stout (M : ℝ) (n a b c : V3 ℝ) : Prop where
  first : a.Within M
  second : b.Within M
  third : c.Within M
  normal : n.Within 2
  area : M ^ 2 / 2 ^ 20 ≤ len3 ((b - a).cross (c - a))
  sense : 1 / 2 ^ 16 ≤ |n.dot (unitNormal a b c)|

/-- rational coordinates as real ones -/
def V3.real (v : V3 ℚ) : V3 ℝ := ⟨v.x, v.y, v.z⟩

/-- The text, its numerals read exactly, describes the triangles `ts`; they are stout.  A facet with more than three vertices counts by the first three. -/
def Describes (M : ℝ) (content : Str) (ts : List (Tri ℝ)) : Prop :=
  ∃ (ls : List Str) (rs : List (StlLine (Ext ℚ))), LinesOf content ls ∧ List.Forall₂ LineIs ls rs ∧
    List.Forall₂ (fun B t => ∃ n a b c rest, B = (V3.fin n, V3.fin a :: V3.fin b :: V3.fin c :: rest) ∧ Stout M n.real a.real b.real c.real ∧
      t = triOf n.real a.real b.real c.real) (blocks rs) ts

/-- the facet stands for the triangle: the corners are the nearest numbers, but for the last digit; the normal and the distance of the plane are not far off -/
structure FacetFor {R : Rounding} (M : ℝ) (f : Facet (Fl R)) (t : Tri ℝ) : Prop where
  first : V3.NearTo f.e0 t.a (M / 2 ^ 51)
  second : V3.NearTo f.e1 t.b (M / 2 ^ 51)
  third : V3.NearTo f.e2 t.c (M / 2 ^ 51)
  normal : V3.NearTo f.norm t.n (1 / 2 ^ 22)
  dist : Fl.Near f.r t.r (M / 2 ^ 19)

end S2P
