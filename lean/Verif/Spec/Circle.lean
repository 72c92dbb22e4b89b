import Verif.Spec.Arith
import Mathlib.Analysis.SpecialFunctions.Pow.Real

/-! # Vocabulary for point searches and circle fitting: distances, lines, residuals -/

namespace S2P
variable {K : Type} [Field K]

/-- square of the distance on the page (depth ignored) -/
def pageDist2 (a b : V3 K) : K := (a.x - b.x) ^ 2 + (a.y - b.y) ^ 2

/-- square of the distance of two points of the plane -/
def dist2 (a b : V2 K) : K := (a.x - b.x) ^ 2 + (a.y - b.y) ^ 2

/-- Euclidean distance in the plane -/
noncomputable def dist (a b : V2 ℝ) : ℝ := Real.sqrt (dist2 a b)

/-- all the points lie on one straight line -/
def OnOneLine (ps : List (V2 K)) : Prop := ∃ a b c : K, (a ≠ 0 ∨ b ≠ 0) ∧ ∀ p ∈ ps, a * p.x + b * p.y = c

/-- what `near(t)` is to return: `t` when it is a vertex, otherwise a vertex nearest on the page, with depth zero -/
def NearResult [LE K] (qs : List (V3 K)) (t r : V3 K) : Prop :=
  (t ∈ qs → r = t) ∧
  (t ∉ qs → ∃ q ∈ qs, r = ⟨q.x, q.y, 0⟩ ∧ ∀ q' ∈ qs, pageDist2 q t ≤ pageDist2 q' t)

/-- algebraic residual of a point with respect to the circle of centre `c` and squared radius `s` -/
def residual (c : V2 K) (s : K) (p : V2 K) : K :=
  (p.x ^ 2 + p.y ^ 2) - 2 * (p.x * c.x + p.y * c.y) + (c.x ^ 2 + c.y ^ 2) - s

/-- sum of the squared residuals -/
def cost (ps : List (V2 K)) (c : V2 K) (s : K) : K := (ps.map (fun p => residual c s p ^ 2)).sum

end S2P
