import Verif.Spec.Drawing

/-! # How a linear dimension is to be drawn -/

namespace S2P

/-- `q` is the foot of the perpendicular from `p` to the line through `a` along `u` -/
def Foot (a u p q : V3 ℝ) : Prop := (∃ k, q = a + u.smul k) ∧ (p - q).dot u = 0

/-- where the model point `p` is on the page: turned by the view `r`, depth dropped, scaled by `s`, moved by `d` -/
def onPage (r : M3 ℝ) (s : ℝ) (d : V2 ℝ) (p : V3 ℝ) : V2 ℝ := ⟨(p.mulM r).x * s + d.x, (p.mulM r).y * s + d.y⟩

/-- a quarter turn to the left -/
def V2.left (e : V2 ℝ) : V2 ℝ := ⟨-e.y, e.x⟩

/-- the point is on the left of the line through `a` along `e` (+1) or not (-1) -/
noncomputable def sideOf (a e p : V2 ℝ) : ℝ := if 0 < (p - a).dot e.left then 1 else -1

/-- going from the middle of a box (half width `w`, half height `h`) along the unit vector `e`, the distance `g` leads to its rim -/
def Leaves (w h : ℝ) (e : V2 ℝ) (g : ℝ) : Prop := 0 < g ∧ |e.x| * g ≤ w ∧ |e.y| * g ≤ h ∧ (|e.x| * g = w ∨ |e.y| * g = h)

/-- half the width and height reserved for a label of `n` characters, in points -/
noncomputable def labelW (n : ℕ) : ℝ := 8 * 0.3 * n + 1
noncomputable def labelH : ℝ := 8 * 0.333 + 1

/-- The strokes, in points on the page: `a` is the place of the label, `f` and `t` the points measured, `f'` and `t'` their feet on the dimension line,
`e` the unit vector from `f'` to `t'`, `g` the gap for the label.
The dimension line, broken for the label or else drawn outside; the extension lines, from 4 points beyond the dimension line to 2 points
before the point measured; the two barbs of each arrowhead, 6 points long and 2 to the side, pointing outwards or else inwards. -/
noncomputable def dimStrokes (fits : Prop) [Decidable fits] (g : ℝ) (a f t f' t' e : V2 ℝ) : List (Line ℝ) :=
  let w := e.left
  let σ := sideOf a e
  let k : ℝ := if fits then 6 else -6
  (if fits then [⟨f', a - e.smul g⟩, ⟨a + e.smul g, t'⟩] else [⟨f', f' - e.smul 10⟩, ⟨t', t' + e.smul 10⟩]) ++
  [⟨f' - w.smul (4 * σ f), f - w.smul (2 * σ f)⟩, ⟨t' - w.smul (4 * σ t), t - w.smul (2 * σ t)⟩,
   ⟨f', f' + (e.smul k + w.smul 2)⟩, ⟨f', f' + (e.smul k - w.smul 2)⟩,
   ⟨t', t' - (e.smul k - w.smul 2)⟩, ⟨t', t' - (e.smul k + w.smul 2)⟩]

/-- the distance between `f` and `t` along `u` -/
noncomputable def shown (u f t : V3 ℝ) : ℝ := |(t - f).dot u| / len3 u

end S2P
