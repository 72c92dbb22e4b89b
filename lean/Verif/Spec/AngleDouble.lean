import Verif.Spec.StrokeDouble
import Verif.Spec.AccuracyDim

/-! # How an angle between legs square to the line of sight is to be drawn, with rounding -/

namespace S2P

/-- The strokes, in points on the page: `x` is the apex, `p` and `q` are where the legs begin, `a` and `b` the unit vectors along the legs, `b` to the left of
`a`, and `L` is the radius of the arc.  The two legs, from 2 points after their beginning to 4 points beyond the arc; at each end of the arc the two barbs of
an arrowhead, 6 points along the arc and 2 to each side. -/
noncomputable def angleStrokes (x p q a b : V2 ℝ) (L : ℝ) : List (Line ℝ) :=
  let f := x + a.smul L
  let t := x + b.smul L
  [⟨p + a.smul 2, x + a.smul (L + 4)⟩, ⟨q + b.smul 2, x + b.smul (L + 4)⟩,
   ⟨f, f + a.smul 2 + a.left.smul 6⟩, ⟨f, f - a.smul 2 + a.left.smul 6⟩,
   ⟨t, t + b.smul 2 - b.left.smul 6⟩, ⟨t, t - b.smul 2 - b.left.smul 6⟩]

variable {R : Rounding}

/-- `t` is the angle (in radians, between -4 and 4) of the direction `a`, but for `δ` -/
def IsAngle (δ : ℝ) (t : Fl R) (a : V2 ℝ) : Prop := ∃ y : ℝ, t = (Ext.fin y : Ext ℝ) ∧ |y| ≤ 4 ∧ |Real.cos y - a.x| ≤ δ ∧ |Real.sin y - a.y| ≤ δ

/-- the arc around `x` with radius `L`, counter-clockwise from the direction `a` to the direction `b` -/
def ArcNear (ε δ : ℝ) (c : Arc (Fl R)) (x : V2 ℝ) (L : ℝ) (a b : V2 ℝ) : Prop :=
  V2.NearTo c.center x ε ∧ Fl.Near c.r L ε ∧ IsAngle δ c.start a ∧ IsAngle δ c.stop b

/-- a leg begins at the apex `x` if its direction is given, else at the point given -/
def LegStart (ms : List (Meta (Fl R))) (dirName pointName : Str) (x p : V3 ℝ) : Prop :=
  (p = x ∧ ∃ u, Literal (K := ℝ) ms dirName u) ∨ (look ms dirName = none ∧ Literal (K := ℝ) ms pointName p)

/-- `a` is the unit vector on the page along the leg `u` -/
def LegDir (r : M3 ℝ) (u : V3 ℝ) (a : V2 ℝ) : Prop := a.dot a = 1 ∧ ∃ c, 0 < c ∧ (u.mulM r).xy = a.smul c

/-- How far off the strokes may be, in points.  `M` bounds the coordinates, `k` is the scale, `ν` the accuracy of the legs, `s` the sine of the angle and `o`
the shift of the drawing.  (The gap of 2 points is a `float`.) -/
noncomputable def angleError (M k ν s : ℝ) (o : V2 ℝ) : ℝ := 2 ^ 10 * (M * k) * ν + 2 ^ 16 * (ν / s) + (|o.x| + |o.y|) / 2 ^ 45 + 1 / 2 ^ 14

/-- the strokes and the arc of an angle whose second leg is to the left of the first -/
def AngleInk (ε δ : ℝ) (x p q a b : V2 ℝ) (L : ℝ) (P : OutPage (Fl R)) : Prop :=
  List.Forall₂ (StrokeNear ε) P.lines (angleStrokes x p q a b L) ∧ ∃ c, P.arcs = [c] ∧ ArcNear ε δ c x L a b

/-- An angle with literal points within `M`: label at `a`, apex `x`, legs along `u` and `w` that begin at `p` and `q`, square to the line of sight. -/
structure AngleAsks (E : Env (Fl R)) (d : DimN (Fl R)) (r : M3 ℝ) (a x u w p q : V3 ℝ) (g : Fl R → Str) (K M : ℝ) : Prop where
  given : AngleSays E d x u w g K
  at_ : Literal (K := ℝ) d.metas c!"at" a
  start : LegStart d.metas c!"from_dir" c!"from_point" x p
  start' : LegStart d.metas c!"to_dir" c!"to_point" x q
  within : a.Within M ∧ x.Within M ∧ p.Within M ∧ q.Within M
  square : (u.mulM r).z = 0 ∧ (w.mulM r).z = 0

/-- What such an angle gives, if it is not too flat: the label and, from the leg to the right to the leg to the left, the strokes and the arc. -/
def AngleDone (M η K : ℝ) (r : M3 ℝ) (k : ℝ) (p off : V2 ℝ) (a x u w f t : V3 ℝ) (g : Fl R → Str) (b : OutPage (Fl R)) : Prop :=
  (∃ q y, b.text = [⟨q, g y ++ c!" deg", true, false⟩] ∧
    Fl.Near y (angleBetween u w * 180 / Real.pi) (2 ^ 18 * (K * η) / Real.sin (angleBetween u w)) ∧ V2.NearTo q (onPage r k off a) (inkError M k p)) ∧
  ∀ e e', LegDir r u e → LegDir r w e' →
    (0 < e.x * e'.y - e.y * e'.x → AngleInk (angleError M k (K * η) (e.x * e'.y - e.y * e'.x) off) (2 ^ 9 * (K * η))
      (onPage r k off x) (onPage r k off f) (onPage r k off t) e e' (len3 (a - x) * k) b) ∧
    (0 < e'.x * e.y - e'.y * e.x → AngleInk (angleError M k (K * η) (e'.x * e.y - e'.y * e.x) off) (2 ^ 9 * (K * η))
      (onPage r k off x) (onPage r k off t) (onPage r k off f) e' e (len3 (a - x) * k) b)

end S2P
