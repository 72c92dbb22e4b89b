import Verif.Spec.StrokeDouble
import Verif.Spec.AngleDouble
import Verif.Spec.RimDouble

/-! # How a radius or diameter of a clear rim is to be drawn, with rounding -/

namespace S2P

/-- The strokes of a radius, in points on the page: `c` is the centre, `s` the place of the label, `e` the unit vector of the line, `L` the radius and `m` the
distance of the elbow from the centre.  A line from the centre along `e` to the elbow, one from there to the label, and the two barbs of an arrowhead on the rim, 6 points
back and 2 to each side. -/
noncomputable def radStrokes (c s e : V2 ℝ) (L m : ℝ) : List (Line ℝ) :=
  let a := c + e.smul L
  [⟨c, c + e.smul m⟩, ⟨c + e.smul m, s⟩, ⟨a, a - e.smul 6 + e.left.smul 2⟩, ⟨a, a - e.smul 6 - e.left.smul 2⟩]

/-- The strokes of a diameter: the line begins on the opposite side of the rim, and there is an arrowhead there too. -/
noncomputable def diaStrokes (c s e : V2 ℝ) (L m : ℝ) : List (Line ℝ) :=
  let a := c + e.smul L
  let b := c - e.smul L
  [⟨b, c + e.smul m⟩, ⟨c + e.smul m, s⟩, ⟨a, a - e.smul 6 + e.left.smul 2⟩, ⟨a, a - e.smul 6 - e.left.smul 2⟩,
   ⟨b, b + e.smul 6 + e.left.smul 2⟩, ⟨b, b + e.smul 6 - e.left.smul 2⟩]

/-- Where the elbow may be: on the rim, or further than `k` points (a unit of the model) from the centre and there level with the label, or straight above or below it, but
for `ε`. -/
def ElbowAt (ε k L : ℝ) (c s e : V2 ℝ) (m : ℝ) : Prop :=
  m = L ∨ (k < m ∧ (|c.x + e.x * m - s.x| ≤ ε ∨ |c.y + e.y * m - s.y| ≤ ε))

/-- Which of these it is, for a line that is not too nearly parallel to an axis (`θ`): the nearer of the two places level with the label, if that is further than `k` points
from the centre, else the rim; unless it is within `ε` of being `k` points from it. -/
def ElbowClear (ε θ k L : ℝ) (c s e : V2 ℝ) (m : ℝ) : Prop :=
  θ ≤ |e.x| → θ ≤ |e.y| → let q := min ((s.x - c.x) / e.x) ((s.y - c.y) / e.y)
    (k + ε < q → |m - q| ≤ ε) ∧ (q + ε < k → m = L)

variable {R : Rounding}

/-- How far off the strokes may be, in points.  `M` bounds the coordinates, `k` is the scale, `η` the accuracy of the view, `ζ` that of the circle, `o` the shift of the drawing. -/
noncomputable def roundError (M k η ζ : ℝ) (o : V2 ℝ) : ℝ := (4 * ζ + 2 ^ 12 * (M * η)) * k + 2 ^ 20 * η + (|o.x| + |o.y|) / 2 ^ 45

/-- and the elbow, along a line not too nearly parallel to an axis -/
noncomputable def elbowError (M k η ζ θ : ℝ) : ℝ := (5 * ζ / θ + 2 ^ 11 * (M * η) / θ ^ 2) * k

/-- the strokes of a radius or diameter -/
def RoundInk (strokes : V2 ℝ → V2 ℝ → V2 ℝ → ℝ → ℝ → List (Line ℝ)) (M k η ζ : ℝ) (o c s e : V2 ℝ) (L : ℝ) (lines : List (Line (Fl R))) : Prop :=
  ∃ m, ElbowAt (roundError M k η ζ o) k L c s e m ∧ (∀ θ, 2 ^ 7 * η ≤ θ → θ ≤ 1 → ElbowClear (elbowError M k η ζ θ) θ k L c s e m) ∧
    List.Forall₂ (StrokeNear (roundError M k η ζ o)) lines (strokes c s e L m)

/-- A `dia` or `rad` with its three points written out: label at `a`, line along `u`, and `center` where the corners `pts` that are seen show a circle of radius `ρ` round `m`. -/
structure RoundAsks (E : Env (Fl R)) (rot : M3 (Fl R)) (r : M3 ℝ) (pts : List (V3 (Fl R))) (d : DimN (Fl R)) (g : Fl R → Str) (a u : V3 ℝ) (m : V2 ℝ) (ρ : ℝ) (N : ℕ)
    (B A s M : ℝ) : Prop where
  rim : AtRim E rot pts d g m ρ N B A s
  at_ : Literal (K := ℝ) d.metas c!"at" a
  dir : Literal (K := ℝ) d.metas c!"dir" u
  within : a.Within M ∧ B ≤ M
  largest : ∃ U, Largest u U
  square : (u.mulM r).z = 0

/-- the page place of a point of the view -/
def V2.onPage (q : V2 ℝ) (k : ℝ) (o : V2 ℝ) : V2 ℝ := ⟨q.x * k + o.x, q.y * k + o.y⟩

/-- What such a dimension gives: the label, that is the number behind an `R` or a diameter sign, to the right of the place given; and the strokes. -/
def RoundDone (M η : ℝ) (r : M3 ℝ) (k : ℝ) (off : V2 ℝ) (d : DimN (Fl R)) (g : Fl R → Str) (a u : V3 ℝ) (m : V2 ℝ) (ρ : ℝ) (N : ℕ) (B A s : ℝ) (b : OutPage (Fl R)) : Prop :=
  let ζ := 8 * B * rimErr N B A s / ρ
  b.arcs = [] ∧
  (d.kind = .dia → (∃ q z, b.text = [⟨q, c!"\\351" ++ g z, true, true⟩] ∧ Fl.Near z (2 * ρ) (17 * B * rimErr N B A s / ρ) ∧
      ((g z).length ≤ 100 → V2.NearTo q (S2P.onPage r k off a + ⟨(12 / 5) * ((g z).length + 2), 0⟩) (roundError M k η ζ off))) ∧
    ∀ e, LegDir r u e → RoundInk diaStrokes M k η ζ off (m.onPage k off) (S2P.onPage r k off a) e (ρ * k) b.lines) ∧
  (d.kind = .rad → (∃ q z, b.text = [⟨q, c!"R" ++ g z, true, false⟩] ∧ Fl.Near z ρ ζ ∧
      ((g z).length ≤ 100 → V2.NearTo q (S2P.onPage r k off a + ⟨(12 / 5) * ((g z).length + 3), 0⟩) (roundError M k η ζ off))) ∧
    ∀ e, LegDir r u e → RoundInk radStrokes M k η ζ off (m.onPage k off) (S2P.onPage r k off a) e (ρ * k) b.lines)

end S2P
