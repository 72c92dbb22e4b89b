import Verif.Spec.Clear

/-! # Edges partly hidden, with something to spare -/

namespace S2P

/-- the point is behind the triangle: behind its plane and, on the page, inside of its outline -/
def BehindBy (μ ζ : ℝ) (t : Tri ℝ) (p : V3 ℝ) : Prop :=
  p.dot t.n + ζ ≤ t.r ∧ μ ≤ leftOf t.a t.b p ∧ μ ≤ leftOf t.b t.c p ∧ μ ≤ leftOf t.c t.a p

/-- at `s` (0 at `a`, 1 at `b`) the edge `ab` passes below the edge `cd`; they are not parallel on the page, and it is not next to an end of either -/
def PassesUnder (κ ζ ρ : ℝ) (a b c d : V3 ℝ) (s : ℝ) : Prop :=
  κ ≤ |slant a b c d| ∧ ρ ≤ s ∧ s ≤ 1 - ρ ∧ ∃ t, ρ ≤ t ∧ t ≤ 1 - ρ ∧ (edgeAt (a, b) s).xy = (edgeAt (c, d) t).xy ∧
    (edgeAt (a, b) s).z + ζ ≤ (edgeAt (c, d) t).z

/-- The triangle hides the part of `ab` from `s` to `s'`: at either end of this part the edge passes below a side, or it ends there behind the triangle;
elsewhere it does not pass below a side and does not end behind the triangle. -/
structure HidesPart (μ κ ζ ρ : ℝ) (a b : V3 ℝ) (t : Tri ℝ) (s s' : ℝ) : Prop where
  long : s + 1 / 2 ^ 10 ≤ s'
  first : (s = 0 ∧ BehindBy μ ζ t a) ∨ ∃ c d, t.HasSide (c, d) ∧ PassesUnder κ ζ ρ a b c d s
  last : (s' = 1 ∧ BehindBy μ ζ t b) ∨ ∃ c d, t.HasSide (c, d) ∧ PassesUnder κ ζ ρ a b c d s'
  near : NotBehind μ ζ t a ∨ s = 0
  far : NotBehind μ ζ t b ∨ s' = 1
  sides : ∀ c d, t.HasSide (c, d) → Apart μ a b c d ∨ Higher ζ a b c d ∨ Over κ ζ 1 a b c d ∨ ∃ u, s ≤ u ∧ u ≤ s' ∧ PassesUnder κ ζ ρ a b c d u

/-- In the view `r` the point at `σ` of the edge `ab` (as seen) of a body made of the triangles `ts`, with corners of size `M`, is in view: the edge is a side
of a triangle that faces the viewer, no crease between triangles that are all but parallel, not too short; each triangle hides nothing of the edge, or a part
from which the point is some way off. -/
structure VisibleAt (δ M : ℝ) (r : M3 ℝ) (ts : List (Tri ℝ)) (a b : V3 ℝ) (σ : ℝ) : Prop where
  side : ∃ t ∈ ts, δ < (t.n.mulM r).z ∧ (t.seenIn r).HasSide (a, b)
  crease : ts.Pairwise (fun t u => -δ < (t.n.mulM r).z → -δ < (u.n.mulM r).z → (t.seenIn r).HasSide (a, b) → (u.seenIn r).HasSide (a, b) →
    t.n.dot u.n ≤ 97 / 100)
  clear : ∀ t ∈ ts, -δ < (t.n.mulM r).z → ClearOf (M ^ 2 / 2 ^ 30) (M ^ 2 / 2 ^ 14) (M / 2 ^ 12) a b (t.seenIn r) ∨
    ∃ s s', HidesPart (M ^ 2 / 2 ^ 30) (M ^ 2 / 2 ^ 14) (M / 2 ^ 12) (1 / 2 ^ 15) a b (t.seenIn r) s s' ∧ (σ + 1 / 2 ^ 11 ≤ s ∨ s' + 1 / 2 ^ 11 ≤ σ)
  far : FarApart (M / 2 ^ 10) a b
  low : 1 / 2 ^ 11 ≤ σ
  high : σ ≤ 1 - 1 / 2 ^ 11

/-- The part of `ab` from `x` to `y` may be drawn: `ab` is a side of a triangle that may face the viewer and, unless it is very short, no triangle that faces
the viewer hides any of this part, but for 2^-10 of the length of `ab` at its ends. -/
def Unhidden (δ M : ℝ) (r : M3 ℝ) (ts : List (Tri ℝ)) (a b : V3 ℝ) (x y : ℝ) : Prop :=
  (∃ t ∈ ts, -δ < (t.n.mulM r).z ∧ (t.seenIn r).HasSide (a, b)) ∧
  (FarApart (M / 2 ^ 10) a b → ∀ t ∈ ts, δ < (t.n.mulM r).z →
    ∀ s s', HidesPart (M ^ 2 / 2 ^ 30) (M ^ 2 / 2 ^ 14) (M / 2 ^ 12) (1 / 2 ^ 15) a b (t.seenIn r) s s' → s' ≤ x + 1 / 2 ^ 10 ∨ y ≤ s + 1 / 2 ^ 10)

/-- The lines `ls` on the page show the body `ts` in the view `r`, scaled by `k` and moved by `off`: each point in view is in a line that shows a part of the
edge, and each line shows a part of an edge that is not hidden. -/
def ShowsView {R : Rounding} (δ M : ℝ) (r : M3 ℝ) (ts : List (Tri ℝ)) (k : ℝ) (off : V2 ℝ) (η : ℝ) (ls : List (Line (Fl R))) : Prop :=
  (∀ a b σ, VisibleAt δ M r ts a b σ → ∃ l ∈ ls, ∃ x y, 0 ≤ x ∧ x ≤ σ ∧ σ ≤ y ∧ y ≤ 1 ∧
    LineJoins η ((edgeAt (a, b) x).xy.moved k off) ((edgeAt (a, b) y).xy.moved k off) l) ∧
  ∀ l ∈ ls, ∃ a b x y, 0 ≤ x ∧ x ≤ y ∧ y ≤ 1 ∧ Unhidden δ M r ts a b x y ∧
    LineJoins η ((edgeAt (a, b) x).xy.moved k off) ((edgeAt (a, b) y).xy.moved k off) l

end S2P
