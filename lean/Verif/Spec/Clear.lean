import Verif.Spec.Accuracy

/-! # Edges in full view, with something to spare -/

namespace S2P

/-- how far `p` is, on the page, to the left of the line from `a` to `b`, times the length of `ab` on the page -/
def leftOf (a b p : V3 ℝ) : ℝ := (b.x - a.x) * (p.y - a.y) - (b.y - a.y) * (p.x - a.x)

/-- the sine of the angle from `ab` to `cd` on the page, times their lengths there -/
def slant (a b c d : V3 ℝ) : ℝ := (b.x - a.x) * (d.y - c.y) - (b.y - a.y) * (d.x - c.x)

/-- on the page one of `ab` and `cd` is all on one side of the line through the other -/
def Apart (μ : ℝ) (a b c d : V3 ℝ) : Prop :=
  (μ ≤ leftOf a b c ∧ μ ≤ leftOf a b d) ∨ (leftOf a b c ≤ -μ ∧ leftOf a b d ≤ -μ) ∨
  (μ ≤ leftOf c d a ∧ μ ≤ leftOf c d b) ∨ (leftOf c d a ≤ -μ ∧ leftOf c d b ≤ -μ)

/-- `ab` is nearer to the viewer than `cd`, all of it -/
def Higher (ζ : ℝ) (a b c d : V3 ℝ) : Prop := c.z + ζ ≤ a.z ∧ c.z + ζ ≤ b.z ∧ d.z + ζ ≤ a.z ∧ d.z + ζ ≤ b.z

/-- on the page `ab` and `cd` are not parallel, and where they meet (or would, if they were longer by `ρ` times their length at each end) `ab` is nearer
to the viewer -/
def Over (κ ζ ρ : ℝ) (a b c d : V3 ℝ) : Prop :=
  κ ≤ |slant a b c d| ∧ ∀ s t, -ρ ≤ s → s ≤ 1 + ρ → -ρ ≤ t → t ≤ 1 + ρ → (edgeAt (a, b) s).xy = (edgeAt (c, d) t).xy →
    (edgeAt (c, d) t).z + ζ ≤ (edgeAt (a, b) s).z

/-- the point is not behind the triangle: it is in front of its plane, or on the page outside of one of its sides -/
def NotBehind (μ ζ : ℝ) (t : Tri ℝ) (p : V3 ℝ) : Prop :=
  t.r + ζ ≤ p.dot t.n ∨ leftOf t.a t.b p ≤ -μ ∨ leftOf t.b t.c p ≤ -μ ∨ leftOf t.c t.a p ≤ -μ

/-- `cd` does not hide anything of `ab`; where they have an end in common they are not parallel on the page -/
def SideClear (μ κ ζ : ℝ) (a b c d : V3 ℝ) : Prop :=
  (((c = a ∨ d = a) ∨ (c = b ∨ d = b)) ∧ κ ≤ |slant a b c d|) ∨ Apart μ a b c d ∨ Higher ζ a b c d ∨ Over κ ζ 1 a b c d

/-- `ab` is a side of the triangle, or the triangle does not hide anything of it -/
def ClearOf (μ κ ζ : ℝ) (a b : V3 ℝ) (t : Tri ℝ) : Prop :=
  t.HasSide (a, b) ∨
  (∀ p, p = a ∨ p = b → p ∈ t.corners ∨ NotBehind μ ζ t p) ∧ ∀ c d, t.HasSide (c, d) → SideClear μ κ ζ a b c d

/-- the ends are some distance apart -/
def FarApart (ℓ : ℝ) (a b : V3 ℝ) : Prop := ℓ ≤ |b.x - a.x| ∨ ℓ ≤ |b.y - a.y| ∨ ℓ ≤ |b.z - a.z|

/-- In the view `r` the edge `ab` (as seen) of a body made of the triangles `ts`, with corners of size `M`, is in full view: it is a side of a triangle that
faces the viewer, no crease between triangles that are all but parallel, not too short, and no triangle hides anything of it.  There is something to
spare in each respect; triangles seen all but edge-on are reckoned with if they may be taken to face the viewer. -/
structure InFullView (δ M : ℝ) (r : M3 ℝ) (ts : List (Tri ℝ)) (a b : V3 ℝ) : Prop where
  side : ∃ t ∈ ts, δ < (t.n.mulM r).z ∧ (t.seenIn r).HasSide (a, b)
  crease : ts.Pairwise (fun t u => -δ < (t.n.mulM r).z → -δ < (u.n.mulM r).z → (t.seenIn r).HasSide (a, b) → (u.seenIn r).HasSide (a, b) →
    t.n.dot u.n ≤ 97 / 100)
  clear : ∀ t ∈ ts, -δ < (t.n.mulM r).z → ClearOf (M ^ 2 / 2 ^ 30) (M ^ 2 / 2 ^ 14) (M / 2 ^ 12) a b (t.seenIn r)
  far : FarApart (M / 2 ^ 10) a b

/-- the line runs between the points `p` and `q` of the page, in one direction or the other, but for `ε` -/
def LineJoins {R : Rounding} (ε : ℝ) (p q : V2 ℝ) (l : Line (Fl R)) : Prop :=
  (V2.NearTo l.o p ε ∧ V2.NearTo l.t q ε) ∨ (V2.NearTo l.o q ε ∧ V2.NearTo l.t p ε)

/-- normals and distances of the facets are numbers, the normals not much longer than 1 -/
def SaneNormals {R : Rounding} (file : STLFile (Fl R)) : Prop :=
  ∀ f ∈ file.facets, (FP.Bd 1 f.norm.x ∧ FP.Bd 1 f.norm.y ∧ FP.Bd 1 f.norm.z) ∧ Fl.Near f.r (Fl.val f.r) 0

end S2P
