import Verif.Spec.DimLines
import Verif.Spec.NearDouble
import Verif.Spec.Accuracy

/-! # How a linear dimension square to the line of sight is to be drawn, with rounding -/

namespace S2P

/-- on the page, the foot of the perpendicular from `p` to the line through `a` along the unit vector `e` -/
def V2.foot (a e p : V2 ℝ) : V2 ℝ := a + e.smul ((p - a).dot e)

/-- The strokes, in points on the page: `a` is the place of the label, `f` and `t` the points measured, `e` the unit vector along the dimension line, `g` the
gap for the label; `σf` and `σt` are the sides on which the points measured are (1 or -1).
The dimension line, broken for the label or else drawn outside; the extension lines, from 4 points beyond the dimension line to 2 points before the point
measured; the two barbs of each arrowhead, 6 points long and 2 to the side, pointing outwards or else inwards. -/
noncomputable def strokesOf (fits : Bool) (σf σt g : ℝ) (a f t e : V2 ℝ) : List (Line ℝ) :=
  let w := e.left
  let f' := a.foot e f
  let t' := a.foot e t
  let k : ℝ := if fits then 6 else -6
  (if fits then [⟨f', a - e.smul g⟩, ⟨a + e.smul g, t'⟩] else [⟨f', f' - e.smul 10⟩, ⟨t', t' + e.smul 10⟩]) ++
  [⟨f' - w.smul (4 * σf), f - w.smul (2 * σf)⟩, ⟨t' - w.smul (4 * σt), t - w.smul (2 * σt)⟩,
   ⟨f', f' + (e.smul k + w.smul 2)⟩, ⟨f', f' + (e.smul k - w.smul 2)⟩,
   ⟨t', t' - (e.smul k - w.smul 2)⟩, ⟨t', t' - (e.smul k + w.smul 2)⟩]

/-- `σ` is the side of the line through `a` along `e` on which `p` is; next to the line either will do -/
def OnSide (ε : ℝ) (a e p : V2 ℝ) (σ : ℝ) : Prop := (σ = 1 ∧ -ε ≤ (p - a).dot e.left) ∨ (σ = -1 ∧ (p - a).dot e.left ≤ ε)

variable {R : Rounding}

/-- the stroke is `m`, but for `ε` at each end -/
def StrokeNear (ε : ℝ) (l : Line (Fl R)) (m : Line ℝ) : Prop := V2.NearTo l.o m.o ε ∧ V2.NearTo l.t m.t ε

/-- The lines are the eight strokes of a dimension with a label of `n` characters at `a`, measuring along `e` from `f` to `t`, but for `ε` at each end; when
there is only just enough room for the label, or a point measured is next to the dimension line, each of the two ways of drawing will do.  How large the
label is and what is "only just" is up to `G` and `ε'`. -/
def DimInk (G ε ε' : ℝ) (n : ℕ) (a f t e : V2 ℝ) (lines : List (Line (Fl R))) : Prop :=
  Leaves (labelW n) labelH e G ∧ ∃ fits σf σt, (fits = true → G * 2 ≤ (t - f).dot e + ε') ∧ (fits = false → (t - f).dot e ≤ G * 2 + ε') ∧
    OnSide ε' a e f σf ∧ OnSide ε' a e t σt ∧ List.Forall₂ (StrokeNear ε) lines (strokesOf fits σf σt G a f t e)

/-- the scale asked for is positive -/
def PositiveScale (ms : List (Meta (Fl R))) : Prop := ∀ a b : Int, scaleOf (look ms c!"scale") = .ok (a, b) → 0 < (a : ℝ) / b

/-- `e` is the unit vector on the page along the direction `u`, from where `f` appears towards where `t` appears -/
def PageDir (r : M3 ℝ) (u f t : V3 ℝ) (e : V2 ℝ) : Prop :=
  e.dot e = 1 ∧ (∃ c, (u.mulM r).xy = e.smul c) ∧ 0 < ((t.mulM r).xy - (f.mulM r).xy).dot e

/-- no label for a length between `M / 2 ^ 10` and `4 * M` has more than 64 characters -/
def ShortLabels (g : Fl R → Str) (M : ℝ) : Prop := ∀ y : ℝ, M / 2 ^ 10 ≤ y → y ≤ 4 * M → (g (Ext.fin y : Ext ℝ)).length ≤ 64

/-- How far off the ends of the strokes of a dimension may be.  `M` bounds the coordinates, `k` is the scale, `η` the accuracy of the view, `G` the gap for
the label and `o` the shift of the drawing. -/
noncomputable def dimError (M k η G : ℝ) (o : V2 ℝ) : ℝ := (2 ^ 11 * (M * k) + 2 ^ 30 * G ^ 2) * η + (|o.x| + |o.y|) / 2 ^ 45

/-- what is "only just" -/
noncomputable def dimDoubt (M k η G : ℝ) : ℝ := (2 ^ 29 * (M * k) + 2 ^ 29 * G ^ 2) * η

end S2P
