import Verif.Spec.AccuracyDim
import Verif.Spec.Solid
import Verif.Spec.Snap

/-! # What `near` may pick out of a described body, with rounding -/

namespace S2P

/-- `c` is a corner of a triangle that does not clearly face away from the viewer -/
def MaySee (δ : ℝ) (r : M3 ℝ) (ts : List (Tri ℝ)) (c : V3 ℝ) : Prop := ∃ t ∈ ts, -δ < (t.n.mulM r).z ∧ c ∈ t.corners

/-- `c` is a corner of a triangle that clearly faces the viewer -/
def MustSee (δ : ℝ) (r : M3 ℝ) (ts : List (Tri ℝ)) (c : V3 ℝ) : Prop := ∃ t ∈ ts, δ < (t.n.mulM r).z ∧ c ∈ t.corners

/-- `c` is a corner that may be seen, and none that must be seen appears clearly nearer to `p`; `ε` bounds differences of squares of distances -/
def PickedBy (δ ε : ℝ) (r : M3 ℝ) (ts : List (Tri ℝ)) (p c : V3 ℝ) : Prop :=
  MaySee δ r ts c ∧ ∀ c', MustSee δ r ts c' → seenDist2 r c p ≤ seenDist2 r c' p + ε

/-- property `n` is written near(`p`), with a literal point -/
def NearOf {K : Type} (ms : List (Meta (Ext K))) (n : Str) (p : V3 K) : Prop :=
  ∃ m l l', look ms n = some m ∧ m.val = .pt (.func c!"near" (.val p.fin l) l')

/-- property `n` is a literal point or near of a literal point, with coordinates of size at most `M` -/
def PointAsked (M : ℝ) (ms : List (Meta (Ext ℝ))) (n : Str) : Prop := ∃ p : V3 ℝ, p.Within M ∧ (Literal ms n p ∨ NearOf ms n p)

/-- the point of the body that property `n` is about -/
def PointMeant (δ ε : ℝ) (r : M3 ℝ) (ts : List (Tri ℝ)) (ms : List (Meta (Ext ℝ))) (n : Str) (c : V3 ℝ) : Prop :=
  Literal ms n c ∨ ∃ p, NearOf ms n p ∧ PickedBy δ ε r ts p c

/-- property `n` is about the point `c` beyond doubt: it is literal, or near of a point to which the other corners that may be seen are clearly less near (or
appear at the same place) -/
def PointClear (δ ε : ℝ) (r : M3 ℝ) (ts : List (Tri ℝ)) (ms : List (Meta (Ext ℝ))) (n : Str) (c : V3 ℝ) : Prop :=
  Literal ms n c ∨ ∃ p, NearOf ms n p ∧ MustSee δ r ts c ∧
    ∀ c', MaySee δ r ts c' → (c'.mulM r).xy = (c.mulM r).xy ∨ seenDist2 r c p + ε < seenDist2 r c' p

variable {R : Rounding}

/-- a linear dimension in direction `u` whose other points are literal or near of literal points; `g` formats the number -/
structure DimAsks (E : Env (Fl R)) (d : DimN (Fl R)) (u : V3 ℝ) (g : Fl R → Str) (M : ℝ) : Prop where
  kind : d.kind = .dim
  at_ : PointAsked M d.metas c!"at"
  dir : Literal (K := ℝ) d.metas c!"dir" u
  from_ : PointAsked M d.metas c!"from"
  to_ : PointAsked M d.metas c!"to"
  fmt : formatOf E c!"%.3f" d.metas = some g

end S2P
