import Verif.Spec.Circle
import Verif.Spec.Dims
import Verif.Spec.Round

/-! # Corners on a rim, seen clearly enough for double arithmetic -/

namespace S2P

/-- twice the signed area of a triangle -/
def twiceArea (p q r : V2 ℝ) : ℝ := (q.x - p.x) * (r.y - p.y) - (q.y - p.y) * (r.x - p.x)

/-- on the circle of radius `r` round `m`, but for `η` -/
def OnRim (m : V2 ℝ) (r η : ℝ) (q : V2 ℝ) : Prop := |dist2 q m - r ^ 2| ≤ 2 * η

/-- clearly not near the circle: the ring between 0.88 and 1.12 radii is free -/
def OffRim (m : V2 ℝ) (r : ℝ) (q : V2 ℝ) : Prop := dist2 q m ≤ (88 / 100 * r) ^ 2 ∨ (112 / 100 * r) ^ 2 ≤ dist2 q m

open Classical in
/-- how many of the points are on the rim -/
noncomputable def rimCount (m : V2 ℝ) (r η : ℝ) (l : List (V2 ℝ)) : ℕ := (l.filter (fun q => decide (OnRim m r η q))).length

/-- the error of a circle fitted to `N` points within `M` of the origin, that span triangles of area at least `A` and are off by `η` -/
noncomputable def rimErr (N M A η : ℝ) : ℝ := 64 * (N + 1) ^ 4 * M ^ 4 / (2 ^ 51 * A ^ 2) * M + 3 * (N + 1) ^ 3 * M ^ 3 * η / A ^ 2

/-- At `t` the corners `p0 :: ps`, in their order, show a circle of radius `r` round `m`. -/
structure RimAt (p0 : V2 ℝ) (ps : List (V2 ℝ)) (t m : V2 ℝ) (r : ℝ) (N : ℕ) (M A η : ℝ) : Prop where
  few : rimCount m r η (p0 :: ps) ≤ N ∧ 3 ≤ N ∧ N < 2 ^ 9
  near : 1 ≤ M ∧ M ≤ 2 ^ 16 ∧ ∀ q ∈ t :: m :: p0 :: ps, |q.x| ≤ M ∧ |q.y| ≤ M
  rad : 0 < r ∧ r ≤ M
  slack : 0 ≤ η ∧ 2 * η ≤ r ^ 2 / 100
  area : 0 < A ∧ ∀ x ∈ p0 :: ps, ∀ y ∈ p0 :: ps, ∀ z ∈ p0 :: ps, OnRim m r η x → OnRim m r η y → OnRim m r η z → x ≠ y → x ≠ z → y ≠ z → 2 * A ≤ |twiceArea x y z|
  cond : 2000 * M * rimErr N M A η ≤ r ^ 2
  away : ∀ q ∈ p0 :: ps, M ^ 2 / 2 ^ 30 ≤ dist2 q t
  /-- three corners of the rim are clearly closer to `t` than the first corner and than every corner that is not on the rim -/
  three : ∃ a b c, (∀ x ∈ [a, b, c], x ∈ p0 :: ps ∧ OnRim m r η x ∧ dist2 x t + M ^ 2 / 2 ^ 40 ≤ dist2 p0 t) ∧
    [a, b, c].Pairwise (fun x y => dist2 x t ≤ 16 * dist2 x y ∧ dist2 y t ≤ 16 * dist2 x y) ∧
    ∀ q ∈ p0 :: ps, OnRim m r η q ∨ (OffRim m r q ∧ ∀ x ∈ [a, b, c], dist2 x t + M ^ 2 / 2 ^ 40 ≤ dist2 q t)

/-- a literal point of a dimension -/
def WrittenPt {α : Type} (ms : List (Meta α)) (n : Str) (p : V3 α) : Prop := ∃ l line, look ms n = some ⟨n, .pt (.val p l), line⟩

/-- a point of the plane that is a pair of doubles -/
def V2.toFl (R : Rounding) (q : V2 ℝ) : V2 (Fl R) := ⟨(Ext.fin q.x : Ext ℝ), (Ext.fin q.y : Ext ℝ)⟩

/-- A `dia` or `rad` with its three points written out, in a view `rot` in which the corners `pts` are seen, in this order: `center` is seen where the corners show a circle. -/
structure AtRim {R : Rounding} (E : Env (Fl R)) (rot : M3 (Fl R)) (pts : List (V3 (Fl R))) (d : DimN (Fl R)) (g : Fl R → Str) (m : V2 ℝ) (r : ℝ) (N : ℕ) (M A η : ℝ) : Prop where
  kind : d.kind = .dia ∨ d.kind = .rad
  good : GoodDim d.kind d.metas
  label : ∃ p, WrittenPt d.metas c!"at" p
  arrow : ∃ p, WrittenPt d.metas c!"dir" p
  fmt : formatOf E c!"%.3f" d.metas = some g
  rim : ∃ q t p0 ps, WrittenPt d.metas c!"center" q ∧ (q.mulM rot).xy = V2.toFl R t ∧ pts.map V3.xy = (p0 :: ps).map (V2.toFl R) ∧ RimAt p0 ps t m r N M A η

end S2P
