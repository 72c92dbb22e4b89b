import Verif.Spec.Snap
import Verif.Spec.Dims
import Verif.Spec.Blocks
import Verif.Spec.Drawing

/-! # Round holes and discs as they are seen -/

namespace S2P

/-- where a point of the model appears in the view `r` -/
noncomputable def V3.seenAt (r : M3 ℝ) (v : V3 ℝ) : V2 ℝ := (v.mulM r).xy

/-- of the corners seen, one furthest to the left, and of these lowest -/
def FirstCorner (r : M3 ℝ) (file : STLFile (Ext ℝ)) (v : V3 ℝ) : Prop :=
  SeenCorner r file v ∧ ∀ w, SeenCorner r file w → (v.seenAt r).x < (w.seenAt r).x ∨ (v.seenAt r).x = (w.seenAt r).x ∧ (v.seenAt r).y ≤ (w.seenAt r).y

/-- The circle around `m` with radius `R` is the one at the place `t`: three corners seen, no two of them close to each other, are such that all corners seen that
are not further from `t` lie on the circle; none of them is further from `t` than the first corner; no other corner is seen within a tenth of the radius from the
circle; and `t` is not itself a corner. -/
structure RoundAt (r : M3 ℝ) (file : STLFile (Ext ℝ)) (t m : V2 ℝ) (R : ℝ) : Prop where
  pos : 0 < R
  three : ∃ a b c : V3 ℝ, (∀ v ∈ [a, b, c], SeenCorner r file v) ∧
    [a, b, c].Pairwise (fun v w => v.seenAt r ≠ w.seenAt r ∧ (dist (v.seenAt r) t = dist (w.seenAt r) t → dist (v.seenAt r) t ≤ 5 * dist (v.seenAt r) (w.seenAt r))) ∧
    (∀ v ∈ [a, b, c], ∀ w, FirstCorner r file w → dist (v.seenAt r) t ≤ dist (w.seenAt r) t) ∧
    ∀ w, SeenCorner r file w → (∃ v ∈ [a, b, c], dist (w.seenAt r) t ≤ dist (v.seenAt r) t) → dist (w.seenAt r) m = R
  clear : ∀ w, SeenCorner r file w → w.seenAt r ≠ t
  alone : ∀ w, SeenCorner r file w → R * (9 / 10) < dist (w.seenAt r) m → dist (w.seenAt r) m < R * (11 / 10) → dist (w.seenAt r) m = R

/-- where the point an expression stands for is seen: of a literal point, the point; of `near`, the corner seen nearest; of `center`, the centre of the circle there -/
inductive Spot (r : M3 ℝ) (file : STLFile (Ext ℝ)) : Pt (Ext ℝ) → V2 ℝ → Prop
  | literal (p : V3 ℝ) (l : Nat) : Spot r file (.val p.fin l) (p.seenAt r)
  | near (e : Pt (Ext ℝ)) (l : Nat) (t : V2 ℝ) (v : V3 ℝ) : Spot r file e t → SeenCorner r file v →
      (∀ w, SeenCorner r file w → w.seenAt r = v.seenAt r ∨ dist (v.seenAt r) t < dist (w.seenAt r) t) → Spot r file (.func c!"near" e l) (v.seenAt r)
  | center (e : Pt (Ext ℝ)) (l : Nat) (t m : V2 ℝ) (R : ℝ) : Spot r file e t → RoundAt r file t m R → Spot r file (.func c!"center" e l) m

/-- property `n` stands for a point seen at `s` -/
def SpotOf (r : M3 ℝ) (file : STLFile (Ext ℝ)) (ms : List (Meta (Ext ℝ))) (n : Str) (s : V2 ℝ) : Prop :=
  ∃ m e, look ms n = some m ∧ m.val = .pt e ∧ Spot r file e s

/-- what a `dia` or `rad` at a round hole is: complete, with points that can be found, and `center` at the circle around `m` with radius `R` -/
structure AtHole (E : Env (Ext ℝ)) (r : M3 ℝ) (file : STLFile (Ext ℝ)) (d : DimN (Ext ℝ)) (g : Ext ℝ → Str) (m : V2 ℝ) (R : ℝ) : Prop where
  kind : d.kind = .dia ∨ d.kind = .rad
  good : GoodDim d.kind d.metas
  label : ∃ s, SpotOf r file d.metas c!"at" s
  arrow : ∃ s, SpotOf r file d.metas c!"dir" s
  fmt : formatOf E c!"%.3f" d.metas = some g
  hole : ∃ t, SpotOf r file d.metas c!"center" t ∧ RoundAt r file t m R

/-- what a linear dimension between two such points is: complete, with points that can be found, and along a literal direction square to the line of sight -/
structure Across (E : Env (Ext ℝ)) (r : M3 ℝ) (file : STLFile (Ext ℝ)) (d : DimN (Ext ℝ)) (g : Ext ℝ → Str) (f t : V2 ℝ) (u : V3 ℝ) : Prop where
  kind : d.kind = .dim
  good : GoodDim d.kind d.metas
  label : ∃ s, SpotOf r file d.metas c!"at" s
  fmt : formatOf E c!"%.3f" d.metas = some g
  dir : Literal d.metas c!"dir" u
  some : u ≠ ⟨0, 0, 0⟩
  square : (u.mulM r).z = 0
  start : SpotOf r file d.metas c!"from" f
  stop : SpotOf r file d.metas c!"to" t

end S2P
