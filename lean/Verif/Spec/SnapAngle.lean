import Verif.Spec.Snap
import Verif.Spec.Drawing
import Verif.Spec.Sort
import Verif.Spec.Pages

/-! # Angles at points picked by `near` -/

namespace S2P

/-- the claim about angles: an accepted drawing has, for each angle between points given literally or by `near`, a label with the angle, in degrees, that the
corners picked form in the model -/
def AnglesTrue : Prop :=
  ∀ (E : Env (Ext ℝ)), SortOK E.sorter → E.NotAView → ∀ (stl : Models (Ext ℝ)), stl.Made → ∀ (name : Str) (ms : List (Meta (Ext ℝ))) (dims : List (DimN (Ext ℝ)))
    (line : Nat), (Drawable.draw name ms dims line).IsFin → (Drawable.draw name ms dims line).AtLoc → ∀ c, content E stl (.draw name ms dims line) = .ok c →
    c.1 = true → ∀ d ∈ dims, d.kind = .angle → look d.metas c!"from_dir" = none → look d.metas c!"to_dir" = none →
    (∀ m ∈ d.metas, ∀ e, m.val = .pt e → e.NearOnly) → ∀ g, formatOf E c!"%.1f" d.metas = some g →
    ∃ (r : M3 ℝ) (file : STLFile (Ext ℝ)) (x p q : V3 ℝ), viewOf (look ms c!"view") = .ok r.fin ∧
      (∃ e, stl.find? (fun e => decide (e.1 = name)) = some e ∧ e.2 = some file) ∧
      PicksAt r file d.metas c!"apex" x ∧ PicksAt r file d.metas c!"from_point" p ∧ PicksAt r file d.metas c!"to_point" q ∧
      ∃ item ∈ c.2.1.text, item.str = g (.fin (degrees (angleBetween (p - x) (q - x)))) ++ c!" deg"

/-- the value of the expression keeps the depth of the corner it picks: it is literal, or `near` of a literal corner seen, or all corners seen lie in the plane
of the drawing -/
def Pt.Keeps (r : M3 ℝ) (file : STLFile (Ext ℝ)) (e : Pt (Ext ℝ)) : Prop :=
  (∃ (p : V3 ℝ) (l : Nat), e = .val p.fin l) ∨ (∃ (p : V3 ℝ) (l l' : Nat), e = .func c!"near" (.val p.fin l) l' ∧ SeenCorner r file p) ∨
  (e.NearOnly ∧ ∀ v, SeenCorner r file v → (v.mulM r).z = 0)

/-- `near` of a literal point that is not a corner seen -/
def Pt.Beside (r : M3 ℝ) (file : STLFile (Ext ℝ)) (e : Pt (Ext ℝ)) : Prop :=
  ∃ (p : V3 ℝ) (l l' : Nat), e = .func c!"near" (.val p.fin l) l' ∧ ¬ SeenCorner r file p

/-- where the point appears on the page, in the units of the model -/
def V3.onPage (r : M3 ℝ) (v : V3 ℝ) : V3 ℝ := ⟨(v.mulM r).x, (v.mulM r).y, 0⟩

end S2P
