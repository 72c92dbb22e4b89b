import Verif.Spec.DimLines
import Verif.Spec.Dims
import Verif.Spec.Snap
import Verif.Spec.Sort
import Verif.Spec.Pages

/-! # Which end of a dimension is called from, and which to -/

namespace S2P

/-- the name of the same property at the other end -/
def otherEnd (n : Str) : Str :=
  if n = c!"from" then c!"to" else if n = c!"to" then c!"from"
  else if n = c!"from_dir" then c!"to_dir" else if n = c!"to_dir" then c!"from_dir"
  else if n = c!"from_point" then c!"to_point" else if n = c!"to_point" then c!"from_point"
  else n

/-- the dimension with from and to exchanged -/
def DimN.swapEnds {α : Type} (d : DimN α) : DimN α := { d with metas := d.metas.map (fun m => { m with name := otherEnd m.name }) }

/-- the same strokes, drawn in another order and some of them from the other end -/
def SameStrokes {α : Type} (ls ms : List (Line α)) : Prop := ∃ ks, ls.Perm ks ∧ List.Forall₂ (fun k m => m = k ∨ m = ⟨k.t, k.o⟩) ks ms

/-- the same picture: the same strokes, arcs, and texts -/
structure SamePicture {α : Type} (P Q : OutPage α) : Prop where
  lines : SameStrokes P.lines Q.lines
  arcs : Q.arcs = P.arcs
  text : Q.text = P.text

/-- As seen in the view `r`, the line through `a` along `u` passes by `p`. -/
def PassesBy (r : M3 ℝ) (a u p : V3 ℝ) : Prop := ((p - a).mulM r).xy.dot (u.mulM r).xy.left ≠ 0

/-- A linear dimension with literal points of which, as seen, the dimension line passes by both points measured.
(Or else there is nothing to be seen of the dimension line: it is along the line of sight, or the distance is 0.)  Of other kinds nothing is asked. -/
def DimN.Clear (r : M3 ℝ) (d : DimN (Ext ℝ)) : Prop :=
  d.kind = .dim → ∃ a u f t : V3 ℝ, Literal d.metas c!"at" a ∧ Literal d.metas c!"dir" u ∧ Literal d.metas c!"from" f ∧ Literal d.metas c!"to" t ∧
    (PassesBy r a u f ∧ PassesBy r a u t ∨ (u.mulM r).xy = ⟨0, 0⟩ ∨ (t - f).dot u = 0)

/-- The claim in full: in an accepted drawing from and to of any dimension can be exchanged. -/
def EndsDoNotMatter : Prop :=
  ∀ (E : Env (Ext ℝ)), SortOK E.sorter → E.NotAView → ∀ (stl : Models (Ext ℝ)), stl.Made → ∀ (name : Str) (ms : List (Meta (Ext ℝ)))
    (dims dims' : List (DimN (Ext ℝ))) (line : Nat), (Drawable.draw name ms dims line).IsFin → (Drawable.draw name ms dims line).AtLoc →
    ∀ c, content E stl (.draw name ms dims line) = .ok c → c.1 = true → List.Forall₂ (fun d d' => d' = d ∨ d' = d.swapEnds) dims dims' →
    ∃ c', content E stl (.draw name ms dims' line) = .ok c' ∧ c'.1 = true ∧ SamePicture c.2.1 c'.2.1

/-- drawings that differ in from and to being exchanged in some dimensions, all of which meet `Q` -/
inductive Drawable.Swapped (Q : List (Meta (Ext ℝ)) → DimN (Ext ℝ) → Prop) : Drawable (Ext ℝ) → Drawable (Ext ℝ) → Prop
  | draw (n : Str) (ms : List (Meta (Ext ℝ))) (ds ds' : List (DimN (Ext ℝ))) (l : Nat) :
      List.Forall₂ (fun d d' => d' = d ∨ d' = d.swapEnds ∧ Q ms d) ds ds' → Swapped Q (.draw n ms ds l) (.draw n ms ds' l)
  | text (s : Str) (ms : List (Meta (Ext ℝ))) (l : Nat) : Swapped Q (.text s ms l) (.text s ms l)

/-- documents that differ so -/
def PageN.Swapped (Q : List (Meta (Ext ℝ)) → DimN (Ext ℝ) → Prop) (p p' : PageN (Ext ℝ)) : Prop :=
  p'.metas = p.metas ∧ p'.line = p.line ∧ List.Forall₂ (Drawable.Swapped Q) p.draws p'.draws

/-- not a linear dimension -/
def NotLinear (_ : List (Meta (Ext ℝ))) (d : DimN (Ext ℝ)) : Prop := d.kind ≠ .dim

/-- If the dimension is linear: in a drawing with these properties the scale is positive, and the dimension line passes by both points measured. -/
def ClearOfEnds (ms : List (Meta (Ext ℝ))) (d : DimN (Ext ℝ)) : Prop :=
  d.kind = .dim → (∀ a b, scaleOf (look ms c!"scale") = .ok (a, b) → 0 < a ∧ 0 < b) ∧ ∀ r : M3 ℝ, viewOf (look ms c!"view") = .ok r.fin → d.Clear r

end S2P
