import Verif.Spec.Edges
import Verif.Spec.Hidden
import Verif.Model.Page

/-! # Two lists of facets describing the same surface -/

namespace S2P

/-- the same facet, its corners listed from another starting corner -/
def Facet.Turned {α : Type} (f g : Facet α) : Prop :=
  g.norm = f.norm ∧ g.r = f.r ∧ ((g.e0, g.e1, g.e2) = (f.e0, f.e1, f.e2) ∨ (g.e0, g.e1, g.e2) = (f.e1, f.e2, f.e0) ∨
    (g.e0, g.e1, g.e2) = (f.e2, f.e0, f.e1))

/-- the same facets in any order, the corners of each from any starting corner -/
def SameShape {α : Type} (fs gs : List (Facet α)) : Prop := ∃ mid, fs.Perm mid ∧ List.Forall₂ Facet.Turned mid gs

/-- no edge borders three facets -/
def TwoSided {α : Type} [FP α] (fs : List (Facet α)) : Prop :=
  ∀ f g h : Facet α, [f, g, h].Subperm fs → ∀ e, ¬ (HasSide f e ∧ HasSide g e ∧ HasSide h e)

/-- the same models, each described by the same facets in some order -/
def SameModels {α : Type} (stl stl' : Models α) : Prop :=
  List.Forall₂ (fun e e' => e.1 = e'.1 ∧ ∃ f f' : STLFile α, e.2 = some f ∧ e'.2 = some f' ∧ SameShape f.facets f'.facets) stl stl'

/-- the same strokes in any order, the same arcs, the same text -/
structure OutPage.Like {α : Type} (a b : OutPage α) : Prop where
  lines : a.lines.Perm b.lines
  arcs : a.arcs = b.arcs
  text : a.text = b.text

/-- the facets that face the viewer in the view `m` -/
def facing {α : Type} [FP α] (m : M3 α) (fs : List (Facet α)) : List (Facet α) := fs.filter fun f => FP.lt (FP.lit 0) (f.norm.mulM m).z

end S2P
