import Verif.Spec.Arith
import Verif.Model.Stl

/-! # Edges of triangles, independent of any table -/

namespace S2P
variable {α : Type} [FP α]

/-- equal coordinates -/
def SamePt (p q : V3 α) : Prop := FP.eq p.x q.x = true ∧ FP.eq p.y q.y = true ∧ FP.eq p.z q.z = true

/-- the edge `e` runs between `p` and `q`, in either direction -/
def SameEdge (e : Edge α) (p q : V3 α) : Prop := (SamePt e.1 p ∧ SamePt e.2 q) ∨ (SamePt e.1 q ∧ SamePt e.2 p)

/-- the three sides of a facet -/
def sidesOf {β : Type} (f : Facet β) : List (V3 β × V3 β) := [(f.e0, f.e1), (f.e1, f.e2), (f.e2, f.e0)]

/-- `e` is a side of `f` -/
def HasSide (f : Facet α) (e : Edge α) : Prop := ∃ s ∈ sidesOf f, SameEdge e s.1 s.2

/-- no corner has a NaN coordinate -/
def Facet.Ok (f : Facet α) : Prop := f.e0.Ok ∧ f.e1.Ok ∧ f.e2.Ok

/-- The edge table of `s` is sound and complete for its facets. -/
structure WellIndexed (s : STLFile α) : Prop where
  /-- one record per facet -/
  faceLen : s.faceEdge.length = s.facets.length
  /-- the record of each facet points at its three sides -/
  faceOk : ∀ (i : Nat) (f : Facet α) (t : Nat × Nat × Nat), s.facets[i]? = some f → s.faceEdge[i]? = some t →
    (∃ e, s.edges[t.1]? = some e ∧ SameEdge e f.e0 f.e1) ∧
    (∃ e, s.edges[t.2.1]? = some e ∧ SameEdge e f.e1 f.e2) ∧
    (∃ e, s.edges[t.2.2]? = some e ∧ SameEdge e f.e2 f.e0)
  /-- every table entry is literally a side of some facet -/
  edgeOk : ∀ e ∈ s.edges, ∃ f ∈ s.facets, ∃ sd ∈ sidesOf f, e = sd ∨ e = (sd.2, sd.1)
  /-- no edge appears twice, in either direction -/
  distinct : s.edges.Pairwise (fun a b => ¬ SameEdge a b.1 b.2)
  unseenLe : s.unseen ≤ s.edges.length

end S2P
