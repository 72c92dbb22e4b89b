import Verif.Spec.Edges
import Verif.Lemmas.Ext

/-! # Hidden lines, in exact geometry

The viewer looks along the depth axis from large `z`: of two points at the same place on the page the one with the larger `z` is nearer. -/

namespace S2P
variable {K : Type} [Field K] [LinearOrder K] [IsStrictOrderedRing K]

/-- the point of an edge at parameter `t` (0 = first end, 1 = second end) -/
def edgeAt (e : Edge K) (t : K) : V3 K := e.1 + (e.2 - e.1).smul t

abbrev Edge.fin (e : Edge K) : Edge (Ext K) := (e.1.fin, e.2.fin)

/-- parallel on the page (or a point on the page) -/
def PageParallel (e g : Edge K) : Prop :=
  (e.2.x - e.1.x) * (g.2.y - g.1.y) = (e.2.y - e.1.y) * (g.2.x - g.1.x)

/-- `p` is a point of `e` over which, on the page, lies a point of `g` that is at least as near to the viewer -/
def CrossedAt (e g : Edge K) (p : V3 K) : Prop :=
  ∃ s t, 0 ≤ s ∧ s ≤ 1 ∧ 0 ≤ t ∧ t ≤ 1 ∧ p = edgeAt e s ∧ p.xy = (edgeAt g t).xy ∧ p.z ≤ (edgeAt g t).z

/-- a triangle with its plane: exact counterpart of a front facet -/
structure Tri (K : Type) where
  n : V3 K
  a : V3 K
  b : V3 K
  c : V3 K
  r : K

/-- A facet as C16 builds it and C19 keeps it: corners in its plane, counter-clockwise around the normal, facing the viewer. -/
structure Tri.Front (f : Tri K) : Prop where
  inA : f.n.dot f.a = f.r
  inB : f.n.dot f.b = f.r
  inC : f.n.dot f.c = f.r
  ccw : ∃ k, 0 < k ∧ (f.b - f.a).cross (f.c - f.a) = f.n.smul k
  facing : 0 < f.n.z

abbrev Tri.fin (f : Tri K) : Facet (Ext K) := ⟨f.n.fin, f.a.fin, f.b.fin, f.c.fin, Ext.fin f.r⟩

/-- on the page, `p` is inside the outline of `f`, boundary included -/
def InTri (f : Tri K) (p : V3 K) : Prop :=
  ∃ u v w, 0 ≤ u ∧ 0 ≤ v ∧ 0 ≤ w ∧ u + v + w = 1 ∧
    p.x = u * f.a.x + v * f.b.x + w * f.c.x ∧ p.y = u * f.a.y + v * f.b.y + w * f.c.y

/-- on the page, `p` is strictly inside the outline of `f` -/
def InsideTri (f : Tri K) (p : V3 K) : Prop :=
  ∃ u v w, 0 < u ∧ 0 < v ∧ 0 < w ∧ u + v + w = 1 ∧
    p.x = u * f.a.x + v * f.b.x + w * f.c.x ∧ p.y = u * f.a.y + v * f.b.y + w * f.c.y

/-- `p` is on the plane of `f` or behind it -/
def OnOrBehind (f : Tri K) (p : V3 K) : Prop := f.n.dot p ≤ f.r
def StrictlyBehind (f : Tri K) (p : V3 K) : Prop := f.n.dot p < f.r

/-- `f` has `e` as a side, in either direction -/
def Tri.HasSide (f : Tri K) (e : Edge K) : Prop :=
  e = (f.a, f.b) ∨ e = (f.b, f.c) ∨ e = (f.c, f.a) ∨ e = (f.b, f.a) ∨ e = (f.c, f.b) ∨ e = (f.a, f.c)

/-- the page lines for the parameter intervals `segs` of the edge `e` -/
def segLines (e : Edge K) (segs : List (K × K)) : List (Line (Ext K)) :=
  segs.map fun st => ⟨(edgeAt e st.1).xy.fin, (edgeAt e st.2).xy.fin⟩

end S2P
