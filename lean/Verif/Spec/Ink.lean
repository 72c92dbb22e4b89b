import Verif.Spec.Output
import Verif.Spec.Hidden
import Verif.Spec.Load

/-! # What a drawing of a model has to show on paper -/

namespace S2P
open PS

/-- the triangle as seen in the view `r` -/
def Tri.seenIn (t : Tri ℝ) (r : M3 ℝ) : Tri ℝ := ⟨t.n.mulM r, t.a.mulM r, t.b.mulM r, t.c.mulM r, t.r⟩

open Classical in
/-- `ts` are the facets of the file that face the viewer in the view `r`, as they are seen, in any order -/
def SeenFacets (r : M3 ℝ) (file : STLFile (Ext ℝ)) (ts : List (Tri ℝ)) : Prop :=
  ∃ all : List (Tri ℝ), file.facets = all.map Tri.fin ∧ ts.Perm ((all.map (Tri.seenIn · r)).filter fun t => 0 < t.n.z)

/-- `e` is a side of a facet, and where two facets share it they meet at an angle (of more than 11°) -/
def Sharp (ts : List (Tri ℝ)) (e : Edge ℝ) : Prop :=
  (∃ f ∈ ts, f.HasSide e) ∧ ∀ f g, [f, g].Subperm ts → f.HasSide e → g.HasSide e → f.n.dot g.n < 98 / 100

/-- the point `p` is behind the facet `f`, or in it, which does not have `e` as a side -/
def CoversPt (f : Tri ℝ) (e : Edge ℝ) (p : V3 ℝ) : Prop := ¬ f.HasSide e ∧ InTri f p ∧ OnOrBehind f p

/-- the edge `e` nowhere passes in front of the facet `f`, and its ends do not touch it from within the outline -/
def Under (f : Tri ℝ) (e : Edge ℝ) : Prop :=
  (∀ t, 0 ≤ t → t ≤ 1 → InTri f (edgeAt e t) → OnOrBehind f (edgeAt e t)) ∧ (InsideTri f e.1 → StrictlyBehind f e.1) ∧
    (InsideTri f e.2 → StrictlyBehind f e.2)

def Tri.corners (f : Tri ℝ) : List (V3 ℝ) := [f.a, f.b, f.c]

/-- With the properties `ms`, the facets of `file` to be seen are `ts`, and a point of the view goes to the page by scaling with `k` and shifting by
`off`: 72 points to the unit times the scale asked for, and such that the box around what is seen has its centre where it is asked for. -/
def Projects (file : STLFile (Ext ℝ)) (ms : List (Meta (Ext ℝ))) (ts : List (Tri ℝ)) (k : ℝ) (off : V2 ℝ) : Prop :=
  ∃ (r : M3 ℝ) (a b : Int) (c : V2 ℝ), viewOf (look ms c!"view") = .ok r.fin ∧ scaleOf (look ms c!"scale") = .ok (a, b) ∧
    locOf (look ms c!"@") = .ok c.fin ∧ SeenFacets r file ts ∧ k = 72 * ((a : ℝ) / b) ∧
    (ts ≠ [] → ∃ lo hi : V2 ℝ, IsBox ((ts.flatMap Tri.corners).map V3.xy) lo hi ∧ c = (⟨(lo.x + hi.x) / 2, (lo.y + hi.y) / 2⟩ : V2 ℝ).moved k off)

/-- the part of the edge `e` between the parameters `t` and `u`, on the page -/
noncomputable def partLine (e : Edge ℝ) (t u k : ℝ) (off : V2 ℝ) : Line (Ext ℝ) :=
  ⟨((edgeAt e t).xy.moved k off).fin, ((edgeAt e u).xy.moved k off).fin⟩

/-- On the sheet with the marks `P`, of every drawing of the page: every point of a sharp edge of the model is under a stroke along that edge, but for
printing to six digits, or it is covered by a facet. -/
def NothingMissing (lp : Str) (w : World) (models : List ModelN) (pg : PageN (Ext ℝ)) (P : List Mark) : Prop :=
  ∀ name ms dims line, Drawable.draw name ms dims line ∈ pg.draws → ∃ m ∈ models, ∃ file ts k off, m.name = name ∧ Loads lp w m file ∧
    Projects file ms ts k off ∧ ∀ e, Sharp ts e → ∀ t, 0 ≤ t → t ≤ 1 →
      (∃ t0 t1, t0 ≤ t ∧ t ≤ t1 ∧ ∃ s ∈ P, PaintsLine (partLine e t0 t1 k off) s ∨ PaintsLine (partLine e t1 t0 k off) s) ∨
      ∃ f ∈ ts, CoversPt f e (edgeAt e t)

/-- On the sheet with the marks `P`: every stroke is the border, one of the two lines around the title, or a part of a side of a facet seen, in a drawing
of the page, of which nothing within the outline of a facet in front of that side. -/
def NothingAdded (lp : Str) (w : World) (models : List ModelN) (pg : PageN (Ext ℝ)) (P : List Mark) : Prop :=
  ∃ title, titled pg.metas title ∧ ∀ path, Mark.stroke path ∈ P → Mark.stroke path = border ∨
    (let left : ℝ := 784 - title.length * (48 / 10)
     PaintsLine (⟨V2.fin ⟨left - 3, 5⟩, V2.fin ⟨left - 3, 16⟩⟩ : Line (Ext ℝ)) (.stroke path) ∨
     PaintsLine (⟨V2.fin ⟨left - 3, 16⟩, V2.fin ⟨787, 16⟩⟩ : Line (Ext ℝ)) (.stroke path)) ∨
    ∃ name ms dims line, Drawable.draw name ms dims line ∈ pg.draws ∧ ∃ m ∈ models, ∃ file ts k off, m.name = name ∧ Loads lp w m file ∧
      Projects file ms ts k off ∧ ∃ e t u, (∃ f ∈ ts, f.HasSide e) ∧ 0 ≤ t ∧ t < u ∧ u ≤ 1 ∧ PaintsLine (partLine e t u k off) (.stroke path) ∧
        ∀ f ∈ ts, Under f e → ∀ s, t < s → s < u → ¬ InsideTri f (edgeAt e s)

end S2P
