import Verif.Spec.Round
import Verif.Spec.Ink

/-! # How far rounded results may be from the exact ones -/

namespace S2P

variable {R : Rounding}

/-- `x` is a number (not infinite, not NaN) that is at most `ε` away from `a` -/
def Fl.Near (x : Fl R) (a ε : ℝ) : Prop := ∃ b : ℝ, x = (Ext.fin b : Ext ℝ) ∧ |b - a| ≤ ε

/-- the same for points, in each coordinate -/
def V2.NearTo (p : V2 (Fl R)) (q : V2 ℝ) (ε : ℝ) : Prop := Fl.Near p.x q.x ε ∧ Fl.Near p.y q.y ε
def V3.NearTo (p : V3 (Fl R)) (q : V3 ℝ) (ε : ℝ) : Prop := Fl.Near p.x q.x ε ∧ Fl.Near p.y q.y ε ∧ Fl.Near p.z q.z ε

/-- coordinates of size at most `M` -/
def V3.Within (a : V3 ℝ) (M : ℝ) : Prop := |a.x| ≤ M ∧ |a.y| ≤ M ∧ |a.z| ≤ M

/-- the number that `x` is -/
noncomputable def Fl.val (x : Fl R) : ℝ :=
  match (show Ext ℝ from x) with
  | .fin a => a
  | _ => 0

noncomputable def V3.val (p : V3 (Fl R)) : V3 ℝ := p.map Fl.val

/-- the facet as a triangle of real numbers -/
noncomputable def Facet.val (f : Facet (Fl R)) : Tri ℝ := ⟨f.norm.val, f.e0.val, f.e1.val, f.e2.val, Fl.val f.r⟩

/-- the point of the page (in points of 1/72 inch) that the properties of a drawing ask for: with '@' the distance in inches from the centre of the
page, otherwise the page's corner -/
def AskedAt (ms : List (Meta (Fl R))) (p : V2 ℝ) : Prop :=
  (look ms c!"@" = none ∧ p = ⟨0, 0⟩) ∨
  ∃ m x y, look ms c!"@" = some m ∧ m.val = .loc ⟨(Ext.fin x : Ext ℝ), (Ext.fin y : Ext ℝ)⟩ ∧ p = ⟨72 * x + 396, 72 * y + 306⟩

/-- the view asked for is `r`: what the same property means in exact arithmetic -/
def AskedView (ms : List (Meta (Fl R))) (r : M3 ℝ) : Prop :=
  viewOf (α := Ext ℝ) (look (α := Ext ℝ) ms c!"view") = .ok r.fin

/-- the view is given by name, or by angles between -1024° and 1024° -/
def TameView (ms : List (Meta (Fl R))) : Prop :=
  ∀ m l, look ms c!"view" = some m → m.val = .loc l → FP.Bd 10 l.x ∧ FP.Bd 10 l.y

/-- `ts` are the facets of the file that face the viewer in the view `r`, as they are seen; of facets turned away or towards the viewer by next to nothing
(less than `δ`, the normal having length about 1) either may be true -/
def NearlySeen (r : M3 ℝ) (file : STLFile (Fl R)) (ts : List (Tri ℝ)) (δ : ℝ) : Prop :=
  ∃ kept : List (Facet (Fl R)), ts = kept.map (fun f => f.val.seenIn r) ∧ (∀ f ∈ kept, f ∈ file.facets) ∧
    ∀ f ∈ file.facets, (FP.Bd 1 f.norm.x ∧ FP.Bd 1 f.norm.y ∧ FP.Bd 1 f.norm.z) → (δ < (f.norm.val.mulM r).z → f ∈ kept) ∧ (f ∈ kept → -δ < (f.norm.val.mulM r).z)

/-- the scale asked for has numbers of type `int`, the second not zero -/
def TameScale (ms : List (Meta (Fl R))) : Prop :=
  ∀ a b, scaleOf (look ms c!"scale") = .ok (a, b) → b ≠ 0 ∧ |(a : ℝ)| ≤ 2 ^ 31 ∧ |(b : ℝ)| ≤ 2 ^ 31

/-- With the properties `ms`: the facets of `file` to be seen are `ts`, and a point of the view goes to the page by scaling with `k` and shifting by `off`.
The scale is the one asked for to the accuracy of a `float`.  The centre of the box around what is seen goes where it is asked for, but for `ε`. -/
def NearlyProjects (file : STLFile (Fl R)) (ms : List (Meta (Fl R))) (ts : List (Tri ℝ)) (k : ℝ) (p off : V2 ℝ) (ε : ℝ) : Prop :=
  ∃ (r : M3 ℝ) (a b : Int), AskedView ms r ∧ IsRotation r ∧ NearlySeen r file ts (1 / 2 ^ 37) ∧ scaleOf (look ms c!"scale") = .ok (a, b) ∧
    |k - 72 * ((a : ℝ) / b)| ≤ |72 * ((a : ℝ) / b)| / 2 ^ 22 ∧ AskedAt ms p ∧
    (ts ≠ [] → ∃ lo hi : V2 ℝ, IsBox ((ts.flatMap Tri.corners).map V3.xy) lo hi ∧
      |((⟨(lo.x + hi.x) / 2, (lo.y + hi.y) / 2⟩ : V2 ℝ).moved k off).x - p.x| ≤ ε ∧
      |((⟨(lo.x + hi.x) / 2, (lo.y + hi.y) / 2⟩ : V2 ℝ).moved k off).y - p.y| ≤ ε)

/-- how far ink may be off: `M` bounds the corners of the model, `k` is the scale, `p` where the model is put -/
noncomputable def inkError (M k : ℝ) (p : V2 ℝ) : ℝ := (M * |k| + (|p.x| + |p.y|) + 1) / 2 ^ 35

/-- the line starts and ends within `ε` of points of one side of a facet seen -/
def NearSide (ts : List (Tri ℝ)) (k : ℝ) (off : V2 ℝ) (ε : ℝ) (l : Line (Fl R)) : Prop :=
  ∃ e t u, (∃ f ∈ ts, f.HasSide e) ∧ 0 ≤ t ∧ t ≤ 1 ∧ 0 ≤ u ∧ u ≤ 1 ∧
    l.o.NearTo ((edgeAt e t).xy.moved k off) ε ∧ l.t.NearTo ((edgeAt e u).xy.moved k off) ε

end S2P
