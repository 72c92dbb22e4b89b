import Verif.Spec.Ink
import Verif.Spec.Circle
import Verif.Spec.Finite

/-! # What a point expression with `near` picks out of the model -/

namespace S2P

/-- `v` is a corner, in the coordinates of the file, of a facet that faces the viewer in the view `r` -/
def SeenCorner (r : M3 ℝ) (file : STLFile (Ext ℝ)) (v : V3 ℝ) : Prop := ∃ T : Tri ℝ, T.fin ∈ file.facets ∧ 0 < (T.n.mulM r).z ∧ v ∈ T.corners

/-- square of the distance of two points of the model as they appear in the view `r` -/
noncomputable def seenDist2 (r : M3 ℝ) (p q : V3 ℝ) : ℝ := pageDist2 (p.mulM r) (q.mulM r)

/-- of the corners seen, `v` is one that appears nearest to `p` -/
def NearestCorner (r : M3 ℝ) (file : STLFile (Ext ℝ)) (p v : V3 ℝ) : Prop := SeenCorner r file v ∧ ∀ w, SeenCorner r file w → seenDist2 r v p ≤ seenDist2 r w p

/-- the point of the model that an expression of literal points and `near` stands for -/
inductive Picks (r : M3 ℝ) (file : STLFile (Ext ℝ)) : Pt (Ext ℝ) → V3 ℝ → Prop
  | literal (p : V3 ℝ) (l : Nat) : Picks r file (.val p.fin l) p
  | near (e : Pt (Ext ℝ)) (l : Nat) (p v : V3 ℝ) : Picks r file e p → NearestCorner r file p v → Picks r file (.func c!"near" e l) v

/-- property `n` stands for the point `v` of the model -/
def PicksAt (r : M3 ℝ) (file : STLFile (Ext ℝ)) (ms : List (Meta (Ext ℝ))) (n : Str) (v : V3 ℝ) : Prop :=
  ∃ m e, look ms n = some m ∧ m.val = .pt e ∧ Picks r file e v

/-- an expression without `center` -/
def Pt.NearOnly {α : Type} : Pt α → Prop
  | .val _ _ => True
  | .func n e _ => n = c!"near" ∧ e.NearOnly

/-- `m'` is `m` with the point it stands for written out -/
def Meta.WrittenOut (r : M3 ℝ) (file : STLFile (Ext ℝ)) (m m' : Meta (Ext ℝ)) : Prop :=
  m'.name = m.name ∧ m'.line = m.line ∧
  match m.val with
  | .pt e => ∃ v l, Picks r file e v ∧ m'.val = .pt (.val v.fin l)
  | x => m'.val = x

/-- the same dimension with all its points written out -/
def DimN.WrittenOut (r : M3 ℝ) (file : STLFile (Ext ℝ)) (d d' : DimN (Ext ℝ)) : Prop :=
  d'.kind = d.kind ∧ d'.line = d.line ∧ List.Forall₂ (Meta.WrittenOut r file) d.metas d'.metas

/-- a dimension that may be written out: not an angle, without `center`, and if linear then along a literal direction square to the line of sight -/
def DimN.Flat (r : M3 ℝ) (d : DimN (Ext ℝ)) : Prop :=
  d.kind ≠ .angle ∧ (∀ m ∈ d.metas, ∀ e, m.val = .pt e → e.NearOnly) ∧
  (d.kind = .dim → ∀ m ∈ d.metas, m.name = c!"dir" → ∃ (u : V3 ℝ) (l : Nat), m.val = .pt (.val u.fin l) ∧ (u.mulM r).z = 0)

/-- the same drawing with the points of its dimensions written out, according to the file of its model and its view; a text stays -/
inductive Drawable.WrittenOut (lp : Str) (w : World) (models : List ModelN) : Drawable (Ext ℝ) → Drawable (Ext ℝ) → Prop
  | draw (name : Str) (ms : List (Meta (Ext ℝ))) (dims dims' : List (DimN (Ext ℝ))) (line : Nat) (m : ModelN) (file : STLFile (Ext ℝ)) (r : M3 ℝ) :
      m ∈ models → m.name = name → Loads lp w m file → viewOf (look ms c!"view") = .ok r.fin → List.Forall₂ (DimN.WrittenOut r file) dims dims' →
      WrittenOut lp w models (.draw name ms dims line) (.draw name ms dims' line)
  | text (s : Str) (ms : List (Meta (Ext ℝ))) (line : Nat) : WrittenOut lp w models (.text s ms line) (.text s ms line)

/-- the same page, with the points written out -/
def PageN.WrittenOut (lp : Str) (w : World) (models : List ModelN) (p p' : PageN (Ext ℝ)) : Prop :=
  p'.metas = p.metas ∧ p'.line = p.line ∧ List.Forall₂ (Drawable.WrittenOut lp w models) p.draws p'.draws

/-- all dimensions of the drawing may be written out -/
def Drawable.Flat : Drawable (Ext ℝ) → Prop
  | .draw _ ms dims _ => ∀ r : M3 ℝ, viewOf (look ms c!"view") = .ok r.fin → ∀ d ∈ dims, d.Flat r
  | .text _ _ _ => True

end S2P
