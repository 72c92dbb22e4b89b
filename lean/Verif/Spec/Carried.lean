import Verif.Spec.Dims
import Verif.Spec.Drawing
import Verif.Spec.Resized
import Verif.Spec.Snap

/-! # A model that is moved or turned together with its dimensions -/

namespace S2P

section
variable {K : Type} [Field K] [LinearOrder K] [IsStrictOrderedRing K]

/-- `e'` is `e` with its literal point carried along by `f` -/
inductive Pt.Carried (f : V3 K → V3 K) : Pt (Ext K) → Pt (Ext K) → Prop
  | val (p : V3 K) (l : Nat) : Carried f (.val p.fin l) (.val (f p).fin l)
  | func (n : Str) (e e' : Pt (Ext K)) (l : Nat) : Carried f e e' → Carried f (.func n e l) (.func n e' l)

/-- the value of a property, points carried along by `f` -/
def MetaVal.Carried (f : V3 K → V3 K) (x y : MetaVal (Ext K)) : Prop :=
  match x with
  | .pt e => ∃ e', y = .pt e' ∧ e.Carried f e'
  | x => y = x

/-- the properties that are directions -/
def directions : List Str := [c!"dir", c!"from_dir", c!"to_dir"]

/-- `d'` is `d` with all its points and directions turned by `r` -/
def DimN.TurnedBy (r : M3 K) (d d' : DimN (Ext K)) : Prop :=
  d'.kind = d.kind ∧ List.Forall₂ (fun m m' => m'.name = m.name ∧ m.val.Carried (fun p => p.mulM r) m'.val) d.metas d'.metas

/-- `d'` is `d` with all its points moved by `t`; the directions stay -/
def DimN.MovedBy (t : V3 K) (d d' : DimN (Ext K)) : Prop :=
  d'.kind = d.kind ∧
  List.Forall₂ (fun m m' => m'.name = m.name ∧ m.val.Carried (fun p => if m.name ∈ directions then p else p + t) m'.val) d.metas d'.metas

end

/-- a literal point -/
def Pt.IsLit {α : Type} (e : Pt α) : Prop := ∃ p l, e = .val p l

/-- Of a dimension to be moved by `t` in the view `r`: its directions are written out; and if it is linear or an angle, then either the move is across the line
of sight, or all points are written out, or it is linear along a direction across the line of sight. -/
def DimN.Movable (r : M3 ℝ) (t : V3 ℝ) (d : DimN (Ext ℝ)) : Prop :=
  (∀ m ∈ d.metas, m.name ∈ directions → ∀ e, m.val = .pt e → e.IsLit) ∧
  (d.kind = .dim ∨ d.kind = .angle → (t.mulM r).z = 0 ∨ (∀ m ∈ d.metas, ∀ e, m.val = .pt e → e.IsLit) ∨
    d.kind = .dim ∧ ∀ m ∈ d.metas, m.name = c!"dir" → ∃ (u : V3 ℝ) (l : Nat), m.val = .pt (.val u.fin l) ∧ (u.mulM r).z = 0)

/-- The two drawings: of the same models, one of them moved; properties the same, dimensions moved with the model, which shows at least one facet to the viewer. -/
inductive Drawable.MovedAlong (stl stl' : Models (Ext ℝ)) : Drawable (Ext ℝ) → Drawable (Ext ℝ) → Prop
  | draw (name : Str) (ms : List (Meta (Ext ℝ))) (dims dims' : List (DimN (Ext ℝ))) (line : Nat) (e e' : Str × Option (STLFile (Ext ℝ)))
      (f f' : STLFile (Ext ℝ)) (r : M3 ℝ) (t : V3 ℝ) :
      stl.find? (fun e => decide (e.1 = name)) = some e → stl'.find? (fun e => decide (e.1 = name)) = some e' → e.2 = some f → e'.2 = some f' →
      List.Forall₂ (Facet.Resized 1 t) f.facets f'.facets → viewOf (look ms c!"view") = .ok r.fin → (∀ m ∈ ms, ∀ a b, m.val = .scale a b → b ≠ 0) →
      (∃ v, SeenCorner r f v) → List.Forall₂ (DimN.MovedBy t) dims dims' → (∀ d ∈ dims, d.Movable r t) →
      MovedAlong stl stl' (.draw name ms dims line) (.draw name ms dims' line)
  | text (s : Str) (ms : List (Meta (Ext ℝ))) (line : Nat) : MovedAlong stl stl' (.text s ms line) (.text s ms line)

/-- The two drawings: of the same models, one of them turned by `r`; properties the same except for the view, which undoes the turn; dimensions turned with the model. -/
inductive Drawable.TurnedAlong (stl stl' : Models (Ext ℝ)) : Drawable (Ext ℝ) → Drawable (Ext ℝ) → Prop
  | draw (name : Str) (ms ms' : List (Meta (Ext ℝ))) (dims dims' : List (DimN (Ext ℝ))) (line : Nat) (e e' : Str × Option (STLFile (Ext ℝ)))
      (f f' : STLFile (Ext ℝ)) (r m : M3 ℝ) :
      stl.find? (fun e => decide (e.1 = name)) = some e → stl'.find? (fun e => decide (e.1 = name)) = some e' → e.2 = some f → e'.2 = some f' →
      IsRotation r → List.Forall₂ (Facet.TurnedBy r) f.facets f'.facets →
      viewOf (look ms c!"view") = .ok (r.comp m).fin → viewOf (look ms' c!"view") = .ok m.fin →
      ms'.filter (fun m => decide (m.name ≠ c!"view")) = ms.filter (fun m => decide (m.name ≠ c!"view")) →
      (ms.map (fun m => m.name)).Nodup → (ms'.map (fun m => m.name)).Nodup →
      List.Forall₂ (DimN.TurnedBy r) dims dims' → TurnedAlong stl stl' (.draw name ms dims line) (.draw name ms' dims' line)
  | text (s : Str) (ms : List (Meta (Ext ℝ))) (line : Nat) : TurnedAlong stl stl' (.text s ms line) (.text s ms line)

/-- moved or turned together with the model -/
def Drawable.CarriedAlong (stl stl' : Models (Ext ℝ)) (d d' : Drawable (Ext ℝ)) : Prop := d.MovedAlong stl stl' d' ∨ d.TurnedAlong stl stl' d'

/-- the models of a script, by name, with what their files hold -/
def loadedAs (ms : List ModelN) (fs : List (STLFile (Ext ℝ))) : Models (Ext ℝ) := List.zipWith (fun m f => (m.name, some f)) ms fs

end S2P
