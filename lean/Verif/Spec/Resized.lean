import Verif.Lemmas.Ext
import Verif.Model.Page
import Verif.Spec.Matrix

/-! # The same model in another size and at another place -/

namespace S2P
variable {K : Type} [Field K] [LinearOrder K] [IsStrictOrderedRing K]

/-- resized by `k`, then moved by `t` -/
def V3.resized (p : V3 K) (k : K) (t : V3 K) : V3 K := p.smul k + t

/-- the facets read from a file, before and after all vertices have been resized and moved (the declared normal is left as it is) -/
def Facet.Resized [FP (Ext K)] (k : K) (t : V3 K) (f g : Facet (Ext K)) : Prop :=
  ∃ n a b c : V3 K, mkFacet n.fin [a.fin, b.fin, c.fin] = .ok f ∧
    mkFacet n.fin [(a.resized k t).fin, (b.resized k t).fin, (c.resized k t).fin] = .ok g

/-- the facets read from a file, before and after all vertices and declared normals have been turned by `r` -/
def Facet.TurnedBy [FP (Ext K)] (r : M3 K) (f g : Facet (Ext K)) : Prop :=
  ∃ n a b c : V3 K, mkFacet n.fin [a.fin, b.fin, c.fin] = .ok f ∧
    mkFacet (n.mulM r).fin [(a.mulM r).fin, (b.mulM r).fin, (c.mulM r).fin] = .ok g

/-- the same models, each moved in its own way -/
def MovedModels [FP (Ext K)] (stl stl' : Models (Ext K)) : Prop :=
  List.Forall₂ (fun e e' => e.1 = e'.1 ∧ ∃ f f' t, e.2 = some f ∧ e'.2 = some f' ∧ List.Forall₂ (Facet.Resized 1 t) f.facets f'.facets) stl stl'

/-- a drawing without dimensions, the scale of which can be divided by -/
def Drawable.Plain {α : Type} : Drawable α → Prop
  | .draw _ ms dims _ => dims = [] ∧ ∀ m ∈ ms, ∀ a b, m.val = .scale a b → b ≠ 0
  | .text .. => True

end S2P
