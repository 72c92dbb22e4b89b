import Verif.Spec.Pages
import Verif.Lemmas.Ext
import Verif.Spec.Matrix

/-! # Documents and models whose numbers are finite -/

namespace S2P
variable {K : Type}

def Ext.IsFin (x : Ext K) : Prop := ∃ a, x = .fin a
def V2.IsFin (p : V2 (Ext K)) : Prop := ∃ a : V2 K, p = a.fin
def V3.IsFin (p : V3 (Ext K)) : Prop := ∃ a : V3 K, p = a.fin

def Pt.IsFin : Pt (Ext K) → Prop
  | .val p _ => p.IsFin
  | .func _ p _ => p.IsFin

def MetaVal.IsFin : MetaVal (Ext K) → Prop
  | .pt p => p.IsFin
  | .loc v => v.IsFin
  | .num x => x.IsFin
  | _ => True

def DimN.IsFin (d : DimN (Ext K)) : Prop := ∀ m ∈ d.metas, m.val.IsFin

def Drawable.IsFin : Drawable (Ext K) → Prop
  | .draw _ ms ds _ => (∀ m ∈ ms, m.val.IsFin) ∧ ∀ d ∈ ds, d.IsFin
  | .text _ ms _ => ∀ m ∈ ms, m.val.IsFin

/-- every number written in the document is finite -/
def Doc.IsFin (d : Doc (Ext K)) : Prop := ∀ p ∈ d.pages, ∀ x ∈ p.draws, x.IsFin

/-- every '@' is followed by a location -/
def AtLoc {α : Type} (ms : List (Meta α)) : Prop := ∀ m ∈ ms, m.name = c!"@" → ∃ l, m.val = .loc l

def Drawable.AtLoc {α : Type} : Drawable α → Prop
  | .draw _ ms _ _ => S2P.AtLoc ms
  | .text _ ms _ => S2P.AtLoc ms

/-- a facet as `make` builds it from finite numbers -/
def Facet.Made [FP (Ext K)] (f : Facet (Ext K)) : Prop := ∃ n a b c : V3 K, mkFacet n.fin [a.fin, b.fin, c.fin] = .ok f

/-- every model is loaded, and consists of facets made from finite numbers -/
def Models.Made [FP (Ext K)] (stl : Models (Ext K)) : Prop := ∀ e ∈ stl, ∃ file, e.2 = some file ∧ ∀ f ∈ file.facets, f.Made

/-- The memory of an uninitialised matrix does not happen to hold a rotation.  (It is zero in the shipped build, which defines
EIGEN_INITIALIZE_MATRICES_BY_ZERO, BUILD:65.) -/
def Env.NotAView [Field K] [FP (Ext K)] (E : Env (Ext K)) : Prop := ∀ r : M3 K, IsRotation r → r.fin.eqv E.junkM = false

end S2P
