import Verif.Lemmas.Ext
import Verif.Spec.Sort
import Verif.Model.Page

/-! # A concrete environment, model and documents, used only in examples -/

namespace S2P

/-- integer part of a label -/
def showE : Ext ℚ → Str
  | .fin q => (if q < 0 then c!"-" else []) ++ natStr (|q|).floor.natAbs
  | .pinf => c!"inf"
  | .ninf => c!"-inf"
  | .nan => c!"nan"

/-- zeroed memory (as with the bazel build), insertion sort, formats "%f", "%.1f", "%.3f" and text around "%f" -/
def exEnv : Env (Ext ℚ) where
  junk _ := V3.zero
  junkM := ⟨V3.zero, V3.zero, V3.zero⟩
  fmtF s :=
    if s = c!"%.1f" ∨ s = c!"%.3f" ∨ s = c!"%f" then some showE
    else if s.reverse.take 2 = c!"f%" ∧ s.count '%' = 1 then some (fun x => s.dropLast.dropLast ++ showE x)
    else none
  sorter := insSorter
  name := c!"demo"
  timestamp := false
  numberPages := false
  now := c!"now"
  loadPath := []

/-- a triangle in the plane z = 0 seen from above -/
def exFile : STLFile (Ext ℚ) := ((index [⟨V3.fin ⟨0, 0, 1⟩, V3.fin ⟨0, 0, 0⟩, V3.fin ⟨4, 0, 0⟩, V3.fin ⟨0, 3, 0⟩, .fin 0⟩]).toOption).getD .empty

def exModels : Models (Ext ℚ) := [(c!"m", some exFile)]

def pt (x y z : ℚ) : MetaVal (Ext ℚ) := .pt (.val (V3.fin ⟨x, y, z⟩) 1)

/-- `dim { at .. dir .. from .. to .. }` -/
def exDim : DimN (Ext ℚ) :=
  ⟨.dim, [⟨c!"at", pt 2 (-1) 0, 2⟩, ⟨c!"dir", pt 1 0 0, 2⟩, ⟨c!"from", pt 0 0 0, 3⟩, ⟨c!"to", pt 4 0 0, 3⟩], 2⟩

/-- the same without `to` -/
def exDimBad : DimN (Ext ℚ) := ⟨.dim, [⟨c!"at", pt 2 (-1) 0, 5⟩, ⟨c!"dir", pt 1 0 0, 5⟩, ⟨c!"from", pt 0 0 0, 5⟩], 5⟩

def exAt (x y : ℚ) : Meta (Ext ℚ) := ⟨c!"@", .loc (V2.fin ⟨x, y⟩), 1⟩

def exDraw : Drawable (Ext ℚ) := .draw c!"m" [exAt 0 0, ⟨c!"scale", .scale 1 2, 1⟩] [exDim] 1
def exDrawBad : Drawable (Ext ℚ) := .draw c!"m" [exAt 0 0] [exDimBad] 4
def exText : Drawable (Ext ℚ) := .text c!"hi\nyou" [exAt 1 1] 7

/-- a page whose first drawing fails -/
def exPageBad : PageN (Ext ℚ) := ⟨[⟨c!"name", .str c!"P", 1⟩], [exDrawBad, exDraw, exText], 1⟩
def exPage : PageN (Ext ℚ) := ⟨[], [exDraw, exText], 9⟩

end S2P
