import Verif.Model.Main

/-! # Documents that differ in how models are named and loaded -/

namespace S2P
variable {α : Type}

/-- the model names of drawings replaced -/
def Drawable.rename (ρ : Str → Str) : Drawable α → Drawable α
  | .draw n ms dims l => .draw (ρ n) ms dims l
  | .text s ms l => .text s ms l
def PageN.rename (ρ : Str → Str) (pg : PageN α) : PageN α := { pg with draws := pg.draws.map (Drawable.rename ρ) }

/-- the document draws the model of that name -/
def Draws (pgs : List (PageN α)) (n : Str) : Prop := ∃ pg ∈ pgs, ∃ ms dims l, Drawable.draw n ms dims l ∈ pg.draws

/-- the name stands for the model read from that source -/
def Names (ms : List ModelN) (n src : Str) : Prop := ∃ m ∈ ms, m.name = n ∧ m.source = src

end S2P
