import Verif.Model.Parser

/-! # Forgetting line numbers -/

namespace S2P
variable {α : Type}

def Item.noLine : Item α → Item α
  | .tok t _ => .tok t 0
  | .bad => .bad
  | .boom => .boom

def Pt.noLine : Pt α → Pt α
  | .val p _ => .val p 0
  | .func n a _ => .func n a.noLine 0

def MetaVal.noLine : MetaVal α → MetaVal α
  | .str s => .str s
  | .pt p => .pt p.noLine
  | .num x => .num x
  | .loc v => .loc v
  | .scale a b => .scale a b

def Meta.noLine (m : Meta α) : Meta α := ⟨m.name, m.val.noLine, 0⟩

def DimN.noLine (d : DimN α) : DimN α := ⟨d.kind, d.metas.map Meta.noLine, 0⟩

def Drawable.noLine : Drawable α → Drawable α
  | .draw n ms ds _ => .draw n (ms.map Meta.noLine) (ds.map DimN.noLine) 0
  | .text s ms _ => .text s (ms.map Meta.noLine) 0

def PageN.noLine (p : PageN α) : PageN α := ⟨p.metas.map Meta.noLine, p.draws.map Drawable.noLine, 0⟩

def ModelN.noLine (m : ModelN) : ModelN := ⟨m.name, m.source, 0⟩

def Doc.noLine (d : Doc α) : Doc α := ⟨d.models.map ModelN.noLine, d.pages.map PageN.noLine⟩

end S2P
