import Verif.Spec.Pages

/-! # The same page, written in another order -/

namespace S2P

variable {α : Type}

/-- the same drawing with its dimensions in another order; a text block is kept -/
inductive Drawable.Reordered : Drawable α → Drawable α → Prop
  | draw (n : Str) (ms : List (Meta α)) (ds ds' : List (DimN α)) (l l' : Nat) : ds.Perm ds' → Drawable.Reordered (.draw n ms ds l) (.draw n ms ds' l')
  | text (s : Str) (ms : List (Meta α)) (l : Nat) : Drawable.Reordered (.text s ms l) (.text s ms l)

/-- the same page with its drawings and text blocks in another order, and the dimensions of drawings too -/
def PageN.Reordered (pg pg' : PageN α) : Prop :=
  pg'.metas = pg.metas ∧ ∃ ds, pg.draws.Perm ds ∧ List.Forall₂ Drawable.Reordered ds pg'.draws

/-- the same lines, arcs and texts, each as often as in the other, perhaps in another order -/
def OutPage.SameInk (P Q : OutPage α) : Prop := P.lines.Perm Q.lines ∧ P.arcs.Perm Q.arcs ∧ P.text.Perm Q.text

end S2P
