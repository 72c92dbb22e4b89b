import Verif.Spec.Drawing

/-! # Properties that are left out, and the same written out -/

namespace S2P

variable {K : Type} [Field K] [LinearOrder K] [IsStrictOrderedRing K] [FloorRing K] [Trans K]

/-- what a drawing takes for a property that is not given: scale 1:1, the view along z, and the lower left corner of the sheet (11 by 8.5 inches, places being
measured from its middle) -/
def DrawDefault (m : Meta (Ext K)) : Prop :=
  (m.name = c!"scale" ∧ m.val = .scale 1 1) ∨ (m.name = c!"view" ∧ m.val = .str c!"Z+") ∨ (m.name = c!"@" ∧ m.val = .loc (⟨-(11 / 2), -(17 / 4)⟩ : V2 K).fin)

/-- what a text block takes for its place: the middle of the sheet -/
def TextDefault (m : Meta (Ext K)) : Prop := m.name = c!"@" ∧ m.val = .loc (⟨0, 0⟩ : V2 K).fin

/-- the title of a page -/
def PageDefault (m : Meta (Ext K)) : Prop := m.name = c!"name" ∧ m.val = .str []

/-- `ms'` is `ms` with some properties that were not given written out -/
def SpelledOut (D : Meta (Ext K) → Prop) (ms ms' : List (Meta (Ext K))) : Prop :=
  ∃ extra, ms' = ms ++ extra ∧ (extra.map (fun m => m.name)).Nodup ∧ ∀ m ∈ extra, D m ∧ m.name ∉ ms.map (fun m => m.name)

inductive Drawable.Spelled : Drawable (Ext K) → Drawable (Ext K) → Prop
  | draw (n : Str) (ms ms' : List (Meta (Ext K))) (dims : List (DimN (Ext K))) (l l' : Nat) : SpelledOut DrawDefault ms ms' → Drawable.Spelled (.draw n ms dims l) (.draw n ms' dims l')
  | text (s : Str) (ms ms' : List (Meta (Ext K))) (l l' : Nat) : SpelledOut TextDefault ms ms' → Drawable.Spelled (.text s ms l) (.text s ms' l')

/-- the same page with properties written out -/
def PageN.Spelled (pg pg' : PageN (Ext K)) : Prop := SpelledOut PageDefault pg.metas pg'.metas ∧ List.Forall₂ Drawable.Spelled pg.draws pg'.draws

end S2P
