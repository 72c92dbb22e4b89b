import Verif.Spec.Drawing

/-! # Drawings put elsewhere on the page -/

namespace S2P

/-- the same property, but for a place, which is `δ` (in inches) further -/
def Meta.Relocated (δ : V2 ℝ) (m m' : Meta (Ext ℝ)) : Prop :=
  m'.name = m.name ∧ (m.name ≠ c!"@" → m'.val = m.val) ∧ (m.name = c!"@" → ∃ p : V2 ℝ, m.val = .loc p.fin ∧ m'.val = .loc (p + δ).fin)

/-- the same drawing or text block, its place given and `δ` further -/
inductive Drawable.Relocated (δ : V2 ℝ) : Drawable (Ext ℝ) → Drawable (Ext ℝ) → Prop
  | draw (n : Str) (ms ms' : List (Meta (Ext ℝ))) (dims : List (DimN (Ext ℝ))) (l l' : Nat) : List.Forall₂ (Meta.Relocated δ) ms ms' → (∃ m ∈ ms, m.name = c!"@") →
      Drawable.Relocated δ (.draw n ms dims l) (.draw n ms' dims l')
  | text (s : Str) (ms ms' : List (Meta (Ext ℝ))) (l l' : Nat) : List.Forall₂ (Meta.Relocated δ) ms ms' → (∃ m ∈ ms, m.name = c!"@") →
      Drawable.Relocated δ (.text s ms l) (.text s ms' l')

/-- everything on the page moved by `t` points; sizes, angles and texts are kept -/
noncomputable def OutPage.shifted (t : V2 ℝ) (P : OutPage (Ext ℝ)) : OutPage (Ext ℝ) where
  lines := P.lines.map (fun l => ⟨l.o + t.fin, l.t + t.fin⟩)
  arcs := P.arcs.map (fun a => ⟨a.center + t.fin, a.r, a.start, a.stop⟩)
  text := P.text.map (fun x => ⟨x.at_ + t.fin, x.str, x.center, x.raw⟩)

/-- the same thing on the page, where it is or put elsewhere -/
def Drawable.Put (δ : V2 ℝ) (d d' : Drawable (Ext ℝ)) : Prop := d' = d ∧ δ = ⟨0, 0⟩ ∨ d.Relocated δ d'

/-- the same page, each thing on it put elsewhere, by the `δ` for it -/
def PageN.Rearranged (δs : List (V2 ℝ)) (pg pg' : PageN (Ext ℝ)) : Prop :=
  pg'.metas = pg.metas ∧ δs.length = pg.draws.length ∧ List.Forall₂ (fun (x : V2 ℝ × Drawable (Ext ℝ)) d' => x.2.Put x.1 d') (δs.zip pg.draws) pg'.draws

/-- the pages of two conversions: each thing shown on a page of the one is shown on that of the other, moved by 72 times the `δ` for it; the titles are the same -/
def SamePieces (δs : List (V2 ℝ)) (o o' : OutPage (Ext ℝ)) : Prop :=
  ∃ (Ps : List (OutPage (Ext ℝ))) (t : Str), Ps.length = δs.length ∧ o = addHeader (OutPage.sum Ps) t ∧
    o' = addHeader (OutPage.sum (List.zipWith (fun δ P => P.shifted (δ.smul 72)) δs Ps)) t

end S2P
