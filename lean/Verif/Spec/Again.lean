import Verif.Spec.Pages
import Verif.Spec.Finite

/-! # Documents that differ only in points -/

namespace S2P
variable {α : Type} [FP α]

/-- a point without its numbers -/
def Pt.shape : Pt α → Pt Unit
  | .val _ l => .val ⟨(), (), ()⟩ l
  | .func n p l => .func n p.shape l

/-- the same property, up to the numbers of a point -/
def Meta.Like (m m' : Meta α) : Prop :=
  m'.name = m.name ∧ m'.line = m.line ∧ (m'.val = m.val ∨ ∃ p p', m.val = .pt p ∧ m'.val = .pt p' ∧ p'.shape = p.shape)

/-- the same drawing, up to the numbers of the points of its dimensions; texts are the same -/
def Drawable.Like : Drawable α → Drawable α → Prop
  | .draw n ms ds l, d => ∃ ds', d = .draw n ms ds' l ∧
      List.Forall₂ (fun d d' => d'.kind = d.kind ∧ d'.line = d.line ∧ List.Forall₂ Meta.Like d.metas d'.metas) ds ds'
  | .text s ms l, d => d = .text s ms l

/-- the same document, up to the numbers of the points of dimensions -/
def Doc.Like (d d' : Doc α) : Prop :=
  d'.models = d.models ∧ List.Forall₂ (fun p p' => p'.metas = p.metas ∧ p'.line = p.line ∧ List.Forall₂ Drawable.Like p.draws p'.draws) d.pages d'.pages

/-- a text, a drawing without dimensions, or one seen from the default direction -/
def Drawable.Still : Drawable α → Prop
  | .draw _ ms ds _ => ds = [] ∨ ∀ rot, viewOf (look ms c!"view") = .ok rot → rot = matZP
  | .text _ _ _ => True

end S2P
