import Verif.Model.Ast

/-! # What a property block must look like -/

namespace S2P

variable {α : Type}

/-- the property named `n`, the first if there are several -/
def look (ms : List (Meta α)) (n : Str) : Option (Meta α) := ms.find? (fun m => decide (m.name = n))

/-- no name twice, every name known, every required name present -/
structure Exactly (ms : List (Meta α)) (req opt : List Str) : Prop where
  once : (ms.map (fun m => m.name)).Nodup
  known : ∀ m ∈ ms, m.name ∈ req ++ opt
  all : ∀ n ∈ req, ∃ m ∈ ms, m.name = n

/-- a property of that name is present -/
def Has (ms : List (Meta α)) (n : Str) : Prop := ∃ m ∈ ms, m.name = n

/-- the properties of the four kinds of dimension -/
def GoodDim (kind : DimKind) (ms : List (Meta α)) : Prop :=
  match kind with
  | .dim => Exactly ms [c!"at", c!"dir", c!"from", c!"to"] [c!"fmt"]
  | .dia => Exactly ms [c!"at", c!"dir", c!"center"] [c!"fmt"]
  | .rad => Exactly ms [c!"at", c!"dir", c!"center"] [c!"fmt"]
  | .angle => Exactly ms [c!"at", c!"apex"] [c!"from_dir", c!"from_point", c!"to_dir", c!"to_point", c!"fmt"] ∧
      (Has ms c!"from_dir" ↔ ¬ Has ms c!"from_point") ∧ (Has ms c!"to_dir" ↔ ¬ Has ms c!"to_point")

/-- the properties of what a page shows, and of the dimensions inside -/
def GoodDrawable : Drawable α → Prop
  | .draw _ ms dims _ => Exactly ms [] [c!"scale", c!"view", c!"@"] ∧ ∀ d ∈ dims, GoodDim d.kind d.metas
  | .text _ ms _ => Exactly ms [] [c!"@"]

/-- the properties of a page and of everything on it -/
def GoodPage (pg : PageN α) : Prop := Exactly pg.metas [] [c!"name"] ∧ ∀ d ∈ pg.draws, GoodDrawable d

end S2P
