import Verif.Spec.Span
import Verif.Spec.Solid
import Verif.Spec.PaperDouble

/-! # Bodies on paper -/

namespace S2P
open PS

/-- the path is one line between points next to `p` and `q`, in one direction or the other -/
def PathJoins (ε : ℝ) (p q : V2 ℝ) (path : List Elem) : Prop := LineNear path p q ε ∨ LineNear path q p ε

/-- The paths `ink` on paper show the body `ts` in the view `r`, scaled by `k` and moved by `off`: each point in view is in a line that shows a part of the
edge, and each path shows a part of an edge that is not hidden. -/
def InkShows (δ M : ℝ) (r : M3 ℝ) (ts : List (Tri ℝ)) (k : ℝ) (off : V2 ℝ) (η : ℝ) (ink : List (List Elem)) : Prop :=
  (∀ a b σ, VisibleAt δ M r ts a b σ → ∃ path ∈ ink, ∃ x y, 0 ≤ x ∧ x ≤ σ ∧ σ ≤ y ∧ y ≤ 1 ∧
    PathJoins η ((edgeAt (a, b) x).xy.moved k off) ((edgeAt (a, b) y).xy.moved k off) path) ∧
  ∀ path ∈ ink, ∃ a b x y, 0 ≤ x ∧ x ≤ y ∧ y ≤ 1 ∧ Unhidden δ M r ts a b x y ∧
    PathJoins η ((edgeAt (a, b) x).xy.moved k off) ((edgeAt (a, b) y).xy.moved k off) path

variable {R : Rounding}

/-- The paths `ink` are those of a drawing of the model `name` with the options `ms`: they show the body that the text of the model file describes, in the
view and at the scale and place asked for.  The corners of the model are of size at most `M`. -/
def InkOfDrawing (lp : Str) (w : World) (models : List ModelN) (M : ℝ) (name : Str) (ms : List (Meta (Fl R))) (ink : List (List Elem)) : Prop :=
  ∃ m ∈ models, ∃ text ps, ∃ file : STLFile (Fl R), ∃ v ts k p off, m.name = name ∧ Places lp m.source ps ∧ FoundAt w ps text ∧ make text = .ok (some file) ∧
    AskedView ms v ∧ IsRotation v ∧ NearlySeen v file ts (1 / 2 ^ 37) ∧ NearlyProjects file ms ts k p off (inkError M k p) ∧
    ∀ us, Describes M text us → InkShows (1 / 2 ^ 20) M v us k off ((M * |k| + (|p.x| + |p.y|) + 1) / 2 ^ 16) ink

/-- what one thing on the page puts on paper: texts draw no lines -/
def InkOf (lp : Str) (w : World) (models : List ModelN) (M : ℝ) (d : Drawable (Fl R)) (ink : List (List Elem)) : Prop :=
  match d with
  | .text _ _ _ => ink = []
  | .draw name ms _ _ => InkOfDrawing lp w models M name ms ink

/-- On the sheet with the marks `P`: every stroke is the border, one of the two lines around the title, or one of the lines of a drawing of the page, and all
of these are there. -/
def SheetShows (lp : Str) (w : World) (models : List ModelN) (M : ℝ) (pg : PageN (Fl R)) (P : List Mark) : Prop :=
  ∃ title inks, titled pg.metas title ∧ List.Forall₂ (InkOf lp w models M) pg.draws inks ∧ (∀ ink ∈ inks, ∀ path ∈ ink, Mark.stroke path ∈ P) ∧
    ∀ path, Mark.stroke path ∈ P → Mark.stroke path = border ∨
      (let left : ℝ := 784 - title.length * (48 / 10)
       LineNear path ⟨left - 3, 5⟩ ⟨left - 3, 16⟩ ((title.length + 200) / 2 ^ 18) ∨ LineNear path ⟨left - 3, 16⟩ ⟨787, 16⟩ ((title.length + 200) / 2 ^ 18)) ∨
      ∃ ink ∈ inks, path ∈ ink

end S2P
