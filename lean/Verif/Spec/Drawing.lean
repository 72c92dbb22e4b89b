import Verif.Spec.Pages
import Verif.Spec.Dims
import Verif.Spec.Circle
import Verif.Lemmas.Ext

/-! # Where things are on the page -/

namespace S2P

section
variable {α : Type} [Add α] [Mul α]

/-- a point of the drawing on the page: multiplied by `s`, shifted by `d` -/
def V2.moved (p : V2 α) (s : α) (d : V2 α) : V2 α := ⟨p.x * s + d.x, p.y * s + d.y⟩

/-- A drawing put on a page: every point is moved; radii are multiplied by `s`; arc angles, strings and flags are kept. -/
def OutPage.moved (s : α) (d : V2 α) (P : OutPage α) : OutPage α where
  lines := P.lines.map (fun l => ⟨l.o.moved s d, l.t.moved s d⟩)
  arcs := P.arcs.map (fun a => ⟨a.center.moved s d, a.r * s, a.start, a.stop⟩)
  text := P.text.map (fun t => ⟨t.at_.moved s d, t.str, t.center, t.raw⟩)
end

/-- just these lines -/
def OutPage.ofLines {α : Type} (ls : List (Line α)) : OutPage α := ⟨ls, [], []⟩

/-- `P` is what the dimension draws in model units (in the view's coordinates): wherever the drawing is placed on the page, the
dimension adds `P` moved there. -/
def DrawsInModel {α : Type} [FP α] (E : Env α) (v : Vis α) (d : DimN α) (P : OutPage α) : Prop :=
  ∀ off : V2 α, ∃ ok L, dimContent E { v with d := off } d = .ok (ok, P.moved v.scale off, L)

/-- `lo`, `hi` are the corners of the smallest box around the points -/
def IsBox {K : Type} [LE K] (ps : List (V2 K)) (lo hi : V2 K) : Prop :=
  (∀ p ∈ ps, lo.x ≤ p.x ∧ p.x ≤ hi.x ∧ lo.y ≤ p.y ∧ p.y ≤ hi.y) ∧
  (∃ p ∈ ps, p.x = lo.x) ∧ (∃ p ∈ ps, p.x = hi.x) ∧ (∃ p ∈ ps, p.y = lo.y) ∧ (∃ p ∈ ps, p.y = hi.y)

/-- property `n` is the literal point `p` -/
def Literal {K : Type} (ms : List (Meta (Ext K))) (n : Str) (p : V3 K) : Prop :=
  ∃ m l, look ms n = some m ∧ m.val = .pt (.val p.fin l)

/-- length of a vector -/
noncomputable def len3 (u : V3 ℝ) : ℝ := Real.sqrt (u.x ^ 2 + u.y ^ 2 + u.z ^ 2)

/-- angle between two vectors, in radians -/
noncomputable def angleBetween (u w : V3 ℝ) : ℝ := Real.arccos ((u.x * w.x + u.y * w.y + u.z * w.z) / (len3 u * len3 w))

/-- degrees, with the 17-digit π of geo.h:37 -/
noncomputable def degrees (t : ℝ) : ℝ := t * 180 / (31415926535897932 / 10000000000000000)

/-- a leg of an angle in model space: the direction given, or from the apex to the point given -/
def Leg (ms : List (Meta (Ext ℝ))) (dirName pointName : Str) (apex u : V3 ℝ) : Prop :=
  Literal ms dirName u ∨ (look ms dirName = none ∧ ∃ p, Literal ms pointName p ∧ u = p - apex)

/-- `t` is a direction angle of the vector (x, y) -/
def HasAngle (x y t : ℝ) : Prop := ∃ ρ, 0 < ρ ∧ x = ρ * Real.cos t ∧ y = ρ * Real.sin t

end S2P
