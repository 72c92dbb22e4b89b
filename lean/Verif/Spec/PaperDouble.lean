import Verif.Spec.Accuracy
import Verif.Spec.Text
import Verif.Spec.Pages

/-! # What may be on paper, in double arithmetic -/

namespace S2P
open PS

/-- the printed number `q` is `a`, but for `ε` and for printing to six digits -/
def Printed (q : ℚ) (a ε : ℝ) : Prop := |(q : ℝ) - a| ≤ ε + (|a| + ε) * (5 / 10 ^ 6)

/-- the same for points, in each coordinate -/
def PrintedAt (q : V2 ℚ) (p : V2 ℝ) (ε : ℝ) : Prop := Printed q.x p.x ε ∧ Printed q.y p.y ε

/-- the path is one line from near `a` to near `b` -/
def LineNear (path : List Elem) (a b : V2 ℝ) (ε : ℝ) : Prop := ∃ p q, path = [.move p, .line q] ∧ PrintedAt p a ε ∧ PrintedAt q b ε

variable {R : Rounding}

/-- On the sheet with the marks `P`: every stroke is the border, one of the two lines around the title, or a line that starts and ends next to a side of
a facet seen, in a drawing of the page.  The corners of the models are of size at most `M`. -/
def InkOfModels (lp : Str) (w : World) (models : List ModelN) (M : ℝ) (pg : PageN (Fl R)) (P : List Mark) : Prop :=
  ∃ title, titled pg.metas title ∧ ∀ path, Mark.stroke path ∈ P → Mark.stroke path = border ∨
    (let left : ℝ := 784 - title.length * (48 / 10)
     LineNear path ⟨left - 3, 5⟩ ⟨left - 3, 16⟩ ((title.length + 200) / 2 ^ 18) ∨ LineNear path ⟨left - 3, 16⟩ ⟨787, 16⟩ ((title.length + 200) / 2 ^ 18)) ∨
    ∃ name ms line, Drawable.draw name ms [] line ∈ pg.draws ∧ ∃ m ∈ models, ∃ file ts k p off, m.name = name ∧ Loads lp w m file ∧
      NearlyProjects file ms ts k p off (inkError M k p) ∧ ∃ e t u, (∃ f ∈ ts, f.HasSide e) ∧ 0 ≤ t ∧ t ≤ 1 ∧ 0 ≤ u ∧ u ≤ 1 ∧
        LineNear path ((edgeAt e t).xy.moved k off) ((edgeAt e u).xy.moved k off) (inkError M k p)

/-- the point of the page where a text is to start: with '@' the distance in inches from the centre of the page, otherwise the centre -/
def TextAskedAt (ms : List (Meta (Fl R))) (p : V2 ℝ) : Prop :=
  (look ms c!"@" = none ∧ p = ⟨396, 306⟩) ∨
  ∃ m x y, look ms c!"@" = some m ∧ m.val = .loc ⟨(Ext.fin x : Ext ℝ), (Ext.fin y : Ext ℝ)⟩ ∧ p = ⟨72 * x + 396, 72 * y + 306⟩

/-- how far a text of `n` lines asked for at `p` may be off -/
noncomputable def textError (n : ℕ) (p : V2 ℝ) : ℝ := (n + 1) * (|p.x| + |p.y| + 12 * n + 1) / 2 ^ 38

/-- `m` is line `i` of a text of the page, 12 points a line below the first, in 8 point Courier -/
def RowOf (pg : PageN (Fl R)) (m : Mark) : Prop :=
  ∃ s ms line, Drawable.text s ms line ∈ pg.draws ∧ ∃ p ls, ∃ i : ℕ, ∃ l q, TextAskedAt ms p ∧ IsLines s ls ∧ ls[i]? = some l ∧ l ≠ [] ∧
    PrintedAt q ⟨p.x, p.y - 12 * i⟩ (textError ls.length p) ∧ m = .text q (eol l) c!"Courier" 8

/-- On the sheet with the marks `P`: every text is the label in the corner, the title, or a line of a text of the page; and every line of every text of the
page is there, unless empty. -/
def TextsOfPage (label : Option Str) (pg : PageN (Fl R)) (P : List Mark) : Prop :=
  (∃ title, titled pg.metas title ∧ ∀ at_ s font size, Mark.text at_ s font size ∈ P →
    (∃ l, label = some l ∧ Mark.text at_ s font size = .text ⟨7, 7⟩ (eol l) c!"Courier" 8) ∨
    (PrintedAt at_ ⟨784 - title.length * (48 / 10), 8⟩ ((title.length + 200) / 2 ^ 18) ∧ s = eol title ∧ font = c!"Courier" ∧ size = 8) ∨
    RowOf pg (.text at_ s font size)) ∧
  ∀ s ms line, Drawable.text s ms line ∈ pg.draws → ∃ p ls, TextAskedAt ms p ∧ IsLines s ls ∧ ∀ (i : ℕ) (l : Str), ls[i]? = some l → l ≠ [] →
    ∃ q, PrintedAt q ⟨p.x, p.y - 12 * i⟩ (textError ls.length p) ∧ Mark.text q (eol l) c!"Courier" 8 ∈ P

end S2P
