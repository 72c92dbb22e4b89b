import Verif.Spec.StrokeDouble

/-! # What a linear dimension square to the line of sight gives on the page, with rounding -/

namespace S2P

variable {R : Rounding}

/-- What a linear dimension `d` along `u` square to the line of sight, with labels `g`, gives on the page, `b`.  There are no arcs.  The text is one label, the number
in it the distance between the points meant along `u`; it is centred at the place meant by `at`.  The lines are, if the distance is not too small for the
size of the drawing, the eight strokes of a dimension between the points meant. -/
def DimDone (M η : ℝ) (r : M3 ℝ) (us : List (Tri ℝ)) (k : ℝ) (p off : V2 ℝ) (d : DimN (Fl R)) (u : V3 ℝ) (g : Fl R → Str) (b : OutPage (Fl R)) : Prop :=
  b.arcs = [] ∧ ∃ a f t, PointMeant (1 / 2 ^ 20) (2 ^ 11 * (M ^ 2 * η)) r us d.metas c!"at" a ∧
    PointMeant (1 / 2 ^ 20) (2 ^ 11 * (M ^ 2 * η)) r us d.metas c!"from" f ∧
    PointMeant (1 / 2 ^ 20) (2 ^ 11 * (M ^ 2 * η)) r us d.metas c!"to" t ∧
    ∃ q x, b.text = [⟨q, g x, true, false⟩] ∧ Fl.Near x (shown u f t) (2 ^ 13 * (M * η)) ∧ V2.NearTo q (onPage r k off a) (inkError M k p) ∧
      (M / 2 ^ 9 ≤ shown u f t → ∀ e, PageDir r u f t e →
        ∃ G, DimInk G (dimError M k η G off) (dimDoubt M k η G) (g x).length (onPage r k off a) (onPage r k off f) (onPage r k off t) e b.lines)

end S2P
