import Verif.Spec.AccuracyDim
import Verif.Spec.Pages

/-! # What one expects of the angles that are drawn, in double arithmetic -/

namespace S2P

variable {R : Rounding}

/-- the legs are on one line: no angle at all, or a straight one -/
def LegsOnLine (u w : V3 ℝ) : Prop := ∃ k : ℝ, w = ⟨k * u.x, k * u.y, k * u.z⟩

/-- **C79**, first half, as one would like it: a drawing with an angle whose legs are on one line does not succeed -/
def StraightRejected (R : Rounding) : Prop :=
  ∀ (E : Env (Fl R)) (stl : Models (Fl R)) (name : Str) (ms : List (Meta (Fl R))) (dims : List (DimN (Fl R))) (line : Nat) (c),
    E.junkM = ⟨V3.zero, V3.zero, V3.zero⟩ → content E stl (.draw name ms dims line) = .ok c →
    ∀ d ∈ dims, ∀ x u w g K, AngleSays E d x u w g K → LegsOnLine u w → c.1 = false

/-- **C79**, second half, as one would like it: in a drawing that succeeds each angle shows a number -/
def AnglesNumbers (R : Rounding) : Prop :=
  ∀ (E : Env (Fl R)) (stl : Models (Fl R)) (name : Str) (ms : List (Meta (Fl R))) (dims : List (DimN (Fl R))) (line : Nat) (c),
    E.junkM = ⟨V3.zero, V3.zero, V3.zero⟩ → content E stl (.draw name ms dims line) = .ok c → c.1 = true →
    ∀ d ∈ dims, ∀ x u w g K, AngleSays E d x u w g K → ∃ item ∈ c.2.1.text, ∃ y : ℝ, item.str = g (Ext.fin y : Ext ℝ) ++ c!" deg"

/-- the two legs are written in the same way -/
def SameLegs (ms : List (Meta (Fl R))) : Prop :=
  (∃ u, Literal (K := ℝ) ms c!"from_dir" u ∧ Literal (K := ℝ) ms c!"to_dir" u) ∨
  (look ms c!"from_dir" = none ∧ look ms c!"to_dir" = none ∧ ∃ p, Literal (K := ℝ) ms c!"from_point" p ∧ Literal (K := ℝ) ms c!"to_point" p)

/-- along a coordinate axis of the model -/
def OnAxis (u w : V3 ℝ) : Prop := (u.y = 0 ∧ u.z = 0 ∧ w.y = 0 ∧ w.z = 0) ∨ (u.x = 0 ∧ u.z = 0 ∧ w.x = 0 ∧ w.z = 0) ∨ (u.x = 0 ∧ u.y = 0 ∧ w.x = 0 ∧ w.y = 0)

end S2P
