import Verif.Spec.Finite
import Verif.Spec.Drawing

/-! # Pages whose numbers are finite -/

namespace S2P
variable {K : Type}

def Line.IsFin (l : Line (Ext K)) : Prop := l.o.IsFin ∧ l.t.IsFin
def Arc.IsFin (a : Arc (Ext K)) : Prop := a.center.IsFin ∧ a.r.IsFin ∧ a.start.IsFin ∧ a.stop.IsFin

/-- every coordinate, radius and angle on the page is a finite number -/
def OutPage.IsFin (P : OutPage (Ext K)) : Prop :=
  (∀ l ∈ P.lines, l.IsFin) ∧ (∀ a ∈ P.arcs, a.IsFin) ∧ ∀ t ∈ P.text, t.at_.IsFin

end S2P
