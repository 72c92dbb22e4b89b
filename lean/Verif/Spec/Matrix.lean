import Verif.Model.Vec
import Mathlib.Algebra.Field.Basic
import Mathlib.Tactic.Ring
import Mathlib.Tactic.LinearCombination

/-! # 3×3 matrices over a field, acting on row vectors -/

namespace S2P

section
variable {K : Type} [Field K]

/-- `v ↦ v m` preserves the scalar product, i.e. `m mᵀ = 1` -/
def IsOrtho (m : M3 K) : Prop := ∀ v w : V3 K, (v.mulM m).dot (w.mulM m) = v.dot w

/-- determinant, by the triple product of the rows -/
def M3.det (m : M3 K) : K := (m.r0.cross m.r1).dot m.r2

/-- orthogonal with determinant 1 -/
def IsRotation (m : M3 K) : Prop := IsOrtho m ∧ m.det = 1

/-- matrix product (row vectors: first `a`, then `b`) -/
def M3.comp (a b : M3 K) : M3 K := ⟨a.r0.mulM b, a.r1.mulM b, a.r2.mulM b⟩

/-- `a` then `b` as maps of row vectors -/
theorem M3.comp_spec (a b : M3 K) (v : V3 K) : v.mulM (a.comp b) = (v.mulM a).mulM b := by
  ext <;> simp [M3.comp, V3.mulM] <;> ring

/-- rows are orthonormal -/
theorem isOrtho_of_rows (m : M3 K) (h00 : m.r0.dot m.r0 = 1) (h11 : m.r1.dot m.r1 = 1) (h22 : m.r2.dot m.r2 = 1)
    (h01 : m.r0.dot m.r1 = 0) (h02 : m.r0.dot m.r2 = 0) (h12 : m.r1.dot m.r2 = 0) : IsOrtho m := by
  intro v w
  simp only [V3.dot, V3.mulM] at *
  linear_combination (v.x * w.x) * h00 + (v.y * w.y) * h11 + (v.z * w.z) * h22 + (v.x * w.y + v.y * w.x) * h01 +
    (v.x * w.z + v.z * w.x) * h02 + (v.y * w.z + v.z * w.y) * h12
end

end S2P
