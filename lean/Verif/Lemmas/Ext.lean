import Verif.Spec.Arith
import Verif.Model.Geo

set_option linter.unusedSectionVars false
set_option linter.unusedVariables false

namespace S2P
namespace Ext
variable {K : Type} [Field K] [LinearOrder K] [IsStrictOrderedRing K] [FloorRing K] [Trans K]

/-! Computation rules on finite values -/

@[simp] theorem fin_inj (a b : K) : (fin a : Ext K) = fin b ↔ a = b := ⟨fun h => by injection h, fun h => by rw [h]⟩
@[simp] theorem fin_add (a b : K) : (fin a + fin b : Ext K) = fin (a + b) := rfl
@[simp] theorem fin_sub (a b : K) : (fin a - fin b : Ext K) = fin (a - b) := by
  show fin (a + -b) = fin (a - b); rw [sub_eq_add_neg]
@[simp] theorem fin_mul (a b : K) : (fin a * fin b : Ext K) = fin (a * b) := rfl
@[simp] theorem fin_neg (a : K) : (-fin a : Ext K) = fin (-a) := rfl
theorem fin_div (a b : K) (h : b ≠ 0) : (fin a / fin b : Ext K) = fin (a / b) := by
  show (if b = 0 then _ else _) = _; rw [if_neg h]
theorem fin_div_zero (a : K) : (fin a / fin 0 : Ext K) = infSign a := by
  show (if (0:K) = 0 then _ else _) = _; rw [if_pos rfl]
@[simp] theorem lit_eq (q : Rat) : (FP.lit q : Ext K) = fin (q : K) := rfl
@[simp] theorem fin_lt (a b : K) : FP.lt (fin a) (fin b) = decide (a < b) := rfl
@[simp] theorem fin_le (a b : K) : FP.le (fin a) (fin b) = decide (a ≤ b) := rfl
@[simp] theorem fin_eq (a b : K) : FP.eq (fin a) (fin b) = decide (a = b) := rfl
@[simp] theorem f32_eq (x : Ext K) : FP.f32 x = x := rfl
theorem fin_sqrt (a : K) (h : 0 ≤ a) : FP.sqrt (fin a) = fin (Trans.sqrt a) := by
  show (if a < 0 then _ else _) = _; rw [if_neg (not_lt.mpr h)]
@[simp] theorem fin_sin (a : K) : FP.sin (fin a) = fin (Trans.sin a) := rfl
@[simp] theorem fin_cos (a : K) : FP.cos (fin a) = fin (Trans.cos a) := rfl

theorem fin_min (a b : K) : FP.min (fin a) (fin b) = fin (min a b) := by
  unfold FP.min
  rcases lt_or_ge b a with h | h
  · simp [h, min_eq_right h.le]
  · simp [not_lt.mpr h, min_eq_left h]
theorem fin_max (a b : K) : FP.max (fin a) (fin b) = fin (max a b) := by
  unfold FP.max
  rcases lt_or_ge a b with h | h
  · simp [h, max_eq_right h.le]
  · simp [not_lt.mpr h, max_eq_left h]

theorem ok_fin (a : K) : FP.Ok (fin a) := by simp [FP.Ok]
theorem ok_iff (x : Ext K) : FP.Ok x ↔ x ≠ nan := by
  cases x <;> simp [FP.Ok, FP.eq, eq]

instance : FPOrd (Ext K) where
  lt_irrefl x := by cases x <;> simp [FP.lt, lt]
  lt_trans x y z := by
    cases x <;> cases y <;> cases z <;> simp [FP.lt, lt]
    exact lt_trans
  lt_cotrans x y z := by
    cases x <;> cases y <;> cases z <;> simp [FP.lt, lt, FP.Ok, FP.eq, eq]
    rename_i a b c
    intro h
    rcases lt_or_ge a b with h' | h'
    · exact Or.inl h'
    · exact Or.inr (lt_of_le_of_lt h' h)
  eq_iff x y := by
    cases x <;> cases y <;> simp [FP.lt, lt, FP.Ok, FP.eq, eq]
    exact ⟨fun h => by simp [h], fun h => le_antisymm h.2 h.1⟩
  le_iff x y := by
    cases x <;> cases y <;> simp [FP.lt, lt, FP.Ok, FP.eq, eq, FP.le, le]
  ok_of_lt x y := by cases x <;> cases y <;> simp [FP.lt, lt, FP.Ok, FP.eq, eq]
  ok_of_le x y := by cases x <;> cases y <;> simp [FP.le, le, FP.Ok, FP.eq, eq]
  ok_lit q := ok_fin _

end Ext

/-! Finite vectors -/

/-- a vector of finite numbers -/
abbrev V3.fin {K : Type} (v : V3 K) : V3 (Ext K) := v.map Ext.fin
abbrev V2.fin {K : Type} (v : V2 K) : V2 (Ext K) := v.map Ext.fin
abbrev M3.fin {K : Type} (m : M3 K) : M3 (Ext K) := m.map Ext.fin

section
variable {α : Type}
@[simp] theorem V3.add_x [Add α] (a b : V3 α) : (a + b).x = a.x + b.x := rfl
@[simp] theorem V3.add_y [Add α] (a b : V3 α) : (a + b).y = a.y + b.y := rfl
@[simp] theorem V3.add_z [Add α] (a b : V3 α) : (a + b).z = a.z + b.z := rfl
@[simp] theorem V3.sub_x [Sub α] (a b : V3 α) : (a - b).x = a.x - b.x := rfl
@[simp] theorem V3.sub_y [Sub α] (a b : V3 α) : (a - b).y = a.y - b.y := rfl
@[simp] theorem V3.sub_z [Sub α] (a b : V3 α) : (a - b).z = a.z - b.z := rfl
@[simp] theorem V3.neg_x [Neg α] (a : V3 α) : (-a).x = -a.x := rfl
@[simp] theorem V3.neg_y [Neg α] (a : V3 α) : (-a).y = -a.y := rfl
@[simp] theorem V3.neg_z [Neg α] (a : V3 α) : (-a).z = -a.z := rfl
@[simp] theorem V2.add_x [Add α] (a b : V2 α) : (a + b).x = a.x + b.x := rfl
@[simp] theorem V2.add_y [Add α] (a b : V2 α) : (a + b).y = a.y + b.y := rfl
@[simp] theorem V2.sub_x [Sub α] (a b : V2 α) : (a - b).x = a.x - b.x := rfl
@[simp] theorem V2.sub_y [Sub α] (a b : V2 α) : (a - b).y = a.y - b.y := rfl
@[simp] theorem V2.neg_x [Neg α] (a : V2 α) : (-a).x = -a.x := rfl
@[simp] theorem V2.neg_y [Neg α] (a : V2 α) : (-a).y = -a.y := rfl
end

section
variable {K : Type} [Field K] [LinearOrder K] [IsStrictOrderedRing K] [FloorRing K] [Trans K]

@[simp] theorem V3.fin_add (a b : V3 K) : (a.fin + b.fin : V3 (Ext K)) = (a + b).fin := rfl
@[simp] theorem V3.fin_sub (a b : V3 K) : (a.fin - b.fin : V3 (Ext K)) = (a - b).fin := by
  ext <;> simp [V3.map]
@[simp] theorem V3.fin_neg (a : V3 K) : (-a.fin : V3 (Ext K)) = (-a).fin := rfl
@[simp] theorem V3.fin_smul (a : V3 K) (s : K) : a.fin.smul (Ext.fin s) = (a.smul s).fin := rfl
@[simp] theorem V3.fin_dot (a b : V3 K) : a.fin.dot b.fin = Ext.fin (a.dot b) := rfl
@[simp] theorem V3.fin_sqNorm (a : V3 K) : a.fin.sqNorm = Ext.fin a.sqNorm := rfl
@[simp] theorem V3.fin_cross (a b : V3 K) : a.fin.cross b.fin = (a.cross b).fin := by
  ext <;> simp [V3.map, V3.cross]
@[simp] theorem V3.fin_mulM (a : V3 K) (m : M3 K) : a.fin.mulM m.fin = (a.mulM m).fin := rfl
@[simp] theorem V3.fin_xy (a : V3 K) : a.fin.xy = a.xy.fin := rfl
theorem V3.fin_sdiv (a : V3 K) (s : K) (h : s ≠ 0) : a.fin.sdiv (Ext.fin s) = (a.sdiv s).fin := by
  ext <;> simp [V3.map, V3.sdiv, Ext.fin_div _ _ h]
@[simp] theorem V3.fin_x (a : V3 K) : a.fin.x = Ext.fin a.x := rfl
@[simp] theorem V3.fin_y (a : V3 K) : a.fin.y = Ext.fin a.y := rfl
@[simp] theorem V3.fin_z (a : V3 K) : a.fin.z = Ext.fin a.z := rfl
theorem V3.fin_injective (a b : V3 K) : a.fin = b.fin ↔ a = b := by
  constructor
  · intro h
    have hx := congrArg V3.x h
    have hy := congrArg V3.y h
    have hz := congrArg V3.z h
    simp at hx hy hz
    ext <;> assumption
  · intro h; rw [h]

@[simp] theorem V2.fin_add (a b : V2 K) : (a.fin + b.fin : V2 (Ext K)) = (a + b).fin := rfl
@[simp] theorem V2.fin_sub (a b : V2 K) : (a.fin - b.fin : V2 (Ext K)) = (a - b).fin := by
  ext <;> simp [V2.map]
@[simp] theorem V2.fin_neg (a : V2 K) : (-a.fin : V2 (Ext K)) = (-a).fin := rfl
@[simp] theorem V2.fin_smul (a : V2 K) (s : K) : a.fin.smul (Ext.fin s) = (a.smul s).fin := rfl
@[simp] theorem V2.fin_dot (a b : V2 K) : a.fin.dot b.fin = Ext.fin (a.dot b) := rfl
@[simp] theorem V2.fin_sqNorm (a : V2 K) : a.fin.sqNorm = Ext.fin a.sqNorm := rfl
theorem V2.fin_sdiv (a : V2 K) (s : K) (h : s ≠ 0) : a.fin.sdiv (Ext.fin s) = (a.sdiv s).fin := by
  ext <;> simp [V2.map, V2.sdiv, Ext.fin_div _ _ h]
@[simp] theorem V2.fin_x (a : V2 K) : a.fin.x = Ext.fin a.x := rfl
@[simp] theorem V2.fin_y (a : V2 K) : a.fin.y = Ext.fin a.y := rfl

theorem V3.sqNorm_nonneg (a : V3 K) : 0 ≤ a.sqNorm := by
  unfold V3.sqNorm V3.dot; nlinarith [mul_self_nonneg a.x, mul_self_nonneg a.y, mul_self_nonneg a.z]
theorem V2.sqNorm_nonneg (a : V2 K) : 0 ≤ a.sqNorm := by
  unfold V2.sqNorm V2.dot; nlinarith [mul_self_nonneg a.x, mul_self_nonneg a.y]

theorem V3.ok_fin (a : V3 K) : V3.Ok a.fin := ⟨Ext.ok_fin _, Ext.ok_fin _, Ext.ok_fin _⟩
theorem V2.ok_fin (a : V2 K) : V2.Ok a.fin := ⟨Ext.ok_fin _, Ext.ok_fin _⟩

end
end S2P
