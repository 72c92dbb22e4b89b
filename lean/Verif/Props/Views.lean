import Verif.Lemmas.Ext
import Verif.Spec.Matrix
import Verif.Model.Stl

/-! # C30, C56: views -/

set_option linter.unusedSectionVars false

namespace S2P

/-- the six named views over a field, and the axis the viewer looks against (towards the viewer = +z on the page) -/
def specView {K : Type} [Field K] : Str → Option (M3 K × V3 K) := fun s =>
  if s = c!"X+" then some (⟨⟨0, 0, 1⟩, ⟨1, 0, 0⟩, ⟨0, 1, 0⟩⟩, ⟨1, 0, 0⟩)
  else if s = c!"X-" then some (⟨⟨0, 0, -1⟩, ⟨-1, 0, 0⟩, ⟨0, 1, 0⟩⟩, ⟨-1, 0, 0⟩)
  else if s = c!"Y+" then some (⟨⟨-1, 0, 0⟩, ⟨0, 0, 1⟩, ⟨0, 1, 0⟩⟩, ⟨0, 1, 0⟩)
  else if s = c!"Y-" then some (⟨⟨1, 0, 0⟩, ⟨0, 0, -1⟩, ⟨0, 1, 0⟩⟩, ⟨0, -1, 0⟩)
  else if s = c!"Z+" then some (⟨⟨1, 0, 0⟩, ⟨0, 1, 0⟩, ⟨0, 0, 1⟩⟩, ⟨0, 0, 1⟩)
  else if s = c!"Z-" then some (⟨⟨1, 0, 0⟩, ⟨0, -1, 0⟩, ⟨0, 0, -1⟩⟩, ⟨0, 0, -1⟩)
  else none

section
variable {α : Type} [FP α]

/-- C30: exactly the six names are known, in any arithmetic. -/
theorem C30_known_names (s : Str) :
    (getMatrixByName s : Option (M3 α)).isSome ↔ s ∈ [c!"X+", c!"X-", c!"Y+", c!"Y-", c!"Z+", c!"Z-"] := by
  unfold getMatrixByName
  simp only [List.mem_cons, List.not_mem_nil, or_false]
  split_ifs <;> simp_all
end

section
variable {K : Type} [Field K] [LinearOrder K] [IsStrictOrderedRing K] [FloorRing K] [Trans K]

/-- C30: a named view is a rotation that turns the axis it names towards the viewer
(the vector the name stands for becomes `(0,0,1)`), and the model's `z` axis (or, for Z views, `x`) keeps its page direction. -/
theorem C30_named_views (s : Str) (m : M3 (Ext K)) (h : getMatrixByName s = some m) :
    ∃ m' : M3 K, ∃ axis : V3 K, m = m'.fin ∧ IsRotation m' ∧ specView s = some (m', axis) ∧
      axis.mulM m' = ⟨0, 0, 1⟩ ∧
      (s.head? = some 'Z' → V3.mulM ⟨1, 0, 0⟩ m' = ⟨1, 0, 0⟩) ∧
      (s.head? ≠ some 'Z' → V3.mulM ⟨0, 0, 1⟩ m' = ⟨0, 1, 0⟩) := by
  unfold getMatrixByName at h
  split_ifs at h <;> injection h with h <;> subst h <;> subst_vars <;>
  refine ⟨_, _, ?_, ?_, rfl, ?_, ?_, ?_⟩ <;>
  first
  | (refine ⟨isOrtho_of_rows _ ?_ ?_ ?_ ?_ ?_ ?_, ?_⟩ <;> simp [V3.dot, M3.det, V3.cross])
  | (simp [V3.mulM])
  | (ext <;> simp [matXP, matXN, matYP, matYN, matZP, matZN, ptX, ptY, ptZ, M3.map, V3.map])
end

/-! ## Angle views over the reals -/

/-- turn about the view axis by `t` (degrees with the code's π) -/
noncomputable def turn (t : ℝ) : M3 ℝ :=
  ⟨⟨Real.cos t, Real.sin t, 0⟩, ⟨-Real.sin t, Real.cos t, 0⟩, ⟨0, 0, 1⟩⟩
/-- tilt about the page's horizontal axis by `t` -/
noncomputable def tilt (t : ℝ) : M3 ℝ :=
  ⟨⟨1, 0, 0⟩, ⟨0, Real.cos t, -Real.sin t⟩, ⟨0, Real.sin t, Real.cos t⟩⟩

/-- degrees to radians with the 17-digit π of geo.h:37 -/
noncomputable def rad (a : ℝ) : ℝ := a * (31415926535897932 / 10000000000000000) / 180

theorem rotate_fin (a b : ℝ) : (rotate (Ext.fin a) (Ext.fin b) : M3 (Ext ℝ)) = ((turn a).comp (tilt b)).fin := by
  ext <;> simp [rotate, turn, tilt, M3.comp, V3.mulM, M3.map, V3.map, Trans.sin, Trans.cos, Real.sin_neg, Real.cos_neg]

/-- C56: the view `[a,b]` is the turn by `a` followed by the tilt by `b`. -/
theorem C56_turn_then_tilt (a b : ℝ) :
    getMatrixByAng (V2.fin ⟨a, b⟩) = ((turn (rad a)).comp (tilt (rad b))).fin := by
  unfold getMatrixByAng
  have : ∀ x : ℝ, (Ext.fin x * piLit / FP.lit 180 : Ext ℝ) = Ext.fin (rad x) := by
    intro x
    simp only [piLit, Ext.lit_eq, Ext.fin_mul]
    rw [Ext.fin_div _ _ (by norm_num)]
    simp [rad]
  simp only [V2.fin_x, V2.fin_y, this, rotate_fin]

/-- C56: turns add, tilts add. -/
theorem C56_turns_add (a a' b b' : ℝ) :
    (turn (rad a)).comp (turn (rad a')) = turn (rad (a + a')) ∧ (tilt (rad b)).comp (tilt (rad b')) = tilt (rad (b + b')) := by
  have : ∀ x y, rad (x + y) = rad x + rad y := by intro x y; simp [rad]; ring
  constructor
  · rw [this]
    ext <;> simp [turn, M3.comp, V3.mulM, Real.cos_add, Real.sin_add] <;> ring
  · rw [this]
    ext <;> simp [tilt, M3.comp, V3.mulM, Real.cos_add, Real.sin_add] <;> ring

/-- C56 on the code's own matrices: viewing with `[a,0]` and then `[a',b]` is viewing with `[a+a',b]`;
viewing with `[a,b]` and then `[0,b']` is viewing with `[a,b+b']`. -/
theorem C56_views_compose (a a' b b' : ℝ) (v : V3 ℝ) :
    (v.fin.mulM (getMatrixByAng (V2.fin ⟨a, 0⟩))).mulM (getMatrixByAng (V2.fin ⟨a', b⟩)) =
      v.fin.mulM (getMatrixByAng (V2.fin ⟨a + a', b⟩)) ∧
    (v.fin.mulM (getMatrixByAng (V2.fin ⟨a, b⟩))).mulM (getMatrixByAng (V2.fin ⟨0, b'⟩)) =
      v.fin.mulM (getMatrixByAng (V2.fin ⟨a, b + b'⟩)) := by
  have t0 : turn (rad 0) = ⟨⟨1, 0, 0⟩, ⟨0, 1, 0⟩, ⟨0, 0, 1⟩⟩ := by simp [turn, rad]
  have i0 : tilt (rad 0) = ⟨⟨1, 0, 0⟩, ⟨0, 1, 0⟩, ⟨0, 0, 1⟩⟩ := by simp [tilt, rad]
  have I : ∀ w : V3 ℝ, w.mulM ⟨⟨1, 0, 0⟩, ⟨0, 1, 0⟩, ⟨0, 0, 1⟩⟩ = w := by intro w; ext <;> simp [V3.mulM]
  simp only [C56_turn_then_tilt, V3.fin_mulM, M3.comp_spec, t0, i0, I]
  constructor
  · rw [← (C56_turns_add a a' b b').1, M3.comp_spec]
  · rw [← (C56_turns_add a a' b b').2, M3.comp_spec]

/-- C56: `[0,0]` is the view named `Z+`. -/
theorem C56_zero_is_Zplus : getMatrixByName c!"Z+" = some (getMatrixByAng (V2.fin ⟨0, 0⟩) : M3 (Ext ℝ)) := by
  rw [C56_turn_then_tilt]
  simp only [getMatrixByName]
  simp only [List.cons.injEq, Char.reduceEq, false_and, if_false, if_true]
  congr 1
  ext <;> simp [matZP, ptX, ptY, ptZ, turn, tilt, rad, M3.comp, V3.mulM, M3.map, V3.map]

/-- C30: every angle view is a rotation. -/
theorem C30_angle_views (a : V2 ℝ) : ∃ m : M3 ℝ, getMatrixByAng a.fin = m.fin ∧ IsRotation m := by
  obtain ⟨x, y⟩ := a
  refine ⟨_, C56_turn_then_tilt x y, isOrtho_of_rows _ ?_ ?_ ?_ ?_ ?_ ?_, ?_⟩ <;>
  simp [turn, tilt, M3.comp, V3.mulM, V3.dot, M3.det, V3.cross] <;>
  have h1 := Real.sin_sq_add_cos_sq (rad x) <;> have h2 := Real.sin_sq_add_cos_sq (rad y)
  · linear_combination h1 + (Real.sin (rad x))^2 * h2
  · linear_combination h1 + (Real.cos (rad x))^2 * h2
  · linear_combination h2
  · linear_combination (Real.sin (rad x) * Real.cos (rad x)) * h2
  · ring
  · ring
  · linear_combination h2 + ((Real.sin (rad y))^2 + (Real.cos (rad y))^2) * h1

/-- C30: viewing keeps a facet's plane equation valid, at every point of space, without recomputing the stored offset. -/
theorem C30_plane_kept {K : Type} [Field K] [LinearOrder K] [IsStrictOrderedRing K] [FloorRing K] [Trans K] (m : M3 K)
    (hm : IsRotation m) (f : Facet (Ext K)) (n p : V3 K) (hn : f.norm = n.fin) (h : f.norm.dot p.fin = f.r) :
    (rotFacet m.fin f).norm.dot (p.fin.mulM m.fin) = (rotFacet m.fin f).r ∧
    (rotFacet m.fin f).corners = f.corners.map (·.mulM m.fin) := by
  refine ⟨?_, rfl⟩
  simp only [rotFacet, ← h, hn, V3.fin_mulM, V3.fin_dot, Ext.fin_inj]
  rw [hm.1]

/-- the view `X-` is known and is not the identity -/
example : ∃ m : M3 (Ext ℚ), getMatrixByName c!"X-" = some m ∧ m ≠ matZP := by
  refine ⟨matXN, by simp [getMatrixByName], ?_⟩
  intro h
  have := congrArg (fun m => m.r0.x) h
  simp [matXN, matZP, ptX, ptZ] at this
example : ¬ (getMatrixByName c!"x+" : Option (M3 (Ext ℚ))).isSome := by rw [C30_known_names]; decide

end S2P
