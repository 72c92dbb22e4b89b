import Verif.Lemmas.Accuracy
import Verif.Lemmas.Finite
import Mathlib.Analysis.SpecialFunctions.Trigonometric.Bounds

set_option linter.unusedSectionVars false
set_option linter.unusedVariables false
set_option linter.unusedSimpArgs false

/-! # The view matrix is accurate -/

namespace S2P

section
variable {R : Rounding}

theorem lit_zero_ext : (FP.lit 0 : Fl R) = (FP.lit 0 : Ext ℝ) := by
  rw [lit_zero]; simp; rfl

theorem lit_one_fl : (FP.lit 1 : Fl R) = (.fin 1 : Ext ℝ) := by
  have := lit_pow R (n := 0) (by norm_num)
  simpa using this

theorem lit_one_ext : (FP.lit 1 : Fl R) = (FP.lit 1 : Ext ℝ) := by
  rw [lit_one_fl]; simp; rfl

theorem ptX_ext : (ptX : V3 (Fl R)) = (ptX : V3 (Ext ℝ)) := by
  unfold ptX; rw [lit_zero_ext, lit_one_ext]; rfl
theorem ptY_ext : (ptY : V3 (Fl R)) = (ptY : V3 (Ext ℝ)) := by
  unfold ptY; rw [lit_zero_ext, lit_one_ext]; rfl
theorem ptZ_ext : (ptZ : V3 (Fl R)) = (ptZ : V3 (Ext ℝ)) := by
  unfold ptZ; rw [lit_zero_ext, lit_one_ext]; rfl

/-- named views are the same as in exact arithmetic -/
theorem named_ext (s : Str) : getMatrixByName (α := Fl R) s = getMatrixByName (α := Ext ℝ) s := by
  unfold getMatrixByName
  have h1 : (matXP : M3 (Fl R)) = (matXP : M3 (Ext ℝ)) := by unfold matXP; rw [ptX_ext, ptY_ext, ptZ_ext]; rfl
  have h2 : (matXN : M3 (Fl R)) = (matXN : M3 (Ext ℝ)) := by unfold matXN; rw [ptX_ext, ptY_ext, ptZ_ext]; rfl
  have h3 : (matYP : M3 (Fl R)) = (matYP : M3 (Ext ℝ)) := by unfold matYP; rw [ptX_ext, ptY_ext, ptZ_ext]; rfl
  have h4 : (matYN : M3 (Fl R)) = (matYN : M3 (Ext ℝ)) := by unfold matYN; rw [ptX_ext, ptY_ext, ptZ_ext]; rfl
  have h5 : (matZP : M3 (Fl R)) = (matZP : M3 (Ext ℝ)) := by unfold matZP; rw [ptX_ext, ptY_ext, ptZ_ext]; rfl
  have h6 : (matZN : M3 (Fl R)) = (matZN : M3 (Ext ℝ)) := by unfold matZN; rw [ptX_ext, ptY_ext, ptZ_ext]; rfl
  rw [h1, h2, h3, h4, h5, h6]
  rfl

/-- each entry of the matrix is near the exact one -/
def M3.NearTo (m : M3 (Fl R)) (r : M3 ℝ) (ε : ℝ) : Prop := V3.NearTo m.r0 r.r0 ε ∧ V3.NearTo m.r1 r.r1 ε ∧ V3.NearTo m.r2 r.r2 ε

theorem nearTo_fin (r : M3 ℝ) {ε : ℝ} (h : 0 ≤ ε) : M3.NearTo (R := R) (r.fin : M3 (Ext ℝ)) r ε := by
  have : ∀ a : ℝ, Fl.Near (R := R) (Ext.fin a : Ext ℝ) a ε := fun a => (Fl.near_fin a).mono h
  exact ⟨⟨this _, this _, this _⟩, ⟨this _, this _, this _⟩, ⟨this _, this _, this _⟩⟩
end

section
variable {R : Rounding} (hR : R.Accurate)
include hR

theorem Fl.Near.sin {x : Fl R} {a ε : ℝ} (hx : Fl.Near x a ε) (he : ε ≤ 1) : Fl.Near (FP.sin x) (Real.sin a) (ε + 1 / 2 ^ 50) := by
  obtain ⟨c, rfl, hc⟩ := hx
  have h1 : |Real.sin c - Real.sin a| ≤ ε := by
    have := Real.lipschitzWith_sin.dist_le_mul c a
    simp only [Real.dist_eq, NNReal.coe_one, one_mul] at this
    exact this.trans hc
  have := fix_near hR (x := Real.sin c) (S := 2) h1 (by have := Real.abs_sin_le_one a; linarith) (by norm_num)
    (by have : (2 : ℝ) ^ 1 ≤ 2 ^ 1000 := pow_le_pow_right₀ (by norm_num) (by norm_num); simpa using this)
  norm_num at this ⊢
  exact this

theorem Fl.Near.cos {x : Fl R} {a ε : ℝ} (hx : Fl.Near x a ε) (he : ε ≤ 1) : Fl.Near (FP.cos x) (Real.cos a) (ε + 1 / 2 ^ 50) := by
  obtain ⟨c, rfl, hc⟩ := hx
  have h1 : |Real.cos c - Real.cos a| ≤ ε := by
    have := Real.lipschitzWith_cos.dist_le_mul c a
    simp only [Real.dist_eq, NNReal.coe_one, one_mul] at this
    exact this.trans hc
  have := fix_near hR (x := Real.cos c) (S := 2) h1 (by have := Real.abs_cos_le_one a; linarith) (by norm_num)
    (by have : (2 : ℝ) ^ 1 ≤ 2 ^ 1000 := pow_le_pow_right₀ (by norm_num) (by norm_num); simpa using this)
  norm_num at this ⊢
  exact this

omit hR in
theorem le_top {x : ℝ} (h : x ≤ 2 ^ 20) : x ≤ 2 ^ 1000 := h.trans (pow_le_pow_right₀ (by norm_num) (by norm_num))

/-- an angle in degrees, converted -/
theorem rad_near {x : ℝ} (hx : |x| ≤ 2 ^ 10) : Fl.Near ((show Fl R from (Ext.fin x : Ext ℝ)) * piLit / FP.lit 180) (rad x) (1 / 2 ^ 43) := by
  have hpi : Fl.Near (piLit : Fl R) (31415926535897932 / 10000000000000000) (4 / 2 ^ 51) := by
    have := Fl.near_lit hR (31415926535897932 / 10000000000000000) (S := 4) (by norm_num) (by norm_num) (le_top (by norm_num))
    push_cast at this
    exact this
  have h180 : Fl.Near (FP.lit 180 : Fl R) 180 (256 / 2 ^ 51) := by
    have := Fl.near_lit hR 180 (S := 256) (by norm_num) (by norm_num) (le_top (by norm_num))
    push_cast at this
    exact this
  have hmul := (Fl.near_fin x).mul hR hpi (A := 2 ^ 10) (B := 4) (S := 8192) hx (by norm_num) (by norm_num) (by norm_num) (le_top (by norm_num))
  have hq : |x * (31415926535897932 / 10000000000000000) / 180| ≤ 23 := by
    rw [abs_div, abs_mul]
    norm_num at hx ⊢
    rw [div_le_iff₀ (by norm_num)]
    linarith
  refine (hmul.div hR h180 (S := 32) (by norm_num) ?_ (by norm_num) (le_top (by norm_num))).mono ?_
  · have : (2 ^ 10 * (4 / 2 ^ 51) + 4 * 0 + 0 * (4 / 2 ^ 51) + 8192 / 2 ^ 51 +
      |x * (31415926535897932 / 10000000000000000) / 180| * (256 / 2 ^ 51)) / (|(180 : ℝ)| - 256 / 2 ^ 51) ≤ 1 := by
      rw [div_le_iff₀ (by norm_num)]
      norm_num at hq ⊢
      linarith
    linarith
  · have : (2 ^ 10 * (4 / 2 ^ 51) + 4 * 0 + 0 * (4 / 2 ^ 51) + 8192 / 2 ^ 51 +
      |x * (31415926535897932 / 10000000000000000) / 180| * (256 / 2 ^ 51)) / (|(180 : ℝ)| - 256 / 2 ^ 51) ≤ 1 / 2 ^ 44 := by
      rw [div_le_iff₀ (by norm_num)]
      norm_num at hq ⊢
      linarith
    norm_num at this ⊢
    linarith

theorem ang_near {x y : ℝ} (hx : |x| ≤ 2 ^ 10) (hy : |y| ≤ 2 ^ 10) :
    M3.NearTo (R := R) (getMatrixByAng ⟨(Ext.fin x : Ext ℝ), (Ext.fin y : Ext ℝ)⟩) ((turn (rad x)).comp (tilt (rad y))) (1 / 2 ^ 40) := by
  have a1 := rad_near hR hx
  have a2 := rad_near hR hy
  have e : (1 : ℝ) / 2 ^ 43 ≤ 1 := by norm_num
  have s1 := (a1.sin hR e).mono (show _ ≤ (1 : ℝ) / 2 ^ 42 by norm_num)
  have c1 := (a1.cos hR e).mono (show _ ≤ (1 : ℝ) / 2 ^ 42 by norm_num)
  have s2 := (a2.neg.sin hR e).mono (show _ ≤ (1 : ℝ) / 2 ^ 42 by norm_num)
  have c2 := (a2.neg.cos hR e).mono (show _ ≤ (1 : ℝ) / 2 ^ 42 by norm_num)
  have p : ∀ {u v : Fl R} {a b : ℝ}, Fl.Near u a (1 / 2 ^ 42) → Fl.Near v b (1 / 2 ^ 42) → |a| ≤ 1 → |b| ≤ 1 → Fl.Near (u * v) (a * b) (1 / 2 ^ 40) := by
    intro u v a b h1 h2 h3 h4
    exact (h1.mul hR h2 h3 h4 (S := 2) (by norm_num) (by norm_num) (le_top (by norm_num))).mono (by norm_num)
  have sx := Real.abs_sin_le_one (rad x)
  have cx := Real.abs_cos_le_one (rad x)
  have sy := Real.abs_sin_le_one (-rad y)
  have cy := Real.abs_cos_le_one (-rad y)
  have z : Fl.Near (FP.lit 0 : Fl R) 0 (1 / 2 ^ 40) := by rw [lit_zero]; exact (Fl.near_fin 0).mono (by norm_num)
  have le : ∀ {u : Fl R} {a : ℝ}, Fl.Near u a (1 / 2 ^ 42) → Fl.Near u a (1 / 2 ^ 40) := fun h => h.mono (by norm_num)
  have E : (turn (rad x)).comp (tilt (rad y)) =
      ⟨⟨Real.cos (rad x), Real.sin (rad x) * Real.cos (-rad y), Real.sin (rad x) * Real.sin (-rad y)⟩,
       ⟨-Real.sin (rad x), Real.cos (rad x) * Real.cos (-rad y), Real.cos (rad x) * Real.sin (-rad y)⟩,
       ⟨0, -Real.sin (-rad y), Real.cos (-rad y)⟩⟩ := by
    ext <;> simp [turn, tilt, M3.comp, V3.mulM]
  rw [E]
  exact ⟨⟨le c1, p s1 c2 sx cy, p s1 s2 sx sy⟩, ⟨le s1.neg, p c1 c2 cx cy, p c1 s2 cx sy⟩, ⟨z, le s2.neg, le c2⟩⟩

/-- the view is near the one asked for -/
theorem view_near (mV : Option (Meta (Fl R))) (ht : ∀ m l, mV = some m → m.val = .loc l → FP.Bd 10 l.x ∧ FP.Bd 10 l.y) (rot : M3 (Fl R))
    (h : viewOf mV = .ok rot) : ∃ r : M3 ℝ, viewOf (α := Ext ℝ) mV = .ok r.fin ∧ IsRotation r ∧ M3.NearTo rot r (1 / 2 ^ 40) := by
  have fin : ∀ m : M3 (Ext ℝ), viewOf (α := Ext ℝ) mV = .ok m → rot = m → (∃ r : M3 ℝ, m = r.fin ∧ IsRotation r) →
      ∃ r : M3 ℝ, viewOf (α := Ext ℝ) mV = .ok r.fin ∧ IsRotation r ∧ M3.NearTo rot r (1 / 2 ^ 40) := by
    rintro m h1 rfl ⟨r, rfl, hr⟩
    exact ⟨r, h1, hr, nearTo_fin r (by norm_num)⟩
  cases mV with
  | none =>
    cases h
    refine fin matZP rfl ?_ ?_
    · have := named_ext (R := R) c!"Z+"
      exact Option.some.inj this
    · obtain ⟨m', ax, e, hr, -⟩ := C30_named_views (K := ℝ) c!"Z+" matZP rfl
      exact ⟨m', e, hr⟩
  | some m =>
    obtain ⟨nm, v, ln⟩ := m
    cases v with
    | loc l =>
      cases h
      obtain ⟨b1, b2⟩ := ht _ l rfl rfl
      obtain ⟨x, hx, hx2⟩ := (bd_iff R (by norm_num) l.x).mp b1
      obtain ⟨y, hy, hy2⟩ := (bd_iff R (by norm_num) l.y).mp b2
      obtain ⟨lx, ly⟩ := l
      simp only at hx hy
      subst hx hy
      have e := C56_turn_then_tilt x y
      obtain ⟨m', e', hr⟩ := C30_angle_views ⟨x, y⟩
      have : m' = (turn (rad x)).comp (tilt (rad y)) := by
        have h1 := e'.symm.trans e
        simpa [M3.ext_iff, V3.ext_iff, M3.map, V3.map] using h1
      subst this
      exact ⟨_, congrArg Except.ok e, hr, ang_near hR hx2 hy2⟩
    | str n =>
      have hn := named_ext (R := R) n
      unfold viewOf at h
      simp only at h
      cases hg : getMatrixByName (α := Fl R) n with
      | none => rw [hg] at h; cases h
      | some q =>
        rw [hg] at h; cases h
        rw [hg] at hn
        obtain ⟨m', ax, e, hr, -⟩ := C30_named_views (K := ℝ) n rot hn.symm
        refine fin rot ?_ rfl ⟨m', e, hr⟩
        unfold viewOf
        simp only
        rw [← hn]
    | pt p => cases h
    | num p => cases h
    | scale a b => cases h

end
end S2P
