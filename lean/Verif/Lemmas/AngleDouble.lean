import Verif.Lemmas.StrokeInk
import Verif.Lemmas.PaperDouble
import Verif.Props.AccuracyAngle
import Mathlib.Analysis.SpecialFunctions.Trigonometric.Bounds

set_option linter.unusedSectionVars false
set_option linter.unusedVariables false
set_option linter.unusedSimpArgs false

/-! # The parts of an angle dimension, in rounded arithmetic -/

namespace S2P

section
variable {R : Rounding} (hR : R.Accurate)
include hR

omit hR in
theorem V3.NearTo.mono {v : V3 (Fl R)} {w : V3 ℝ} {ε δ : ℝ} (h : V3.NearTo v w ε) (he : ε ≤ δ) : V3.NearTo v w δ :=
  ⟨h.1.mono he, h.2.1.mono he, h.2.2.mono he⟩

/-- the unit vector across a leg, towards the other leg -/
theorem perp_near {n m : V3 (Fl R)} {A B : V3 ℝ} {δ σ : ℝ} (hn : V3.NearTo n A δ) (hm : V3.NearTo m B δ) (lA : len3 A = 1) (lB : len3 B = 1) (Az : A.z = 0)
    (Bz : B.z = 0) (hσ : A.x * B.y - A.y * B.x = σ) (h0 : 0 < |σ|) (h1 : 95 / 2 ^ 50 ≤ δ) (h2 : 2 ^ 21 * δ ≤ |σ| ^ 2) :
    V3.NearTo (m - (n.smul (n.dot m)).sdiv n.norm).normalized (⟨-A.y * (σ / |σ|), A.x * (σ / |σ|), 0⟩ : V3 ℝ) (80 * (δ / |σ|)) := by
  have wA : A.Within 1 := within_len lA.le
  have wB : B.Within 1 := within_len lB.le
  have qA : A.x ^ 2 + A.y ^ 2 = 1 := by
    have := len3_mul_self A
    rw [lA] at this
    simp only [V3.sqNorm, V3.dot, Az] at this
    nlinarith
  have qB : B.x ^ 2 + B.y ^ 2 = 1 := by
    have := len3_mul_self B
    rw [lB] at this
    simp only [V3.sqNorm, V3.dot, Bz] at this
    nlinarith
  have hd : A.dot B = A.x * B.x + A.y * B.y := by simp [V3.dot, Az]
  have hss : σ ^ 2 + (A.dot B) ^ 2 = 1 := by
    rw [hd, ← hσ]
    linear_combination (B.x ^ 2 + B.y ^ 2) * qA + qB
  have hσ1 : |σ| ≤ 1 := abs_le_one_iff_mul_self_le_one.2 (by nlinarith [sq_nonneg (A.dot B)])
  have hd1 : |A.dot B| ≤ 1 := abs_le_one_iff_mul_self_le_one.2 (by nlinarith [sq_nonneg σ])
  have hσσ : |σ| ^ 2 ≤ |σ| := by nlinarith
  have h2' : 2097152 * δ ≤ |σ| := by
    rw [show (2 : ℝ) ^ 21 = 2097152 by norm_num] at h2
    exact h2.trans hσσ
  have hδ1 : δ ≤ 1 / 2 ^ 21 := by norm_num; linarith
  have hδ0 : 0 < δ := lt_of_lt_of_le (by norm_num) h1
  have hδδ : δ * δ ≤ δ * (1 / 2 ^ 21) := mul_le_mul_of_nonneg_left hδ1 hδ0.le
  have up : ∀ {S : ℝ}, S ≤ 4 → S ≤ 2 ^ 1000 := fun h => h.trans (by
    rw [show (4 : ℝ) = 2 ^ 2 by norm_num]; exact pow_le_pow_right₀ (by norm_num) (by norm_num))
  have dot : Fl.Near (n.dot m) (A.dot B) (15 * δ) :=
    (unit_dot_near hR (δ := δ / 5) (by norm_num at h1 ⊢; linarith) (by norm_num at hδ1 ⊢; linarith) (hn.mono (by linarith)) (hm.mono (by linarith)) lA lB).mono (by linarith)
  have nrm : Fl.Near n.norm 1 (3 * δ) := by
    have := norm_near hR hn wA (B := 1) (by norm_num at hδ1 ⊢; linarith) (by norm_num) (by
      rw [show (1 : ℝ) = 2 ^ 0 by norm_num]; exact pow_le_pow_right₀ (by norm_num) (by norm_num))
    rw [lA] at this
    exact this.mono (by norm_num at h1 ⊢; linarith)
  norm_num at h1 hδ1 hδδ
  have one : ∀ {x y : Fl R} {a b : ℝ}, Fl.Near x a δ → |a| ≤ 1 → Fl.Near y b δ → |b| ≤ 1 →
      Fl.Near (y - x * n.dot m / n.norm) (b - a * A.dot B) (24 * δ) := by
    intro x y a b hx ha hy hb
    have p := (hx.mul hR dot ha hd1 (S := 2) (by nlinarith) (by norm_num) (up (by norm_num))).mono (δ := 17 * δ) (by norm_num; nlinarith)
    have hp : |a * A.dot B| ≤ 1 := by rw [abs_mul]; nlinarith [abs_nonneg a, abs_nonneg (A.dot B)]
    have hfrac : (17 * δ + |a * A.dot B / 1| * (3 * δ)) / (|(1 : ℝ)| - 3 * δ) ≤ 21 * δ := by
      rw [div_one, abs_one, div_le_iff₀ (by linarith)]
      nlinarith
    have q := (p.div hR nrm (S := 2) (by rw [abs_one]; linarith) (by
      refine le_trans (add_le_add_right hfrac _) ?_
      rw [div_one]; linarith) (by norm_num) (up (by norm_num))).mono (δ := 22 * δ) (by
      refine (add_le_add_left hfrac _).trans ?_
      norm_num; linarith)
    rw [div_one] at q
    have t := abs_sub b (a * A.dot B)
    exact (hy.sub hR q (S := 3) (by linarith) (by norm_num) (up (by norm_num))).mono (by norm_num; linarith)
  have v : V3.NearTo (m - (n.smul (n.dot m)).sdiv n.norm) (⟨-A.y * σ, A.x * σ, 0⟩ : V3 ℝ) (24 * δ) := by
    refine ⟨(one hn.1 wA.1 hm.1 wB.1).congr ?_, (one hn.2.1 wA.2.1 hm.2.1 wB.2.1).congr ?_, (one hn.2.2 wA.2.2 hm.2.2 wB.2.2).congr ?_⟩
    · rw [hd, ← hσ]; linear_combination -B.x * qA
    · rw [hd, ← hσ]; linear_combination -B.y * qA
    · rw [Az, Bz]; ring
  have lV : len3 (⟨-A.y * σ, A.x * σ, 0⟩ : V3 ℝ) = |σ| := by
    have : len3 (⟨-A.y * σ, A.x * σ, 0⟩ : V3 ℝ) = Real.sqrt (σ ^ 2) := by
      unfold len3
      congr 1
      simp only
      linear_combination σ ^ 2 * qA
    rw [this, Real.sqrt_sq_eq_abs]
  have hδσ : |σ| * (24 * δ / |σ|) = 24 * δ := by field_simp
  have hσlo : 1 / 2 ^ 40 ≤ |σ| := by norm_num; linarith
  obtain ⟨-, u⟩ := unit_near2 hR (U := |σ|) (δ := 24 * δ / |σ|) ⟨hσlo, hσ1.trans (by
      rw [show (1 : ℝ) = 2 ^ 0 by norm_num]; exact pow_le_pow_right₀ (by norm_num) (by norm_num))⟩ (by
      rw [le_div_iff₀ h0]; norm_num; linarith) (by
      rw [div_le_iff₀ h0]; norm_num; linarith) (by rw [hδσ]; exact v) lV.ge (by rw [lV]; linarith)
  rw [lV] at u
  have hq : δ ≤ δ / |σ| := by rw [le_div_iff₀ h0]; nlinarith
  refine V3.NearTo.mono (ε := 25 / 8 * (24 * δ / |σ|) + 18 / 2 ^ 50) ?_ ?_
  · convert u using 1
    ext <;> simp [V3.sdiv] <;> ring
  · rw [mul_div_assoc]; norm_num; linarith

/-- in points of the page -/
theorem over_near {k κ : ℝ} (hu : Unit k κ) {K : Fl R} (hK : K = (Ext.fin k : Ext ℝ)) {x : Fl R} {X ε : ℝ} (hx : Fl.Near x X ε) (hX : |X| ≤ 2) (hε : ε ≤ 1) :
    Fl.Near (x / K) (X * κ) ((ε + 1 / 2 ^ 48) * κ) := by
  subst hK
  have hk := hu.pos
  have hκ := hu.pos'
  have eκ : κ = 1 / k := by rw [eq_div_iff hk.ne', mul_comm]; exact hu.one
  have hε0 : 0 ≤ ε := by obtain ⟨b, -, hb⟩ := hx; exact (abs_nonneg _).trans hb
  have e : X / k = X * κ := by rw [eκ]; ring
  have e2 : ε / k = ε * κ := by rw [eκ]; ring
  have h3 : |X * κ| ≤ 2 * κ := by rw [abs_mul, abs_of_pos hκ]; exact mul_le_mul_of_nonneg_right hX hκ.le
  have h4 : ε * κ ≤ κ := by nlinarith
  have := hx.div hR (Fl.near_fin (R := R) k) (S := 4 * κ) (by rw [abs_of_pos hk]; exact hk) (by
      rw [mul_zero, add_zero, sub_zero, abs_of_pos hk, e, e2]; linarith) (hu.bot (by linarith)) (hu.top (by norm_num; linarith))
  rw [mul_zero, add_zero, sub_zero, abs_of_pos hk, e, e2] at this
  exact this.mono (by norm_num; linarith)

/-- the gap of two points at the start of a leg -/
theorem gap2_near {k κ : ℝ} (hu : Unit k κ) {K : Fl R} (hK : K = (Ext.fin k : Ext ℝ)) : Fl.Near (FP.f32 (FP.lit 2 / K) : Fl R) (2 * κ) (κ / 2 ^ 20) := by
  have hκ := hu.pos'
  have h1 := hu.lo'
  have h2 := hu.hi'
  have := over_near hR hu hK (lit_near hR (q := 2) (Q := 2) (by norm_num) (by norm_num)) (by norm_num) (by norm_num)
  refine (f32_near hR this (S := 3 * κ) (by rw [abs_of_pos (by linarith)]; norm_num; linarith) (by norm_num at h1 ⊢; linarith) ?_).mono (by norm_num; linarith)
  have h3 : 3 * κ ≤ 2 ^ 42 := by norm_num at h2 ⊢; linarith
  exact h3.trans (pow_le_pow_right₀ (by norm_num) (by norm_num))

/-- the radius of the arc -/
theorem reach_near {M η : ℝ} (hM : Wide M) (hη : Fine η) {a p : V3 (Fl R)} {A P : V3 ℝ} (ha : V3.NearTo a A (8 * (M * η))) (hp : V3.NearTo p P (8 * (M * η)))
    (lA : len3 A ≤ 7 / 4 * M) (lP : len3 P ≤ 7 / 4 * M) : Fl.Near (p - a).norm (len3 (P - A)) (66 * (M * η)) ∧ len3 (P - A) ≤ 7 / 2 * M := by
  obtain ⟨d, l⟩ := apart_near hR hM hη ha hp lA lP
  have hM0 : 0 < M := lt_of_lt_of_le (by positivity) hM.lo
  have g1 : M * (1 / 2 ^ 50) ≤ M * η := mul_le_mul_of_nonneg_left hη.lo hM0.le
  have g2 : M * η ≤ M * (1 / 2 ^ 40) := mul_le_mul_of_nonneg_left hη.hi hM0.le
  have hlo := hM.lo
  refine ⟨(norm_near hR d (within_len l) (by norm_num at g2 ⊢; linarith) (by norm_num at hlo ⊢; linarith) ?_).mono (by norm_num at g1 ⊢; linarith), l⟩
  have := hM.hi
  calc 7 / 2 * M ≤ 2 ^ 2 * 2 ^ 200 := mul_le_mul (by norm_num) this hM0.le (by positivity)
    _ = 2 ^ 202 := (pow_add 2 2 200).symm
    _ ≤ 2 ^ 300 := pow_le_pow_right₀ (by norm_num) (by norm_num)

/-- a direction of the page, as an angle -/
theorem atan_near {x y : Fl R} {X Y δ : ℝ} (hx : Fl.Near x X δ) (hy : Fl.Near y Y δ) (h : X ^ 2 + Y ^ 2 = 1) (h1 : 1 / 2 ^ 48 ≤ δ) (h2 : δ ≤ 1 / 2 ^ 10) :
    ∃ t : ℝ, (FP.atan2 y x : Fl R) = (Ext.fin t : Ext ℝ) ∧ |t| ≤ 4 ∧ |Real.cos t - X| ≤ 5 * δ ∧ |Real.sin t - Y| ≤ 5 * δ := by
  obtain ⟨a, rfl, ha⟩ := hx
  obtain ⟨b, rfl, hb⟩ := hy
  set z : ℂ := ⟨a, b⟩ with hz
  have hw : Fl.Near (FP.atan2 (Ext.fin b : Ext ℝ) (Ext.fin a : Ext ℝ) : Fl R) z.arg (4 / 2 ^ 51) := by
    have := fix_near hR (x := z.arg) (a := z.arg) (ε := 0) (S := 4) (by simp) (by
      have := Complex.abs_arg_le_pi z
      have := Real.pi_lt_four
      linarith) (by norm_num) (by rw [show (4 : ℝ) = 2 ^ 2 by norm_num]; exact pow_le_pow_right₀ (by norm_num) (by norm_num))
    rw [zero_add] at this
    exact this
  obtain ⟨t, ht, hd⟩ := hw
  have hX : |X| ≤ 1 := abs_le_one_iff_mul_self_le_one.2 (by nlinarith [sq_nonneg Y])
  have hY : |Y| ≤ 1 := abs_le_one_iff_mul_self_le_one.2 (by nlinarith [sq_nonneg X])
  have hδ0 : 0 < δ := lt_of_lt_of_le (by positivity) h1
  have nsq : ‖z‖ ^ 2 = a ^ 2 + b ^ 2 := by rw [← Complex.normSq_eq_norm_sq, Complex.normSq_apply, hz]; ring
  have hn : |‖z‖ - 1| ≤ 13 / 4 * δ := by
    have n0 : 0 ≤ ‖z‖ := norm_nonneg z
    have h3 : |a - X| ^ 2 ≤ δ ^ 2 := pow_le_pow_left₀ (abs_nonneg _) ha 2
    have h4 : |b - Y| ^ 2 ≤ δ ^ 2 := pow_le_pow_left₀ (abs_nonneg _) hb 2
    rw [sq_abs] at h3 h4
    have cs : |X * (a - X) + Y * (b - Y)| ≤ 3 / 2 * δ := by
      apply abs_le_of_sq_le_sq _ (by linarith)
      have : (X * (a - X) + Y * (b - Y)) ^ 2 = (X ^ 2 + Y ^ 2) * ((a - X) ^ 2 + (b - Y) ^ 2) - (X * (b - Y) - Y * (a - X)) ^ 2 := by ring
      rw [this, h, one_mul]
      have := sq_nonneg (X * (b - Y) - Y * (a - X))
      have : 0 ≤ δ ^ 2 := sq_nonneg δ
      linarith
    have hδδ : δ ^ 2 ≤ δ * (1 / 2 ^ 10) := by rw [sq]; exact mul_le_mul_of_nonneg_left h2 hδ0.le
    have e2 : (‖z‖ - 1) * (‖z‖ + 1) = 2 * (X * (a - X) + Y * (b - Y)) + ((a - X) ^ 2 + (b - Y) ^ 2) := by
      linear_combination nsq + h
    have h5 : |‖z‖ - 1| ≤ |(‖z‖ - 1) * (‖z‖ + 1)| := by
      rw [abs_mul, abs_of_nonneg (by linarith : 0 ≤ ‖z‖ + 1)]
      exact le_mul_of_one_le_right (abs_nonneg _) (by linarith)
    refine h5.trans ?_
    rw [e2]
    refine (abs_add_le _ _).trans ?_
    rw [abs_mul, abs_of_pos (by norm_num : (0 : ℝ) < 2), abs_of_nonneg (add_nonneg (sq_nonneg (a - X)) (sq_nonneg (b - Y)))]
    norm_num at hδδ
    linarith
  have hz0 : z ≠ 0 := by
    intro h0
    rw [h0, norm_zero] at hn
    norm_num at hn h2
    linarith
  have hnp : 0 < ‖z‖ := norm_pos_iff.2 hz0
  have part : ∀ {c C : ℝ}, |c - C| ≤ δ → |c / ‖z‖| ≤ 1 → |c / ‖z‖ - C| ≤ 17 / 4 * δ := by
    intro c C h3 h4
    have e : c / ‖z‖ - C = -(c / ‖z‖ * (‖z‖ - 1)) + (c - C) := by field_simp; ring
    rw [e]
    refine (abs_add_le _ _).trans ?_
    rw [abs_neg, abs_mul]
    nlinarith [abs_nonneg (c / ‖z‖), abs_nonneg (‖z‖ - 1)]
  have hc := Complex.cos_arg hz0
  have hs := Complex.sin_arg z
  have p1 := part ha (by have := Real.abs_cos_le_one z.arg; rwa [hc] at this)
  have p2 := part hb (by have := Real.abs_sin_le_one z.arg; rwa [hs] at this)
  have c1 := Real.abs_cos_sub_cos_le t z.arg
  have c2 := Real.abs_sin_sub_sin_le t z.arg
  rw [hc] at c1
  rw [hs] at c2
  refine ⟨t, ht, ?_, ?_, ?_⟩
  · have h5 := Complex.abs_arg_le_pi z
    have h6 := Real.pi_lt_d2
    have h7 := abs_add_le (t - z.arg) z.arg
    rw [sub_add_cancel] at h7
    norm_num at hd h6
    linarith
  · have := abs_add_le (Real.cos t - a / ‖z‖) (a / ‖z‖ - X)
    rw [sub_add_sub_cancel] at this
    norm_num at hd h1
    change |Real.cos t - a / ‖z‖| ≤ _ at c1
    linarith
  · have := abs_add_le (Real.sin t - b / ‖z‖) (b / ‖z‖ - Y)
    rw [sub_add_sub_cancel] at this
    norm_num at hd h1
    change |Real.sin t - b / ‖z‖| ≤ _ at c2
    linarith
end

end S2P
