import Verif.Lemmas.AccuracyDim
import Mathlib.Analysis.SpecialFunctions.Trigonometric.InverseDeriv
import Mathlib.Analysis.Calculus.MeanValue
import Mathlib.Analysis.Real.Pi.Bounds

set_option linter.unusedSectionVars false
set_option linter.unusedVariables false
set_option linter.unusedSimpArgs false

/-! # The number at an angle, in rounded arithmetic -/

namespace S2P

/-- the angle changes little with its cosine, away from 0° and 180° -/
theorem arccos_near {c c' s ε : ℝ} (hs : 0 < s) (h1 : s ^ 2 = 1 - c ^ 2) (h : |c' - c| ≤ ε) (he : ε ≤ s ^ 2 / 16) :
    |c'| ≤ 1 ∧ |Real.arccos c' - Real.arccos c| ≤ 2 * ε / s := by
  have hε : 0 ≤ ε := (abs_nonneg _).trans h
  have hc : |c| ≤ 1 := abs_le_one_iff_mul_self_le_one.2 (by nlinarith)
  have hs1 : s ≤ 1 := by nlinarith [sq_nonneg c]
  have hc' := abs_le.1 hc
  have key : ∀ x : ℝ, |x - c| ≤ ε → 3 / 4 * s ^ 2 ≤ 1 - x ^ 2 := by
    intro x hx
    have e : x ^ 2 = c ^ 2 + (x - c) * (2 * c + (x - c)) := by ring
    have t1 : |(x - c) * (2 * c + (x - c))| ≤ ε * (2 + ε) := by
      rw [abs_mul]
      have t2 : |2 * c + (x - c)| ≤ 2 + ε := by
        refine (abs_add_le _ _).trans ?_
        rw [abs_mul]; norm_num; linarith
      exact mul_le_mul hx t2 (abs_nonneg _) hε
    have t3 := (abs_le.1 t1).2
    have t4 : ε ≤ 1 := by nlinarith
    have t5 : ε * (2 + ε) ≤ ε * 3 := mul_le_mul_of_nonneg_left (by linarith) hε
    linarith
  have hin : ∀ x : ℝ, |x - c| ≤ ε → -1 < x ∧ x < 1 := by
    intro x hx
    have := key x hx
    have hp : 0 < s ^ 2 := by positivity
    exact abs_lt.1 (abs_lt_of_sq_lt_sq (by nlinarith) (by norm_num))
  refine ⟨abs_le.2 ⟨(hin c' h).1.le, (hin c' h).2.le⟩, ?_⟩
  have hcv : Convex ℝ (Metric.closedBall c ε) := convex_closedBall c ε
  have mv := hcv.norm_image_sub_le_of_norm_deriv_le (f := Real.arccos) (C := 2 / s) (x := c) (y := c') ?_ ?_
    (Metric.mem_closedBall_self hε) (by rw [Metric.mem_closedBall, Real.dist_eq]; exact h)
  · rw [Real.norm_eq_abs, Real.norm_eq_abs] at mv
    refine mv.trans ?_
    rw [div_mul_eq_mul_div]
    exact div_le_div_of_nonneg_right (mul_le_mul_of_nonneg_left h (by norm_num)) hs.le
  · intro x hx
    rw [Metric.mem_closedBall, Real.dist_eq] at hx
    obtain ⟨a, b⟩ := hin x hx
    exact (Real.hasDerivAt_arccos a.ne' b.ne).differentiableAt
  · intro x hx
    rw [Metric.mem_closedBall, Real.dist_eq] at hx
    obtain ⟨a, b⟩ := hin x hx
    rw [(Real.hasDerivAt_arccos a.ne' b.ne).deriv, Real.norm_eq_abs, abs_neg, abs_of_nonneg (by positivity)]
    have : s / 2 ≤ Real.sqrt (1 - x ^ 2) := by
      apply Real.le_sqrt_of_sq_le
      have := key x hx
      nlinarith [sq_nonneg s]
    calc 1 / Real.sqrt (1 - x ^ 2) ≤ 1 / (s / 2) := one_div_le_one_div_of_le (by positivity) this
      _ = 2 / s := by field_simp

section
variable {R : Rounding} (hR : R.Accurate)
include hR

/-- the scalar product of nearly unit vectors -/
theorem unit_dot_near {n m : V3 (Fl R)} {N M : V3 ℝ} {δ : ℝ} (h1 : 19 / 2 ^ 50 ≤ δ) (h2 : δ ≤ 1 / 2 ^ 19) (hn : V3.NearTo n N (5 * δ))
    (hm : V3.NearTo m M (17 * δ)) (hN : len3 N = 1) (hM : len3 M = 1) : Fl.Near (n.dot m) (N.dot M) (72 * δ) := by
  have wN : N.Within 1 := within_len hN.le
  have wM : M.Within 1 := within_len hM.le
  norm_num at h1 h2
  have hδ : δ * δ ≤ δ * (1 / 2 ^ 19) := mul_le_mul_of_nonneg_left (by norm_num; linarith) (by linarith)
  norm_num at hδ
  have pr : ∀ {x y : Fl R} {b c : ℝ}, Fl.Near x b (5 * δ) → |b| ≤ 1 → Fl.Near y c (17 * δ) → |c| ≤ 1 →
      Fl.Near (x * y) (b * c) (23 * δ) ∧ |b * c| ≤ 1 := by
    intro x y b c k1 k2 k3 k4
    refine ⟨(k1.mul hR k3 k2 k4 (S := 2) ?_ (by norm_num) (le_top (by norm_num))).mono ?_, ?_⟩
    · nlinarith
    · norm_num; nlinarith
    · rw [abs_mul]; nlinarith [abs_nonneg b, abs_nonneg c]
  obtain ⟨p1, q1⟩ := pr hn.1 wN.1 hm.1 wM.1
  obtain ⟨p2, q2⟩ := pr hn.2.1 wN.2.1 hm.2.1 wM.2.1
  obtain ⟨p3, q3⟩ := pr hn.2.2 wN.2.2 hm.2.2 wM.2.2
  have t1 := abs_add_le (N.x * M.x) (N.y * M.y)
  have t2 := abs_add_le (N.x * M.x + N.y * M.y) (N.z * M.z)
  have s1 := (p1.add hR p2 (S := 3) (by linarith) (by norm_num) (le_top (by norm_num))).mono (show _ ≤ 47 * δ by norm_num; linarith)
  refine (s1.add hR p3 (S := 4) ?_ (by norm_num) (le_top (by norm_num))).mono ?_
  · linarith
  · norm_num; linarith

/-- the number in degrees -/
theorem degrees_near {x : Fl R} {t ε : ℝ} (ht0 : 0 ≤ t) (ht : t ≤ Real.pi) (hε : ε ≤ 1 / 2 ^ 2) (hx : Fl.Near x t ε) :
    Fl.Near (x * FP.lit 180 / piLit) (t * 180 / Real.pi) (58 * ε + 600 / 2 ^ 50) := by
  have hε0 : 0 ≤ ε := by obtain ⟨b, -, hb⟩ := hx; exact (abs_nonneg _).trans hb
  have p1 := Real.pi_gt_d20
  have p2 := Real.pi_lt_d20
  have hpi : Fl.Near (piLit : Fl R) Real.pi (4 / 2 ^ 51 + 1 / 2 ^ 53) := by
    have := Fl.near_lit hR (31415926535897932 / 10000000000000000) (S := 4) (by norm_num) (by norm_num) (le_top (by norm_num))
    push_cast at this
    refine this.trans ?_
    rw [abs_le]
    constructor <;> norm_num at p1 p2 ⊢ <;> linarith
  have h180 : Fl.Near (FP.lit 180 : Fl R) 180 (256 / 2 ^ 51) := by
    have := Fl.near_lit hR 180 (S := 256) (by norm_num) (by norm_num) (le_top (by norm_num))
    push_cast at this
    exact this
  have at4 : |t| ≤ 4 := by rw [abs_of_nonneg ht0]; linarith
  have hmul := hx.mul hR h180 (A := 4) (B := 180) (S := 1024) at4 (by norm_num) (by norm_num at hε ⊢; linarith) (by norm_num) (le_top (by norm_num))
  have hmul' : Fl.Near (x * FP.lit 180) (t * 180) (181 * ε + 1024 / 2 ^ 50) := hmul.mono (by norm_num; linarith)
  have hpos := Real.pi_pos
  have hq : |t * 180 / Real.pi| ≤ 180 := by
    rw [abs_of_nonneg (by positivity), div_le_iff₀ hpos]; linarith
  have hd : (181 * ε + 1024 / 2 ^ 50 + |t * 180 / Real.pi| * (4 / 2 ^ 51 + 1 / 2 ^ 53)) / (|Real.pi| - (4 / 2 ^ 51 + 1 / 2 ^ 53)) ≤
      58 * ε + 472 / 2 ^ 50 := by
    rw [abs_of_pos hpos, div_le_iff₀ (by norm_num at p1 ⊢; linarith)]
    have a1 : |t * 180 / Real.pi| * (4 / 2 ^ 51 + 1 / 2 ^ 53) ≤ 180 * (4 / 2 ^ 51 + 1 / 2 ^ 53) := mul_le_mul_of_nonneg_right hq (by positivity)
    have a2 : (58 * ε + 472 / 2 ^ 50) * 3.14 ≤ (58 * ε + 472 / 2 ^ 50) * (Real.pi - (4 / 2 ^ 51 + 1 / 2 ^ 53)) :=
      mul_le_mul_of_nonneg_left (by norm_num at p1 ⊢; linarith) (by positivity)
    norm_num at a1 a2 ⊢
    linarith
  refine (hmul'.div hR hpi ?_ (S := 256) ?_ (by norm_num) (le_top (by norm_num))).mono ?_
  · rw [abs_of_pos hpos]; norm_num at p1 ⊢; linarith
  · norm_num at hε hd ⊢; linarith
  · norm_num at hd ⊢; linarith

/-- the number at an angle, from its two legs -/
theorem angle_near {n m : V3 (Fl R)} {A B : V3 ℝ} {δ : ℝ} (h1 : 19 / 2 ^ 50 ≤ δ) (hn : V3.NearTo n (A.sdiv (len3 A)) (5 * δ))
    (hm : V3.NearTo m (B.sdiv (len3 B)) (5 * δ)) (hA : A ≠ ⟨0, 0, 0⟩) (hB : B ≠ ⟨0, 0, 0⟩) (hs : 0 < Real.sin (angleBetween A B))
    (h2 : 1152 * δ ≤ Real.sin (angleBetween A B) ^ 2) (h3 : δ ≤ 1 / 2 ^ 19) :
    Fl.Near (FP.acos (n.dot m.normalized) * FP.lit 180 / piLit) (angleBetween A B * 180 / Real.pi) (8400 * δ / Real.sin (angleBetween A B)) := by
  have uA := unit_len hA
  have uB := unit_len hB
  have w1 : Wide (1 : ℝ) := ⟨by norm_num, one_le_pow₀ (by norm_num)⟩
  obtain ⟨-, hm'⟩ := unit_near2 hR (U := 1) (δ := 5 * δ) w1 (by norm_num at h1 ⊢; linarith) (by norm_num at h3 ⊢; linarith) (by rw [one_mul]; exact hm)
    (by rw [uB]) (by rw [uB]; norm_num)
  have e1 : (B.sdiv (len3 B)).sdiv (len3 (B.sdiv (len3 B))) = B.sdiv (len3 B) := by rw [uB]; ext <;> simp [V3.sdiv]
  rw [e1] at hm'
  have mono : 25 / 8 * (5 * δ) + 18 / 2 ^ 50 ≤ 17 * δ := by norm_num at h1 ⊢; linarith
  have hd := unit_dot_near hR h1 h3 hn ⟨hm'.1.mono mono, hm'.2.1.mono mono, hm'.2.2.mono mono⟩ uA uB
  have pA := len3_pos hA
  have pB := len3_pos hB
  have e2 : (A.sdiv (len3 A)).dot (B.sdiv (len3 B)) = A.dot B / (len3 A * len3 B) := by
    simp only [V3.dot, V3.sdiv]; field_simp
  rw [e2] at hd
  obtain ⟨c', hc', hc⟩ := hd
  have hθ : angleBetween A B = Real.arccos (A.dot B / (len3 A * len3 B)) := rfl
  generalize hcc : A.dot B / (len3 A * len3 B) = c at *
  have hcau := cauchy A B
  have hcb : |c| ≤ 1 := by
    rw [← hcc, abs_div, abs_of_pos (by positivity : 0 < len3 A * len3 B)]
    exact (div_le_one (by positivity)).2 hcau
  have hsc : Real.sin (angleBetween A B) ^ 2 = 1 - c ^ 2 := by
    rw [hθ, Real.sin_arccos, Real.sq_sqrt]
    nlinarith [abs_le_one_iff_mul_self_le_one.1 hcb]
  obtain ⟨k1, k2⟩ := arccos_near hs hsc hc (by linarith)
  rw [← hθ] at k2
  have hs1 : Real.sin (angleBetween A B) ≤ 1 := Real.sin_le_one _
  generalize Real.sin (angleBetween A B) = s at *
  have hac : FP.acos (n.dot m.normalized) = R.fix (.fin (Real.arccos c')) := by
    rw [hc']
    show R.fix (FP.acos (α := Ext ℝ) (.fin c')) = _
    congr 1
    show (if _ then _ else _) = _
    obtain ⟨k3, k4⟩ := abs_le.1 k1
    rw [if_neg (by rw [not_or]; exact ⟨not_lt.2 k3, not_lt.2 k4⟩)]
    rfl
  have t0 : 0 ≤ angleBetween A B := by rw [hθ]; exact Real.arccos_nonneg _
  have tp : angleBetween A B ≤ Real.pi := by rw [hθ]; exact Real.arccos_le_pi _
  have hδ0 : 0 ≤ δ := le_trans (by positivity) h1
  have hds : δ ≤ δ / s := by rw [le_div_iff₀ hs]; nlinarith
  have hss : δ / s ≤ 1 / 1152 := by
    rw [div_le_iff₀ hs]
    nlinarith
  have e3 : 2 * (72 * δ) / s = 144 * (δ / s) := by ring
  rw [e3] at k2
  have hx : Fl.Near (FP.acos (n.dot m.normalized)) (angleBetween A B) (144 * (δ / s) + 4 / 2 ^ 51) := by
    rw [hac]
    refine fix_near hR k2 ?_ (by norm_num) (le_top (by norm_num))
    rw [abs_of_nonneg t0]
    have := Real.pi_lt_d2
    norm_num at this hss ⊢
    linarith
  refine (degrees_near hR t0 tp ?_ hx).mono ?_
  · norm_num at hss ⊢; linarith
  · rw [mul_div_assoc]
    norm_num at h1 hds ⊢
    linarith

end
end S2P
