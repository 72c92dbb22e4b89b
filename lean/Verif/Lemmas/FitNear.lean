import Verif.Lemmas.FitDouble

set_option linter.unusedSectionVars false
set_option linter.unusedVariables false
set_option linter.unusedSimpArgs false

/-! # How far the fitted circle is off -/

namespace S2P

section
variable {R : Rounding} (hR : R.Accurate)
include hR

/-- the reciprocal of the determinant -/
theorem recip_near {N M : ℝ} (hS : FitSize N M) {D : ℝ} {det : Fl R} (hdet : Gauge det D (3 / 2 * N ^ 3 * M ^ 4) (6 * N + 16)) (hD : 64 * N ^ 4 * M ^ 4 / 2 ^ 51 ≤ D) :
    0 < D ∧ 1 / 2 ^ 92 ≤ 2 / D ∧ 2 / D ≤ 2 ^ 38 ∧ ∃ ι : ℝ, FP.lit 1 / det = (Ext.fin ι : Ext ℝ) ∧ |ι| ≤ 2 / D ∧ |ι * D - 1| ≤ (12 * N + 38) * N ^ 3 * M ^ 4 / (2 ^ 51 * D) := by
  have n9 := hS.n9
  have n4 := hS.n4
  have m1 := hS.m1
  have hN3 : 0 < N ^ 3 := by positivity
  have hM4 : 1 ≤ M ^ 4 := one_le_pow₀ m1
  have hM4' : 0 < M ^ 4 := by linarith
  set P := N ^ 3 * M ^ 4 with hP
  have hP0 : 0 < P := by positivity
  have hN3' : (64 : ℝ) ≤ N ^ 3 := by
    calc (64 : ℝ) = 4 ^ 3 := by norm_num
      _ ≤ N ^ 3 := by gcongr
  have hP64 : 64 ≤ P := by nlinarith
  have hD' : 64 * N * P / 2 ^ 51 ≤ D := by
    refine le_trans (le_of_eq ?_) hD
    rw [hP]; ring
  have hD0 : 0 < D := lt_of_lt_of_le (by positivity) hD'
  have hdetB := hdet.1
  rw [abs_of_pos hD0, show 3 / 2 * N ^ 3 * M ^ 4 = 3 / 2 * P by rw [hP]; ring] at hdetB
  have hPmax : P ≤ 2 ^ 91 := by
    calc P = N ^ 3 * M ^ 4 := hP
      _ ≤ (2 ^ 9) ^ 3 * (2 ^ 16) ^ 4 := by
          have := hS.m16
          gcongr
      _ = 2 ^ 91 := by norm_num
  have i1 : 1 / 2 ^ 92 ≤ 2 / D := by
    rw [div_le_div_iff₀ (by positivity) hD0]
    norm_num at hPmax ⊢; linarith
  have i2 : 2 / D ≤ 2 ^ 38 := by
    rw [div_le_iff₀ hD0]
    have : 64 * 4 * 64 / 2 ^ 51 ≤ D := by
      refine le_trans ?_ hD'
      gcongr
    norm_num at this ⊢; linarith
  refine ⟨hD0, i1, i2, ?_⟩
  set E := (6 * N + 16) * (3 / 2 * N ^ 3 * M ^ 4) / 2 ^ 51 with hE
  have hE' : E = (9 * N + 24) * P / 2 ^ 51 := by rw [hE, hP]; ring
  have hE0 : 0 ≤ E := by rw [hE']; positivity
  have hE4 : 4 * E ≤ D := by
    refine le_trans ?_ hD'
    rw [hE', show 4 * ((9 * N + 24) * P / 2 ^ 51) = (36 * N + 96) * P / 2 ^ 51 by ring]
    have : 36 * N + 96 ≤ 64 * N := by linarith
    gcongr
  have g1 := gauge_lit hR 1 (B := 1) (by norm_num) ⟨by norm_num, by norm_num⟩
  have e1 : ((1 : ℚ) : ℝ) = 1 := by norm_num
  rw [e1] at g1
  have hd0 : |1 / D| = 1 / D := abs_of_pos (by positivity)
  have hDE : 3 / 4 * D ≤ D - E := by linarith
  have hq : (1 * 1 / 2 ^ 51 + |1 / D| * E) / (|D| - E) ≤ (4 / 3 * (1 / 2 ^ 51) + 4 / 3 * (E / D)) / D := by
    rw [hd0, abs_of_pos hD0]
    calc (1 * 1 / 2 ^ 51 + 1 / D * E) / (D - E) ≤ (1 * 1 / 2 ^ 51 + 1 / D * E) / (3 / 4 * D) := by gcongr
      _ = (4 / 3 * (1 / 2 ^ 51) + 4 / 3 * (E / D)) / D := by field_simp
  have hED : E / D ≤ 1 / 4 := by rw [div_le_iff₀ hD0]; linarith
  have hED0 : 0 ≤ E / D := by positivity
  have hdiv := Fl.Near.div hR g1.2 hdet.2 (S := 2 / D) (by rw [abs_of_pos hD0]; linarith) (by
    refine le_trans (add_le_add_right hq _) ?_
    rw [hd0, ← add_div]
    gcongr
    norm_num; linarith) (le_trans (by norm_num) i1) (le_trans i2 (pow_le_pow_right₀ (by norm_num) (by norm_num)))
  obtain ⟨ι, hι, herr⟩ := hdiv
  have herr2 : |ι - 1 / D| ≤ (4 * (1 / 2 ^ 51) + 4 / 3 * (E / D)) / D := by
    refine herr.trans ?_
    refine le_trans (add_le_add_left hq _) ?_
    rw [show 2 / D / 2 ^ 51 = 2 * (1 / 2 ^ 51) / D by ring, ← add_div]
    exact div_le_div_of_nonneg_right (by linarith) hD0.le
  refine ⟨ι, hι, ?_, ?_⟩
  · have h1 : |ι| ≤ |ι - 1 / D| + |1 / D| := by
      have := abs_add_le (ι - 1 / D) (1 / D)
      rwa [sub_add_cancel] at this
    rw [hd0] at h1
    refine h1.trans (le_trans (add_le_add_left herr2 _) ?_)
    rw [← add_div]
    gcongr
    norm_num; linarith
  · rw [show ι * D - 1 = (ι - 1 / D) * D by field_simp, abs_mul, abs_of_pos hD0]
    refine le_trans (mul_le_mul_of_nonneg_right herr2 hD0.le) ?_
    rw [div_mul_cancel₀ _ hD0.ne', show (12 * N + 38) * N ^ 3 * M ^ 4 / (2 ^ 51 * D) = (12 * N + 32) * P / 2 ^ 51 / D + 6 * (P / D) / 2 ^ 51 by rw [hP]; field_simp; ring]
    have h2 : 4 / 3 * (E / D) = (12 * N + 32) * P / 2 ^ 51 / D := by rw [hE']; field_simp; ring
    have h3 : 4 ≤ 6 * (P / D) := by
      rw [show 6 * (P / D) = 6 * P / D by ring, le_div_iff₀ hD0]; linarith
    rw [h2]
    have h4 : 4 * (1 / 2 ^ 51) ≤ 6 * (P / D) / 2 ^ 51 := by
      rw [show (4 : ℝ) * (1 / 2 ^ 51) = 4 / 2 ^ 51 by ring]; gcongr
    linarith

/-- one number of the result -/
theorem row_near {N M D ι : ℝ} (hS : FitSize N M) (hD : 0 < D) (hI : 1 / 2 ^ 92 ≤ 2 / D) (hI' : 2 / D ≤ 2 ^ 38) (hι : |ι| ≤ 2 / D)
    (hτ : |ι * D - 1| ≤ (12 * N + 38) * N ^ 3 * M ^ 4 / (2 ^ 51 * D)) (qs : List (V2 ℝ)) (hN : N = qs.length + 1)
    (hq : ∀ q ∈ qs, |q.x| ≤ M ∧ |q.y| ≤ M) {c : ℝ} {e : ℕ} (hc : 1 ≤ c) (hc' : c ≤ 2) (he : e ≤ 1) {x y z i : Fl R} (hi : i = (Ext.fin ι : Ext ℝ)) {α β γ : ℝ}
    (hx : Gauge x α (c / 2 * N ^ 2 * M ^ (2 + e)) (4 * N + 8)) (hy : Gauge y β (c / 2 * N ^ 2 * M ^ (2 + e)) (4 * N + 8)) (hz : Gauge z γ (c * N ^ 2 * M ^ (3 + e)) (4 * N + 8))
    {cx cy w η : ℝ} (hη : ∀ q ∈ qs, |(q.x * q.x + q.y * q.y) / 2 - (cx * q.x + cy * q.y + w / 2)| ≤ η) {v : ℝ} (hv : |v| ≤ c * M ^ e * M)
    (hsol : α * (sxx qs * cx + sxy qs * cy + sx qs * w) + β * (sxy qs * cx + syy qs * cy + sy qs * w) + γ * (sx qs * cx + sy qs * cy + s1 qs * w) = D * v) (h0 : 0 ≤ η) :
    Fl.Near (sumL ((qs.map (V2.toFl R)).map (fun p => (⟨x * i, y * i, z * i⟩ : V3 (Fl R)).dot (fitRow p) * fitRhs p))) v
      (c * M ^ e * (64 * N ^ 4 * M ^ 4 / (2 ^ 51 * D) * M + 3 * N ^ 3 * M ^ 3 * η / D)) := by
  have n4 := hS.n4
  have m1 := hS.m1
  have M0 : 0 ≤ M := by linarith
  obtain ⟨-, g⟩ := row_gauge hR hS hI hI' hι qs hN hq hc hc' he hi hx hy hz
  refine (g.trans (b := v) (δ := |ι * D - 1| * |v| + 2 / D * (N * (3 / 2 * c * N ^ 2 * M ^ (3 + e) * η))) ?_).mono ?_
  · have e1 : (qs.map (fun p => (α * ι * p.x + β * ι * p.y + γ * ι * (1 / 2)) * ((p.x * p.x + p.y * p.y) / 2))).sum =
        ι * (qs.map (fun p => (α * p.x + β * p.y + γ * (1 / 2)) * ((p.x * p.x + p.y * p.y) / 2))).sum := by
      rw [← List.sum_map_mul_left]
      congr 1
      apply List.map_congr_left
      intro p _; ring
    rw [e1, lin3 α β γ cx cy w, hsol]
    set T := (qs.map (fun p => (α * p.x + β * p.y + γ * (1 / 2)) * ((p.x * p.x + p.y * p.y) / 2 - (cx * p.x + cy * p.y + w / 2)))).sum with hT
    have hTb : |T| ≤ N * (3 / 2 * c * N ^ 2 * M ^ (3 + e) * η) := by
      refine (abs_sum_le _ (3 / 2 * c * N ^ 2 * M ^ (3 + e) * η) qs ?_).trans ?_
      · intro p hp
        rw [abs_mul]
        refine mul_le_mul ?_ (hη p hp) (abs_nonneg _) (by positivity)
        have a1 : |α * p.x| ≤ c / 2 * N ^ 2 * M ^ (2 + e) * M := by rw [abs_mul]; exact mul_le_mul hx.1 (hq p hp).1 (abs_nonneg _) ((abs_nonneg _).trans hx.1)
        have a2 : |β * p.y| ≤ c / 2 * N ^ 2 * M ^ (2 + e) * M := by rw [abs_mul]; exact mul_le_mul hy.1 (hq p hp).2 (abs_nonneg _) ((abs_nonneg _).trans hy.1)
        have a3 : |γ * (1 / 2)| ≤ c * N ^ 2 * M ^ (3 + e) * (1 / 2) := by
          rw [abs_mul, abs_of_pos (show (0 : ℝ) < 1 / 2 by norm_num)]; exact mul_le_mul_of_nonneg_right hz.1 (by norm_num)
        refine (abs_add_three _ _ _).trans (le_trans (add_le_add (add_le_add a1 a2) a3) (le_of_eq ?_))
        ring
      · refine mul_le_mul_of_nonneg_right ?_ (by positivity)
        rw [hN]; linarith
    rw [show ι * (D * v + T) - v = (ι * D - 1) * v + ι * T by ring]
    refine (abs_add_le _ _).trans ?_
    rw [abs_mul, abs_mul]
    exact add_le_add le_rfl (mul_le_mul hι hTb (abs_nonneg _) (by positivity))
  · have h1 : |ι * D - 1| * |v| ≤ (12 * N + 38) * N ^ 3 * M ^ 4 / (2 ^ 51 * D) * (c * M ^ e * M) :=
      mul_le_mul hτ hv (abs_nonneg _) ((abs_nonneg _).trans hτ)
    have e2 : (6 * N + 25) * (3 / 2 * c * N ^ 3 * M ^ (5 + e) * (2 / D)) / 2 ^ 51 = (18 * N + 75) * (N ^ 3 * M ^ 4 / (2 ^ 51 * D) * (c * M ^ e * M)) := by
      field_simp; ring
    have e3 : (12 * N + 38) * N ^ 3 * M ^ 4 / (2 ^ 51 * D) * (c * M ^ e * M) = (12 * N + 38) * (N ^ 3 * M ^ 4 / (2 ^ 51 * D) * (c * M ^ e * M)) := by ring
    have e4 : 2 / D * (N * (3 / 2 * c * N ^ 2 * M ^ (3 + e) * η)) = c * M ^ e * (3 * N ^ 3 * M ^ 3 * η / D) := by field_simp; ring
    have e5 : c * M ^ e * (64 * N ^ 4 * M ^ 4 / (2 ^ 51 * D) * M + 3 * N ^ 3 * M ^ 3 * η / D) =
        64 * N * (N ^ 3 * M ^ 4 / (2 ^ 51 * D) * (c * M ^ e * M)) + c * M ^ e * (3 * N ^ 3 * M ^ 3 * η / D) := by ring
    rw [e2, e4, e5]
    rw [e3] at h1
    have hW : 0 ≤ N ^ 3 * M ^ 4 / (2 ^ 51 * D) * (c * M ^ e * M) := by positivity
    have : (18 * N + 75) * (N ^ 3 * M ^ 4 / (2 ^ 51 * D) * (c * M ^ e * M)) + (12 * N + 38) * (N ^ 3 * M ^ 4 / (2 ^ 51 * D) * (c * M ^ e * M)) ≤
        64 * N * (N ^ 3 * M ^ 4 / (2 ^ 51 * D) * (c * M ^ e * M)) := by
      rw [← add_mul]
      exact mul_le_mul_of_nonneg_right (by linarith) hW
    linarith

/-- **The fit**: points that satisfy the equation of a circle but for `η` give its coefficients, but for an error that grows with the condition of the points. -/
theorem fitRes_near {N M : ℝ} (hS : FitSize N M) (qs : List (V2 ℝ)) (hN : N = qs.length + 1) (hq : ∀ q ∈ qs, |q.x| ≤ M ∧ |q.y| ≤ M)
    (hD : 64 * N ^ 4 * M ^ 4 / 2 ^ 51 ≤ gramDet qs) {cx cy w η : ℝ} (h0 : 0 ≤ η) (hcx : |cx| ≤ M) (hcy : |cy| ≤ M) (hw : |w| ≤ 2 * M ^ 2)
    (hη : ∀ q ∈ qs, |(q.x * q.x + q.y * q.y) / 2 - (cx * q.x + cy * q.y + w / 2)| ≤ η) {ε : ℝ}
    (hε : 64 * N ^ 4 * M ^ 4 / (2 ^ 51 * gramDet qs) * M + 3 * N ^ 3 * M ^ 3 * η / gramDet qs ≤ ε) :
    Fl.Near (fitRes (qs.map (V2.toFl R))).x cx ε ∧ Fl.Near (fitRes (qs.map (V2.toFl R))).y cy ε ∧ Fl.Near (fitRes (qs.map (V2.toFl R))).z w (2 * M * ε) := by
  have m1 := hS.m1
  obtain ⟨k, hk, det, hdet, hinv⟩ := inv3_cof hR hS qs _ (fitMat_normal hR hS qs hN hq)
  obtain ⟨hD0, i1, i2, ι, hι, hιb, hτ⟩ := recip_near hR hS hdet hD
  unfold fitRes
  rw [hinv]
  refine ⟨?_, ?_, ?_⟩
  · refine (row_near hR hS hD0 i1 i2 hιb hτ qs hN hq (c := 1) (e := 0) le_rfl (by norm_num) (by norm_num) hι hk.k00 hk.k10 hk.k20 hη (by simpa using hcx) ?_ h0).mono (by simpa using hε)
    unfold gramDet; ring
  · refine (row_near hR hS hD0 i1 i2 hιb hτ qs hN hq (c := 1) (e := 0) le_rfl (by norm_num) (by norm_num) hι hk.k01 hk.k11 hk.k21 hη (by simpa using hcy) ?_ h0).mono (by simpa using hε)
    unfold gramDet; ring
  · refine (row_near hR hS hD0 i1 i2 hιb hτ qs hN hq (c := 2) (e := 1) (by norm_num) le_rfl le_rfl hι
      (hk.k02.to rfl (by ring) le_rfl) (hk.k12.to rfl (by ring) le_rfl) (hk.k22.to rfl (by ring) le_rfl) hη (v := w) (by refine hw.trans (le_of_eq ?_); ring) ?_ h0).mono ?_
    · unfold gramDet; ring
    · rw [pow_one]; gcongr

end
end S2P
