import Verif.Lemmas.AngleMeant
import Verif.Spec.RoundDouble

set_option linter.unusedSectionVars false
set_option linter.unusedVariables false
set_option linter.unusedSimpArgs false

/-! # The strokes of a radius or diameter, in rounded arithmetic -/

namespace S2P

section
variable {R : Rounding} (hR : R.Accurate)

omit hR in
/-- sizes -/
structure RoundSize (M k κ η ζ : ℝ) (o : V2 ℝ) : Prop where
  small : Small M
  unit : Unit k κ
  fine : Fine η
  pos : 0 ≤ ζ
  clear : ζ ≤ M / 100
  ox : |o.x| ≤ 2 ^ 200
  oy : |o.y| ≤ 2 ^ 200

omit hR in
theorem RoundSize.wide {M k κ η ζ : ℝ} {o : V2 ℝ} (h : RoundSize M k κ η ζ o) : Wide M :=
  ⟨le_trans (by norm_num) h.small.one, h.small.top.trans (pow_le_pow_right₀ (by norm_num) (by norm_num))⟩

omit hR in
/-- bounds used throughout -/
theorem RoundSize.nums {M k κ η ζ : ℝ} {o : V2 ℝ} (h : RoundSize M k κ η ζ o) :
    M * (1 / 2 ^ 50) ≤ M * η ∧ M * η ≤ M * (1 / 2 ^ 40) ∧ ζ * η ≤ M * η / 100 ∧ κ * (1 / 2 ^ 50) ≤ κ * η ∧ κ * η ≤ κ * (1 / 2 ^ 40) := by
  have hM := h.small.one
  have hκ := h.unit.pos'
  have hη0 : 0 ≤ η := le_trans (by positivity) h.fine.lo
  refine ⟨mul_le_mul_of_nonneg_left h.fine.lo (by linarith), mul_le_mul_of_nonneg_left h.fine.hi (by linarith), ?_, mul_le_mul_of_nonneg_left h.fine.lo hκ.le,
    mul_le_mul_of_nonneg_left h.fine.hi hκ.le⟩
  have := mul_le_mul_of_nonneg_right h.clear hη0
  linarith

omit hR in
theorem RoundSize.lohi {M k κ η ζ : ℝ} {o : V2 ℝ} (h : RoundSize M k κ η ζ o) {S : ℝ} (h1 : M ≤ S) (h2 : S ≤ 2 ^ 6 * M + 2 ^ 9 * κ) :
    1 / 2 ^ 100 ≤ S ∧ S ≤ 2 ^ 1000 := by
  have hM := h.small.one
  have hM2 := h.small.top
  have hκ := h.unit.hi'
  refine ⟨h.wide.bot h1, ?_⟩
  have h3 : S ≤ 2 ^ 60 := by norm_num at h2 hM2 hκ ⊢; linarith
  exact h3.trans (pow_le_pow_right₀ (by norm_num) (by norm_num))

include hR

/-- a point on the line, at the distance `L` from the centre -/
theorem along_near {M k κ η ζ : ℝ} {o : V2 ℝ} (h : RoundSize M k κ η ζ o) {c n l : Fl R} {C A L ε : ℝ} (hc : Fl.Near c C ζ) (hC : |C| ≤ M)
    (hn : Fl.Near n A (100 * η)) (hA : |A| ≤ 1) (hl : Fl.Near l L ε) (hL : |L| ≤ 6 * M) (hε : ε ≤ ζ) :
    Fl.Near (c + n * l) (C + A * L) (ε + ζ + 700 * (M * η)) ∧ Fl.Near (c - n * l) (C - A * L) (ε + ζ + 700 * (M * η)) ∧ |C + A * L| ≤ 7 * M ∧ |C - A * L| ≤ 7 * M := by
  obtain ⟨d1, d2, d3, -, -⟩ := h.nums
  have hM := h.small.one
  have hcl := h.clear
  have hε0 : 0 ≤ ε := by obtain ⟨b, -, hb⟩ := hl; exact (abs_nonneg _).trans hb
  have hη0 : 0 ≤ η := le_trans (by positivity) h.fine.lo
  have hη := h.fine.hi
  have d4 : ε * η ≤ ζ * η := mul_le_mul_of_nonneg_right hε hη0
  norm_num at d1 d2 hη
  obtain ⟨l1, l2⟩ := h.lohi (S := 8 * M) (by linarith) (by nlinarith [h.unit.pos'])
  have hAL : |A * L| ≤ 6 * M := by
    rw [abs_mul]
    have := mul_le_mul hA hL (abs_nonneg L) zero_le_one
    linarith
  have p := (hn.mul hR hl hA hL (S := 8 * M) (by nlinarith) l1 l2).mono (δ := ε + 650 * (M * η)) (by norm_num; nlinarith)
  have t1 := abs_add_le C (A * L)
  have t2 := abs_sub C (A * L)
  refine ⟨(hc.add hR p (S := 8 * M) (by linarith) l1 l2).mono (by norm_num; linarith), (hc.sub hR p (S := 8 * M) (by linarith) l1 l2).mono (by norm_num; linarith),
    by linarith, by linarith⟩

/-- onto the page -/
theorem round_page {M k κ η ζ : ℝ} {o : V2 ℝ} (h : RoundSize M k κ η ζ o) {K : Fl R} (hK : K = (Ext.fin k : Ext ℝ)) {z o' : Fl R} {Z D c : ℝ}
    (ho : o' = (Ext.fin c : Ext ℝ)) (hc : |c| ≤ |o.x| + |o.y|) (hc2 : |c| ≤ 2 ^ 200) (hZ : |Z| ≤ 7 * M) (hD : |D| ≤ 2 ^ 8)
    (hz : Fl.Near z (Z + D * κ) (3 * ζ + 1000 * (M * η) + 2 ^ 19 * η * κ)) :
    Fl.Near (z * K + o') (Z * k + c + D) (roundError M k η ζ o) := by
  obtain ⟨d1, d2, d3, d4, d5⟩ := h.nums
  have hM := h.small.one
  have hκ := h.unit.pos'
  have hk := h.unit.pos
  have hη := h.fine.lo
  have hcl := h.clear
  have hMk : 0 < M * k := mul_pos (by linarith) hk
  have g1 : M * k * (1 / 2 ^ 50) ≤ M * k * η := mul_le_mul_of_nonneg_left h.fine.lo hMk.le
  have hζk : 0 ≤ ζ * k := mul_nonneg h.pos hk.le
  have a1 : |D * κ| ≤ 2 ^ 8 * κ := by rw [abs_mul, abs_of_pos hκ]; exact mul_le_mul_of_nonneg_right hD hκ.le
  have t := abs_add_le Z (D * κ)
  refine ((moved1_near hR h.small h.unit hK ho hz ?_ ?_ hc2).mono ?_).congr ?_
  · generalize |D * κ| = y at *
    norm_num at a1 ⊢; linarith
  · norm_num at d2 d5 ⊢; linarith
  · have e : (3 * ζ + 1000 * (M * η) + 2 ^ 19 * η * κ) * k = 3 * (ζ * k) + 1000 * (M * k * η) + 2 ^ 19 * η := by
      linear_combination (2 ^ 19 * η) * h.unit.one
    have e2 : roundError M k η ζ o = 4 * (ζ * k) + 2 ^ 12 * (M * k * η) + 2 ^ 20 * η + (|o.x| + |o.y|) / 2 ^ 45 := by unfold roundError; ring
    rw [e, e2]
    norm_num at g1 hη ⊢
    linarith
  · linear_combination D * h.unit.one

/-- an end of an arrowhead: six points along the line, two to a side -/
theorem barb_round {M k κ η ζ : ℝ} {o : V2 ℝ} (h : RoundSize M k κ η ζ o) {K : Fl R} (hK : K = (Ext.fin k : Ext ℝ)) {a b : ℚ} {A B : ℝ} (ha : (a : ℝ) = A) (hb : (b : ℝ) = B)
    (hA : |A| ≤ 6) (hB : |B| ≤ 2) {t u w o1 : Fl R} {T U W c : ℝ} (h1 : o1 = (Ext.fin c : Ext ℝ)) (h2 : |c| ≤ |o.x| + |o.y|) (h3 : |c| ≤ 2 ^ 200)
    (ht : Fl.Near t T (2 * ζ + 700 * (M * η))) (hT : |T| ≤ 7 * M) (hu : Fl.Near u (U * κ) ((100 * η + 1 / 2 ^ 48) * κ)) (hU : |U| ≤ 1) (hw : Fl.Near w (W * κ) ((100 * η + 1 / 2 ^ 48) * κ)) (hW : |W| ≤ 1) :
    Fl.Near ((t + (u * FP.lit a + w * FP.lit b)) * K + o1) (T * k + c + (U * A + W * B)) (roundError M k η ζ o) := by
  obtain ⟨d1, d2, d3, d4, d5⟩ := h.nums
  have hM := h.small.one
  have hκ := h.unit.pos'
  have hη0 : 0 ≤ η := le_trans (by positivity) h.fine.lo
  have hη := h.fine.hi
  have hηlo := h.fine.lo
  have hcl := h.clear
  norm_num at d1 d2 d4 d5 hη
  have g1 := off_mul hR h.unit hu (by norm_num; linarith) (by positivity) (by norm_num; linarith) (lit_near hR ha (by linarith)) hA (by norm_num)
  have g2 := off_mul hR h.unit hw (by norm_num; linarith) (by positivity) (by norm_num; linarith) (lit_near hR hb (by linarith)) hB (by norm_num)
  have p1 : Fl.Near (u * FP.lit a) (U * A * κ) (2 ^ 17 * (κ * η)) := g1.mono (by norm_num; nlinarith)
  have p2 : Fl.Near (w * FP.lit b) (W * B * κ) (2 ^ 17 * (κ * η)) := g2.mono (by norm_num; nlinarith)
  have hUA : |U * A| ≤ 6 := by
    rw [abs_mul]
    have := mul_le_mul hU hA (abs_nonneg _) zero_le_one
    linarith
  have hWB : |W * B| ≤ 2 := by
    rw [abs_mul]
    have := mul_le_mul hW hB (abs_nonneg _) zero_le_one
    linarith
  have a1 : |U * A * κ| ≤ 6 * κ := by rw [abs_mul, abs_of_pos hκ]; exact mul_le_mul_of_nonneg_right hUA hκ.le
  have a2 : |W * B * κ| ≤ 2 * κ := by rw [abs_mul, abs_of_pos hκ]; exact mul_le_mul_of_nonneg_right hWB hκ.le
  have t1 := abs_add_le (U * A * κ) (W * B * κ)
  have t2 := abs_add_le T (U * A * κ + W * B * κ)
  have q := (p1.add hR p2 (S := 10 * κ) (by norm_num; linarith) (h.unit.bot (by linarith)) (h.unit.top (by norm_num; linarith))).mono (δ := 2 ^ 18 * (κ * η) + 8 * (κ * η)) (by norm_num; linarith)
  obtain ⟨l1, l2⟩ := h.lohi (S := 8 * M + 10 * κ) (by linarith) (by norm_num; linarith)
  have s := ht.add hR q (S := 8 * M + 10 * κ) (by norm_num; linarith) l1 l2
  refine round_page hR h hK h1 h2 h3 hT (D := U * A + W * B) ?_ ((s.mono ?_).congr (by ring))
  · have := abs_add_le (U * A) (W * B)
    norm_num; linarith
  · have : 0 ≤ ζ := h.pos
    norm_num; linarith

end
end S2P
