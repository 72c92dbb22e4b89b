import Verif.Spec.Accuracy
import Verif.Lemmas.Round
import Verif.Lemmas.RoundOk

set_option linter.unusedSectionVars false
set_option linter.unusedVariables false
set_option linter.unusedSimpArgs false

/-! # Rounding errors -/

namespace S2P

/-! ## The error of one rounding -/

theorem ri_err (I : IntRounding) (x : ℝ) : |(I.ri x : ℝ) - x| ≤ 1 := by
  have h1 : I.ri (⌊x⌋ : ℝ) ≤ I.ri x := I.mono (Int.floor_le x)
  have h2 : I.ri x ≤ I.ri (⌈x⌉ : ℝ) := I.mono (Int.le_ceil x)
  rw [I.int] at h1 h2
  have h1' : (⌊x⌋ : ℝ) ≤ I.ri x := by exact_mod_cast h1
  have h2' : (I.ri x : ℝ) ≤ ⌈x⌉ := by exact_mod_cast h2
  have := Int.lt_floor_add_one x
  have := Int.ceil_lt_add_one x
  rw [abs_le]; constructor <;> linarith

theorem roundTo_err (I : IntRounding) (p : ℕ) (emin : ℤ) (x : ℝ) : |roundTo I p emin x - x| ≤ |x| * 2 ^ (1 - p : ℤ) + 2 ^ emin := by
  rcases eq_or_ne x 0 with rfl | hx
  · rw [roundTo_zero]; simp only [sub_zero, abs_zero, zero_mul, zero_add]; exact (two_zpow_pos _).le
  have hu := two_zpow_pos (lastPlace p emin x)
  have e : roundTo I p emin x - x = (I.ri (x / 2 ^ lastPlace p emin x) - x / 2 ^ lastPlace p emin x) * 2 ^ lastPlace p emin x := by
    unfold roundTo
    rw [sub_mul, div_mul_cancel₀ _ hu.ne']
  rw [e, abs_mul, abs_of_pos hu]
  have h1 : |(I.ri (x / 2 ^ lastPlace p emin x) : ℝ) - x / 2 ^ lastPlace p emin x| * 2 ^ lastPlace p emin x ≤ 2 ^ lastPlace p emin x := by
    nlinarith [ri_err I (x / 2 ^ lastPlace p emin x)]
  refine h1.trans ?_
  have hp := two_zpow_pos emin
  have hq : (0 : ℝ) ≤ |x| * 2 ^ (1 - p : ℤ) := mul_nonneg (abs_nonneg _) (two_zpow_pos _).le
  unfold lastPlace
  rcases max_choice (Int.log 2 |x| + 1 - p) emin with h | h
  · rw [h]
    have h3 := Int.zpow_log_le_self (b := 2) (by norm_num) (abs_pos.mpr hx)
    have : (2 : ℝ) ^ (Int.log 2 |x| + 1 - p) = 2 ^ Int.log 2 |x| * 2 ^ (1 - p : ℤ) := by
      rw [← zpow_add₀ (by norm_num)]; congr 1; ring
    rw [this]
    have := mul_le_mul_of_nonneg_right h3 (two_zpow_pos (1 - p : ℤ)).le
    push_cast at this
    linarith
  · rw [h]; linarith

/-- roundings that are accurate to 52 and 23 digits, but for very small numbers -/
structure Rounding.Accurate (R : Rounding) : Prop where
  err : ∀ x, |R.rnd x - x| ≤ |x| / 2 ^ 52 + 1 / 2 ^ 200
  err32 : ∀ x, |R.rnd32 x - x| ≤ |x| / 2 ^ 23 + 1 / 2 ^ 149

theorem binary64_accurate (I : IntRounding) (r64 r32 : ℚ → Bool) : (binary64 I r64 r32).Accurate := by
  constructor
  · intro x
    refine (roundTo_err I 53 (-1074) x).trans ?_
    have h1 : (2 : ℝ) ^ (1 - (53 : ℕ) : ℤ) = 1 / 2 ^ 52 := by norm_num
    have h2 : (2 : ℝ) ^ (-1074 : ℤ) ≤ 2 ^ (-200 : ℤ) := zpow_le_zpow_right₀ (by norm_num) (by norm_num)
    have h3 : (2 : ℝ) ^ (-200 : ℤ) = 1 / 2 ^ 200 := by norm_num
    rw [h1, ← h3, mul_one_div]
    exact add_le_add le_rfl h2
  · intro x
    refine (roundTo_err I 24 (-149) x).trans ?_
    have h1 : (2 : ℝ) ^ (1 - (24 : ℕ) : ℤ) = 1 / 2 ^ 23 := by norm_num
    have h3 : (2 : ℝ) ^ (-149 : ℤ) = 1 / 2 ^ 149 := by norm_num
    rw [h1, ← h3]
    linarith

section
variable {R : Rounding} (hR : R.Accurate)
include hR

theorem rnd_err {x S : ℝ} (h : |x| ≤ S) (h1 : 1 / 2 ^ 100 ≤ S) : |R.rnd x - x| ≤ S / 2 ^ 51 := by
  refine (hR.err x).trans ?_
  norm_num at h1 ⊢
  linarith

/-! ## Operations -/

theorem fix_near {x a ε S : ℝ} (hx : |x - a| ≤ ε) (hS : |a| + ε ≤ S) (h1 : 1 / 2 ^ 100 ≤ S) (h2 : S ≤ 2 ^ 1000) :
    Fl.Near (R := R) (R.fix (.fin x)) a (ε + S / 2 ^ 51) := by
  have hxS : |x| ≤ S := by
    have := abs_add_le (x - a) a
    rw [sub_add_cancel] at this
    linarith
  obtain ⟨b, hb, -⟩ := fix_bd R (n := 1000) (by norm_num) (hxS.trans h2)
  obtain ⟨e, -⟩ := overflow_of_fin (a := b) (t := 2 ^ 1024) (y := R.rnd x) hb
  refine ⟨b, hb, ?_⟩
  subst e
  have := abs_add_le (R.rnd x - x) (x - a)
  have := rnd_err hR hxS h1
  rw [show R.rnd x - a = (R.rnd x - x) + (x - a) by ring]
  linarith

theorem Fl.Near.add {x y : Fl R} {a b ε δ S : ℝ} (hx : Fl.Near x a ε) (hy : Fl.Near y b δ) (hS : |a + b| + ε + δ ≤ S) (h1 : 1 / 2 ^ 100 ≤ S)
    (h2 : S ≤ 2 ^ 1000) : Fl.Near (x + y) (a + b) (ε + δ + S / 2 ^ 51) := by
  obtain ⟨c, rfl, hc⟩ := hx
  obtain ⟨d, rfl, hd⟩ := hy
  refine fix_near hR (x := c + d) ?_ (by linarith) h1 h2
  rw [show c + d - (a + b) = (c - a) + (d - b) by ring]
  exact (abs_add_le _ _).trans (by linarith)

theorem Fl.Near.sub {x y : Fl R} {a b ε δ S : ℝ} (hx : Fl.Near x a ε) (hy : Fl.Near y b δ) (hS : |a - b| + ε + δ ≤ S) (h1 : 1 / 2 ^ 100 ≤ S)
    (h2 : S ≤ 2 ^ 1000) : Fl.Near (x - y) (a - b) (ε + δ + S / 2 ^ 51) := by
  obtain ⟨c, rfl, hc⟩ := hx
  obtain ⟨d, rfl, hd⟩ := hy
  refine fix_near hR (x := c + -d) ?_ (by linarith) h1 h2
  rw [show c + -d - (a - b) = (c - a) + (b - d) by ring]
  refine (abs_add_le _ _).trans ?_
  rw [abs_sub_comm b d]; linarith

theorem Fl.Near.mul {x y : Fl R} {a b ε δ A B S : ℝ} (hx : Fl.Near x a ε) (hy : Fl.Near y b δ) (hA : |a| ≤ A) (hB : |b| ≤ B)
    (hS : (A + ε) * (B + δ) ≤ S) (h1 : 1 / 2 ^ 100 ≤ S) (h2 : S ≤ 2 ^ 1000) :
    Fl.Near (x * y) (a * b) (A * δ + B * ε + ε * δ + S / 2 ^ 51) := by
  obtain ⟨c, rfl, hc⟩ := hx
  obtain ⟨d, rfl, hd⟩ := hy
  have hA0 := (abs_nonneg a).trans hA
  have hB0 := (abs_nonneg b).trans hB
  have he0 := (abs_nonneg _).trans hc
  have hd0 := (abs_nonneg _).trans hd
  refine fix_near hR (x := c * d) ?_ ?_ h1 h2
  · rw [show c * d - a * b = a * (d - b) + b * (c - a) + (c - a) * (d - b) by ring]
    refine (abs_add_three _ _ _).trans ?_
    rw [abs_mul, abs_mul, abs_mul]
    have := mul_le_mul hA hd (abs_nonneg _) hA0
    have := mul_le_mul hB hc (abs_nonneg _) hB0
    have := mul_le_mul hc hd (abs_nonneg _) he0
    linarith
  · have := mul_le_mul hA hB (abs_nonneg _) hA0
    rw [abs_mul]
    nlinarith

omit hR in
theorem Fl.Near.neg {x : Fl R} {a ε : ℝ} (hx : Fl.Near x a ε) : Fl.Near (-x) (-a) ε := by
  obtain ⟨c, rfl, hc⟩ := hx
  exact ⟨-c, rfl, by rw [show -c - -a = -(c - a) by ring, abs_neg]; exact hc⟩

omit hR in
theorem Fl.Near.mono {x : Fl R} {a ε δ : ℝ} (hx : Fl.Near x a ε) (h : ε ≤ δ) : Fl.Near x a δ := by
  obtain ⟨c, rfl, hc⟩ := hx
  exact ⟨c, rfl, hc.trans h⟩

omit hR in
theorem Fl.near_fin (a : ℝ) : Fl.Near (R := R) (Ext.fin a : Ext ℝ) a 0 := ⟨a, rfl, by simp⟩

omit hR in
theorem Fl.Near.trans {x : Fl R} {a b ε δ : ℝ} (hx : Fl.Near x a ε) (h : |a - b| ≤ δ) : Fl.Near x b (ε + δ) := by
  obtain ⟨c, rfl, hc⟩ := hx
  refine ⟨c, rfl, ?_⟩
  rw [show c - b = (c - a) + (a - b) by ring]
  exact (abs_add_le _ _).trans (by linarith)

theorem Fl.near_lit (q : ℚ) {S : ℝ} (hS : |(q : ℝ)| ≤ S) (h1 : 1 / 2 ^ 100 ≤ S) (h2 : S ≤ 2 ^ 1000) :
    Fl.Near (FP.lit q : Fl R) (q : ℝ) (S / 2 ^ 51) := by
  have := fix_near hR (x := (q : ℝ)) (a := q) (ε := 0) (by simp) (by simpa using hS) h1 h2
  rwa [zero_add] at this

/-- division by a number that is not near zero -/
theorem Fl.Near.div {x y : Fl R} {a b ε δ S : ℝ} (hx : Fl.Near x a ε) (hy : Fl.Near y b δ) (hb : δ < |b|)
    (hS : |a / b| + (ε + |a / b| * δ) / (|b| - δ) ≤ S) (h1 : 1 / 2 ^ 100 ≤ S) (h2 : S ≤ 2 ^ 1000) :
    Fl.Near (x / y) (a / b) ((ε + |a / b| * δ) / (|b| - δ) + S / 2 ^ 51) := by
  obtain ⟨c, rfl, hc⟩ := hx
  obtain ⟨d, rfl, hd⟩ := hy
  have hb0 : b ≠ 0 := by rintro rfl; simp at hb; linarith [(abs_nonneg (d - 0)).trans hd]
  have hdb : |b| - δ ≤ |d| := by
    have := abs_add_le (b - d) d
    rw [sub_add_cancel, abs_sub_comm] at this
    linarith
  have hd0 : d ≠ 0 := by rintro rfl; simp at hdb; linarith
  have e : (Ext.div (.fin c) (.fin d) : Ext ℝ) = .fin (c / d) := by simp [Ext.div, hd0]
  show Fl.Near (R := R) (R.fix (Ext.div (.fin c) (.fin d))) _ _
  rw [e]
  refine fix_near hR ?_ hS h1 h2
  rw [show c / d - a / b = ((c - a) - a / b * (d - b)) / d by field_simp; ring, abs_div]
  apply div_le_div₀
  · have := (abs_nonneg _).trans hc
    have := mul_nonneg (abs_nonneg (a / b)) ((abs_nonneg _).trans hd)
    linarith
  · refine (abs_sub _ _).trans ?_
    rw [abs_mul]
    have := mul_le_mul_of_nonneg_left hd (abs_nonneg (a / b))
    linarith
  · linarith
  · exact hdb

end
end S2P
