import Verif.Lemmas.AccuracyAngle

set_option linter.unusedSectionVars false
set_option linter.unusedVariables false
set_option linter.unusedSimpArgs false

/-! # Single operations of binary64, evaluated -/

namespace S2P

/-- a number with 53 digits within half a unit of the last place is what rounding to nearest gives -/
theorem round_nearest {x : ℝ} (m : ℤ) (e : ℤ) (he : -1074 ≤ e) (h1 : (2 : ℝ) ^ (e + 52) ≤ |x|) (h2 : |x| < (2 : ℝ) ^ (e + 53))
    (h3 : |x - m * 2 ^ e| < 2 ^ e / 2) : roundTo .nearest 53 (-1074) x = m * 2 ^ e := by
  have hx : 0 < |x| := lt_of_lt_of_le (two_zpow_pos _) h1
  have hlog : Int.log 2 |x| = e + 52 := by
    have a : e + 52 ≤ Int.log 2 |x| := (Int.zpow_le_iff_le_log (b := 2) (by norm_num) hx).1 (by exact_mod_cast h1)
    have b : Int.log 2 |x| < e + 53 := (Int.lt_zpow_iff_log_lt (b := 2) (by norm_num) hx).1 (by exact_mod_cast h2)
    omega
  have hl : lastPlace 53 (-1074) x = e := by
    unfold lastPlace
    rw [hlog, max_eq_left] <;> push_cast <;> omega
  unfold roundTo
  rw [hl]
  have hu := two_zpow_pos e
  have hy : |x / 2 ^ e - m| < 1 / 2 := by
    rw [show x / 2 ^ e - m = (x - m * 2 ^ e) / 2 ^ e by field_simp, abs_div, abs_of_pos hu, div_lt_iff₀ hu]
    linarith
  rw [abs_lt] at hy
  congr 2
  show nearestEven (x / 2 ^ e) = m
  generalize x / 2 ^ e = y at hy
  unfold nearestEven
  rcases lt_or_ge y m with h | h
  · have hf : ⌊y⌋ = m - 1 := by rw [Int.floor_eq_iff]; push_cast; constructor <;> linarith
    have hfr : Int.fract y = y - (m - 1) := by unfold Int.fract; rw [hf]; push_cast; ring
    rw [if_neg (by rw [hfr]; linarith), if_pos (by rw [hfr]; linarith), hf]; omega
  · have hf : ⌊y⌋ = m := by rw [Int.floor_eq_iff]; constructor <;> linarith
    have hfr : Int.fract y = y - m := by unfold Int.fract; rw [hf]
    rw [if_pos (by rw [hfr]; linarith), hf]

section
variable {R : Rounding}

theorem fl_fix {x y : ℝ} (h : R.rnd x = y) (hy : |y| < 2 ^ 1023) : R.fix (.fin x) = .fin y := by
  show overflow _ (R.rnd x) = _
  rw [h]
  exact overflow_fin (hy.trans (pow_lt_pow_right₀ (by norm_num) (by norm_num)))

/-- a finite number of the format -/
def fl (R : Rounding) (x : ℝ) : Fl R := (Ext.fin x : Ext ℝ)

theorem fl_mul {a b y : ℝ} (h : R.rnd (a * b) = y) (hy : |y| < 2 ^ 1023) : fl R a * fl R b = fl R y := fl_fix h hy
theorem fl_add {a b y : ℝ} (h : R.rnd (a + b) = y) (hy : |y| < 2 ^ 1023) : fl R a + fl R b = fl R y := fl_fix h hy
theorem fl_sub {a b y : ℝ} (h : R.rnd (a - b) = y) (hy : |y| < 2 ^ 1023) : fl R a - fl R b = fl R y :=
  fl_fix (x := a + -b) (by rwa [← sub_eq_add_neg]) hy
theorem fl_div {a b y : ℝ} (hb : b ≠ 0) (h : R.rnd (a / b) = y) (hy : |y| < 2 ^ 1023) : fl R a / fl R b = fl R y := by
  show R.fix (if b = 0 then Ext.infSign a else .fin (a / b)) = _
  rw [if_neg hb]
  exact fl_fix h hy
theorem fl_sqrt {a y : ℝ} (ha : 0 ≤ a) (h : R.rnd (Real.sqrt a) = y) (hy : |y| < 2 ^ 1023) : FP.sqrt (fl R a) = fl R y := by
  show R.fix (if a < 0 then .nan else .fin (Real.sqrt a)) = _
  rw [if_neg (not_lt.2 ha)]
  exact fl_fix h hy
theorem fl_lit0 : (FP.lit 0 : Fl R) = fl R 0 := lit_zero R
theorem fl_pos {a : ℝ} (h : 0 < a) : FP.lt (FP.lit 0) (fl R a) = true := by
  rw [lit_zero]
  show Ext.lt (.fin 0) (.fin a) = true
  simp [Ext.lt, h]
end

/-! ## The legs (2,5) and (-6,-15) -/

/-- double precision, rounding to nearest -/
noncomputable abbrev Near64 : Rounding := binary64 .nearest (fun _ => true) (fun _ => true)

theorem near64 {x : ℝ} (m : ℤ) (e : ℤ) (he : -1074 ≤ e) (h1 : (2 : ℝ) ^ (e + 52) ≤ |x|) (h2 : |x| < (2 : ℝ) ^ (e + 53))
    (h3 : |x - m * 2 ^ e| < 2 ^ e / 2) : Near64.rnd x = m * 2 ^ e := round_nearest m e he h1 h2 h3

/-- integers below 2^53 are exact -/
theorem near64_int (n : ℤ) (hn : |n| ≤ 2 ^ 53) : Near64.rnd n = n := by
  show roundTo .nearest 53 (-1074) (n : ℝ) = n
  by_cases h0 : n = 0
  · subst h0; rw [Int.cast_zero, roundTo_zero]
  have hx : (0 : ℝ) < |(n : ℝ)| := by rw [abs_pos]; exact_mod_cast h0
  have hl : lastPlace 53 (-1074) (n : ℝ) ≤ 1 := by
    unfold lastPlace
    have hlt : Int.log 2 |(n : ℝ)| < 54 := by
      rw [← Int.lt_zpow_iff_log_lt (b := 2) (by norm_num) hx]
      have : |(n : ℝ)| ≤ 2 ^ 53 := by exact_mod_cast hn
      norm_num at this ⊢
      linarith
    rw [max_le_iff]; omega
  rcases lt_or_eq_of_le hl with h | h
  · have e : (n : ℝ) = ((n * 2 ^ (0 - lastPlace 53 (-1074) (n : ℝ)).toNat : ℤ) : ℝ) * 2 ^ lastPlace 53 (-1074) (n : ℝ) := by
      have := pow_multiple (a := lastPlace 53 (-1074) (n : ℝ)) (k := 0) (by omega)
      rw [zpow_zero] at this
      push_cast at this ⊢
      rw [mul_assoc, ← this, mul_one]
    apply le_antisymm
    · have := roundTo_le .nearest 53 (-1074) (x := (n : ℝ)) _ e.le; rwa [← e] at this
    · have := le_roundTo .nearest 53 (-1074) (x := (n : ℝ)) _ e.ge; rwa [← e] at this
  · -- 2^53 itself
    have hlog : Int.log 2 |(n : ℝ)| = 53 := by
      unfold lastPlace at h
      rcases max_choice (Int.log 2 |(n : ℝ)| + 1 - ((53 : ℕ) : ℤ)) (-1074) with k | k <;> rw [k] at h <;> push_cast at h <;> omega
    have h53 : (2 : ℝ) ^ (53 : ℤ) ≤ |(n : ℝ)| := by rw [← hlog]; exact_mod_cast Int.zpow_log_le_self (b := 2) (by norm_num) hx
    have hn' : |n| = 2 ^ 53 := by
      apply le_antisymm hn
      have : (2 : ℝ) ^ 53 ≤ |(n : ℝ)| := by exact_mod_cast h53
      exact_mod_cast this
    rcases abs_eq (by norm_num : (0 : ℤ) ≤ 2 ^ 53) |>.1 hn' with k | k <;> rw [k]
    · have := roundTo_pow .nearest 53 (-1074) (by norm_num) 53 (by norm_num)
      push_cast
      exact_mod_cast this
    · have := roundTo_npow .nearest 53 (-1074) (by norm_num) 53 (by norm_num)
      push_cast
      exact_mod_cast this

theorem w_s1 : Near64.rnd (Real.sqrt 29) = 6063156554684915 * 2 ^ (-50 : ℤ) := by
  have lo : ((6063156554684915 : ℝ) - 1 / 4) * 2 ^ (-50 : ℤ) < Real.sqrt 29 := Real.lt_sqrt_of_sq_lt (by norm_num)
  have hi : Real.sqrt 29 < ((6063156554684915 : ℝ) + 1 / 2 - 1 / 1024) * 2 ^ (-50 : ℤ) := by rw [Real.sqrt_lt' (by norm_num)]; norm_num
  have := near64 (x := Real.sqrt 29) (6063156554684915) (-50) (by norm_num) (by rw [abs_of_nonneg (Real.sqrt_nonneg _)]; norm_num at lo ⊢; linarith) (by rw [abs_of_nonneg (Real.sqrt_nonneg _)]; norm_num at hi ⊢; linarith) (by rw [abs_lt]; norm_num at lo hi ⊢; constructor <;> linarith)
  push_cast at this
  exact this

theorem w_s2 : Near64.rnd (Real.sqrt 261) = 4547367416013686 * 2 ^ (-48 : ℤ) := by
  have lo : ((4547367416013686 : ℝ) - 1 / 4) * 2 ^ (-48 : ℤ) < Real.sqrt 261 := Real.lt_sqrt_of_sq_lt (by norm_num)
  have hi : Real.sqrt 261 < ((4547367416013686 : ℝ) + 1 / 2 - 1 / 1024) * 2 ^ (-48 : ℤ) := by rw [Real.sqrt_lt' (by norm_num)]; norm_num
  have := near64 (x := Real.sqrt 261) (4547367416013686) (-48) (by norm_num) (by rw [abs_of_nonneg (Real.sqrt_nonneg _)]; norm_num at lo ⊢; linarith) (by rw [abs_of_nonneg (Real.sqrt_nonneg _)]; norm_num at hi ⊢; linarith) (by rw [abs_lt]; norm_num at lo hi ⊢; constructor <;> linarith)
  push_cast at this
  exact this

theorem w_f0 : Near64.rnd (2 / (6063156554684915 * 2 ^ (-50 : ℤ))) = 6690379646548872 * 2 ^ (-54 : ℤ) := by
  have := near64 (x := 2 / (6063156554684915 * 2 ^ (-50 : ℤ))) (6690379646548872) (-54) (by norm_num) (by norm_num [abs_of_pos, abs_of_neg]) (by norm_num [abs_of_pos, abs_of_neg]) (by rw [abs_lt]; constructor <;> norm_num)
  push_cast at this
  exact this

theorem w_f1 : Near64.rnd (5 / (6063156554684915 * 2 ^ (-50 : ℤ))) = 8362974558186091 * 2 ^ (-53 : ℤ) := by
  have := near64 (x := 5 / (6063156554684915 * 2 ^ (-50 : ℤ))) (8362974558186091) (-53) (by norm_num) (by norm_num [abs_of_pos, abs_of_neg]) (by norm_num [abs_of_pos, abs_of_neg]) (by rw [abs_lt]; constructor <;> norm_num)
  push_cast at this
  exact this

theorem w_t0 : Near64.rnd (-6 / (4547367416013686 * 2 ^ (-48 : ℤ))) = -6690379646548873 * 2 ^ (-54 : ℤ) := by
  have := near64 (x := -6 / (4547367416013686 * 2 ^ (-48 : ℤ))) (-6690379646548873) (-54) (by norm_num) (by norm_num [abs_of_pos, abs_of_neg]) (by norm_num [abs_of_pos, abs_of_neg]) (by rw [abs_lt]; constructor <;> norm_num)
  push_cast at this
  exact this

theorem w_t1 : Near64.rnd (-15 / (4547367416013686 * 2 ^ (-48 : ℤ))) = -8362974558186091 * 2 ^ (-53 : ℤ) := by
  have := near64 (x := -15 / (4547367416013686 * 2 ^ (-48 : ℤ))) (-8362974558186091) (-53) (by norm_num) (by norm_num [abs_of_pos, abs_of_neg]) (by norm_num [abs_of_pos, abs_of_neg]) (by rw [abs_lt]; constructor <;> norm_num)
  push_cast at this
  exact this

theorem w_p : Near64.rnd ((-6690379646548873 * 2 ^ (-54 : ℤ)) * (8362974558186091 * 2 ^ (-53 : ℤ))) = -6211861554993789 * 2 ^ (-54 : ℤ) := by
  have := near64 (x := (-6690379646548873 * 2 ^ (-54 : ℤ)) * (8362974558186091 * 2 ^ (-53 : ℤ))) (-6211861554993789) (-54) (by norm_num) (by norm_num [abs_of_pos, abs_of_neg]) (by norm_num [abs_of_pos, abs_of_neg]) (by rw [abs_lt]; constructor <;> norm_num)
  push_cast at this
  exact this

theorem w_q : Near64.rnd ((-8362974558186091 * 2 ^ (-53 : ℤ)) * (6690379646548872 * 2 ^ (-54 : ℤ))) = -6211861554993788 * 2 ^ (-54 : ℤ) := by
  have := near64 (x := (-8362974558186091 * 2 ^ (-53 : ℤ)) * (6690379646548872 * 2 ^ (-54 : ℤ))) (-6211861554993788) (-54) (by norm_num) (by norm_num [abs_of_pos, abs_of_neg]) (by norm_num [abs_of_pos, abs_of_neg]) (by rw [abs_lt]; constructor <;> norm_num)
  push_cast at this
  exact this

theorem w_c : Near64.rnd ((-6211861554993789 * 2 ^ (-54 : ℤ)) - (-6211861554993788 * 2 ^ (-54 : ℤ))) = -4503599627370496 * 2 ^ (-106 : ℤ) := by
  have := near64 (x := (-6211861554993789 * 2 ^ (-54 : ℤ)) - (-6211861554993788 * 2 ^ (-54 : ℤ))) (-4503599627370496) (-106) (by norm_num) (by norm_num [abs_of_pos, abs_of_neg]) (by norm_num [abs_of_pos, abs_of_neg]) (by rw [abs_lt]; constructor <;> norm_num)
  push_cast at this
  exact this

theorem w_a : Near64.rnd ((-6690379646548873 * 2 ^ (-54 : ℤ)) * (-6690379646548873 * 2 ^ (-54 : ℤ))) = 4969489243995031 * 2 ^ (-55 : ℤ) := by
  have := near64 (x := (-6690379646548873 * 2 ^ (-54 : ℤ)) * (-6690379646548873 * 2 ^ (-54 : ℤ))) (4969489243995031) (-55) (by norm_num) (by norm_num [abs_of_pos, abs_of_neg]) (by norm_num [abs_of_pos, abs_of_neg]) (by rw [abs_lt]; constructor <;> norm_num)
  push_cast at this
  exact this

theorem w_b : Near64.rnd ((-8362974558186091 * 2 ^ (-53 : ℤ)) * (-8362974558186091 * 2 ^ (-53 : ℤ))) = 7764826943742236 * 2 ^ (-53 : ℤ) := by
  have := near64 (x := (-8362974558186091 * 2 ^ (-53 : ℤ)) * (-8362974558186091 * 2 ^ (-53 : ℤ))) (7764826943742236) (-53) (by norm_num) (by norm_num [abs_of_pos, abs_of_neg]) (by norm_num [abs_of_pos, abs_of_neg]) (by rw [abs_lt]; constructor <;> norm_num)
  push_cast at this
  exact this

theorem w_n : Near64.rnd ((4969489243995031 * 2 ^ (-55 : ℤ)) + (7764826943742236 * 2 ^ (-53 : ℤ))) = 4503599627370497 * 2 ^ (-52 : ℤ) := by
  have := near64 (x := (4969489243995031 * 2 ^ (-55 : ℤ)) + (7764826943742236 * 2 ^ (-53 : ℤ))) (4503599627370497) (-52) (by norm_num) (by norm_num [abs_of_pos, abs_of_neg]) (by norm_num [abs_of_pos, abs_of_neg]) (by rw [abs_lt]; constructor <;> norm_num)
  push_cast at this
  exact this

theorem w_u0 : Near64.rnd ((-6690379646548873 * 2 ^ (-54 : ℤ)) / 1) = -6690379646548873 * 2 ^ (-54 : ℤ) := by
  have := near64 (x := (-6690379646548873 * 2 ^ (-54 : ℤ)) / 1) (-6690379646548873) (-54) (by norm_num) (by norm_num [abs_of_pos, abs_of_neg]) (by norm_num [abs_of_pos, abs_of_neg]) (by rw [abs_lt]; constructor <;> norm_num)
  push_cast at this
  exact this

theorem w_u1 : Near64.rnd ((-8362974558186091 * 2 ^ (-53 : ℤ)) / 1) = -8362974558186091 * 2 ^ (-53 : ℤ) := by
  have := near64 (x := (-8362974558186091 * 2 ^ (-53 : ℤ)) / 1) (-8362974558186091) (-53) (by norm_num) (by norm_num [abs_of_pos, abs_of_neg]) (by norm_num [abs_of_pos, abs_of_neg]) (by rw [abs_lt]; constructor <;> norm_num)
  push_cast at this
  exact this

theorem w_d0 : Near64.rnd ((6690379646548872 * 2 ^ (-54 : ℤ)) * (-6690379646548873 * 2 ^ (-54 : ℤ))) = -4969489243995031 * 2 ^ (-55 : ℤ) := by
  have := near64 (x := (6690379646548872 * 2 ^ (-54 : ℤ)) * (-6690379646548873 * 2 ^ (-54 : ℤ))) (-4969489243995031) (-55) (by norm_num) (by norm_num [abs_of_pos, abs_of_neg]) (by norm_num [abs_of_pos, abs_of_neg]) (by rw [abs_lt]; constructor <;> norm_num)
  push_cast at this
  exact this

theorem w_d1 : Near64.rnd ((8362974558186091 * 2 ^ (-53 : ℤ)) * (-8362974558186091 * 2 ^ (-53 : ℤ))) = -7764826943742236 * 2 ^ (-53 : ℤ) := by
  have := near64 (x := (8362974558186091 * 2 ^ (-53 : ℤ)) * (-8362974558186091 * 2 ^ (-53 : ℤ))) (-7764826943742236) (-53) (by norm_num) (by norm_num [abs_of_pos, abs_of_neg]) (by norm_num [abs_of_pos, abs_of_neg]) (by rw [abs_lt]; constructor <;> norm_num)
  push_cast at this
  exact this

theorem w_d : Near64.rnd ((-4969489243995031 * 2 ^ (-55 : ℤ)) + (-7764826943742236 * 2 ^ (-53 : ℤ))) = -4503599627370497 * 2 ^ (-52 : ℤ) := by
  have := near64 (x := (-4969489243995031 * 2 ^ (-55 : ℤ)) + (-7764826943742236 * 2 ^ (-53 : ℤ))) (-4503599627370497) (-52) (by norm_num) (by norm_num [abs_of_pos, abs_of_neg]) (by norm_num [abs_of_pos, abs_of_neg]) (by rw [abs_lt]; constructor <;> norm_num)
  push_cast at this
  exact this

/-- representable already -/
theorem w_n' : Near64.rnd (4503599627370497 * 2 ^ (-52 : ℤ)) = 4503599627370497 * 2 ^ (-52 : ℤ) := by
  have := near64 (x := 4503599627370497 * 2 ^ (-52 : ℤ)) 4503599627370497 (-52) (by norm_num) (by norm_num [abs_of_pos]) (by norm_num [abs_of_pos]) (by norm_num)
  push_cast at this
  exact this

theorem w_d' : Near64.rnd (-4503599627370497 * 2 ^ (-52 : ℤ)) = -4503599627370497 * 2 ^ (-52 : ℤ) := by
  have := near64 (x := -4503599627370497 * 2 ^ (-52 : ℤ)) (-4503599627370497) (-52) (by norm_num) (by norm_num [abs_of_neg]) (by norm_num [abs_of_neg]) (by norm_num)
  push_cast at this
  exact this

theorem w_r : Near64.rnd (Real.sqrt (4503599627370497 * 2 ^ (-52 : ℤ))) = 1 := by
  have lo : (1 : ℝ) ≤ Real.sqrt (4503599627370497 * 2 ^ (-52 : ℤ)) := Real.le_sqrt_of_sq_le (by norm_num)
  have hi : Real.sqrt (4503599627370497 * 2 ^ (-52 : ℤ)) < 1 + 2 ^ (-53 : ℤ) := by rw [Real.sqrt_lt' (by norm_num)]; norm_num
  have := near64 (x := Real.sqrt (4503599627370497 * 2 ^ (-52 : ℤ))) 4503599627370496 (-52) (by norm_num) (by rw [abs_of_nonneg (Real.sqrt_nonneg _)]; norm_num at lo ⊢; linarith)
    (by rw [abs_of_nonneg (Real.sqrt_nonneg _)]; norm_num at hi ⊢; linarith) (by rw [abs_lt]; norm_num at lo hi ⊢; constructor <;> linarith)
  rw [this]; norm_num

end S2P
