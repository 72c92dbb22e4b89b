import Verif.Lemmas.NearDouble

set_option linter.unusedSectionVars false
set_option linter.unusedVariables false
set_option linter.unusedSimpArgs false

/-! # Quotients with a denominator that may be zero, in rounded arithmetic -/

namespace S2P

/-- `X` is positive, maybe infinite, and its reciprocal is within `ε` of `q` -/
def Recip {R : Rounding} (X : Fl R) (q ε : ℝ) : Prop := (X = (Ext.pinf : Ext ℝ) ∧ q ≤ ε) ∨ ∃ x : ℝ, 0 < x ∧ X = (Ext.fin x : Ext ℝ) ∧ |1 / x - q| ≤ ε

section
variable {R : Rounding}

theorem Recip.mono {X : Fl R} {q ε δ : ℝ} (h : Recip X q ε) (hd : ε ≤ δ) : Recip X q δ := by
  rcases h with ⟨h1, h2⟩ | ⟨x, h0, h1, h2⟩
  · exact Or.inl ⟨h1, h2.trans hd⟩
  · exact Or.inr ⟨x, h0, h1, h2.trans hd⟩

theorem Recip.min {X Y : Fl R} {p q ε : ℝ} (hp : 0 ≤ p) (hq : 0 ≤ q) (hX : Recip X p ε) (hY : Recip Y q ε) : Recip (FP.min X Y) (max p q) ε := by
  rcases hX with ⟨rfl, x2⟩ | ⟨x, x0, rfl, x2⟩ <;> rcases hY with ⟨rfl, y2⟩ | ⟨y, y0, rfl, y2⟩
  · left
    exact ⟨rfl, max_le x2 y2⟩
  · right
    refine ⟨y, y0, rfl, ?_⟩
    rw [abs_le] at y2 ⊢
    have : 0 < 1 / y := by positivity
    rcases max_cases p q with ⟨e, _⟩ | ⟨e, _⟩ <;> rw [e] <;> constructor <;> linarith
  · right
    refine ⟨x, x0, rfl, ?_⟩
    rw [abs_le] at x2 ⊢
    have : 0 < 1 / x := by positivity
    rcases max_cases p q with ⟨e, _⟩ | ⟨e, _⟩ <;> rw [e] <;> constructor <;> linarith
  · right
    have e : FP.min (α := Fl R) (Ext.fin x : Ext ℝ) (Ext.fin y : Ext ℝ) = (Ext.fin (if y < x then y else x) : Ext ℝ) := by
      show (if decide (y < x) = true then _ else _) = _
      by_cases h : y < x <;> simp [h] <;> rfl
    refine ⟨_, ?_, e, ?_⟩
    · split_ifs <;> assumption
    · rw [abs_le] at x2 y2 ⊢
      split_ifs with h
      · have : 1 / x < 1 / y := one_div_lt_one_div_of_lt y0 h
        rcases max_cases p q with ⟨e, _⟩ | ⟨e, _⟩ <;> rw [e] <;> constructor <;> linarith
      · have : 1 / y ≤ 1 / x := one_div_le_one_div_of_le x0 (not_lt.1 h)
        rcases max_cases p q with ⟨e, _⟩ | ⟨e, _⟩ <;> rw [e] <;> constructor <;> linarith

theorem abs_fl (x : ℝ) : FP.abs (α := Fl R) (Ext.fin x : Ext ℝ) = (Ext.fin |x| : Ext ℝ) := by
  unfold FP.abs
  rw [lit_zero R]
  show (if decide (x < 0) = true then (Ext.fin (-x) : Ext ℝ) else Ext.fin x) = _
  by_cases h : x < 0
  · simp [h, abs_of_neg h]
  · simp [h, abs_of_nonneg (not_lt.1 h)]

theorem abs_pinf : FP.abs (α := Fl R) (Ext.pinf : Ext ℝ) = (Ext.pinf : Ext ℝ) := by
  unfold FP.abs
  rw [lit_zero R]
  rfl

theorem abs_ninf : FP.abs (α := Fl R) (Ext.ninf : Ext ℝ) = (Ext.pinf : Ext ℝ) := by
  unfold FP.abs
  rw [lit_zero R]
  rfl

/-- what a rounded number is, in size -/
theorem abs_fix (y : ℝ) : FP.abs (α := Fl R) (R.fix (.fin y) : Ext ℝ) = (Ext.pinf : Ext ℝ) ∧ 2 ^ 1024 ≤ |R.rnd y| ∨
    FP.abs (α := Fl R) (R.fix (.fin y) : Ext ℝ) = (Ext.fin |R.rnd y| : Ext ℝ) := by
  show (FP.abs (α := Fl R) (overflow (2 ^ 1024) (R.rnd y) : Ext ℝ) = _ ∧ _) ∨ FP.abs (α := Fl R) (overflow (2 ^ 1024) (R.rnd y) : Ext ℝ) = _
  have h0 : (0 : ℝ) < 2 ^ 1024 := by positivity
  generalize (2 : ℝ) ^ 1024 = T at *
  unfold overflow
  split_ifs with h1 h2
  · exact Or.inl ⟨abs_pinf, h1.trans (le_abs_self _)⟩
  · exact Or.inl ⟨abs_ninf, by rw [abs_of_neg (by linarith)]; linarith⟩
  · exact Or.inr (abs_fl _)

section
variable (hR : R.Accurate)
include hR

/-- the size of the quotient of `w`, about `W`, by `c`, about `E` -/
theorem recip_div {w c : Fl R} {W E ε κ : ℝ} (hw : Fl.Near w W (W / 2 ^ 45)) (hW : 1 ≤ W) (hW2 : W ≤ 2 ^ 40) (hc : Fl.Near c E ε) (hE : |E| ≤ κ)
    (hκ1 : 1 / 2 ^ 45 ≤ κ) (hκ : κ ≤ 2 ^ 45) (hε1 : κ / 2 ^ 30 ≤ ε) (hε : ε ≤ κ) : Recip (FP.abs (w / c)) (|E| / W) (3 * ε) := by
  obtain ⟨w, rfl, hw⟩ := hw
  obtain ⟨c, rfl, hc⟩ := hc
  have hW0 : 0 < W := by linarith
  have hκ0 : 0 < κ := lt_of_lt_of_le (by positivity) hκ1
  rw [abs_le] at hw
  have hw1 : W * (1 - 1 / 2 ^ 45) ≤ w := by norm_num at hw ⊢; linarith [hw.1]
  have hw2 : w ≤ W * (1 + 1 / 2 ^ 45) := by norm_num at hw ⊢; linarith [hw.2]
  have hwp : W / 2 ≤ w := by norm_num at hw1 ⊢; linarith
  have hw0 : 0 < w := by linarith
  have hEc : |(|c| - |E|)| ≤ ε := (abs_abs_sub_abs_le _ _).trans hc
  rw [abs_le] at hEc
  have hε0 : 0 ≤ ε := by linarith [hEc.1, hEc.2]
  by_cases h0 : c = 0
  · subst h0
    left
    have e : Div.div (α := Fl R) (Ext.fin w : Ext ℝ) (Ext.fin 0 : Ext ℝ) = (Ext.pinf : Ext ℝ) := by
      show R.fix (if (0 : ℝ) = 0 then Ext.infSign w else _) = _
      rw [if_pos rfl, Ext.infSign, if_neg hw0.ne', if_pos hw0]
      rfl
    refine ⟨?_, ?_⟩
    · show FP.abs (Div.div (α := Fl R) (Ext.fin w : Ext ℝ) (Ext.fin 0 : Ext ℝ)) = _
      rw [e]; exact abs_pinf
    · rw [abs_zero] at hEc
      rw [div_le_iff₀ hW0]
      nlinarith [hEc.1]
  · have ec : Div.div (α := Fl R) (Ext.fin w : Ext ℝ) (Ext.fin c : Ext ℝ) = R.fix (.fin (w / c)) := by
      show R.fix (if c = 0 then _ else _) = _
      rw [if_neg h0]
    show Recip (FP.abs (Div.div (α := Fl R) (Ext.fin w : Ext ℝ) (Ext.fin c : Ext ℝ))) _ _
    rw [ec]
    have hc0 : 0 < |c| := abs_pos.2 h0
    -- the exact quotient
    have hq : |(|c| / w - |E| / W)| ≤ 2 * ε + κ / 2 ^ 40 := by
      have e : |c| / w - |E| / W = (|c| - |E|) / w + |E| * (W - w) / (w * W) := by field_simp; ring
      rw [e]
      refine (abs_add_le _ _).trans (add_le_add ?_ ?_)
      · rw [abs_div, abs_of_pos hw0, div_le_iff₀ hw0]
        have : |(|c| - |E|)| ≤ ε := abs_le.2 hEc
        nlinarith
      · rw [abs_div, abs_mul, abs_abs, abs_of_pos (by positivity : 0 < w * W), div_le_iff₀ (by positivity)]
        have h1 : |W - w| ≤ W / 2 ^ 45 := by rw [abs_le]; constructor <;> linarith
        have h2 := mul_le_mul hE h1 (abs_nonneg _) hκ0.le
        have h3 : W ≤ 2 * (w * W) := by nlinarith
        have h4 : κ * W ≤ κ * (2 * (w * W)) := mul_le_mul_of_nonneg_left h3 hκ0.le
        have h5 : κ * (W / 2 ^ 45) = κ * W / 2 ^ 45 := by ring
        rw [h5] at h2
        refine h2.trans ?_
        have h6 : κ / 2 ^ 40 * (w * W) = κ * (2 * (w * W)) / 2 ^ 41 := by ring
        rw [h6]
        refine (div_le_div_of_nonneg_right h4 (by positivity)).trans (div_le_div_of_nonneg_left (by positivity) (by positivity) ?_)
        exact pow_le_pow_right₀ (by norm_num) (by norm_num)
    have hyc : |w / c| = w / |c| := by rw [abs_div, abs_of_pos hw0]
    have hcb : |c| ≤ 2 ^ 46 := by
      norm_num at hκ ⊢; linarith [hEc.2]
    have hylo : 1 / 2 ^ 47 ≤ |w / c| := by
      rw [hyc, le_div_iff₀ hc0]
      norm_num at hcb ⊢; linarith
    have err := hR.err (w / c)
    have err2 : |(|R.rnd (w / c)| - |w / c|)| ≤ |w / c| / 2 ^ 50 := by
      refine (abs_abs_sub_abs_le _ _).trans (err.trans ?_)
      have h7 : (1 : ℝ) / 2 ^ 200 ≤ (1 / 2 ^ 47) / 2 ^ 60 := by
        rw [div_div, ← pow_add]; exact one_div_le_one_div_of_le (by positivity) (pow_le_pow_right₀ (by norm_num) (by norm_num))
      generalize |w / c| = y at *
      generalize (1 : ℝ) / 2 ^ 200 = t at *
      norm_num at h7 hylo ⊢
      linarith
    rw [abs_le] at err2
    have hx1 : |w / c| * (1 - 1 / 2 ^ 50) ≤ |R.rnd (w / c)| := by
      generalize |R.rnd (w / c)| = z at *
      generalize |w / c| = y at *
      norm_num at err2 ⊢; linarith [err2.1]
    have hx2 : |R.rnd (w / c)| ≤ |w / c| * (1 + 1 / 2 ^ 50) := by
      generalize |R.rnd (w / c)| = z at *
      generalize |w / c| = y at *
      norm_num at err2 ⊢; linarith [err2.2]
    have hyp : 0 < |w / c| := lt_of_lt_of_le (by positivity) hylo
    rcases abs_fix (R := R) (w / c) with ⟨e1, e2⟩ | e1
    · left
      refine ⟨e1, ?_⟩
      have hy : 2 ^ 100 ≤ |w / c| := by
        have h8 : (2 : ℝ) ^ 102 ≤ |R.rnd (w / c)| := le_trans (pow_le_pow_right₀ (by norm_num) (by norm_num)) e2
        clear e2 e1
        generalize |R.rnd (w / c)| = z at *
        generalize |w / c| = y at *
        norm_num at h8 hx2 ⊢; linarith
      have hcw : |c| / w ≤ 1 / 2 ^ 100 := by
        rw [hyc, le_div_iff₀ hc0] at hy
        rw [div_le_div_iff₀ hw0 (by positivity)]
        linarith
      rw [abs_le] at hq
      have := hq.1
      clear e1 e2 hx1 hx2 err err2 hy hyp hylo hyc hcb
      norm_num at hκ1 hε1 hcw this ⊢
      linarith
    · right
      have hz : 0 < |R.rnd (w / c)| := lt_of_lt_of_le (by
        refine mul_pos hyp ?_
        norm_num) hx1
      refine ⟨_, hz, e1, ?_⟩
      have hinv : |1 / |R.rnd (w / c)| - |c| / w| ≤ |c| / w / 2 ^ 48 := by
        have e : |c| / w = 1 / |w / c| := by rw [hyc]; field_simp
        rw [e]
        clear e1 err hcb hq hyc
        generalize |R.rnd (w / c)| = z at *
        generalize |w / c| = y at *
        have e3 : 1 / z - 1 / y = (y - z) / (z * y) := by field_simp
        rw [e3, abs_div, abs_of_pos (by positivity : 0 < z * y), div_le_iff₀ (by positivity)]
        have e4 : 1 / y / 2 ^ 48 * (z * y) = z / 2 ^ 48 := by field_simp
        rw [e4, abs_le]
        norm_num at err2 hx1 hx2 ⊢
        constructor <;> linarith [err2.1, err2.2]
      have hcw : |c| / w ≤ 4 * κ := by
        rw [div_le_iff₀ hw0]
        nlinarith [hEc.2]
      rw [abs_le] at hinv hq ⊢
      clear e1 err err2 hx1 hx2 hyp hylo hyc hcb
      generalize 1 / |R.rnd (w / c)| = z at *
      norm_num at hε1 hinv hq ⊢
      constructor <;> linarith [hinv.1, hinv.2, hq.1, hq.2]

/-- back to a number -/
theorem recip_fin {X : Fl R} {G κ ζ : ℝ} (hG : 0 < G) (hκ : 0 < κ) (h : Recip X (κ / G) (ζ * κ)) (hs : ζ * G ≤ 1 / 2) (hζ : 0 ≤ ζ) :
    Fl.Near X (G / κ) (2 * (ζ * G ^ 2) / κ) := by
  rcases h with ⟨-, h⟩ | ⟨x, h0, rfl, h⟩
  · exfalso
    rw [div_le_iff₀ hG] at h
    nlinarith
  · refine ⟨x, rfl, ?_⟩
    have e : x - G / κ = -(x * G / κ) * (1 / x - κ / G) := by field_simp; ring
    rw [e, abs_mul, abs_neg, abs_of_pos (by positivity : 0 < x * G / κ)]
    have hx : x ≤ 2 * G / κ := by
      rw [abs_le] at h
      have h1 : κ / G / 2 ≤ 1 / x := by
        have : ζ * κ ≤ κ / G / 2 := by
          rw [div_div, le_div_iff₀ (by positivity)]
          nlinarith
        linarith [h.1]
      rw [le_div_iff₀ hκ]
      rw [div_div, div_le_div_iff₀ (by positivity) h0] at h1
      linarith
    calc x * G / κ * |1 / x - κ / G| ≤ (2 * G / κ) * G / κ * (ζ * κ) := by
          refine mul_le_mul ?_ h (abs_nonneg _) (by positivity)
          exact div_le_div_of_nonneg_right (mul_le_mul_of_nonneg_right hx hG.le) hκ.le
      _ = 2 * (ζ * G ^ 2) / κ := by field_simp

end
end
end S2P
