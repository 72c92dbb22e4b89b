import Verif.Spec.Clear
import Verif.Lemmas.AccuracyInk

set_option linter.unusedSectionVars false
set_option linter.unusedVariables false
set_option linter.unusedSimpArgs false

/-! # Crossings of two edges in rounded arithmetic -/

namespace S2P

/-- sizes for which products are accurate too -/
structure Small (M : ℝ) : Prop where
  one : 1 ≤ M
  top : M ≤ 2 ^ 40

theorem Small.sq {M : ℝ} (h : Small M) : 1 ≤ M ^ 2 ∧ M ≤ M ^ 2 ∧ M ^ 2 ≤ 2 ^ 80 := by
  have h1 := h.one
  have h2 := h.top
  refine ⟨by nlinarith, by nlinarith, ?_⟩
  calc M ^ 2 ≤ (2 ^ 40) ^ 2 := pow_le_pow_left₀ (by linarith) h2 2
    _ = 2 ^ 80 := by norm_num

theorem top_of {S : ℝ} (h : S ≤ 2 ^ 100) : S ≤ 2 ^ 1000 := h.trans (pow_le_pow_right₀ (by norm_num) (by norm_num))

section
variable {R : Rounding} (hR : R.Accurate)
include hR

theorem diff_near {M : ℝ} (hM : Small M) {x y : Fl R} {a b : ℝ} (hx : Fl.Near x a 0) (hy : Fl.Near y b 0) (ha : |a| ≤ 4 * M) (hb : |b| ≤ 4 * M) :
    Fl.Near (x - y) (a - b) (M / 2 ^ 47) ∧ |a - b| ≤ 8 * M := by
  have h1 := hM.one
  have h2 := hM.top
  have t := abs_sub a b
  refine ⟨(hx.sub hR hy (S := 8 * M) (by linarith) (by norm_num; linarith) (top_of (by norm_num at h2 ⊢; linarith))).mono ?_, by linarith⟩
  norm_num; linarith

theorem prod_near {M : ℝ} (hM : Small M) {x y : Fl R} {a b : ℝ} (hx : Fl.Near x a (M / 2 ^ 47)) (hy : Fl.Near y b (M / 2 ^ 47)) (ha : |a| ≤ 8 * M)
    (hb : |b| ≤ 8 * M) : Fl.Near (x * y) (a * b) (M ^ 2 / 2 ^ 42) ∧ |a * b| ≤ 64 * M ^ 2 := by
  obtain ⟨s1, s2, s3⟩ := hM.sq
  have h1 := hM.one
  refine ⟨(hx.mul hR hy ha hb (S := 65 * M ^ 2) (by norm_num; nlinarith) (by norm_num; linarith) (top_of (by norm_num at s3 ⊢; linarith))).mono ?_, ?_⟩
  · norm_num; nlinarith
  · rw [abs_mul]
    have := mul_le_mul ha hb (abs_nonneg _) (by linarith)
    nlinarith

theorem cross_near {M : ℝ} (hM : Small M) {x y z w : Fl R} {a b c d : ℝ} (hx : Fl.Near x a (M / 2 ^ 47)) (hy : Fl.Near y b (M / 2 ^ 47))
    (hz : Fl.Near z c (M / 2 ^ 47)) (hw : Fl.Near w d (M / 2 ^ 47)) (ha : |a| ≤ 8 * M) (hb : |b| ≤ 8 * M) (hc : |c| ≤ 8 * M) (hd : |d| ≤ 8 * M) :
    (Fl.Near (x * y - z * w) (a * b - c * d) (M ^ 2 / 2 ^ 40) ∧ Fl.Near (-x * y + z * w) (-a * b + c * d) (M ^ 2 / 2 ^ 40)) ∧
    |a * b - c * d| ≤ 128 * M ^ 2 ∧ |-a * b + c * d| ≤ 128 * M ^ 2 := by
  obtain ⟨s1, s2, s3⟩ := hM.sq
  obtain ⟨p1, p2⟩ := prod_near hR hM hx hy ha hb
  obtain ⟨q1, q2⟩ := prod_near hR hM hz hw hc hd
  obtain ⟨r1, r2⟩ := prod_near hR hM hx.neg hy (by rwa [abs_neg]) hb
  have t1 := abs_sub (a * b) (c * d)
  have t2 := abs_add_le (-a * b) (c * d)
  refine ⟨⟨?_, ?_⟩, by linarith, by linarith⟩
  · refine (p1.sub hR q1 (S := 130 * M ^ 2) (by norm_num; linarith) (by norm_num; linarith) (top_of (by norm_num at s3 ⊢; linarith))).mono ?_
    norm_num; linarith
  · refine (r1.add hR q1 (S := 130 * M ^ 2) (by norm_num at t2 r2 q2 ⊢; linarith) (by norm_num; linarith) (top_of (by norm_num at s3 ⊢; linarith))).mono ?_
    norm_num; linarith

/-! ## The quotient -/

omit hR in
theorem fix_above {x : ℝ} (h : 1 < R.rnd x) : Ext.le (R.fix (.fin x)) (.fin 1) = false := by
  show Ext.le (overflow _ (R.rnd x)) _ = false
  unfold overflow
  split_ifs with h1 h2
  · rfl
  · exfalso
    have : (0 : ℝ) < 2 ^ 1024 := by positivity
    generalize (2 : ℝ) ^ 1024 = w at *
    linarith
  · simp [Ext.le, h]

omit hR in
theorem fix_below {x : ℝ} (h : R.rnd x < 0) : Ext.le (.fin 0) (R.fix (.fin x)) = false := by
  show Ext.le _ (overflow _ (R.rnd x)) = false
  unfold overflow
  split_ifs with h1 h2
  · exfalso
    have : (0 : ℝ) < 2 ^ 1024 := by positivity
    generalize (2 : ℝ) ^ 1024 = w at *
    linarith
  · rfl
  · simp [Ext.le, h]

/-- one divided by a number that is not large -/
theorem recip_err {D : ℝ} (hD : D ≠ 0) (hD1 : |D| ≤ 2 ^ 90) : |R.rnd (1 / D) - 1 / D| ≤ |1 / D| / 2 ^ 51 := by
  have h1 : 1 / 2 ^ 90 ≤ |1 / D| := by
    rw [abs_div, abs_one]
    exact one_div_le_one_div_of_le (abs_pos.2 hD) hD1
  have := hR.err (1 / D)
  norm_num at *
  linarith

/-- the quotient, as the program computes it, is not between 0 and 1 -/
theorem quot_out {N D μ : ℝ} (hμ : 1 / 2 ^ 40 ≤ μ) (hD1 : |D| ≤ 2 ^ 90) (hDμ : |D| ≤ μ * 2 ^ 40) (hN : μ ≤ |N|) (hND : 0 < N * D → |D| + μ ≤ |N|)
    {n d : Fl R} (hn : n = (Ext.fin N : Ext ℝ)) (hd : d = (Ext.fin D : Ext ℝ)) :
    ¬ (FP.le (FP.lit 0) (n * (FP.lit 1 / d)) = true ∧ FP.le (n * (FP.lit 1 / d)) (FP.lit 1) = true) := by
  subst hn hd
  have hμ0 : 0 < μ := lt_of_lt_of_le (by norm_num) hμ
  have hN0 : N ≠ 0 := by rintro rfl; simp at hN; linarith
  rw [lit_zero, lit_one_fl]
  rintro ⟨h0, h1⟩
  change Ext.le (.fin 0) (R.fix (Ext.mul (.fin N) (R.fix (Ext.div (.fin 1) (.fin D))))) = true at h0
  change Ext.le (R.fix (Ext.mul (.fin N) (R.fix (Ext.div (.fin 1) (.fin D))))) (.fin 1) = true at h1
  have inf : ∀ z : Ext ℝ, (z = .pinf ∨ z = .ninf) → Ext.le (.fin 0) (R.fix (Ext.mul (.fin N) z)) = true → Ext.le (R.fix (Ext.mul (.fin N) z)) (.fin 1) = true → False := by
    rintro z (rfl | rfl) h0 h1 <;> simp only [Ext.mul, Ext.infSign, if_neg hN0] at h0 h1 <;> split_ifs at h0 h1 <;>
      simp [Ext.neg, Rounding.fix, Ext.le] at h0 h1
  by_cases hD : D = 0
  · subst hD
    refine inf (R.fix (Ext.div (.fin 1) (.fin 0))) (Or.inl ?_) h0 h1
    simp [Ext.div, Ext.infSign, Rounding.fix]
  have e1 : (Ext.div (.fin 1) (.fin D) : Ext ℝ) = .fin (1 / D) := by simp [Ext.div, hD]
  rw [e1] at h0 h1
  have herr := recip_err hR hD hD1
  rcases hq : R.fix (.fin (1 / D)) with q | _ | _ | _
  · obtain ⟨rfl, -⟩ := overflow_of_fin (a := q) (t := 2 ^ 1024) hq
    rw [hq] at h0 h1
    simp only [Ext.mul] at h0 h1
    set q := R.rnd (1 / D) with hqd
    have hx0 : |1 / D| = 1 / |D| := by rw [abs_div, abs_one]
    have hDp := abs_pos.2 hD
    have hNp := abs_pos.2 hN0
    have hqN : |N * q - N / D| ≤ |N / D| / 2 ^ 51 := by
      rw [show N * q - N / D = N * (q - 1 / D) by ring, abs_mul, show N / D = N * (1 / D) by ring, abs_mul, mul_div_assoc]
      exact mul_le_mul_of_nonneg_left herr (abs_nonneg _)
    have hlow : 1 / 2 ^ 130 ≤ |N / D| := by
      rw [abs_div, le_div_iff₀ hDp]
      norm_num at *
      linarith
    have hrr := hR.err (N * q)
    rcases lt_or_gt_of_ne (mul_ne_zero hN0 hD) with hs | hs
    · -- negative
      have hneg : N / D < 0 := by
        rw [show N / D = N * D / (D * D) by field_simp]
        exact div_neg_of_neg_of_pos hs (mul_self_pos.2 hD)
      rw [abs_of_neg hneg] at hqN hlow
      rw [abs_le] at hqN
      have hNq : N * q < 0 := by norm_num at *; linarith
      rw [abs_of_neg hNq, abs_le] at hrr
      rw [fix_below (by norm_num at *; linarith)] at h0
      cases h0
    · have hpos : 0 < N / D := by
        rw [show N / D = N * D / (D * D) by field_simp]
        exact div_pos hs (mul_self_pos.2 hD)
      have hbig : 1 + 1 / 2 ^ 40 ≤ N / D := by
        rw [← abs_of_pos hpos, abs_div, le_div_iff₀ hDp]
        have := hND hs
        norm_num at *
        linarith
      rw [abs_of_pos hpos, abs_le] at hqN
      have hNq : 0 < N * q := by norm_num at *; linarith
      rw [abs_of_pos hNq, abs_le] at hrr
      rw [fix_above (by norm_num at *; linarith)] at h1
      cases h1
  · exact inf _ (Or.inl rfl) (by rw [hq] at h0; exact h0) (by rw [hq] at h1; exact h1)
  · exact inf _ (Or.inr rfl) (by rw [hq] at h0; exact h0) (by rw [hq] at h1; exact h1)
  · exfalso
    change overflow _ _ = _ at hq
    unfold overflow at hq
    split_ifs at hq

/-- the quotient, as the program computes it, is near the exact one, if the divisor is not small -/
theorem quot_near {M : ℝ} (hM : Small M) {n d : Fl R} {N D t : ℝ} (hn : Fl.Near n N (M ^ 2 / 2 ^ 40)) (hd : Fl.Near d D (M ^ 2 / 2 ^ 40))
    (hD1 : |D| ≤ 128 * M ^ 2) (hN1 : |N| ≤ 128 * M ^ 2)
    (hκ : M ^ 2 / 2 ^ 15 ≤ |D|) (ht : n * (FP.lit 1 / d) = (Ext.fin t : Ext ℝ)) (h0 : 0 ≤ t) (h1 : t ≤ 1) : |t - N / D| ≤ 1 / 2 ^ 22 := by
  obtain ⟨s1, s2, s3⟩ := hM.sq
  generalize M ^ 2 = Q at *
  obtain ⟨N', rfl, hN'⟩ := hn
  obtain ⟨D', rfl, hD'⟩ := hd
  have hDD : |D| - Q / 2 ^ 40 ≤ |D'| := by
    have := abs_add_le (D - D') D'
    rw [sub_add_cancel, abs_sub_comm] at this
    linarith
  have hDu : |D'| ≤ |D| + Q / 2 ^ 40 := by
    have := abs_add_le (D' - D) D
    rw [sub_add_cancel] at this
    linarith
  have hD0 : D' ≠ 0 := by rintro rfl; simp at hDD; norm_num at hDD hκ s1; linarith
  have hDz : D ≠ 0 := by rintro rfl; simp at hκ; norm_num at hκ s1; linarith
  have hD'p := abs_pos.2 hD0
  have herr := recip_err hR hD0 (by norm_num at *; linarith)
  rw [lit_one_fl] at ht
  change R.fix (Ext.mul (.fin N') (R.fix (Ext.div (.fin 1) (.fin D')))) = .fin t at ht
  have e1 : (Ext.div (.fin 1) (.fin D') : Ext ℝ) = .fin (1 / D') := by simp [Ext.div, hD0]
  rw [e1] at ht
  have hfin : ∃ q, R.fix (.fin (1 / D')) = .fin q := by
    have : |1 / D'| ≤ 2 ^ 16 := by
      rw [abs_div, abs_one, div_le_iff₀ hD'p]
      norm_num at hDD hκ s1 ⊢; linarith
    obtain ⟨a, ha, -⟩ := fix_bd R (n := 16) (by norm_num) this
    exact ⟨a, ha⟩
  obtain ⟨q, hq⟩ := hfin
  rw [hq] at ht
  obtain ⟨rfl, -⟩ := overflow_of_fin (a := q) (t := 2 ^ 1024) hq
  simp only [Ext.mul] at ht
  obtain ⟨rfl, -⟩ := overflow_of_fin (a := t) (t := 2 ^ 1024) ht
  set q := R.rnd (1 / D') with hqd
  have hqN : |N' * q - N' / D'| ≤ |N' / D'| / 2 ^ 51 := by
    rw [show N' * q - N' / D' = N' * (q - 1 / D') by ring, abs_mul, show N' / D' = N' * (1 / D') by ring, abs_mul, mul_div_assoc]
    exact mul_le_mul_of_nonneg_left herr (abs_nonneg _)
  have hrr := hR.err (N' * q)
  set t := R.rnd (N' * q) with htd
  -- sizes
  have b0 : |N' * q| ≤ 2 := by
    by_contra hcon
    push Not at hcon
    have := abs_add_le (N' * q - t) t
    rw [sub_add_cancel, abs_sub_comm, abs_of_nonneg h0] at this
    norm_num at *
    linarith
  have b1 : |N' / D'| ≤ 3 := by
    have := abs_add_le (N' / D' - N' * q) (N' * q)
    rw [sub_add_cancel, abs_sub_comm] at this
    norm_num at *
    linarith
  have b2 : |t - N' / D'| ≤ 1 / 2 ^ 48 := by
    have := abs_add_le (t - N' * q) (N' * q - N' / D')
    rw [sub_add_sub_cancel] at this
    norm_num at *
    linarith
  have b3 : |N' / D' - N / D| ≤ 1 / 2 ^ 23 := by
    have e : N' / D' - N / D = ((N' - N) - N' / D' * (D' - D)) / D := by field_simp; ring
    rw [e, abs_div, div_le_iff₀ (abs_pos.2 hDz)]
    refine (abs_sub _ _).trans ?_
    rw [abs_mul]
    have := mul_le_mul b1 hD' (abs_nonneg _) (by norm_num)
    norm_num at *
    linarith
  have := abs_add_le (t - N' / D') (N' / D' - N / D)
  rw [sub_add_sub_cancel] at this
  norm_num at *
  linarith

/-! ## The pair -/

theorem point_near {M : ℝ} (hM : Small M) {x y i : Fl R} {a b t : ℝ} (hx : Fl.Near x a 0) (hy : Fl.Near y b 0) (hi : i = (Ext.fin t : Ext ℝ))
    (ha : |a| ≤ 4 * M) (hb : |b| ≤ 4 * M) (h0 : 0 ≤ t) (h1 : t ≤ 1) : Fl.Near (x + (y - x) * i) (a + (b - a) * t) (M / 2 ^ 44) := by
  have h1M := hM.one
  have hMt := hM.top
  subst hi
  obtain ⟨d, hd⟩ := diff_near hR hM hy hx hb ha
  have ht : |t| ≤ 1 := by rw [abs_le]; constructor <;> linarith
  have p := d.mul hR (Fl.near_fin t) hd ht (S := 9 * M) (by norm_num; linarith) (by norm_num; linarith) (top_of (by norm_num at hMt ⊢; linarith))
  have t2 := abs_add_le a ((b - a) * t)
  have t3 : |(b - a) * t| ≤ 8 * M := by rw [abs_mul]; nlinarith [abs_nonneg (b - a), abs_nonneg t]
  refine (hx.add hR p (S := 13 * M) (by norm_num at t2 t3 ⊢; linarith) (by norm_num; linarith) (top_of (by norm_num at hMt ⊢; linarith))).mono ?_
  norm_num; linarith

omit hR in
/-- a coordinate exactly as the real number -/
def Exact (p : V3 (Fl R)) (a : V3 ℝ) (M : ℝ) : Prop := V3.NearTo p a 0 ∧ a.Within (4 * M)

omit hR in
/-- `p` and `q` are the points found where the edges `E` and `F` cross on the page -/
def Met (M : ℝ) (E F : Edge ℝ) (p q : V3 (Fl R)) : Prop :=
  ∃ s t : ℝ, 0 ≤ s ∧ s ≤ 1 ∧ 0 ≤ t ∧ t ≤ 1 ∧ V3.NearTo p (edgeAt E s) (M / 2 ^ 44) ∧ V3.NearTo q (edgeAt F t) (M / 2 ^ 44) ∧
    ¬ Apart (M ^ 2 / 2 ^ 31) E.1 E.2 F.1 F.2 ∧
    (M ^ 2 / 2 ^ 15 ≤ |slant E.1 E.2 F.1 F.2| → ∃ s0 t0 : ℝ, |s - s0| ≤ 1 / 2 ^ 22 ∧ |t - t0| ≤ 1 / 2 ^ 22 ∧ (edgeAt E s0).xy = (edgeAt F t0).xy)

omit hR in
theorem Apart.symm {μ : ℝ} {a b c d : V3 ℝ} (h : Apart μ a b c d) : Apart μ c d a b := by
  unfold Apart at *; tauto

omit hR in
theorem slant_symm (a b c d : V3 ℝ) : slant c d a b = - slant a b c d := by unfold slant; ring

omit hR in
theorem Met.symm {M : ℝ} {E F : Edge ℝ} {p q : V3 (Fl R)} (h : Met M E F p q) : Met M F E q p := by
  obtain ⟨s, t, a1, a2, a3, a4, a5, a6, a7, a8⟩ := h
  refine ⟨t, s, a3, a4, a1, a2, a6, a5, fun h => a7 h.symm, fun h => ?_⟩
  rw [slant_symm, abs_neg] at h
  obtain ⟨s0, t0, b1, b2, b3⟩ := a8 h
  exact ⟨t0, s0, b2, b1, b3.symm⟩

theorem near_out {M N D : ℝ} (hM : Small M) {n d : Fl R} (hn : Fl.Near n N (M ^ 2 / 2 ^ 40)) (hd : Fl.Near d D (M ^ 2 / 2 ^ 40)) (hD : |D| ≤ 128 * M ^ 2)
    (h : (N ≤ -(M ^ 2 / 2 ^ 31) ∧ M ^ 2 / 2 ^ 31 ≤ D - N) ∨ (M ^ 2 / 2 ^ 31 ≤ N ∧ M ^ 2 / 2 ^ 31 ≤ N - D)) :
    ¬ (FP.le (FP.lit 0) (n * (FP.lit 1 / d)) = true ∧ FP.le (n * (FP.lit 1 / d)) (FP.lit 1) = true) := by
  obtain ⟨s1, s2, s3⟩ := hM.sq
  generalize M ^ 2 = Q at *
  obtain ⟨N', rfl, hN'⟩ := hn
  obtain ⟨D', rfl, hD'⟩ := hd
  have hDu : |D'| ≤ |D| + Q / 2 ^ 40 := by
    have := abs_add_le (D' - D) D
    rw [sub_add_cancel] at this
    linarith
  rw [abs_le] at hN' hD'
  have e : (2 : ℝ) ^ 80 = 1208925819614629174706176 := by norm_num
  refine quot_out hR (μ := Q / 2 ^ 32) (N := N') (D := D') (by norm_num; linarith) (by norm_num at *; linarith) (by norm_num at *; linarith) ?_ ?_ rfl rfl
  · rw [le_abs]
    rcases h with ⟨h1, h2⟩ | ⟨h1, h2⟩
    · right; norm_num at *; linarith
    · left; norm_num at *; linarith
  · intro hp
    rcases h with ⟨h1, h2⟩ | ⟨h1, h2⟩
    · have hN : N' < 0 := by norm_num at *; linarith
      have hD0 : D' < 0 := by by_contra hc; push Not at hc; nlinarith
      rw [abs_of_neg hN, abs_of_neg hD0]
      norm_num at *; linarith
    · have hN : 0 < N' := by norm_num at *; linarith
      have hD0 : 0 < D' := by by_contra hc; push Not at hc; nlinarith
      rw [abs_of_pos hN, abs_of_pos hD0]
      norm_num at *; linarith

theorem crossPair_met {M : ℝ} (hM : Small M) {v u : Nat} {ev eu : Edge (Fl R)} {E F : Edge ℝ} (a1 : Exact ev.1 E.1 M) (a2 : Exact ev.2 E.2 M)
    (a3 : Exact eu.1 F.1 M) (a4 : Exact eu.2 F.2 M) (x : Nat × Nat × V3 (Fl R)) (hx : x ∈ crossPair v u ev eu) :
    ∃ p q, ((x = (v, u, p) ∧ Met M E F p q) ∨ (x = (u, v, p) ∧ Met M F E p q)) ∧ FP.le p.z q.z = true := by
  obtain ⟨⟨x1, y1, z1⟩, ⟨wx1, wy1, wz1⟩⟩ := a1
  obtain ⟨⟨x2, y2, z2⟩, ⟨wx2, wy2, wz2⟩⟩ := a2
  obtain ⟨⟨x3, y3, z3⟩, ⟨wx3, wy3, wz3⟩⟩ := a3
  obtain ⟨⟨x4, y4, z4⟩, ⟨wx4, wy4, wz4⟩⟩ := a4
  obtain ⟨dvx, bvx⟩ := diff_near hR hM x2 x1 wx2 wx1
  obtain ⟨dvy, bvy⟩ := diff_near hR hM y2 y1 wy2 wy1
  obtain ⟨dux, bux⟩ := diff_near hR hM x4 x3 wx4 wx3
  obtain ⟨duy, buy⟩ := diff_near hR hM y4 y3 wy4 wy3
  obtain ⟨dx, bx⟩ := diff_near hR hM x3 x1 wx3 wx1
  obtain ⟨dy, by'⟩ := diff_near hR hM y3 y1 wy3 wy1
  obtain ⟨⟨hD, -⟩, bD, -⟩ := cross_near hR hM dux dvy dvx duy bux bvy bvx buy
  obtain ⟨⟨-, hJ⟩, -, bJ⟩ := cross_near hR hM duy dx dux dy buy bx bux by'
  obtain ⟨⟨-, hI⟩, -, bI⟩ := cross_near hR hM dvy dx dvx dy bvy bx bvx by'
  unfold crossPair at hx
  dsimp only at hx
  split at hx
  swap
  · simp at hx
  rename_i hin
  simp only [Bool.and_eq_true] at hin
  obtain ⟨⟨⟨i0, i1⟩, j0⟩, j1⟩ := hin
  obtain ⟨i, hi, hi0, hi1⟩ := le_unit i0 i1
  obtain ⟨j, hj, hj0, hj1⟩ := le_unit j0 j1
  have hmet : Met M E F (ev.1 + (ev.2 - ev.1).smul ((-(eu.2 - eu.1).y * (eu.1.x - ev.1.x) + (eu.2 - eu.1).x * (eu.1.y - ev.1.y)) *
        (FP.lit 1 / ((eu.2 - eu.1).x * (ev.2 - ev.1).y - (ev.2 - ev.1).x * (eu.2 - eu.1).y))))
      (eu.1 + (eu.2 - eu.1).smul ((-(ev.2 - ev.1).y * (eu.1.x - ev.1.x) + (ev.2 - ev.1).x * (eu.1.y - ev.1.y)) *
        (FP.lit 1 / ((eu.2 - eu.1).x * (ev.2 - ev.1).y - (ev.2 - ev.1).x * (eu.2 - eu.1).y)))) := by
    refine ⟨j, i, hj0, hj1, hi0, hi1, ⟨?_, ?_, ?_⟩, ⟨?_, ?_, ?_⟩, ?_, ?_⟩
    · exact point_near hR hM x1 x2 hj wx1 wx2 hj0 hj1
    · exact point_near hR hM y1 y2 hj wy1 wy2 hj0 hj1
    · exact point_near hR hM z1 z2 hj wz1 wz2 hj0 hj1
    · exact point_near hR hM x3 x4 hi wx3 wx4 hi0 hi1
    · exact point_near hR hM y3 y4 hi wy3 wy4 hi0 hi1
    · exact point_near hR hM z3 z4 hi wz3 wz4 hi0 hi1
    · intro hap
      have oi := near_out hR hM hI hD bD
      have oj := near_out hR hM hJ hD bD
      rcases hap with ⟨h1, h2⟩ | ⟨h1, h2⟩ | ⟨h1, h2⟩ | ⟨h1, h2⟩ <;> unfold leftOf at h1 h2
      · exact oi (Or.inr ⟨by linarith, by linarith⟩) ⟨i0, i1⟩
      · exact oi (Or.inl ⟨by linarith, by linarith⟩) ⟨i0, i1⟩
      · exact oj (Or.inl ⟨by linarith, by linarith⟩) ⟨j0, j1⟩
      · exact oj (Or.inr ⟨by linarith, by linarith⟩) ⟨j0, j1⟩
    · intro hκ
      have e : |(F.2.x - F.1.x) * (E.2.y - E.1.y) - (E.2.x - E.1.x) * (F.2.y - F.1.y)| = |slant E.1 E.2 F.1 F.2| := by
        rw [← abs_neg]; congr 1; unfold slant; ring
      rw [← e] at hκ
      have qi := quot_near hR hM hI hD bD bI hκ hi hi0 hi1
      have qj := quot_near hR hM hJ hD bD bJ hκ hj hj0 hj1
      refine ⟨_, _, qj, qi, ?_⟩
      have hD0 : (F.2.x - F.1.x) * (E.2.y - E.1.y) - (E.2.x - E.1.x) * (F.2.y - F.1.y) ≠ 0 := by
        intro h0
        rw [h0, abs_zero] at hκ
        have := hM.sq.1
        norm_num at hκ
        nlinarith [hM.one]
      simp only [edgeAt, V3.xy, V3.smul, V3.add_x, V3.add_y, V3.sub_x, V3.sub_y, V2.mk.injEq]
      have key : ∀ {D A d N C d' N' : ℝ}, D ≠ 0 → (A - C) * D + d * N - d' * N' = 0 → A + d * (N / D) = C + d' * (N' / D) := by
        intro D A d N C d' N' h0 h
        field_simp
        linarith
      constructor
      · exact key hD0 (by ring)
      · exact key hD0 (by ring)
  rcases List.mem_append.1 hx with hx | hx
  · split_ifs at hx with hz
    · rw [List.mem_singleton] at hx
      exact ⟨_, _, Or.inr ⟨hx, hmet.symm⟩, hz⟩
    · simp at hx
  · split_ifs at hx with hz
    · rw [List.mem_singleton] at hx
      exact ⟨_, _, Or.inl ⟨hx, hmet⟩, hz⟩
    · simp at hx

end
end S2P
