import Verif.Lemmas.AngleDouble
import Verif.Lemmas.FacetOrder
import Verif.Spec.AngleDouble

set_option linter.unusedSectionVars false
set_option linter.unusedVariables false
set_option linter.unusedSimpArgs false

/-! # All strokes of an angle dimension, in rounded arithmetic -/

namespace S2P

section
variable {R : Rounding} (hR : R.Accurate)

omit hR in
/-- sizes -/
structure AngleSize (M k κ η δ s : ℝ) (o : V2 ℝ) : Prop where
  small : Small M
  unit : Unit k κ
  fine : Fine η
  dir : 95 * η ≤ δ
  pos : 0 < s
  one : s ≤ 1
  clear : 2 ^ 21 * δ ≤ s ^ 2
  ox : |o.x| ≤ 2 ^ 200
  oy : |o.y| ≤ 2 ^ 200

omit hR in
theorem AngleSize.wide {M k κ η δ s : ℝ} {o : V2 ℝ} (h : AngleSize M k κ η δ s o) : Wide M :=
  ⟨le_trans (by norm_num) h.small.one, h.small.top.trans (pow_le_pow_right₀ (by norm_num) (by norm_num))⟩

omit hR in
/-- bounds used throughout -/
theorem AngleSize.nums {M k κ η δ s : ℝ} {o : V2 ℝ} (h : AngleSize M k κ η δ s o) :
    95 / 2 ^ 50 ≤ δ ∧ δ ≤ 1 / 2 ^ 21 ∧ 95 * (M * η) ≤ M * δ ∧ M * (95 / 2 ^ 50) ≤ M * δ ∧ M * δ ≤ M * (1 / 2 ^ 21) ∧ κ * (95 / 2 ^ 50) ≤ κ * δ ∧ κ * δ ≤ κ * (1 / 2 ^ 21) ∧
      δ ≤ δ / s ∧ δ / s ≤ 1 / 2 ^ 21 := by
  have hM := h.small.one
  have hη := h.fine.lo
  have hd := h.dir
  have hκ := h.unit.pos'
  have h1 : 95 / 2 ^ 50 ≤ δ := by norm_num at hη ⊢; linarith
  have hss : s ^ 2 ≤ s := by nlinarith [h.one, h.pos]
  have hc := h.clear
  have h2 : δ ≤ 1 / 2 ^ 21 := by norm_num at hc ⊢; linarith [h.one]
  have hδ0 : 0 < δ := lt_of_lt_of_le (by norm_num) h1
  refine ⟨h1, h2, by nlinarith, mul_le_mul_of_nonneg_left h1 (by linarith), mul_le_mul_of_nonneg_left h2 (by linarith), mul_le_mul_of_nonneg_left h1 hκ.le,
    mul_le_mul_of_nonneg_left h2 hκ.le, ?_, ?_⟩
  · rw [le_div_iff₀ h.pos]; nlinarith [h.one]
  · rw [div_le_iff₀ h.pos]; norm_num at hc ⊢; linarith

omit hR in
theorem AngleSize.lohi {M k κ η δ s : ℝ} {o : V2 ℝ} (h : AngleSize M k κ η δ s o) {S : ℝ} (h1 : M ≤ S) (h2 : S ≤ 2 ^ 6 * M + 2 ^ 6 * κ) :
    1 / 2 ^ 100 ≤ S ∧ S ≤ 2 ^ 1000 := by
  have hM := h.small.one
  have hM2 := h.small.top
  have hκ := h.unit.hi'
  refine ⟨h.wide.bot h1, ?_⟩
  have h3 : S ≤ 2 ^ 60 := by norm_num at h2 hM2 hκ ⊢; linarith
  exact h3.trans (pow_le_pow_right₀ (by norm_num) (by norm_num))

include hR

/-- a point along a leg -/
theorem ray_near {M k κ η δ s : ℝ} {o : V2 ℝ} (h : AngleSize M k κ η δ s o) {x n l : Fl R} {X A L ε : ℝ} (hx : Fl.Near x X (8 * (M * η))) (hX : |X| ≤ 7 / 4 * M)
    (hn : Fl.Near n A δ) (hA : |A| ≤ 1) (hl : Fl.Near l L ε) (hL : |L| ≤ 7 / 2 * M + 4 * κ) (hε : ε ≤ M * δ + κ / 2 ^ 17) :
    Fl.Near (x + n * l) (X + A * L) (ε + 4 * (M * δ) + 8 * (κ * δ)) := by
  obtain ⟨d1, d2, d3, d4, d5, d6, d7, -, -⟩ := h.nums
  have hM := h.small.one
  have hκ := h.unit.pos'
  have hε0 : 0 ≤ ε := by obtain ⟨b, -, hb⟩ := hl; exact (abs_nonneg _).trans hb
  have hδ0 : 0 < δ := lt_of_lt_of_le (by norm_num) d1
  norm_num at d1 d2 d4 d5 d6 d7 hε
  have hεδ : ε * δ ≤ ε * (1 / 2 ^ 21) := mul_le_mul_of_nonneg_left (by norm_num; linarith) hε0
  norm_num at hεδ
  have hεδ' : ε * δ ≤ (M * δ + κ * δ) / 2 ^ 17 := by
    have h1 : ε * δ ≤ (M * δ + κ / 131072) * δ := mul_le_mul_of_nonneg_right hε hδ0.le
    have h2 : M * δ * δ ≤ M * δ * (1 / 2097152) := mul_le_mul_of_nonneg_left d2 (by positivity)
    have : 0 < M * δ := by positivity
    norm_num
    nlinarith
  obtain ⟨l1, l2⟩ := h.lohi (S := 8 * M + 8 * κ) (by linarith) (by norm_num; linarith)
  have p := hn.mul hR hl hA hL (S := 8 * M + 8 * κ) (by nlinarith) l1 l2
  have hAL : |A * L| ≤ 7 / 2 * M + 4 * κ := by rw [abs_mul]; nlinarith [abs_nonneg A, abs_nonneg L]
  have p' := p.mono (δ := ε + 7 / 2 * (M * δ) + 4 * (κ * δ) + (M * δ + κ * δ) / 2 ^ 17 + (8 * M + 8 * κ) / 2 ^ 51) (by norm_num at hεδ' ⊢; linarith)
  have t := abs_add_le X (A * L)
  refine (hx.add hR p' (S := 8 * M + 8 * κ) ?_ l1 l2).mono ?_
  · norm_num; linarith
  · norm_num; linarith

/-- an end of a barb -/
theorem barb_near {M k κ η δ s : ℝ} {o : V2 ℝ} (h : AngleSize M k κ η δ s o) {t u w : Fl R} {T U W ε1 ε2 : ℝ} (ht : Fl.Near t T (5 * (M * δ) + 8 * (κ * δ)))
    (hT : |T| ≤ 6 * M) (hu : Fl.Near u (U * κ) (ε1 * κ)) (hU : |U| ≤ 2) (hw : Fl.Near w (W * κ) (ε2 * κ)) (hW : |W| ≤ 6) (h1 : ε1 ≤ 1) (h2 : ε2 ≤ 1) :
    Fl.Near (t + u + w) (T + (U + W) * κ) (6 * (M * δ) + (9 * δ + ε1 + ε2) * κ) := by
  obtain ⟨d1, d2, d3, d4, d5, d6, d7, -, -⟩ := h.nums
  have hM := h.small.one
  have hκ := h.unit.pos'
  norm_num at d1 d2 d4 d5 d6 d7
  have a1 : |U * κ| ≤ 2 * κ := by rw [abs_mul, abs_of_pos hκ]; exact mul_le_mul_of_nonneg_right hU hκ.le
  have a2 : |W * κ| ≤ 6 * κ := by rw [abs_mul, abs_of_pos hκ]; exact mul_le_mul_of_nonneg_right hW hκ.le
  have b1 : ε1 * κ ≤ κ := by nlinarith
  have b2 : ε2 * κ ≤ κ := by nlinarith
  obtain ⟨l1, l2⟩ := h.lohi (S := 8 * M + 16 * κ) (by linarith) (by norm_num; linarith)
  have t1 := abs_add_le T (U * κ)
  have t2 := abs_add_le (T + U * κ) (W * κ)
  have p := ht.add hR hu (S := 8 * M + 16 * κ) (by linarith) l1 l2
  have p' := p.mono (δ := 5 * (M * δ) + 8 * (κ * δ) + ε1 * κ + (8 * M + 16 * κ) / 2 ^ 51) le_rfl
  have q := p'.add hR hw (S := 8 * M + 16 * κ) (by norm_num; linarith) l1 l2
  refine (q.mono ?_).congr (by ring)
  norm_num; linarith

/-- onto the page -/
theorem end_page {M k κ η δ s : ℝ} {o : V2 ℝ} (h : AngleSize M k κ η δ s o) {K : Fl R} (hK : K = (Ext.fin k : Ext ℝ)) {z o' : Fl R} {Z D c : ℝ}
    (ho : o' = (Ext.fin c : Ext ℝ)) (hc : |c| ≤ |o.x| + |o.y|) (hc2 : |c| ≤ 2 ^ 200) (hZ : |Z| ≤ 6 * M) (hD : |D| ≤ 2 ^ 8)
    (hz : Fl.Near z (Z + D * κ) (6 * (M * δ) + (600 * (δ / s) + 1 / 2 ^ 15) * κ)) :
    Fl.Near (z * K + o') (Z * k + c + D) (8 * (M * k) * δ + 600 * (δ / s) + (|o.x| + |o.y|) / 2 ^ 45 + 1 / 2 ^ 14) := by
  obtain ⟨d1, d2, d3, d4, d5, d6, d7, d8, d9⟩ := h.nums
  have hM := h.small.one
  have hκ := h.unit.pos'
  have hk := h.unit.pos
  have hMk : 0 < M * k := mul_pos (by linarith) hk
  have a1 : |D * κ| ≤ 2 ^ 8 * κ := by rw [abs_mul, abs_of_pos hκ]; exact mul_le_mul_of_nonneg_right hD hκ.le
  have t := abs_add_le Z (D * κ)
  have b1 : (600 * (δ / s) + 1 / 2 ^ 15) * κ ≤ 1 * κ := mul_le_mul_of_nonneg_right (by norm_num at d9 ⊢; linarith) hκ.le
  have g : M * k * (95 / 2 ^ 50) ≤ M * k * δ := mul_le_mul_of_nonneg_left d1 hMk.le
  refine ((moved1_near hR h.small h.unit hK ho hz ?_ ?_ hc2).mono ?_).congr ?_
  · generalize |D * κ| = y at *
    norm_num at a1 ⊢; linarith
  · norm_num at d5 b1 ⊢; linarith
  · have e : (6 * (M * δ) + (600 * (δ / s) + 1 / 2 ^ 15) * κ) * k = 6 * (M * k * δ) + (600 * (δ / s) + 1 / 2 ^ 15) := by
      linear_combination (600 * (δ / s) + 1 / 2 ^ 15) * h.unit.one
    rw [e]
    norm_num at g ⊢
    linarith
  · linear_combination D * h.unit.one

omit hR in
theorem NearOff {o : V2 ℝ} : |o.x| ≤ |o.x| + |o.y| ∧ |o.y| ≤ |o.x| + |o.y| := ⟨by linarith [abs_nonneg o.y], by linarith [abs_nonneg o.x]⟩

/-- an end of an arrowhead, on the page -/
theorem head_near {M k κ η δ s : ℝ} {o : V2 ℝ} (h : AngleSize M k κ η δ s o) {K : Fl R} (hK : K = (Ext.fin k : Ext ℝ)) {c : ℚ} {C : ℝ} (hcC : (c : ℝ) = C) (hC : |C| ≤ 2)
    {t1 n1 p1 o1 : Fl R} {T1 A1 Q1 c1 : ℝ} (h1 : o1 = (Ext.fin c1 : Ext ℝ)) (h2 : |c1| ≤ |o.x| + |o.y|) (h3 : |c1| ≤ 2 ^ 200)
    (h4 : Fl.Near t1 T1 (5 * (M * δ) + 8 * (κ * δ))) (h5 : |T1| ≤ 6 * M) (h6 : Fl.Near n1 A1 (25 / 8 * δ + 18 / 2 ^ 50)) (h7 : |A1| ≤ 1)
    (h8 : Fl.Near p1 Q1 (80 * (δ / s))) (h9 : |Q1| ≤ 1) :
    Fl.Near ((t1 + n1 / K * FP.lit c + p1 / K * FP.lit 6) * K + o1) (T1 * k + c1 + (A1 * C + Q1 * 6))
      (8 * (M * k) * δ + 600 * (δ / s) + (|o.x| + |o.y|) / 2 ^ 45 + 1 / 2 ^ 14) := by
  obtain ⟨d1, d2, -, -, -, -, -, d8, d9⟩ := h.nums
  have hκ := h.unit.pos'
  have hδ0 : 0 < δ := lt_of_lt_of_le (by norm_num) d1
  have s1 : 0 ≤ δ / s := by linarith
  have f1 := over_near hR h.unit hK h6 (by linarith) (by norm_num at d2 ⊢; linarith)
  have f2 := over_near hR h.unit hK h8 (by linarith) (by norm_num at d9 ⊢; linarith)
  have g1 := off_mul hR h.unit f1 (by norm_num; linarith) (by positivity) (by norm_num at d2 ⊢; linarith) (lit_near hR hcC (by linarith)) hC (by norm_num)
  have g2 := off_mul hR h.unit f2 (by norm_num; linarith) (by positivity) (by norm_num at d9 ⊢; linarith) (lit_near hR (q := 6) (Q := 6) (by norm_num) (by norm_num))
    (by norm_num : |(6 : ℝ)| ≤ 6) (by norm_num)
  have hAC : |A1 * C| ≤ 2 := by
    rw [abs_mul]
    have := mul_le_mul h7 hC (abs_nonneg _) zero_le_one
    linarith
  have hQ6 : |Q1 * 6| ≤ 6 := by rw [abs_mul, abs_of_pos (by norm_num : (0 : ℝ) < 6)]; linarith
  have b := barb_near hR h h4 h5 g1 hAC g2 hQ6 (by norm_num at d2 ⊢; linarith) (by norm_num at d9 ⊢; linarith)
  refine end_page hR h hK h1 h2 h3 h5 ?_ (b.mono ?_)
  · have := abs_add_le (A1 * C) (Q1 * 6)
    rw [show (2 : ℝ) ^ 8 = 256 by norm_num]
    linarith
  · have : (9 * δ + (2 * (25 / 8 * δ + 18 / 2 ^ 50 + 1 / 2 ^ 48) + 1 / 2 ^ 35) + (6 * (80 * (δ / s) + 1 / 2 ^ 48) + 1 / 2 ^ 35)) ≤ 600 * (δ / s) + 1 / 2 ^ 15 := by
      norm_num; linarith
    have := mul_le_mul_of_nonneg_right this hκ.le
    exact add_le_add_right this _

/-- the ends of a leg, on the page -/
theorem ends_near {M k κ η δ s : ℝ} {o : V2 ℝ} (h : AngleSize M k κ η δ s o) {K : Fl R} (hK : K = (Ext.fin k : Ext ℝ)) {l lg : Fl R} {L : ℝ}
    (hl : Fl.Near l L (66 * (M * η))) (L0 : 0 ≤ L) (lL : L ≤ 7 / 2 * M) (hlg : Fl.Near lg (L + 4 * κ) (M * δ + κ / 2 ^ 17))
    {x1 n1 q1 o1 : Fl R} {X1 A1 P1 c : ℝ} (h1 : o1 = (Ext.fin c : Ext ℝ)) (h2 : |c| ≤ |o.x| + |o.y|) (h3 : |c| ≤ 2 ^ 200) (h4 : Fl.Near x1 X1 (8 * (M * η)))
    (h5 : |X1| ≤ 7 / 4 * M) (h6 : Fl.Near n1 A1 δ) (h7 : |A1| ≤ 1) (h8 : Fl.Near q1 P1 (8 * (M * η))) (h9 : |P1| ≤ 7 / 4 * M) :
    Fl.Near ((q1 + n1 * FP.f32 (FP.lit 2 / K)) * K + o1) (P1 * k + c + A1 * 2) (8 * (M * k) * δ + 600 * (δ / s) + (|o.x| + |o.y|) / 2 ^ 45 + 1 / 2 ^ 14) ∧
    Fl.Near ((x1 + n1 * lg) * K + o1) (X1 * k + c + A1 * (L * k + 4)) (8 * (M * k) * δ + 600 * (δ / s) + (|o.x| + |o.y|) / 2 ^ 45 + 1 / 2 ^ 14) ∧
    Fl.Near ((x1 + n1 * l) * K + o1) (X1 * k + c + A1 * (L * k)) (8 * (M * k) * δ + 600 * (δ / s) + (|o.x| + |o.y|) / 2 ^ 45 + 1 / 2 ^ 14) ∧
    Fl.Near (x1 + n1 * l) (X1 + A1 * L) (5 * (M * δ) + 8 * (κ * δ)) ∧ |X1 + A1 * L| ≤ 6 * M := by
  obtain ⟨d1, d2, d3, -, -, -, -, d8, d9⟩ := h.nums
  have hM := h.small.one
  have hκ := h.unit.pos'
  have hMη0 : 0 ≤ M * η := mul_nonneg (by linarith) (le_trans (by positivity) h.fine.lo)
  have hδ0 : 0 < δ := lt_of_lt_of_le (by norm_num) d1
  have e1 : |(2 : ℝ) * κ| = 2 * κ := abs_of_pos (by linarith)
  have aL : |L| = L := abs_of_nonneg L0
  have hAL : |A1 * L| ≤ 7 / 2 * M := by
    rw [abs_mul, aL]
    have := mul_le_mul h7 lL L0 zero_le_one
    linarith
  have tX := abs_add_le X1 (A1 * L)
  have small : κ * δ ≤ δ / s * κ := by rw [mul_comm]; exact mul_le_mul_of_nonneg_right d8 hκ.le
  have hMδ : 0 ≤ M * δ := by positivity
  have r1 := ray_near hR h h8 h9 h6 h7 (gap2_near hR h.unit hK) (by rw [e1]; linarith) (by norm_num; linarith)
  have r2 := ray_near hR h h4 h5 h6 h7 hlg (by rw [abs_of_nonneg (by linarith)]; linarith) le_rfl
  have r3 := ray_near hR h h4 h5 h6 h7 hl (by rw [aL]; linarith) (by
    have : 0 ≤ κ / 2 ^ 17 := by positivity
    linarith)
  have hδσ : 0 ≤ δ / s * κ := mul_nonneg (by linarith) hκ.le
  have eσ : ∀ c1 c2 : ℝ, (c1 * (δ / s) + c2) * κ = c1 * (δ / s * κ) + c2 * κ := fun c1 c2 => by ring
  refine ⟨?_, ?_, ?_, r3.mono (by linarith), by linarith⟩
  · have h10 : |A1 * 2| ≤ 2 ^ 8 := by rw [abs_mul]; norm_num; linarith
    refine end_page hR h hK h1 h2 h3 (by linarith) h10 ((r1.mono ?_).congr (by ring))
    rw [eσ]; norm_num; linarith
  · have h10 : |A1 * 4| ≤ 2 ^ 8 := by rw [abs_mul]; norm_num; linarith
    refine (end_page hR h hK h1 h2 h3 (Z := X1 + A1 * L) (D := A1 * 4) (by linarith) h10 ((r2.mono ?_).congr (by ring))).congr (by ring)
    rw [eσ]; norm_num; linarith
  · refine (end_page hR h hK h1 h2 h3 (Z := X1 + A1 * L) (D := 0) (by linarith) (by norm_num) ((r3.mono ?_).congr (by ring))).congr (by ring)
    rw [eσ]; norm_num; linarith

/-- one leg with its arrowhead -/
theorem leg_ink {M k κ η δ σ : ℝ} {o : V2 ℝ} (h : AngleSize M k κ η δ |σ| o) {K : Fl R} (hK : K = (Ext.fin k : Ext ℝ)) {o' : V2 (Fl R)}
    (ho : o' = ⟨(Ext.fin o.x : Ext ℝ), (Ext.fin o.y : Ext ℝ)⟩) {n m a x q : V3 (Fl R)} {A B T X P : V3 ℝ}
    (hn : V3.NearTo n A δ) (hm : V3.NearTo m B δ) (lA : len3 A = 1) (lB : len3 B = 1) (Az : A.z = 0) (Bz : B.z = 0) (hσ : A.x * B.y - A.y * B.x = σ)
    (ha : V3.NearTo a T (8 * (M * η))) (hx : V3.NearTo x X (8 * (M * η))) (hq : V3.NearTo q P (8 * (M * η)))
    (lT : len3 T ≤ 7 / 4 * M) (lX : len3 X ≤ 7 / 4 * M) (lP : len3 P ≤ 7 / 4 * M) {τ : ℝ} (hτ : σ / |σ| = τ) :
    StrokeNear (8 * (M * k) * δ + 600 * (δ / |σ|) + (|o.x| + |o.y|) / 2 ^ 45 + 1 / 2 ^ 14)
      ⟨(q + n.smul (FP.f32 (FP.lit 2 / K))).xy.moved K o', (x + n.smul ((a - x).norm + FP.f32 (FP.lit 2 / K) * FP.lit 2)).xy.moved K o'⟩
      ⟨P.placed k o + A.xy.smul 2, X.placed k o + A.xy.smul (len3 (T - X) * k + 4)⟩ ∧
    ∀ (c : ℚ) (C : ℝ), (c : ℝ) = C → |C| ≤ 2 →
      StrokeNear (8 * (M * k) * δ + 600 * (δ / |σ|) + (|o.x| + |o.y|) / 2 ^ 45 + 1 / 2 ^ 14)
        ⟨(x + n.smul (a - x).norm).xy.moved K o', (x + n.smul (a - x).norm + (n.normalized.sdiv K).smul (FP.lit c) +
          ((m - (n.smul (n.dot m)).sdiv n.norm).normalized.sdiv K).smul (FP.lit 6)).xy.moved K o'⟩
        ⟨X.placed k o + A.xy.smul (len3 (T - X) * k), X.placed k o + A.xy.smul (len3 (T - X) * k) + A.xy.smul C + A.xy.left.smul (6 * τ)⟩ := by
  obtain ⟨d1, d2, d3, d4, d5, d6, d7, d8, d9⟩ := h.nums
  have hM := h.small.one
  have hκ := h.unit.pos'
  have hMη0 : 0 ≤ M * η := mul_nonneg (by linarith) (le_trans (by positivity) h.fine.lo)
  have hδ0 : 0 < δ := lt_of_lt_of_le (by norm_num) d1
  have wA : A.Within 1 := within_len lA.le
  have wX := within_len lX
  have wP := within_len lP
  obtain ⟨hl, lL⟩ := reach_near hR h.wide h.fine hx ha lX lT
  have L0 : 0 ≤ len3 (T - X) := Real.sqrt_nonneg _
  have hg := gap2_near hR h.unit hK
  have e1 : |(2 : ℝ) * κ| = 2 * κ := abs_of_pos (by linarith)
  have hg2 : Fl.Near (FP.f32 (FP.lit 2 / K) * FP.lit 2 : Fl R) (4 * κ) (κ / 2 ^ 18) := by
    have := hg.mul hR (lit_near hR (q := 2) (Q := 2) (by norm_num) (by norm_num)) e1.le (by norm_num : |(2 : ℝ)| ≤ 2) (S := 8 * κ) (by norm_num; linarith)
      (h.unit.bot (by linarith)) (h.unit.top (by norm_num; linarith))
    exact (this.mono (by norm_num; linarith)).congr (by ring)
  have hlg : Fl.Near ((a - x).norm + FP.f32 (FP.lit 2 / K) * FP.lit 2 : Fl R) (len3 (T - X) + 4 * κ) (M * δ + κ / 2 ^ 17) := by
    obtain ⟨l1, l2⟩ := h.lohi (S := 4 * M + 8 * κ) (by linarith) (by norm_num; linarith)
    refine (hl.add hR hg2 (S := 4 * M + 8 * κ) ?_ l1 l2).mono ?_
    · rw [abs_of_nonneg (by linarith)]; norm_num at d5 ⊢; linarith
    · norm_num at d4 ⊢; linarith
  have aL : |len3 (T - X)| = len3 (T - X) := abs_of_nonneg L0
  have ox : o'.x = (Ext.fin o.x : Ext ℝ) := by rw [ho]
  have oy : o'.y = (Ext.fin o.y : Ext ℝ) := by rw [ho]
  obtain ⟨b1, b2⟩ := NearOff (o := o)
  obtain ⟨x1, x2, x3, x4, x5⟩ := ends_near hR h hK hl L0 lL hlg ox b1 h.ox hx.1 wX.1 hn.1 wA.1 hq.1 wP.1
  obtain ⟨y1, y2, y3, y4, y5⟩ := ends_near hR h hK hl L0 lL hlg oy b2 h.oy hx.2.1 wX.2.1 hn.2.1 wA.2.1 hq.2.1 wP.2.1
  refine ⟨⟨⟨x1, y1⟩, ⟨x2, y2⟩⟩, ?_⟩
  intro c C hcC hC
  -- the arrowhead
  obtain ⟨-, u⟩ := unit_near2 hR (U := 1) (δ := δ) ⟨by norm_num, by
    rw [show (1 : ℝ) = 2 ^ 0 by norm_num]; exact pow_le_pow_right₀ (by norm_num) (by norm_num)⟩ (by norm_num at d1 ⊢; linarith) (by norm_num at d2 ⊢; linarith)
    (by rw [one_mul]; exact hn) lA.ge (by rw [lA]; norm_num)
  rw [lA] at u
  have eA : A.sdiv 1 = A := by ext <;> simp [V3.sdiv]
  rw [eA] at u
  have v := perp_near hR hn hm lA lB Az Bz hσ h.pos d1 h.clear
  rw [hτ] at v
  have hτ1 : |τ| = 1 := by rw [← hτ, abs_div, abs_abs, div_self h.pos.ne']
  have c1 := head_near hR h hK hcC hC ox b1 h.ox x4 x5 u.1 wA.1 v.1 (by rw [abs_mul, hτ1, abs_neg, mul_one]; exact wA.2.1)
  have c2 := head_near hR h hK hcC hC oy b2 h.oy y4 y5 u.2.1 wA.2.1 v.2.1 (by rw [abs_mul, hτ1, mul_one]; exact wA.1)
  refine ⟨⟨x3, y3⟩, ⟨c1.congr ?_, c2.congr ?_⟩⟩
  · simp [V3.placed, V2.left, V2.smul, V3.xy]; ring
  · simp [V3.placed, V2.left, V2.smul, V3.xy]; ring

omit hR in
theorem dot_comm_fl (a b : V3 (Fl R)) : a.dot b = b.dot a := by
  have hc : ∀ x y : Fl R, x * y = y * x := fun x y => congrArg R.fix (Ext.mul_comm' (K := ℝ) x y)
  simp only [V3.dot, hc]

/-- all strokes and the arc -/
theorem angle_ink {M k κ η δ s : ℝ} {o : V2 ℝ} (h : AngleSize M k κ η δ s o) {K : Fl R} (hK : K = (Ext.fin k : Ext ℝ)) {o' : V2 (Fl R)}
    (ho : o' = ⟨(Ext.fin o.x : Ext ℝ), (Ext.fin o.y : Ext ℝ)⟩) {n m a x q q' : V3 (Fl R)} {A B T X P Q : V3 ℝ}
    (hn : V3.NearTo n A δ) (hm : V3.NearTo m B δ) (lA : len3 A = 1) (lB : len3 B = 1) (Az : A.z = 0) (Bz : B.z = 0) (hs : A.x * B.y - A.y * B.x = s)
    (ha : V3.NearTo a T (8 * (M * η))) (hx : V3.NearTo x X (8 * (M * η))) (hq : V3.NearTo q P (8 * (M * η))) (hq' : V3.NearTo q' Q (8 * (M * η)))
    (lT : len3 T ≤ 7 / 4 * M) (lX : len3 X ≤ 7 / 4 * M) (lP : len3 P ≤ 7 / 4 * M) (lQ : len3 Q ≤ 7 / 4 * M) (g : Fl R → Str) :
    AngleInk (8 * (M * k) * δ + 600 * (δ / s) + (|o.x| + |o.y|) / 2 ^ 45 + 1 / 2 ^ 14) (5 * δ) (X.placed k o) (P.placed k o) (Q.placed k o) A.xy B.xy (len3 (T - X) * k)
      ((angleItems g K a x n q m q').moved K o') := by
  have hs0 := h.pos
  have as : |s| = s := abs_of_pos hs0
  have h1 : AngleSize M k κ η δ |s| o := by rw [as]; exact h
  have h2 : AngleSize M k κ η δ |(-s)| o := by rw [abs_neg, as]; exact h
  obtain ⟨f1, f2⟩ := leg_ink hR h1 hK ho hn hm lA lB Az Bz hs ha hx hq lT lX lP (τ := 1) (by rw [as, div_self hs0.ne'])
  obtain ⟨t1, t2⟩ := leg_ink hR h2 hK ho hm hn lB lA Bz Az (σ := -s) (by rw [← hs]; ring) ha hx hq' lT lX lQ (τ := -1) (by
    rw [abs_neg, as, neg_div, div_self hs0.ne'])
  rw [abs_neg] at t1 t2
  rw [as] at f1 f2 t1 t2
  have f3 := f2 2 2 (by norm_num) (by norm_num)
  have f4 := f2 (-2) (-2) (by norm_num) (by norm_num)
  have t3 := t2 2 2 (by norm_num) (by norm_num)
  have t4 := t2 (-2) (-2) (by norm_num) (by norm_num)
  clear f2 t2
  rw [dot_comm_fl m n] at t3 t4
  obtain ⟨d1, d2, d3, d4, d5, d6, d7, d8, d9⟩ := h.nums
  have qz : ∀ {C : V3 ℝ}, len3 C = 1 → C.z = 0 → C.x ^ 2 + C.y ^ 2 = 1 := by
    intro C hC hz
    have := len3_mul_self C
    rw [hC] at this
    simp only [V3.sqNorm, V3.dot, hz] at this
    nlinarith
  constructor
  · simp only [OutPage.moved, angleItems, angleStrokes, Line.of3, List.map_cons, List.map_nil]
    refine .cons f1 (.cons t1 (.cons ?_ (.cons ?_ (.cons ?_ (.cons ?_ .nil)))))
    · refine ⟨f3.1, ?_⟩
      convert f3.2 using 2; norm_num
    · refine ⟨f4.1, ?_⟩
      convert f4.2 using 1
      ext <;> simp [V2.smul] <;> ring
    · refine ⟨t3.1, ?_⟩
      convert t3.2 using 1
      ext <;> simp [V2.smul, V2.left] <;> ring
    · refine ⟨t4.1, ?_⟩
      convert t4.2 using 1
      ext <;> simp [V2.smul, V2.left] <;> ring
  · have hM := h.small.one
    have hκ := h.unit.pos'
    have hk := h.unit.pos
    have hMk : 0 < M * k := mul_pos (by linarith) hk
    have hMk2 : M * k ≤ 2 ^ 80 := by
      rw [show (2 : ℝ) ^ 80 = 2 ^ 40 * 2 ^ 40 by norm_num]
      exact mul_le_mul h.small.top h.unit.hi hk.le (by positivity)
    have hδ0 : 0 < δ := lt_of_lt_of_le (by norm_num) d1
    have wX := within_len lX
    obtain ⟨b1, b2⟩ := NearOff (o := o)
    have g1 : M * k * (95 / 2 ^ 50) ≤ M * k * δ := mul_le_mul_of_nonneg_left d1 hMk.le
    have g2 : M * k * δ ≤ M * k * (1 / 2 ^ 21) := mul_le_mul_of_nonneg_left d2 hMk.le
    have g3 : 95 * (M * η * k) ≤ M * k * δ := by
      have := mul_le_mul_of_nonneg_right d3 hk.le
      linarith
    have hδs : 0 ≤ δ / s := by linarith
    have c0 : ∀ {x1 o1 : Fl R} {X1 c : ℝ}, o1 = (Ext.fin c : Ext ℝ) → |c| ≤ |o.x| + |o.y| → |c| ≤ 2 ^ 200 → Fl.Near x1 X1 (8 * (M * η)) → |X1| ≤ 7 / 4 * M →
        Fl.Near (x1 * K + o1) (X1 * k + c) (8 * (M * k) * δ + 600 * (δ / s) + (|o.x| + |o.y|) / 2 ^ 45 + 1 / 2 ^ 14) := by
      intro x1 o1 X1 c e1 e2 e3 e4 e5
      refine (end_page hR h hK e1 e2 e3 (Z := X1) (D := 0) (by linarith) (by norm_num) ((e4.mono ?_).congr (by ring))).congr (by ring)
      have : 0 ≤ (600 * (δ / s) + 1 / 2 ^ 15) * κ := mul_nonneg (by positivity) hκ.le
      have : 0 ≤ M * δ := by positivity
      linarith
    obtain ⟨hl, lL⟩ := reach_near hR h.wide h.fine hx ha lX lT
    have L0 : 0 ≤ len3 (T - X) := Real.sqrt_nonneg _
    refine ⟨_, rfl, ⟨c0 (by rw [ho]) b1 h.ox hx.1 wX.1, c0 (by rw [ho]) b2 h.oy hx.2.1 wX.2.1⟩, ?_, ?_, ?_⟩
    · subst hK
      have hSk : (2 : ℝ) ^ 80 * 4 ≤ 2 ^ 1000 := by
        rw [show (2 : ℝ) ^ 80 * 4 = 2 ^ 82 by norm_num]; exact pow_le_pow_right₀ (by norm_num) (by norm_num)
      have hklo := h.unit.lo
      have eL : 0 ≤ M * η * k := by
        have := h.fine.lo
        have : 0 ≤ η := le_trans (by positivity) this
        positivity
      refine (hl.mul hR (Fl.near_fin (R := R) k) (le_trans (le_of_eq (abs_of_nonneg L0)) lL) (le_of_eq (abs_of_pos hk)) (S := 4 * (M * k)) ?_ ?_ ?_).mono ?_
      · norm_num at g2 ⊢; linarith
      · have : k ≤ M * k := le_mul_of_one_le_left hk.le hM
        norm_num at hklo ⊢; linarith
      · exact le_trans (by linarith) hSk
      · have := abs_nonneg o.x
        have := abs_nonneg o.y
        norm_num at g1 ⊢; linarith
    · exact atan_near hR hn.1 hn.2.1 (qz lA Az) (by norm_num at d1 ⊢; linarith) (by norm_num at d2 ⊢; linarith)
    · exact atan_near hR hm.1 hm.2.1 (qz lB Bz) (by norm_num at d1 ⊢; linarith) (by norm_num at d2 ⊢; linarith)
end

end S2P
