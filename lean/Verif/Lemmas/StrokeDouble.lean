import Verif.Lemmas.Recip
import Verif.Spec.StrokeDouble

set_option linter.unusedSectionVars false
set_option linter.unusedVariables false
set_option linter.unusedSimpArgs false

/-! # The strokes of a linear dimension, in rounded arithmetic -/

namespace S2P

/-- the strokes with the choices made -/
theorem dimStrokes_of (fits : Prop) [Decidable fits] (g : ℝ) (a f t e : V2 ℝ) :
    dimStrokes fits g a f t (a.foot e f) (a.foot e t) e = strokesOf (decide fits) (sideOf a e f) (sideOf a e t) g a f t e := by
  unfold dimStrokes strokesOf
  by_cases h : fits <;> simp [h]

/-- the lines of `dimItems` -/
def dimLines [FP α] (fits : Bool) (s1 s2 gap : α) (at_ a b arrowFrom arrowTo frm to_ : V3 α) : List (Line α) :=
  let p (n : Rat) : α := FP.lit n
  let a' := if fits then a else -a
  (if fits then [Line.of3 arrowFrom (at_ - a.smul gap), Line.of3 (at_ + a.smul gap) arrowTo]
    else [Line.of3 arrowFrom (arrowFrom - a.smul (p 10)), Line.of3 arrowTo (arrowTo + a.smul (p 10))]) ++
    [Line.of3 (arrowFrom - (b.smul (p 4)).smul s1) (frm - (b.smul (p 2)).smul s1),
     Line.of3 (arrowTo - (b.smul (p 4)).smul s2) (to_ - (b.smul (p 2)).smul s2),
     Line.of3 arrowFrom (arrowFrom + (a'.smul (p 6) + b.smul (p 2))),
     Line.of3 arrowFrom (arrowFrom + (a'.smul (p 6) + b.smul (p (-2)))),
     Line.of3 arrowTo (arrowTo + (a'.smul (p (-6)) + b.smul (p 2))),
     Line.of3 arrowTo (arrowTo + (a'.smul (p (-6)) + b.smul (p (-2))))]

section
variable {R : Rounding} (hR : R.Accurate)
include hR

theorem apart_near {M η : ℝ} (hM : Wide M) (hη : Fine η) {a p : V3 (Fl R)} {A P : V3 ℝ} (ha : V3.NearTo a A (8 * (M * η))) (hp : V3.NearTo p P (8 * (M * η)))
    (lA : len3 A ≤ 7 / 4 * M) (lP : len3 P ≤ 7 / 4 * M) : V3.NearTo (p - a) (P - A) (19 * (M * η)) ∧ len3 (P - A) ≤ 7 / 2 * M := by
  have hM0 : 0 < M := lt_of_lt_of_le (by positivity) hM.lo
  have g1 : M * (1 / 2 ^ 50) ≤ M * η := mul_le_mul_of_nonneg_left hη.lo hM0.le
  have g2 : M * η ≤ M * (1 / 2 ^ 40) := mul_le_mul_of_nonneg_left hη.hi hM0.le
  norm_num at g1 g2
  have wP : P.Within (7 / 4 * M) := within_len lP
  have wA : A.Within (7 / 4 * M) := within_len lA
  have one : ∀ {x y : Fl R} {b c : ℝ}, Fl.Near x b (8 * (M * η)) → Fl.Near y c (8 * (M * η)) → |b| ≤ 7 / 4 * M → |c| ≤ 7 / 4 * M →
      Fl.Near (x - y) (b - c) (19 * (M * η)) := by
    intro x y b c h1 h2 h3 h4
    have := abs_sub b c
    refine (h1.sub hR h2 (S := 4 * M) (by linarith) (hM.bot (by linarith)) (hM.top (by linarith))).mono (by norm_num; linarith)
  refine ⟨⟨one hp.1 ha.1 wP.1 wA.1, one hp.2.1 ha.2.1 wP.2.1 wA.2.1, one hp.2.2 ha.2.2 wP.2.2 wA.2.2⟩, ?_⟩
  linarith [len3_tri P A]

theorem arrow_near {M η : ℝ} (hM : Wide M) (hη : Fine η) {n a p : V3 (Fl R)} {N A P : V3 ℝ} (hn : V3.NearTo n N (43 * η)) (hN : len3 N = 1)
    (ha : V3.NearTo a A (8 * (M * η))) (hp : V3.NearTo p P (8 * (M * η))) (lA : len3 A ≤ 7 / 4 * M) (lP : len3 P ≤ 7 / 4 * M) :
    V3.NearTo (a + n.smul (n.dot (p - a))) (A + N.smul (N.dot (P - A))) (790 * (M * η)) ∧ (A + N.smul (N.dot (P - A))).Within (6 * M) := by
  have hη1 := hη.lo
  have hη2 := hη.hi
  have hM0 : 0 < M := lt_of_lt_of_le (by positivity) hM.lo
  have g1 : M * (1 / 2 ^ 50) ≤ M * η := mul_le_mul_of_nonneg_left hη1 hM0.le
  have g2 : M * η ≤ M * (1 / 2 ^ 40) := mul_le_mul_of_nonneg_left hη2 hM0.le
  have hη0 : 0 < η := lt_of_lt_of_le (by positivity) hη1
  have g3 : M * η * η ≤ M * η * (1 / 2 ^ 40) := mul_le_mul_of_nonneg_left hη2 (by positivity)
  have hlo := hM.lo
  norm_num at g1 g2 g3 hη1 hη2 hlo
  have wN : N.Within 1 := within_len hN.le
  have wA : A.Within (7 / 4 * M) := within_len lA
  obtain ⟨d, ld⟩ := apart_near hR hM hη ha hp lA lP
  have wd : (P - A).Within (7 / 2 * M) := within_len ld
  have pr : ∀ {x y : Fl R} {b c : ℝ}, Fl.Near x b (43 * η) → |b| ≤ 1 → Fl.Near y c (19 * (M * η)) → |c| ≤ 7 / 2 * M →
      Fl.Near (x * y) (b * c) (190 * (M * η)) ∧ |b * c| ≤ 7 / 2 * M := by
    intro x y b c h1 h2 h3 h4
    refine ⟨(h1.mul hR h3 h2 h4 (S := 4 * M) ?_ (hM.bot (by linarith)) (hM.top (by linarith))).mono ?_, ?_⟩
    · nlinarith
    · norm_num; nlinarith
    · rw [abs_mul]; nlinarith [abs_nonneg b, abs_nonneg c]
  obtain ⟨p1, q1⟩ := pr hn.1 wN.1 d.1 wd.1
  obtain ⟨p2, q2⟩ := pr hn.2.1 wN.2.1 d.2.1 wd.2.1
  obtain ⟨p3, q3⟩ := pr hn.2.2 wN.2.2 d.2.2 wd.2.2
  have t1 := abs_add_le (N.x * (P - A).x) (N.y * (P - A).y)
  have t2 := abs_add_le (N.x * (P - A).x + N.y * (P - A).y) (N.z * (P - A).z)
  have s1 := (p1.add hR p2 (S := 8 * M) (by linarith) (hM.bot (by linarith)) (hM.top (by linarith))).mono
    (show _ ≤ 385 * (M * η) by norm_num; linarith)
  have dot : Fl.Near (n.dot (p - a)) (N.dot (P - A)) (600 * (M * η)) :=
    (s1.add hR p3 (S := 12 * M) (by linarith) (hM.bot (by linarith)) (hM.top (by linarith))).mono (by norm_num; linarith)
  have ld' : |N.dot (P - A)| ≤ 7 / 2 * M := (dot_le_len N _ hN).trans ld
  have one : ∀ {x y : Fl R} {b c : ℝ}, Fl.Near x b (43 * η) → |b| ≤ 1 → Fl.Near y c (8 * (M * η)) → |c| ≤ 7 / 4 * M →
      Fl.Near (y + x * n.dot (p - a)) (c + b * N.dot (P - A)) (790 * (M * η)) ∧ |c + b * N.dot (P - A)| ≤ 6 * M := by
    intro x y b c h1 h2 h3 h4
    have pm := h1.mul hR dot h2 ld' (S := 4 * M) (by nlinarith) (hM.bot (by linarith)) (hM.top (by linarith))
    have pm' : Fl.Near (x * n.dot (p - a)) (b * N.dot (P - A)) (775 * (M * η)) := pm.mono (by norm_num; nlinarith)
    have hb : |b * N.dot (P - A)| ≤ 7 / 2 * M := by rw [abs_mul]; nlinarith [abs_nonneg b, abs_nonneg (N.dot (P - A))]
    have t := abs_add_le c (b * N.dot (P - A))
    exact ⟨(h3.add hR pm' (S := 6 * M) (by linarith) (hM.bot (by linarith)) (hM.top (by linarith))).mono (by norm_num; linarith), by linarith⟩
  obtain ⟨a1, b1⟩ := one hn.1 wN.1 ha.1 wA.1
  obtain ⟨a2, b2⟩ := one hn.2.1 wN.2.1 ha.2.1 wA.2.1
  obtain ⟨a3, b3⟩ := one hn.2.2 wN.2.2 ha.2.2 wA.2.2
  exact ⟨⟨a1, a2, a3⟩, b1, b2, b3⟩

/-- the direction of the dimension line on the page, from the first foot to the second -/
theorem dirn_near {M η : ℝ} (hM : Small M) (hη : Fine η) {p q : V3 (Fl R)} {N P Q : V3 ℝ} {D : ℝ} (hN : len3 N = 1) (hz : N.z = 0)
    (hp : V3.NearTo p P (790 * (M * η))) (hq : V3.NearTo q Q (790 * (M * η))) (e : Q - P = N.smul D) (h1 : M / 2 ^ 10 ≤ |D|) (h2 : |D| ≤ 7 / 2 * M) :
    V3.NearTo (⟨(q - p).x, (q - p).y, FP.lit 0⟩ : V3 (Fl R)).normalized (N.smul (D / |D|)) (2 ^ 23 * η) := by
  have hη1 := hη.lo
  have hη2 := hη.hi
  have hM1 := hM.one
  have hM2 := hM.top
  have hW : Wide M := ⟨le_trans (by norm_num) hM1, hM2.trans (pow_le_pow_right₀ (by norm_num) (by norm_num))⟩
  have hM0 : 0 < M := by linarith
  have hη0 : 0 < η := lt_of_lt_of_le (by positivity) hη1
  have g1 : M * (1 / 2 ^ 50) ≤ M * η := mul_le_mul_of_nonneg_left hη1 hM0.le
  have g2 : M * η ≤ M * (1 / 2 ^ 40) := mul_le_mul_of_nonneg_left hη2 hM0.le
  have hD0 : 0 < |D| := lt_of_lt_of_le (by positivity) h1
  have wN : N.Within 1 := within_len hN.le
  have hl : len3 (N.smul D) = |D| := by rw [len3_scaled, hN, mul_one]
  have wl : (N.smul D).Within (4 * M) := within_len (by rw [hl]; linarith)
  have dif : V3.NearTo (⟨(q - p).x, (q - p).y, FP.lit 0⟩ : V3 (Fl R)) (N.smul D) (1590 * (M * η)) := by
    have one : ∀ {x y : Fl R} {b c : ℝ}, Fl.Near x b (790 * (M * η)) → Fl.Near y c (790 * (M * η)) → |b - c| ≤ 4 * M →
        Fl.Near (x - y) (b - c) (1590 * (M * η)) := by
      intro x y b c h1 h2 h3
      norm_num at g1 g2
      exact (h1.sub hR h2 (S := 5 * M) (by linarith) (hW.bot (by linarith)) (hW.top (by linarith))).mono (by norm_num; linarith)
    rw [← e] at wl ⊢
    refine ⟨one hq.1 hp.1 wl.1, one hq.2.1 hp.2.1 wl.2.1, ?_⟩
    show Fl.Near (FP.lit 0 : Fl R) _ _
    rw [lit_zero R, e]
    exact ⟨0, rfl, by simp [V3.smul, hz]; positivity⟩
  have hU : Wide |D| := ⟨by refine le_trans ?_ h1; norm_num; linarith, by
    have h3 : |D| ≤ 2 ^ 42 := by norm_num at hM2 ⊢; linarith
    exact h3.trans (pow_le_pow_right₀ (by norm_num) (by norm_num))⟩
  have hδ : |D| * (1590 * (M * η) / |D|) = 1590 * (M * η) := by field_simp
  have d1 : 1590 * (M * η) / |D| ≤ 1590 * 2 ^ 10 * η := by
    rw [div_le_iff₀ hD0]
    have : M ≤ 2 ^ 10 * |D| := by norm_num at h1 ⊢; linarith
    nlinarith
  obtain ⟨-, u⟩ := unit_near2 hR hU (δ := 1590 * (M * η) / |D|) (by
      rw [le_div_iff₀ hD0]
      norm_num at g1 ⊢; linarith) (by
      refine d1.trans ?_
      norm_num at hη2 ⊢; linarith) (by rw [hδ]; exact dif) hl.ge (by rw [hl]; linarith)
  rw [hl] at u
  have e2 : (N.smul D).sdiv |D| = N.smul (D / |D|) := by ext <;> simp [V3.smul, V3.sdiv] <;> ring
  rw [e2] at u
  have : 25 / 8 * (1590 * (M * η) / |D|) + 18 / 2 ^ 50 ≤ 2 ^ 23 * η := by
    norm_num at d1 hη1 ⊢
    linarith
  exact ⟨u.1.mono this, u.2.1.mono this, u.2.2.mono this⟩

/-- the same, in points on the page -/
theorem scaled_near {η k : ℝ} (hη : Fine η) (hk1 : 1 / 2 ^ 40 ≤ k) (hk2 : k ≤ 2 ^ 40) {K : Fl R} (hK : K = (Ext.fin k : Ext ℝ)) {x : Fl R} {X : ℝ} (hx : Fl.Near x X (2 ^ 23 * η)) (hX : |X| ≤ 1) :
    Fl.Near (x / K) (X * (1 / k)) (2 ^ 24 * η * (1 / k)) := by
  subst hK
  have hk0 : 0 < k := lt_of_lt_of_le (by positivity) hk1
  have hη1 := hη.lo
  have hη2 := hη.hi
  have hκ0 : 0 < 1 / k := by positivity
  have hκ1 : 1 / 2 ^ 40 ≤ 1 / k := one_div_le_one_div_of_le hk0 hk2
  have hκ2 : 1 / k ≤ 2 ^ 40 := by
    rw [div_le_iff₀ hk0]
    have := mul_le_mul_of_nonneg_left hk1 (by positivity : (0 : ℝ) ≤ 2 ^ 40)
    norm_num at this ⊢
    linarith
  have e : X / k = X * (1 / k) := by ring
  have h3 : |X / k| ≤ 1 / k := by
    rw [abs_div, abs_of_pos hk0]
    exact div_le_div_of_nonneg_right hX hk0.le
  have hq : 2 ^ 23 * η / k = 2 ^ 23 * η * (1 / k) := by ring
  have hηκ1 : 1 / 2 ^ 50 * (1 / k) ≤ η * (1 / k) := mul_le_mul_of_nonneg_right hη1 hκ0.le
  have hηκ2 : η * (1 / k) ≤ 1 / 2 ^ 40 * (1 / k) := mul_le_mul_of_nonneg_right hη2 hκ0.le
  have := hx.div hR (Fl.near_fin (R := R) k) (S := 2 * (1 / k)) (by rw [abs_of_pos hk0]; exact hk0) (by
      rw [mul_zero, add_zero, sub_zero, abs_of_pos hk0, hq]
      generalize 1 / k = κ at *
      norm_num at hηκ2 ⊢
      linarith) (by
      generalize 1 / k = κ at *
      norm_num at hκ1 ⊢; linarith) (by
      have : (2 : ℝ) * (1 / k) ≤ 2 ^ 41 := by
        generalize 1 / k = κ at *
        norm_num at hκ2 ⊢; linarith
      exact this.trans (pow_le_pow_right₀ (by norm_num) (by norm_num)))
  rw [mul_zero, add_zero, sub_zero, abs_of_pos hk0, hq, e] at this
  refine this.mono ?_
  generalize 1 / k = κ at *
  norm_num at hηκ1 ⊢
  linarith

omit hR in
/-- sizes of one point of the page in the model -/
structure Unit (k κ : ℝ) : Prop where
  one : k * κ = 1
  lo : 1 / 2 ^ 40 ≤ k
  hi : k ≤ 2 ^ 40
  pos : 0 < k
  pos' : 0 < κ
  lo' : 1 / 2 ^ 40 ≤ κ
  hi' : κ ≤ 2 ^ 40

omit hR in
theorem unit_of {k : ℝ} (hk1 : 1 / 2 ^ 40 ≤ k) (hk2 : k ≤ 2 ^ 40) : Unit k (1 / k) := by
  have hk0 : 0 < k := lt_of_lt_of_le (by positivity) hk1
  refine ⟨by field_simp, hk1, hk2, hk0, by positivity, one_div_le_one_div_of_le hk0 hk2, ?_⟩
  rw [div_le_iff₀ hk0]
  have := mul_le_mul_of_nonneg_left hk1 (by positivity : (0 : ℝ) ≤ 2 ^ 40)
  norm_num at this ⊢
  linarith

omit hR in
theorem Unit.bot {k κ : ℝ} (h : Unit k κ) {S : ℝ} (hS : κ ≤ S) : 1 / 2 ^ 100 ≤ S := by
  have := h.lo'
  norm_num at this ⊢
  linarith

omit hR in
theorem Unit.top {k κ : ℝ} (h : Unit k κ) {S : ℝ} (hS : S ≤ 2 ^ 40 * κ) : S ≤ 2 ^ 1000 := by
  have := h.hi'
  have h2 : S ≤ 2 ^ 80 := by norm_num at this hS ⊢; linarith
  exact h2.trans (pow_le_pow_right₀ (by norm_num) (by norm_num))

theorem off_mul {k κ : ℝ} (hu : Unit k κ) {u c : Fl R} {U C δ c0 : ℝ} (h : Fl.Near u (U * κ) (δ * κ)) (hU : |U| ≤ 2 ^ 8) (hδ0 : 0 ≤ δ) (hδ : δ ≤ 2 ^ 8)
    (hc : Fl.Near c C (1 / 2 ^ 46)) (hC : |C| ≤ c0) (h0 : c0 ≤ 16) : Fl.Near (u * c) (U * C * κ) ((c0 * δ + 1 / 2 ^ 35) * κ) := by
  have hκ := hu.pos'
  have c00 : 0 ≤ c0 := (abs_nonneg _).trans hC
  have h1 : |U * κ| ≤ 2 ^ 8 * κ := by rw [abs_mul, abs_of_pos hκ]; exact mul_le_mul_of_nonneg_right hU hκ.le
  have h2 : δ * κ ≤ 2 ^ 8 * κ := mul_le_mul_of_nonneg_right hδ hκ.le
  have h3 : 0 ≤ δ * κ := mul_nonneg hδ0 hκ.le
  have h4 : δ * κ * c0 ≤ δ * κ * 16 := mul_le_mul_of_nonneg_left h0 h3
  have h5 : κ * c0 ≤ κ * 16 := mul_le_mul_of_nonneg_left h0 hκ.le
  have := h.mul hR hc h1 hC (S := 2 ^ 14 * κ) (by
    norm_num at h2 ⊢
    nlinarith) (hu.bot (by norm_num; linarith)) (hu.top (by norm_num; linarith))
  rw [show U * κ * C = U * C * κ by ring] at this
  refine this.mono ?_
  norm_num at h2 ⊢
  nlinarith

theorem off_add {k κ : ℝ} (hu : Unit k κ) {u v : Fl R} {U V δ δ' : ℝ} (h : Fl.Near u (U * κ) (δ * κ)) (h' : Fl.Near v (V * κ) (δ' * κ)) (hU : |U| ≤ 2 ^ 8) (hδ : δ ≤ 2 ^ 8)
    (hV : |V| ≤ 2 ^ 8) (hδ' : δ' ≤ 2 ^ 8) : Fl.Near (u + v) ((U + V) * κ) ((δ + δ' + 1 / 2 ^ 35) * κ) := by
  have hκ := hu.pos'
  have h1 : |U * κ + V * κ| ≤ 2 ^ 9 * κ := by
    rw [← add_mul, abs_mul, abs_of_pos hκ]
    refine mul_le_mul_of_nonneg_right ?_ hκ.le
    refine (abs_add_le _ _).trans ?_
    norm_num at hU hV ⊢
    linarith
  have h2 : δ * κ ≤ 2 ^ 8 * κ := mul_le_mul_of_nonneg_right hδ hκ.le
  have h3 : δ' * κ ≤ 2 ^ 8 * κ := mul_le_mul_of_nonneg_right hδ' hκ.le
  have := h.add hR h' (S := 2 ^ 11 * κ) (by norm_num at h1 h2 h3 ⊢; linarith) (hu.bot (by norm_num; linarith)) (hu.top (by norm_num; linarith))
  rw [show U * κ + V * κ = (U + V) * κ by ring] at this
  refine this.mono ?_
  norm_num
  nlinarith

/-- a number of the drawing, on the page -/
theorem moved1_near {M k κ : ℝ} (hM : Small M) (hu : Unit k κ) {K : Fl R} (hK : K = (Ext.fin k : Ext ℝ)) {z o' : Fl R} {Z o ε : ℝ} (ho : o' = (Ext.fin o : Ext ℝ))
    (hz : Fl.Near z Z ε) (hZ : |Z| ≤ 8 * M + 2 ^ 10 * κ) (hε : ε ≤ M + 2 ^ 10 * κ) (hob : |o| ≤ 2 ^ 200) :
    Fl.Near (z * K + o') (Z * k + o) (ε * k + (M * k + |o| + 2 ^ 10) / 2 ^ 45) := by
  subst hK ho
  have hk := hu.pos
  have hκ := hu.pos'
  have hMk : 0 < M * k := mul_pos (by linarith [hM.one]) hk
  have hε0 : 0 ≤ ε := by obtain ⟨b, -, hb⟩ := hz; exact (abs_nonneg _).trans hb
  have e1 : (8 * M + 2 ^ 10 * κ) * k = 8 * (M * k) + 2 ^ 10 := by linear_combination 2 ^ 10 * hu.one
  have e2 : (M + 2 ^ 10 * κ) * k = M * k + 2 ^ 10 := by linear_combination 2 ^ 10 * hu.one
  have hMk2 : M * k ≤ 2 ^ 80 := by
    rw [show (2 : ℝ) ^ 80 = 2 ^ 40 * 2 ^ 40 by norm_num]
    exact mul_le_mul hM.top hu.hi hk.le (by positivity)
  have hεk : ε * k ≤ M * k + 2 ^ 10 := by rw [← e2]; exact mul_le_mul_of_nonneg_right hε hk.le
  have hk40 : 1 / 2 ^ 40 ≤ k := hu.lo
  have top1 : ∀ {S : ℝ}, S ≤ 2 ^ 90 + 2 ^ 10 * 2 ^ 200 → S ≤ 2 ^ 1000 := by
    intro S hS
    refine hS.trans ?_
    have h1 : (2 : ℝ) ^ 90 ≤ 2 ^ 999 := pow_le_pow_right₀ (by norm_num) (by norm_num)
    have h2 : (2 : ℝ) ^ 10 * 2 ^ 200 ≤ 2 ^ 999 := by rw [← pow_add]; exact pow_le_pow_right₀ (by norm_num) (by norm_num)
    have h3 : (2 : ℝ) ^ 999 + 2 ^ 999 = 2 ^ 1000 := by rw [← two_mul, ← pow_succ']
    rw [← h3]; exact add_le_add h1 h2
  have h200 : (0 : ℝ) ≤ 2 ^ 200 := by positivity
  have m := hz.mul hR (Fl.near_fin (R := R) k) hZ (le_of_eq (abs_of_pos hk)) (S := 10 * (M * k) + 2 ^ 12) (by
      rw [add_zero, add_mul, e1]
      norm_num at hεk ⊢; linarith) (by norm_num; linarith) (top1 (by
        generalize (2 : ℝ) ^ 200 = t at *
        norm_num at hMk2 ⊢; linarith))
  replace m := m.mono (δ := ε * k + (10 * (M * k) + 2 ^ 12) / 2 ^ 51) (le_of_eq (by ring))
  have hZk : |Z * k| ≤ 8 * (M * k) + 2 ^ 10 := by
    rw [abs_mul, abs_of_pos hk, ← e1]
    exact mul_le_mul_of_nonneg_right hZ hk.le
  have t := abs_add_le (Z * k) o
  have ho0 := abs_nonneg o
  have a := m.add hR (Fl.near_fin (R := R) o) (S := 20 * (M * k) + 2 ^ 13 + |o|) (by
      generalize |Z * k| = y at *
      generalize |Z * k + o| = y' at *
      norm_num at hεk hZk ⊢; linarith) (by norm_num; linarith) (top1 (by
        generalize (2 : ℝ) ^ 200 = t at *
        norm_num at hMk2 ⊢; linarith))
  refine a.mono ?_
  norm_num
  linarith

omit hR in
theorem leaves_bounds {n : ℕ} (hn : n ≤ 64) {e : V2 ℝ} (he : e.x ^ 2 + e.y ^ 2 = 1) {G : ℝ} (hG : Leaves (labelW n) labelH e G) : 1 ≤ G ∧ G ≤ 2 ^ 8 := by
  obtain ⟨g0, g1, g2, g3⟩ := hG
  have hw1 : 1 ≤ labelW n := by unfold labelW; have : (0 : ℝ) ≤ n := Nat.cast_nonneg n; norm_num
  have hw2 : labelW n ≤ 155 := by unfold labelW; have : (n : ℝ) ≤ 64 := by exact_mod_cast hn
                                  norm_num; linarith
  have hh1 : (1 : ℝ) ≤ labelH := by unfold labelH; norm_num
  have hh2 : labelH ≤ 4 := by unfold labelH; norm_num
  have ex : |e.x| ≤ 1 := abs_le_one_iff_mul_self_le_one.2 (by nlinarith [sq_nonneg e.y])
  have ey : |e.y| ≤ 1 := abs_le_one_iff_mul_self_le_one.2 (by nlinarith [sq_nonneg e.x])
  constructor
  · rcases g3 with g | g
    · nlinarith
    · nlinarith
  · have h1 : (|e.x| * G) ^ 2 ≤ 155 ^ 2 := pow_le_pow_left₀ (by positivity) (g1.trans hw2) 2
    have h2 : (|e.y| * G) ^ 2 ≤ 4 ^ 2 := pow_le_pow_left₀ (by positivity) (g2.trans hh2) 2
    rw [mul_pow, sq_abs] at h1 h2
    have : G ^ 2 = e.x ^ 2 * G ^ 2 + e.y ^ 2 * G ^ 2 := by rw [← add_mul, he, one_mul]
    norm_num
    nlinarith

theorem lit_near {q : ℚ} {Q : ℝ} (e : (q : ℝ) = Q) (h : |Q| ≤ 16) : Fl.Near (FP.lit q : Fl R) Q (1 / 2 ^ 46) := by
  have := Fl.near_lit hR q (S := 16) (by rw [e]; exact h) (by norm_num) (by
    have : (16 : ℝ) = 2 ^ 4 := by norm_num
    rw [this]; exact pow_le_pow_right₀ (by norm_num) (by norm_num))
  rw [e] at this
  exact this.mono (by norm_num)

/-- room reserved for the label -/
theorem labelW_near {n : ℕ} (hn : n ≤ 64) :
    Fl.Near (FP.lit kFontSize * FP.lit (3 / 10) * FP.lit (n : ℚ) + FP.lit 1 : Fl R) (labelW n) (labelW n / 2 ^ 45) := by
  have hn' : (n : ℝ) ≤ 64 := by exact_mod_cast hn
  have hn0 : (0 : ℝ) ≤ n := Nat.cast_nonneg n
  have up : ∀ {S : ℝ}, S ≤ 2 ^ 20 → S ≤ 2 ^ 1000 := fun h => h.trans (pow_le_pow_right₀ (by norm_num) (by norm_num))
  have l8 := Fl.near_lit hR (R := R) kFontSize (S := 8) (by norm_num [kFontSize]) (by norm_num) (up (by norm_num))
  have l3 := Fl.near_lit hR (R := R) (3 / 10) (S := 1) (by norm_num) (by norm_num) (up (by norm_num))
  have ln := Fl.near_lit hR (R := R) (n : ℚ) (S := n + 1 / 2 ^ 20) (by push_cast; rw [abs_of_nonneg hn0]; norm_num) (by norm_num; linarith) (up (by norm_num; linarith))
  have l1 := Fl.near_lit hR (R := R) 1 (S := 1) (by norm_num) (by norm_num) (up (by norm_num))
  push_cast at l3 ln l1
  have e8 : ((kFontSize : ℚ) : ℝ) = 8 := by norm_num [kFontSize]
  rw [e8] at l8
  have m1 := (l8.mul hR l3 (A := 8) (B := 3 / 10) (S := 5 / 2) (by norm_num) (by norm_num) (by norm_num) (by norm_num) (up (by norm_num))).mono
    (show _ ≤ 16 / 2 ^ 51 by norm_num)
  have m2 := (m1.mul hR ln (A := 12 / 5) (B := n) (S := 5 / 2 * n + 1 / 2 ^ 10) (by norm_num) (by rw [abs_of_nonneg hn0]) (by norm_num; nlinarith) (by norm_num; linarith)
    (up (by norm_num; linarith))).mono (δ := (24 * (n : ℝ) + 1) / 2 ^ 51) (by norm_num; nlinarith)
  have m3 := (m2.add hR l1 (S := 3 * n + 2) (by rw [abs_of_nonneg (by positivity)]; norm_num; linarith) (by norm_num; linarith) (up (by norm_num; linarith)))
  have e : (8 * (3 / 10) * n + 1 : ℝ) = labelW n := by unfold labelW; norm_num
  rw [e] at m3
  refine m3.mono ?_
  unfold labelW
  norm_num
  linarith

theorem labelH_near : Fl.Near (FP.lit kFontSize * FP.lit (333 / 1000) + FP.lit 1 : Fl R) labelH (labelH / 2 ^ 45) := by
  have up : ∀ {S : ℝ}, S ≤ 2 ^ 20 → S ≤ 2 ^ 1000 := fun h => h.trans (pow_le_pow_right₀ (by norm_num) (by norm_num))
  have l8 := Fl.near_lit hR (R := R) kFontSize (S := 8) (by norm_num [kFontSize]) (by norm_num) (up (by norm_num))
  have l3 := Fl.near_lit hR (R := R) (333 / 1000) (S := 1) (by norm_num) (by norm_num) (up (by norm_num))
  have l1 := Fl.near_lit hR (R := R) 1 (S := 1) (by norm_num) (by norm_num) (up (by norm_num))
  push_cast at l3 l1
  have e8 : ((kFontSize : ℚ) : ℝ) = 8 := by norm_num [kFontSize]
  rw [e8] at l8
  have m1 := (l8.mul hR l3 (A := 8) (B := 1 / 2) (S := 5) (by norm_num) (by norm_num [abs_of_pos]) (by norm_num) (by norm_num) (up (by norm_num))).mono
    (show _ ≤ 20 / 2 ^ 51 by norm_num)
  have m3 := (m1.add hR l1 (S := 4) (by norm_num [abs_of_pos]) (by norm_num) (up (by norm_num)))
  have e : (8 * (333 / 1000) + 1 : ℝ) = labelH := by unfold labelH; norm_num
  rw [e] at m3
  refine m3.mono ?_
  unfold labelH
  norm_num

/-- the gap for the label -/
theorem gap_near {n : ℕ} (hn : n ≤ 64) {k κ η G : ℝ} (hu : Unit k κ) (hη : Fine η) {K : Fl R} (hK : K = (Ext.fin k : Ext ℝ)) {e : V2 ℝ} (he : e.x ^ 2 + e.y ^ 2 = 1)
    (hG : Leaves (labelW n) labelH e G) {x y : Fl R} (hx : Fl.Near x (e.x * κ) (2 ^ 24 * η * κ)) (hy : Fl.Near y (e.y * κ) (2 ^ 24 * η * κ)) :
    Fl.Near (FP.min (FP.abs ((FP.lit kFontSize * FP.lit (3 / 10) * FP.lit (n : ℚ) + FP.lit 1) / x)) (FP.abs ((FP.lit kFontSize * FP.lit (333 / 1000) + FP.lit 1) / y)) / K)
      G (7 * (2 ^ 24 * η * G ^ 2)) := by
  subst hK
  have hκ := hu.pos'
  have hk := hu.pos
  obtain ⟨hG1, hG2⟩ := leaves_bounds hn he hG
  obtain ⟨g0, g1, g2, g3⟩ := hG
  have hη1 := hη.lo
  have hη2 := hη.hi
  have hη0 : 0 < η := lt_of_lt_of_le (by positivity) hη1
  have hw1 : 1 ≤ labelW n := by unfold labelW; have : (0 : ℝ) ≤ n := Nat.cast_nonneg n; norm_num
  have hw2 : labelW n ≤ 155 := by unfold labelW; have : (n : ℝ) ≤ 64 := by exact_mod_cast hn
                                  norm_num; linarith
  have hh1 : (1 : ℝ) ≤ labelH := by unfold labelH; norm_num
  have hh2 : labelH ≤ 4 := by unfold labelH; norm_num
  have ex : |e.x| ≤ 1 := abs_le_one_iff_mul_self_le_one.2 (by nlinarith [sq_nonneg e.y])
  have ey : |e.y| ≤ 1 := abs_le_one_iff_mul_self_le_one.2 (by nlinarith [sq_nonneg e.x])
  have z1 : κ / 2 ^ 30 ≤ 2 ^ 24 * η * κ := by
    have := mul_le_mul_of_nonneg_right hη1 hκ.le
    norm_num at this ⊢; linarith
  have z2 : 2 ^ 24 * η * κ ≤ κ := by
    have := mul_le_mul_of_nonneg_right hη2 hκ.le
    norm_num at this ⊢; linarith
  have k1 : 1 / 2 ^ 45 ≤ κ := by have := hu.lo'; norm_num at this ⊢; linarith
  have k2 : κ ≤ 2 ^ 45 := by have := hu.hi'; norm_num at this ⊢; linarith
  have ex' : |e.x * κ| ≤ κ := by rw [abs_mul, abs_of_pos hκ]; nlinarith
  have ey' : |e.y * κ| ≤ κ := by rw [abs_mul, abs_of_pos hκ]; nlinarith
  have r1 := recip_div hR (labelW_near hR hn) hw1 (hw2.trans (by norm_num)) hx ex' k1 k2 z1 z2
  have r2 := recip_div hR (labelH_near hR) hh1 (hh2.trans (by norm_num)) hy ey' k1 k2 z1 z2
  have r := Recip.min (by positivity) (by positivity) r1 r2
  have hm : max (|e.x * κ| / labelW n) (|e.y * κ| / labelH) = κ / G := by
    rw [abs_mul, abs_mul, abs_of_pos hκ]
    have a1 : |e.x| * κ / labelW n ≤ κ / G := by rw [div_le_div_iff₀ (by linarith) g0]; nlinarith
    have a2 : |e.y| * κ / labelH ≤ κ / G := by rw [div_le_div_iff₀ (by linarith) g0]; nlinarith
    rcases g3 with g | g
    · have a3 : |e.x| * κ / labelW n = κ / G := by rw [div_eq_div_iff (by linarith) g0.ne', ← g]; ring
      rw [a3]; exact max_eq_left a2
    · have a3 : |e.y| * κ / labelH = κ / G := by rw [div_eq_div_iff (by linarith) g0.ne', ← g]; ring
      rw [a3]; exact max_eq_right a1
  rw [hm, show 3 * (2 ^ 24 * η * κ) = 3 * (2 ^ 24 * η) * κ by ring] at r
  have hηG : η * G ≤ 1 / 2 ^ 40 * 2 ^ 8 := mul_le_mul hη2 hG2 (by linarith) (by positivity)
  have fin := recip_fin hR g0 hκ r (by norm_num at hηG ⊢; linarith) (by positivity)
  have ek : 1 / κ = k := by rw [div_eq_iff hκ.ne']; exact hu.one.symm
  have e1 : G / κ = G * k := by rw [← ek]; ring
  have e2 : 2 * (3 * (2 ^ 24 * η) * G ^ 2) / κ = 6 * (2 ^ 24 * η * G ^ 2) * k := by rw [← ek]; ring
  rw [e1, e2] at fin
  have hηGG : η * G * G ≤ 1 / 2 ^ 40 * 2 ^ 8 * 2 ^ 8 := mul_le_mul hηG hG2 (by linarith) (by positivity)
  have low : 1 / 2 ^ 50 * G ≤ η * G * G := by nlinarith [mul_le_mul hη1 hG1 (by norm_num) hη0.le, mul_pos hη0 g0]
  have up : ∀ {S : ℝ}, S ≤ 2 ^ 20 → S ≤ 2 ^ 1000 := fun h => h.trans (pow_le_pow_right₀ (by norm_num) (by norm_num))
  have d := fin.div hR (Fl.near_fin (R := R) k) (S := 2 * G + 16) (by rw [abs_of_pos hk]; exact hk) (by
    rw [mul_zero, add_zero, sub_zero, abs_of_pos hk, mul_div_cancel_right₀ _ hk.ne', mul_div_cancel_right₀ _ hk.ne', abs_of_pos g0]
    norm_num at hηGG ⊢
    nlinarith) (by norm_num; linarith) (up (by norm_num at hG2 ⊢; linarith))
  rw [mul_zero, add_zero, sub_zero, abs_of_pos hk, mul_div_cancel_right₀ _ hk.ne', mul_div_cancel_right₀ _ hk.ne'] at d
  refine d.mono ?_
  norm_num at low ⊢
  nlinarith

end
end S2P
