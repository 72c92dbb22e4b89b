import Verif.Lemmas.StrokeInk

set_option linter.unusedSectionVars false
set_option linter.unusedVariables false
set_option linter.unusedSimpArgs false

/-! # A linear dimension as drawn, in rounded arithmetic -/

namespace S2P

/-- how close a choice may be to be decided either way -/
noncomputable def choiceError (M k η G : ℝ) : ℝ := (2 ^ 28 * (M * k) + 2 ^ 29 * G ^ 2) * η

section
variable {R : Rounding} (hR : R.Accurate)

omit hR in
theorem near_lt {x y : Fl R} {a b ε δ : ℝ} (hx : Fl.Near x a ε) (hy : Fl.Near y b δ) (h : FP.lt x y = true) : a ≤ b + (ε + δ) := by
  obtain ⟨c, rfl, hc⟩ := hx
  obtain ⟨d, rfl, hd⟩ := hy
  have : decide (c < d) = true := h
  have := of_decide_eq_true this
  rw [abs_le] at hc hd
  linarith [hc.1, hc.2, hd.1, hd.2]

include hR

/-- on which side a point is -/
theorem side_near {M k κ η G : ℝ} {o : V2 ℝ} (h : PageSize M k κ η G o) {e : V2 ℝ} (he : e.x ^ 2 + e.y ^ 2 = 1) {a : V3 (Fl R)}
    (hax : Fl.Near a.x (e.x * κ) (2 ^ 24 * η * κ)) (hay : Fl.Near a.y (e.y * κ) (2 ^ 24 * η * κ)) {d : V3 (Fl R)} {A P : V3 ℝ}
    (hd : V3.NearTo d (P - A) (19 * (M * η))) (ld : len3 (P - A) ≤ 7 / 2 * M) :
    ∃ σ, Fl.Near (if FP.lt (FP.lit 0) (d.dot ⟨-a.y, a.x, FP.lit 0⟩) then FP.lit 1 else FP.lit (-1) : Fl R) σ (1 / 2 ^ 46) ∧ |σ| ≤ 1 ∧
      OnSide (choiceError M k η G) (A.placed k o) e (P.placed k o) σ := by
  have hκ := h.unit.pos'
  have hk := h.unit.pos
  have hM1 := h.small.one
  have hM2 := h.small.top
  have hM0 : 0 < M := by linarith
  have hη1 := h.fine.lo
  have hη2 := h.fine.hi
  have hη0 : 0 < η := lt_of_lt_of_le (by positivity) hη1
  have ex : |e.x| ≤ 1 := abs_le_one_iff_mul_self_le_one.2 (by nlinarith [sq_nonneg e.y])
  have ey : |e.y| ≤ 1 := abs_le_one_iff_mul_self_le_one.2 (by nlinarith [sq_nonneg e.x])
  have ζ1 : (2 : ℝ) ^ 24 * η ≤ 1 / 2 ^ 16 := by norm_num at hη2 ⊢; linarith
  have ζκ : 2 ^ 24 * η * κ ≤ 1 / 2 ^ 16 * κ := mul_le_mul_of_nonneg_right ζ1 hκ.le
  have ζκ0 : 0 ≤ 2 ^ 24 * η * κ := by positivity
  have g2 : M * η ≤ M * (1 / 2 ^ 40) := mul_le_mul_of_nonneg_left hη2 (by linarith)
  have hMη : 0 ≤ M * η := by positivity
  have w := within_len ld
  have hMκ : 0 < M * κ := mul_pos hM0 hκ
  have hMκη : 0 < M * κ * η := mul_pos hMκ hη0
  have h50 : M * κ * (1 / 2 ^ 50) ≤ M * κ * η := mul_le_mul_of_nonneg_left hη1 hMκ.le
  have h40 : M * κ * η ≤ M * κ * (1 / 2 ^ 40) := mul_le_mul_of_nonneg_left hη2 hMκ.le
  have hηη : M * κ * η * η ≤ M * κ * η * (1 / 2 ^ 40) := mul_le_mul_of_nonneg_left hη2 hMκη.le
  have bot : ∀ {S : ℝ}, M * κ ≤ S → 1 / 2 ^ 100 ≤ S := by
    intro S hS
    have : 1 * κ ≤ M * κ := mul_le_mul_of_nonneg_right hM1 hκ.le
    exact h.unit.bot (by linarith)
  have top : ∀ {S : ℝ}, S ≤ 2 ^ 10 * (M * κ) → S ≤ 2 ^ 1000 := by
    intro S hS
    have h1 : M * κ ≤ 2 ^ 40 * 2 ^ 40 := mul_le_mul hM2 h.unit.hi' hκ.le (by positivity)
    have h2 : S ≤ 2 ^ 90 := by norm_num at h1 hS ⊢; linarith
    exact h2.trans (pow_le_pow_right₀ (by norm_num) (by norm_num))
  have pr : ∀ {x y : Fl R} {b c : ℝ}, Fl.Near x b (19 * (M * η)) → |b| ≤ 7 / 2 * M → Fl.Near y (c * κ) (2 ^ 24 * η * κ) → |c| ≤ 1 →
      Fl.Near (x * y) (b * c * κ) (4 * 2 ^ 24 * (M * κ * η)) ∧ |b * c * κ| ≤ 7 / 2 * (M * κ) := by
    intro x y b c h1 h2 h3 h4
    have h5 : |c * κ| ≤ κ := by rw [abs_mul, abs_of_pos hκ]; nlinarith
    have s : (7 / 2 * M + 19 * (M * η)) * (κ + 2 ^ 24 * η * κ) ≤ 5 * (M * κ) := by
      have : (7 / 2 * M + 19 * (M * η)) * (κ + 2 ^ 24 * η * κ) ≤ (4 * M) * (5 / 4 * κ) := by
        refine mul_le_mul ?_ ?_ (by linarith) (by linarith)
        · norm_num at g2 ⊢; linarith
        · norm_num at ζκ ⊢; linarith
      linarith
    have m := h1.mul hR h3 h2 h5 (S := 5 * (M * κ)) s (bot (by linarith)) (top (by linarith))
    refine ⟨(m.congr (by ring)).mono ?_, ?_⟩
    · have e1 : 7 / 2 * M * (2 ^ 24 * η * κ) + κ * (19 * (M * η)) + 19 * (M * η) * (2 ^ 24 * η * κ) + 5 * (M * κ) / 2 ^ 51 =
        7 / 2 * 2 ^ 24 * (M * κ * η) + 19 * (M * κ * η) + 19 * 2 ^ 24 * (M * κ * η * η) + 5 * (M * κ) / 2 ^ 51 := by ring
      rw [e1]
      norm_num at hηη h50 ⊢
      linarith
    · rw [abs_mul, abs_mul, abs_of_pos hκ]
      have : |b| * |c| ≤ 7 / 2 * M * 1 := mul_le_mul h2 h4 (abs_nonneg _) (by positivity)
      nlinarith
  obtain ⟨p1, q1⟩ := pr hd.1 w.1 ((hay.neg).congr (show -(e.y * κ) = -e.y * κ by ring)) (by rw [abs_neg]; exact ey)
  obtain ⟨p2, q2⟩ := pr hd.2.1 w.2.1 hax ex
  have p3 : Fl.Near (d.z * FP.lit 0 : Fl R) 0 0 := by
    obtain ⟨z, hz, -⟩ := hd.2.2
    rw [hz, lit_zero R]
    refine ⟨0, ?_, by simp⟩
    show R.fix (Ext.fin (z * 0)) = _
    rw [mul_zero]
    show overflow _ (R.rnd 0) = _
    rw [R.zero]
    exact overflow_fin (by simp)
  have t1 := abs_add_le ((P - A).x * -e.y * κ) ((P - A).y * e.x * κ)
  have s1 := (p1.add hR p2 (S := 10 * (M * κ)) (by
    generalize |(P - A).x * -e.y * κ + (P - A).y * e.x * κ| = y at *
    norm_num at h40 ⊢; linarith) (bot (by linarith)) (top (by norm_num; linarith))).mono
    (δ := 9 * 2 ^ 24 * (M * κ * η)) (by norm_num at h50 ⊢; linarith)
  have s2 := (s1.add hR p3 (S := 10 * (M * κ)) (by
    simp only [add_zero]
    generalize |(P - A).x * -e.y * κ + (P - A).y * e.x * κ| = y at *
    norm_num at h40 ⊢; linarith) (bot (by linarith)) (top (by norm_num; linarith))).mono
    (δ := 10 * 2 ^ 24 * (M * κ * η)) (by norm_num at h50 ⊢; linarith)
  have dot : Fl.Near (d.dot ⟨-a.y, a.x, FP.lit 0⟩ : Fl R) (((P - A).x * -e.y + (P - A).y * e.x) * κ) (10 * 2 ^ 24 * (M * κ * η)) := s2.congr (by ring)
  have l0 : Fl.Near (FP.lit 0 : Fl R) 0 0 := by rw [lit_zero R]; exact Fl.near_fin 0
  have hpage : (P.placed k o - A.placed k o).dot e.left = ((P - A).x * -e.y + (P - A).y * e.x) * κ * (k * k) := by
    have : ((P - A).x * -e.y + (P - A).y * e.x) * κ * (k * k) = ((P - A).x * -e.y + (P - A).y * e.x) * k := by
      linear_combination ((P - A).x * -e.y + (P - A).y * e.x) * k * h.unit.one
    rw [this]
    simp [V2.dot, V2.left, V3.placed]
    ring
  have hkk : 10 * 2 ^ 24 * (M * κ * η) * (k * k) ≤ choiceError M k η G := by
    have : 10 * 2 ^ 24 * (M * κ * η) * (k * k) = 10 * 2 ^ 24 * (M * k * η) := by
      linear_combination (10 * 2 ^ 24 * M * k * η) * h.unit.one
    rw [this]
    unfold choiceError
    have : 0 ≤ M * k * η := by positivity
    have : 0 ≤ G ^ 2 * η := by positivity
    norm_num
    linarith
  have hk2 : 0 < k * k := by positivity
  cases hc : FP.lt (FP.lit 0) (d.dot ⟨-a.y, a.x, FP.lit 0⟩ : Fl R)
  · refine ⟨-1, ?_, by norm_num, Or.inr ⟨rfl, ?_⟩⟩
    · simp only [Bool.false_eq_true, if_false]
      exact lit_near hR (by norm_num) (by norm_num)
    · have := not_lt_near l0 dot hc
      rw [hpage]
      refine le_trans ?_ hkk
      exact mul_le_mul_of_nonneg_right (by linarith) hk2.le
  · refine ⟨1, ?_, by norm_num, Or.inl ⟨rfl, ?_⟩⟩
    · simp only [if_true]
      exact lit_near hR (by norm_num) (by norm_num)
    · have := near_lt l0 dot hc
      rw [hpage]
      refine le_trans (neg_le_neg hkk) ?_
      rw [← neg_mul]
      exact mul_le_mul_of_nonneg_right (by linarith) hk2.le

/-- whether there is room for the label -/
theorem room_near {M k κ η G V : ℝ} {o : V2 ℝ} (h : PageSize M k κ η G o) {K : Fl R} (hK : K = (Ext.fin k : Ext ℝ)) {gap x : Fl R} (hV : |V| ≤ 7 / 2 * M)
    (hgap : Fl.Near gap G (7 * (2 ^ 24 * η * G ^ 2))) (hval : Fl.Near x |V| (2 ^ 12 * (M * η))) :
    Fl.Near (gap * FP.lit 2) (G * 2) (16 * (2 ^ 24 * η * G ^ 2)) ∧ Fl.Near (x * K) (|V| * k) (2 ^ 13 * (M * k * η) + 2 * η) ∧
      16 * (2 ^ 24 * η * G ^ 2) + (2 ^ 13 * (M * k * η) + 2 * η) ≤ choiceError M k η G := by
  have hM := h.small
  have hu := h.unit
  have hη := h.fine
  have hG1 := h.g1
  have hG2 := h.g2
  have hM0 : 0 < M := by linarith [hM.one]
  have hη1 := hη.lo
  have hη2 := hη.hi
  have hη0 : 0 < η := lt_of_lt_of_le (by positivity) hη1
  have hGk : (0 : ℝ) ≤ G ^ 2 * η := by positivity
  have hk := hu.pos
  have hMk : 0 < M * k := mul_pos hM0 hk
  have g1 : M * (1 / 2 ^ 50) ≤ M * η := mul_le_mul_of_nonneg_left hη1 hM0.le
  have g2 : M * η ≤ M * (1 / 2 ^ 40) := mul_le_mul_of_nonneg_left hη2 hM0.le
  have g3 : M * k * (1 / 2 ^ 50) ≤ M * k * η := mul_le_mul_of_nonneg_left hη1 hMk.le
  have hGG : G ^ 2 ≤ (2 ^ 8) ^ 2 := pow_le_pow_left₀ (by linarith) hG2 2
  have hGG1 : G ≤ G ^ 2 := by nlinarith
  have hηGG : η * G ^ 2 ≤ 1 / 2 ^ 40 * (2 ^ 8) ^ 2 := mul_le_mul hη2 hGG (by positivity) (by positivity)
  have hηGG1 : η * G ≤ η * G ^ 2 := mul_le_mul_of_nonneg_left hGG1 hη0.le
  have hηG1 : 1 / 2 ^ 50 * G ≤ η * G := mul_le_mul_of_nonneg_right hη1 (by linarith)
  have sup : ∀ {S : ℝ}, S ≤ 2 ^ 90 → S ≤ 2 ^ 1000 := fun h => h.trans (pow_le_pow_right₀ (by norm_num) (by norm_num))
  have twice := (hgap.mul hR (lit_near hR (R := R) (q := 2) (Q := 2) (by norm_num) (by norm_num)) (le_of_eq (abs_of_pos (by linarith : 0 < G))) (B := 2) (by norm_num)
    (S := 2 ^ 12) (by
      have : (G + 7 * (2 ^ 24 * η * G ^ 2)) * (2 + 1 / 2 ^ 46) ≤ (2 ^ 8 + 8) * 3 := by
        refine mul_le_mul ?_ (by norm_num) (by norm_num) (by norm_num)
        norm_num at hηGG hG2 ⊢; linarith
      norm_num at this ⊢; linarith) (by norm_num) (sup (by norm_num))).mono (δ := 16 * (2 ^ 24 * η * G ^ 2)) (by
      norm_num at hηG1 hηGG1 hηGG hG1 ⊢
      linarith)
  have room := (hval.mul hR (hK ▸ Fl.near_fin (R := R) k : Fl.Near K k 0) (A := 4 * M) (by rw [abs_abs]; linarith) (le_of_eq (abs_of_pos hk)) (S := 5 * (M * k) + 1) (by
      have : (4 * M + 2 ^ 12 * (M * η)) * (k + 0) ≤ (5 * M) * k := by
        rw [add_zero]
        refine mul_le_mul_of_nonneg_right ?_ hk.le
        norm_num at g2 ⊢; linarith
      linarith) (by norm_num; linarith) (sup (by
        have : M * k ≤ 2 ^ 40 * 2 ^ 40 := mul_le_mul hM.top hu.hi hk.le (by positivity)
        norm_num at this ⊢; linarith))).mono (δ := 2 ^ 13 * (M * k * η) + 2 * η) (by
      rw [show 4 * M * 0 + k * (2 ^ 12 * (M * η)) + 2 ^ 12 * (M * η) * 0 + (5 * (M * k) + 1) / 2 ^ 51 = 2 ^ 12 * (M * k * η) + (5 * (M * k) + 1) / 2 ^ 51 by ring]
      norm_num at g3 hη1 ⊢
      linarith)
  have tol : 16 * (2 ^ 24 * η * G ^ 2) + (2 ^ 13 * (M * k * η) + 2 * η) ≤ choiceError M k η G := by
    have h1 : η ≤ η * G ^ 2 := by nlinarith [mul_le_mul_of_nonneg_left hG1 hη0.le]
    have h2 : 0 ≤ M * k * η := by positivity
    unfold choiceError
    norm_num
    linarith
  exact ⟨twice, room, tol⟩

/-- **The strokes of a linear dimension**, in the view's coordinates: `N` is the direction, square to the line of sight. -/
theorem dim_ink {M k κ η : ℝ} {o : V2 ℝ} (hM : Small M) (hu : Unit k κ) (hκ : κ = 1 / k) (hη : Fine η) (hox : |o.x| ≤ 2 ^ 200) (hoy : |o.y| ≤ 2 ^ 200) {K : Fl R}
    (hK : K = (Ext.fin k : Ext ℝ)) {o' : V2 (Fl R)} (ho : o' = ⟨(Ext.fin o.x : Ext ℝ), (Ext.fin o.y : Ext ℝ)⟩) {n a f t : V3 (Fl R)} {N A F T : V3 ℝ}
    (hn : V3.NearTo n N (43 * η)) (hN : len3 N = 1) (hz : N.z = 0) (ha : V3.NearTo a A (8 * (M * η))) (hf : V3.NearTo f F (8 * (M * η)))
    (ht : V3.NearTo t T (8 * (M * η))) (lA : len3 A ≤ 7 / 4 * M) (lF : len3 F ≤ 7 / 4 * M) (lT : len3 T ≤ 7 / 4 * M) (hD : M / 2 ^ 10 ≤ |N.dot (T - F)|)
    (g : Fl R → Str)
    (hg : ∀ x, Fl.Near x |N.dot (T - F)| (2 ^ 12 * (M * η)) → (g x).length ≤ 64) :
    let e : V2 ℝ := ⟨N.x * (N.dot (T - F) / |N.dot (T - F)|), N.y * (N.dot (T - F) / |N.dot (T - F)|)⟩
    ∃ x G, Fl.Near x |N.dot (T - F)| (2 ^ 12 * (M * η)) ∧ ((dimItems g K a n f t).moved K o').text = [⟨a.xy.moved K o', g x, true, false⟩] ∧
      DimInk G (strokeError M k η G o) (choiceError M k η G) (g x).length (A.placed k o) (F.placed k o) (T.placed k o) e
        ((dimItems g K a n f t).moved K o').lines := by
  intro e
  have hW : Wide M := ⟨le_trans (by norm_num) hM.one, hM.top.trans (pow_le_pow_right₀ (by norm_num) (by norm_num))⟩
  have hM0 : 0 < M := by linarith [hM.one]
  have hη1 := hη.lo
  have hη2 := hη.hi
  have hη0 : 0 < η := lt_of_lt_of_le (by positivity) hη1
  have hMη : 0 ≤ M * η := by positivity
  obtain ⟨nF, wF⟩ := arrow_near hR hW hη hn hN ha hf lA lF
  obtain ⟨nT, wT⟩ := arrow_near hR hW hη hn hN ha ht lA lT
  have lTF : len3 (T - F) ≤ 7 / 2 * M := by linarith [len3_tri T F]
  have hdot : |N.dot (T - F)| ≤ 7 / 2 * M := (dot_le_len N (T - F) hN).trans lTF
  have hdiff : (A + N.smul (N.dot (T - A))) - (A + N.smul (N.dot (F - A))) = N.smul (N.dot (T - F)) := by
    ext <;> simp [V3.smul, V3.dot] <;> ring
  have hval := value_near hR hW hη hn hN ha hf ht lA lF lT
  have hdir := dirn_near hR hM hη hN hz nF nT hdiff hD hdot
  obtain ⟨dF, ldF⟩ := apart_near hR hW hη ha hf lA lF
  obtain ⟨dT, ldT⟩ := apart_near hR hW hη ha ht lA lT
  have hD0 : 0 < |N.dot (T - F)| := lt_of_lt_of_le (by positivity) hD
  have hσ : (N.dot (T - F) / |N.dot (T - F)|) ^ 2 = 1 := by rw [div_pow, sq_abs]; exact div_self (by rw [← sq_abs]; positivity)
  have hN2 : N.x ^ 2 + N.y ^ 2 = 1 := by
    have := len3_mul_self N
    rw [hN] at this
    simp [V3.sqNorm, V3.dot, hz] at this
    linarith
  have he : e.x ^ 2 + e.y ^ 2 = 1 := by
    show (N.x * _) ^ 2 + (N.y * _) ^ 2 = 1
    rw [mul_pow, mul_pow, hσ, mul_one, mul_one, hN2]
  have ex : |e.x| ≤ 1 := abs_le_one_iff_mul_self_le_one.2 (by nlinarith [sq_nonneg e.y])
  have ey : |e.y| ≤ 1 := abs_le_one_iff_mul_self_le_one.2 (by nlinarith [sq_nonneg e.x])
  have hax := scaled_near hR hη hu.lo hu.hi hK hdir.1 ex
  have hay := scaled_near hR hη hu.lo hu.hi hK hdir.2.1 ey
  rw [← hκ] at hax hay
  obtain ⟨av, hav⟩ : ∃ av : V3 (Fl R), av = (⟨((a + n.smul (n.dot (t - a))) - (a + n.smul (n.dot (f - a)))).x,
    ((a + n.smul (n.dot (t - a))) - (a + n.smul (n.dot (f - a)))).y, FP.lit 0⟩ : V3 (Fl R)).normalized.sdiv K := ⟨_, rfl⟩
  replace hax : Fl.Near av.x (e.x * κ) (2 ^ 24 * η * κ) := by rw [hav]; exact hax
  replace hay : Fl.Near av.y (e.y * κ) (2 ^ 24 * η * κ) := by rw [hav]; exact hay
  have hside : (T.placed k o - F.placed k o).dot e = |N.dot (T - F)| * k := by
    have h1 : |N.dot (T - F)| = N.dot (T - F) * (N.dot (T - F) / |N.dot (T - F)|) := by
      rw [← mul_div_assoc, eq_div_iff hD0.ne', abs_mul_abs_self]
    have h2 : N.dot (T - F) = N.x * (T.x - F.x) + N.y * (T.y - F.y) := by simp [V3.dot, hz]
    have h3 : (T.placed k o - F.placed k o).dot e = (N.x * (T.x - F.x) + N.y * (T.y - F.y)) * (N.dot (T - F) / |N.dot (T - F)|) * k := by
      simp [V2.dot, V3.placed, e]; ring
    rw [h3, ← h2, ← h1]
  have foot : ∀ P : V3 ℝ, (A.placed k o).foot e (P.placed k o) = (A + N.smul (N.dot (P - A))).placed k o := by
    intro P
    have h2 : N.dot (P - A) = N.x * (P.x - A.x) + N.y * (P.y - A.y) := by simp [V3.dot, hz]
    have key : ∀ u v s : ℝ, s ^ 2 = 1 → u * s * (v * s) = u * v := fun u v s h => by linear_combination u * v * h
    ext
    · simp only [V2.foot, V3.placed, V2.smul, V2.dot, V2.add_x, V2.add_y, V2.sub_x, V2.sub_y, V3.add_x, V3.smul, h2, e]
      linear_combination (N.x * (N.x * (P.x - A.x) + N.y * (P.y - A.y)) * k) * hσ
    · simp only [V2.foot, V3.placed, V2.smul, V2.dot, V2.add_x, V2.add_y, V2.sub_x, V2.sub_y, V3.add_y, V3.smul, h2, e]
      linear_combination (N.y * (N.x * (P.x - A.x) + N.y * (P.y - A.y)) * k) * hσ
  obtain ⟨x, hx⟩ : ∃ x, x = ((a + n.smul (n.dot (t - a))) - (a + n.smul (n.dot (f - a)))).norm := ⟨_, rfl⟩
  rw [← hx] at hval
  obtain ⟨G, hG⟩ := leaves_exists (labelW (g x).length) labelH (by unfold labelW; positivity) (by unfold labelH; norm_num) e he
  obtain ⟨hG1, hG2⟩ := leaves_bounds (hg x hval) he hG
  have hP : PageSize M k κ η G o := ⟨hM, hu, hη, hG1, hG2, hox, hoy⟩
  have hgap := gap_near hR (hg x hval) hu hη hK he hG hax hay
  obtain ⟨gap, hgd⟩ : ∃ gap : Fl R, gap = FP.min (FP.abs ((FP.lit kFontSize * FP.lit (3 / 10) * FP.lit ((g x).length : ℚ) + FP.lit 1) / av.x))
    (FP.abs ((FP.lit kFontSize * FP.lit (333 / 1000) + FP.lit 1) / av.y)) / K := ⟨_, rfl⟩
  rw [← hgd] at hgap
  obtain ⟨σ1, hs1, b1, o1⟩ := side_near hR hP he hax hay dF ldF
  obtain ⟨σ2, hs2, b2, o2⟩ := side_near hR hP he hax hay dT ldT
  have w6 : ∀ {P : V3 ℝ}, len3 P ≤ 7 / 4 * M → P.Within (6 * M) := fun h => within_len (h.trans (by linarith))
  have up : ∀ {p : V3 (Fl R)} {P : V3 ℝ}, V3.NearTo p P (8 * (M * η)) → V3.NearTo p P (790 * (M * η)) := by
    intro p P h
    exact ⟨h.1.mono (by linarith), h.2.1.mono (by linarith), h.2.2.mono (by linarith)⟩
  refine ⟨x, G, hval, ?_, hG, ?_⟩
  · rw [hx]; rfl
  · have hlines := lines_near hR hP hK ho he hax hay hgap hs1 hs2 b1 b2 (up ha) nF nT (up hf) (up ht) (w6 lA) wF wT (w6 lF) (w6 lT) (foot F) (foot T)
    obtain ⟨twice, room, tol⟩ := room_near hR hP hK hdot hgap hval
    refine ⟨FP.lt (gap * FP.lit 2) (x * K), σ1, σ2, ?_, ?_, o1, o2, ?_⟩
    rotate_left 2
    · subst hgd hx hav
      exact hlines (FP.lt _ _)
    · intro hfit
      rw [hside]
      have := near_lt twice room hfit
      linarith
    · intro hfit
      rw [hside]
      have := not_lt_near twice room hfit
      linarith

end
end S2P
