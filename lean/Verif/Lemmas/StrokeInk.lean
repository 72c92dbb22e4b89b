import Verif.Lemmas.StrokeDouble

set_option linter.unusedSectionVars false
set_option linter.unusedVariables false
set_option linter.unusedSimpArgs false

/-! # All strokes of a linear dimension, in rounded arithmetic -/

namespace S2P

/-- where a point of the view is on the page -/
def V3.placed (P : V3 ℝ) (k : ℝ) (o : V2 ℝ) : V2 ℝ := ⟨P.x * k + o.x, P.y * k + o.y⟩

/-- how far off the ends of the strokes may be -/
noncomputable def strokeError (M k η G : ℝ) (o : V2 ℝ) : ℝ := (2 ^ 10 * (M * k) + 2 ^ 30 * G ^ 2) * η + (|o.x| + |o.y|) / 2 ^ 45

section
variable {R : Rounding} (hR : R.Accurate)

omit hR in
theorem Fl.Near.congr {x : Fl R} {a b ε : ℝ} (h : Fl.Near x a ε) (e : a = b) : Fl.Near x b ε := e ▸ h

omit hR in
/-- sizes -/
structure PageSize (M k κ η G : ℝ) (o : V2 ℝ) : Prop where
  small : Small M
  unit : Unit k κ
  fine : Fine η
  g1 : 1 ≤ G
  g2 : G ≤ 2 ^ 8
  ox : |o.x| ≤ 2 ^ 200
  oy : |o.y| ≤ 2 ^ 200

include hR

/-- an end of a stroke, with an offset `D` in points -/
theorem end_add {M k κ η G : ℝ} {o : V2 ℝ} (h : PageSize M k κ η G o) {K : Fl R} (hK : K = (Ext.fin k : Ext ℝ)) {x d o' : Fl R} {X D δ c : ℝ} (ho : o' = (Ext.fin c : Ext ℝ))
    (hc : |c| ≤ |o.x| + |o.y|) (hc2 : |c| ≤ 2 ^ 200) (hx : Fl.Near x X (790 * (M * η))) (hX : |X| ≤ 6 * M) (hd : Fl.Near d (D * κ) (δ * κ)) (hD : |D| ≤ 2 ^ 9)
    (hδ : δ ≤ 31 * (2 ^ 24 * η * G ^ 2)) :
    Fl.Near ((x + d) * K + o') (X * k + c + D) (strokeError M k η G o) ∧ Fl.Near ((x - d) * K + o') (X * k + c - D) (strokeError M k η G o) := by
  have hκ := h.unit.pos'
  have hk := h.unit.pos
  have hM1 := h.small.one
  have hM2 := h.small.top
  have hW : Wide M := ⟨le_trans (by norm_num) hM1, hM2.trans (pow_le_pow_right₀ (by norm_num) (by norm_num))⟩
  have hη1 := h.fine.lo
  have hη2 := h.fine.hi
  have hη0 : 0 < η := lt_of_lt_of_le (by positivity) hη1
  have hδ0 : 0 ≤ δ := by
    obtain ⟨b, -, hb⟩ := hd
    by_contra hc
    have := (abs_nonneg _).trans hb
    nlinarith
  have hGG : G ^ 2 ≤ (2 ^ 8) ^ 2 := pow_le_pow_left₀ (by linarith [h.g1]) h.g2 2
  have hGG1 : 1 ≤ G ^ 2 := one_le_pow₀ h.g1
  have hηGG : η * G ^ 2 ≤ 1 / 2 ^ 40 * (2 ^ 8) ^ 2 := mul_le_mul hη2 hGG (by positivity) (by positivity)
  have hηGG1 : η ≤ η * G ^ 2 := by nlinarith
  have hδ2 : δ ≤ 2 ^ 5 := by norm_num at hηGG ⊢; linarith
  have g1 : M * (1 / 2 ^ 50) ≤ M * η := mul_le_mul_of_nonneg_left hη1 (by linarith)
  have g2 : M * η ≤ M * (1 / 2 ^ 40) := mul_le_mul_of_nonneg_left hη2 (by linarith)
  have hδκ : δ * κ ≤ 2 ^ 5 * κ := mul_le_mul_of_nonneg_right hδ2 hκ.le
  have hDκ : |D * κ| ≤ 2 ^ 9 * κ := by rw [abs_mul, abs_of_pos hκ]; exact mul_le_mul_of_nonneg_right hD hκ.le
  have lo : 1 / 2 ^ 100 ≤ 8 * M + 2 ^ 10 * κ := hW.bot (by norm_num; linarith)
  have hi : 8 * M + 2 ^ 10 * κ ≤ 2 ^ 1000 := by
    have h1 := h.unit.hi'
    have h2 : 8 * M + 2 ^ 10 * κ ≤ 2 ^ 60 := by norm_num at h1 hM2 ⊢; linarith
    exact h2.trans (pow_le_pow_right₀ (by norm_num) (by norm_num))
  have t1 := abs_add_le X (D * κ)
  have t2 := abs_sub X (D * κ)
  have hMk : 0 < M * k := mul_pos (by linarith) hk
  have eM : M * η * k = M * k * η := by ring
  have eD : D * κ * k = D := by rw [mul_assoc, mul_comm κ k, h.unit.one, mul_one]
  have g3 : M * k * (1 / 2 ^ 50) ≤ M * k * η := mul_le_mul_of_nonneg_left hη1 hMk.le
  have tot : (790 * (M * η) + δ * κ + (8 * M + 2 ^ 10 * κ) / 2 ^ 51) * k + (M * k + |c| + 2 ^ 10) / 2 ^ 45 ≤ strokeError M k η G o := by
    have e1 : (790 * (M * η) + δ * κ + (8 * M + 2 ^ 10 * κ) / 2 ^ 51) * k = 790 * (M * k * η) + δ + (8 * (M * k) + 2 ^ 10) / 2 ^ 51 := by
      linear_combination (δ + 2 ^ 10 / 2 ^ 51) * h.unit.one
    rw [e1]
    unfold strokeError
    norm_num at hδ g3 hη1 ⊢
    linarith
  constructor
  · have s := hx.add hR hd (S := 8 * M + 2 ^ 10 * κ) (by
      generalize |D * κ| = y at *
      norm_num at g2 hδκ hDκ ⊢; linarith) lo hi
    refine ((moved1_near hR h.small h.unit hK ho s ?_ ?_ hc2).mono tot).congr ?_
    · generalize |D * κ| = y at *
      norm_num at hDκ ⊢; linarith
    · norm_num at g2 hδκ ⊢; linarith
    · rw [add_mul, eD]; ring
  · have s := hx.sub hR hd (S := 8 * M + 2 ^ 10 * κ) (by
      generalize |D * κ| = y at *
      norm_num at g2 hδκ hDκ ⊢; linarith) lo hi
    refine ((moved1_near hR h.small h.unit hK ho s ?_ ?_ hc2).mono tot).congr ?_
    · generalize |D * κ| = y at *
      norm_num at hDκ ⊢; linarith
    · norm_num at g2 hδκ ⊢; linarith
    · rw [sub_mul, eD]; ring

/-- an end without an offset -/
theorem end_near {M k κ η G : ℝ} {o : V2 ℝ} (h : PageSize M k κ η G o) {K : Fl R} (hK : K = (Ext.fin k : Ext ℝ)) {x o' : Fl R} {X c : ℝ} (ho : o' = (Ext.fin c : Ext ℝ))
    (hc : |c| ≤ |o.x| + |o.y|) (hc2 : |c| ≤ 2 ^ 200) (hx : Fl.Near x X (790 * (M * η))) (hX : |X| ≤ 6 * M) :
    Fl.Near (x * K + o') (X * k + c) (strokeError M k η G o) := by
  have hκ := h.unit.pos'
  have hk := h.unit.pos
  have hM1 := h.small.one
  have hM2 := h.small.top
  have hη1 := h.fine.lo
  have hη2 := h.fine.hi
  have hη0 : 0 < η := lt_of_lt_of_le (by positivity) hη1
  have hGG1 : 1 ≤ G ^ 2 := one_le_pow₀ h.g1
  have hηGG1 : η ≤ η * G ^ 2 := by nlinarith
  have g2 : M * η ≤ M * (1 / 2 ^ 40) := mul_le_mul_of_nonneg_left hη2 (by linarith)
  have hMk : 0 < M * k := mul_pos (by linarith) hk
  have g3 : M * k * (1 / 2 ^ 50) ≤ M * k * η := mul_le_mul_of_nonneg_left hη1 hMk.le
  refine (moved1_near hR h.small h.unit hK ho hx ?_ ?_ hc2).mono ?_
  · norm_num; linarith
  · norm_num at g2 ⊢; linarith
  · rw [show 790 * (M * η) * k = 790 * (M * k * η) by ring]
    unfold strokeError
    norm_num at g3 hη1 ⊢
    linarith

/-- the eight strokes -/
theorem lines_near {M k κ η G : ℝ} {o : V2 ℝ} (h : PageSize M k κ η G o) {K : Fl R} (hK : K = (Ext.fin k : Ext ℝ)) {o' : V2 (Fl R)}
    (ho : o' = ⟨(Ext.fin o.x : Ext ℝ), (Ext.fin o.y : Ext ℝ)⟩) {e : V2 ℝ} (he : e.x ^ 2 + e.y ^ 2 = 1) {a : V3 (Fl R)} (hax : Fl.Near a.x (e.x * κ) (2 ^ 24 * η * κ))
    (hay : Fl.Near a.y (e.y * κ) (2 ^ 24 * η * κ)) {gap : Fl R} (hgap : Fl.Near gap G (7 * (2 ^ 24 * η * G ^ 2))) {s1 s2 : Fl R} {σ1 σ2 : ℝ}
    (hs1 : Fl.Near s1 σ1 (1 / 2 ^ 46)) (hs2 : Fl.Near s2 σ2 (1 / 2 ^ 46)) (b1 : |σ1| ≤ 1) (b2 : |σ2| ≤ 1) {p aF aT f t : V3 (Fl R)} {P PF PT F T : V3 ℝ}
    (hp : V3.NearTo p P (790 * (M * η))) (hF : V3.NearTo aF PF (790 * (M * η))) (hT : V3.NearTo aT PT (790 * (M * η))) (hf : V3.NearTo f F (790 * (M * η)))
    (ht : V3.NearTo t T (790 * (M * η))) (wP : P.Within (6 * M)) (wPF : PF.Within (6 * M)) (wPT : PT.Within (6 * M)) (wF : F.Within (6 * M)) (wT : T.Within (6 * M))
    (fF : (P.placed k o).foot e (F.placed k o) = PF.placed k o) (fT : (P.placed k o).foot e (T.placed k o) = PT.placed k o) (fits : Bool) :
    List.Forall₂ (StrokeNear (strokeError M k η G o))
      ((dimLines fits s1 s2 gap p a ⟨-a.y, a.x, FP.lit 0⟩ aF aT f t).map (fun l => ⟨l.o.moved K o', l.t.moved K o'⟩))
      (strokesOf fits σ1 σ2 G (P.placed k o) (F.placed k o) (T.placed k o) e) := by
  have hη1 := h.fine.lo
  have hη2 := h.fine.hi
  have hη0 : 0 < η := lt_of_lt_of_le (by positivity) hη1
  have hGG : G ^ 2 ≤ (2 ^ 8) ^ 2 := pow_le_pow_left₀ (by linarith [h.g1]) h.g2 2
  have hGG1 : 1 ≤ G ^ 2 := one_le_pow₀ h.g1
  have hG1 := h.g1
  have hG2 := h.g2
  have hηGG : η * G ^ 2 ≤ 1 / 2 ^ 40 * (2 ^ 8) ^ 2 := mul_le_mul hη2 hGG (by positivity) (by positivity)
  have hηGG1 : η ≤ η * G ^ 2 := by nlinarith
  have hηG : η * G ≤ η * G ^ 2 := by nlinarith [mul_le_mul_of_nonneg_left hG1 (mul_nonneg hη0.le (by linarith : (0 : ℝ) ≤ G))]
  have hκ := h.unit.pos'
  have ex : |e.x| ≤ 1 := abs_le_one_iff_mul_self_le_one.2 (by nlinarith [sq_nonneg e.y])
  have ey : |e.y| ≤ 1 := abs_le_one_iff_mul_self_le_one.2 (by nlinarith [sq_nonneg e.x])
  have ζ1 : (2 : ℝ) ^ 24 * η ≤ 1 := by norm_num at hη2 ⊢; linarith
  have ζ0 : (0 : ℝ) ≤ 2 ^ 24 * η := by positivity
  have l2 := lit_near hR (R := R) (q := 2) (Q := 2) (by norm_num) (by norm_num)
  have ln2 := lit_near hR (R := R) (q := -2) (Q := -2) (by norm_num) (by norm_num)
  have l4 := lit_near hR (R := R) (q := 4) (Q := 4) (by norm_num) (by norm_num)
  have l6 := lit_near hR (R := R) (q := 6) (Q := 6) (by norm_num) (by norm_num)
  have ln6 := lit_near hR (R := R) (q := -6) (Q := -6) (by norm_num) (by norm_num)
  have l10 := lit_near hR (R := R) (q := 10) (Q := 10) (by norm_num) (by norm_num)
  have nay : Fl.Near (-a.y) (-e.y * κ) (2 ^ 24 * η * κ) := (hay.neg).congr (by ring)
  have nax : Fl.Near (-a.x) (-e.x * κ) (2 ^ 24 * η * κ) := (hax.neg).congr (by ring)
  have ney : |-e.y| ≤ 1 := by rw [abs_neg]; exact ey
  have nex : |-e.x| ≤ 1 := by rw [abs_neg]; exact ex
  -- multiples
  have mul1 : ∀ {u c : Fl R} {U C : ℝ}, Fl.Near u (U * κ) (2 ^ 24 * η * κ) → |U| ≤ 1 → Fl.Near c C (1 / 2 ^ 46) → |C| ≤ 10 →
      Fl.Near (u * c) (U * C * κ) ((10 * (2 ^ 24 * η) + 1 / 2 ^ 35) * κ) ∧ |U * C| ≤ 10 := by
    intro u c U C h1 h2 h3 h4
    refine ⟨off_mul hR h.unit h1 (h2.trans (by norm_num)) ζ0 (ζ1.trans (by norm_num)) h3 h4 (by norm_num), ?_⟩
    rw [abs_mul]; nlinarith [abs_nonneg U, abs_nonneg C]
  -- with a sign
  have mulS : ∀ {u c s : Fl R} {U C σ : ℝ}, Fl.Near u (U * κ) (2 ^ 24 * η * κ) → |U| ≤ 1 → Fl.Near c C (1 / 2 ^ 46) → |C| ≤ 10 → Fl.Near s σ (1 / 2 ^ 46) → |σ| ≤ 1 →
      Fl.Near (u * c * s) (U * C * σ * κ) ((10 * (2 ^ 24 * η) + 1 / 2 ^ 34) * κ) ∧ |U * C * σ| ≤ 10 := by
    intro u c s U C σ h1 h2 h3 h4 h5 h6
    obtain ⟨m1, m2⟩ := mul1 h1 h2 h3 h4
    refine ⟨(off_mul hR h.unit m1 (m2.trans (by norm_num)) (by positivity) (by norm_num at ζ1 ⊢; linarith) h5 h6 (by norm_num)).mono ?_, ?_⟩
    · exact mul_le_mul_of_nonneg_right (by norm_num; linarith) hκ.le
    · rw [abs_mul]; nlinarith [abs_nonneg (U * C), abs_nonneg σ]
  -- sums
  have sum : ∀ {u c v c' : Fl R} {U C V C' : ℝ}, Fl.Near u (U * κ) (2 ^ 24 * η * κ) → |U| ≤ 1 → Fl.Near c C (1 / 2 ^ 46) → |C| ≤ 10 →
      Fl.Near v (V * κ) (2 ^ 24 * η * κ) → |V| ≤ 1 → Fl.Near c' C' (1 / 2 ^ 46) → |C'| ≤ 10 →
      Fl.Near (u * c + v * c') ((U * C + V * C') * κ) ((20 * (2 ^ 24 * η) + 1 / 2 ^ 33) * κ) ∧ |U * C + V * C'| ≤ 20 := by
    intro u c v c' U C V C' h1 h2 h3 h4 h5 h6 h7 h8
    obtain ⟨m1, m2⟩ := mul1 h1 h2 h3 h4
    obtain ⟨m3, m4⟩ := mul1 h5 h6 h7 h8
    refine ⟨(off_add hR h.unit m1 m3 (m2.trans (by norm_num)) (by norm_num at ζ1 ⊢; linarith) (m4.trans (by norm_num)) (by norm_num at ζ1 ⊢; linarith)).mono ?_, ?_⟩
    · refine mul_le_mul_of_nonneg_right ?_ hκ.le
      norm_num; linarith
    · exact (abs_add_le _ _).trans (by linarith)
  -- to the rim of the label
  have rim : ∀ {u : Fl R} {U : ℝ}, Fl.Near u (U * κ) (2 ^ 24 * η * κ) → |U| ≤ 1 →
      Fl.Near (u * gap) (U * G * κ) (31 * (2 ^ 24 * η * G ^ 2) * κ) ∧ |U * G| ≤ 2 ^ 8 := by
    intro u U h1 h2
    have h3 : |U * κ| ≤ κ := by rw [abs_mul, abs_of_pos hκ]; nlinarith
    have h4 : |U * G| ≤ 2 ^ 8 := by rw [abs_mul, abs_of_pos (by linarith : 0 < G)]; nlinarith [abs_nonneg U]
    refine ⟨?_, h4⟩
    have ζκ : 2 ^ 24 * η * κ ≤ 1 * κ := mul_le_mul_of_nonneg_right ζ1 hκ.le
    have ζκ0 : 0 ≤ 2 ^ 24 * η * κ := by positivity
    have γ0 : 0 ≤ 7 * (2 ^ 24 * η * G ^ 2) := by positivity
    have γ1 : 7 * (2 ^ 24 * η * G ^ 2) ≤ 7 := by norm_num at hηGG ⊢; linarith
    have m := h1.mul hR hgap h3 (le_of_eq (abs_of_pos (by linarith : 0 < G))) (S := 2 ^ 10 * κ) (by
      have : (κ + 2 ^ 24 * η * κ) * (G + 7 * (2 ^ 24 * η * G ^ 2)) ≤ (2 * κ) * (2 ^ 8 + 7) := by
        refine mul_le_mul (by linarith) (by linarith) (by linarith) (by linarith)
      norm_num at this ⊢
      linarith) (h.unit.bot (by norm_num; linarith)) (h.unit.top (by norm_num; linarith))
    refine (m.congr (by ring)).mono ?_
    have e1 : κ * (7 * (2 ^ 24 * η * G ^ 2)) + G * (2 ^ 24 * η * κ) + 2 ^ 24 * η * κ * (7 * (2 ^ 24 * η * G ^ 2)) + 2 ^ 10 * κ / 2 ^ 51 =
      (7 * (2 ^ 24 * η * G ^ 2) + 2 ^ 24 * (η * G) + 2 ^ 24 * η * (7 * (2 ^ 24 * η * G ^ 2)) + 2 ^ 10 / 2 ^ 51) * κ := by ring
    rw [e1]
    refine mul_le_mul_of_nonneg_right ?_ hκ.le
    have : 2 ^ 24 * η * (7 * (2 ^ 24 * η * G ^ 2)) ≤ 1 * (7 * (2 ^ 24 * η * G ^ 2)) := mul_le_mul_of_nonneg_right ζ1 γ0
    norm_num at this hη1 ⊢
    linarith
  have d1 : 10 * (2 ^ 24 * η) + 1 / 2 ^ 35 ≤ 31 * (2 ^ 24 * η * G ^ 2) := by norm_num at hη1 ⊢; linarith
  have d2 : 10 * (2 ^ 24 * η) + 1 / 2 ^ 34 ≤ 31 * (2 ^ 24 * η * G ^ 2) := by norm_num at hη1 ⊢; linarith
  have d3 : 20 * (2 ^ 24 * η) + 1 / 2 ^ 33 ≤ 31 * (2 ^ 24 * η * G ^ 2) := by norm_num at hη1 ⊢; linarith
  have ox' : |o.x| ≤ |o.x| + |o.y| := by linarith [abs_nonneg o.y]
  have oy' : |o.y| ≤ |o.x| + |o.y| := by linarith [abs_nonneg o.x]
  subst ho
  have ten : (20 : ℝ) ≤ 2 ^ 9 := by norm_num
  have ten' : (10 : ℝ) ≤ 2 ^ 9 := by norm_num
  have ten2 : (2 : ℝ) ^ 8 ≤ 2 ^ 9 := by norm_num
  -- whole points
  have pt : ∀ {x : V3 (Fl R)} {X : V3 ℝ}, V3.NearTo x X (790 * (M * η)) → X.Within (6 * M) →
      V2.NearTo (x.xy.moved K ⟨(Ext.fin o.x : Ext ℝ), (Ext.fin o.y : Ext ℝ)⟩) (X.placed k o) (strokeError M k η G o) := by
    intro x X h1 h2
    exact ⟨end_near hR h hK rfl ox' h.ox h1.1 h2.1, end_near hR h hK rfl oy' h.oy h1.2.1 h2.2.1⟩
  have ptd : ∀ {x d : V3 (Fl R)} {X : V3 ℝ} {Dx Dy δ : ℝ}, V3.NearTo x X (790 * (M * η)) → X.Within (6 * M) → Fl.Near d.x (Dx * κ) (δ * κ) → |Dx| ≤ 2 ^ 9 →
      Fl.Near d.y (Dy * κ) (δ * κ) → |Dy| ≤ 2 ^ 9 → δ ≤ 31 * (2 ^ 24 * η * G ^ 2) →
      V2.NearTo ((x + d).xy.moved K ⟨(Ext.fin o.x : Ext ℝ), (Ext.fin o.y : Ext ℝ)⟩) (X.placed k o + ⟨Dx, Dy⟩) (strokeError M k η G o) ∧
      V2.NearTo ((x - d).xy.moved K ⟨(Ext.fin o.x : Ext ℝ), (Ext.fin o.y : Ext ℝ)⟩) (X.placed k o - ⟨Dx, Dy⟩) (strokeError M k η G o) := by
    intro x d X Dx Dy δ h1 h2 h3 h4 h5 h6 h7
    obtain ⟨u1, u2⟩ := end_add hR h hK (o' := (Ext.fin o.x : Ext ℝ)) rfl ox' h.ox h1.1 h2.1 h3 h4 h7
    obtain ⟨v1, v2⟩ := end_add hR h hK (o' := (Ext.fin o.y : Ext ℝ)) rfl oy' h.oy h1.2.1 h2.2.1 h5 h6 h7
    exact ⟨⟨u1, v1⟩, ⟨u2, v2⟩⟩
  -- the ends of extension lines
  have ext : ∀ {x : V3 (Fl R)} {X : V3 ℝ} {c s : Fl R} {C σ : ℝ}, V3.NearTo x X (790 * (M * η)) → X.Within (6 * M) → Fl.Near c C (1 / 2 ^ 46) → |C| ≤ 10 →
      Fl.Near s σ (1 / 2 ^ 46) → |σ| ≤ 1 →
      V2.NearTo ((x - (V3.smul (⟨-a.y, a.x, FP.lit 0⟩ : V3 (Fl R)) c).smul s).xy.moved K ⟨(Ext.fin o.x : Ext ℝ), (Ext.fin o.y : Ext ℝ)⟩)
        (X.placed k o - e.left.smul (C * σ)) (strokeError M k η G o) := by
    intro x X c s C σ h1 h2 h3 h4 h5 h6
    obtain ⟨x1, x2⟩ := mulS nay ney h3 h4 h5 h6
    obtain ⟨y1, y2⟩ := mulS hax ex h3 h4 h5 h6
    have := (ptd (d := (V3.smul (⟨-a.y, a.x, FP.lit 0⟩ : V3 (Fl R)) c).smul s) h1 h2 x1 (x2.trans ten') y1 (y2.trans ten') d2).2
    have e1 : X.placed k o - (⟨-e.y * C * σ, e.x * C * σ⟩ : V2 ℝ) = X.placed k o - e.left.smul (C * σ) := by
      ext <;> simp [V2.left, V2.smul] <;> ring
    rw [e1] at this
    exact this
  -- barbs
  have barb : ∀ {x u : V3 (Fl R)} {X : V3 ℝ} {c c' : Fl R} {U : V2 ℝ} {C C' : ℝ}, V3.NearTo x X (790 * (M * η)) → X.Within (6 * M) → Fl.Near u.x (U.x * κ) (2 ^ 24 * η * κ) →
      Fl.Near u.y (U.y * κ) (2 ^ 24 * η * κ) → |U.x| ≤ 1 → |U.y| ≤ 1 → Fl.Near c C (1 / 2 ^ 46) → |C| ≤ 10 → Fl.Near c' C' (1 / 2 ^ 46) → |C'| ≤ 10 →
      V2.NearTo ((x + (u.smul c + V3.smul (⟨-a.y, a.x, FP.lit 0⟩ : V3 (Fl R)) c')).xy.moved K ⟨(Ext.fin o.x : Ext ℝ), (Ext.fin o.y : Ext ℝ)⟩)
        (X.placed k o + (U.smul C + e.left.smul C')) (strokeError M k η G o) := by
    intro x u X c c' U C C' h1 h2 h3 h4 h5 h6 h7 h8 h9 h10
    obtain ⟨x1, x2⟩ := sum h3 h5 h7 h8 nay ney h9 h10
    obtain ⟨y1, y2⟩ := sum h4 h6 h7 h8 hax ex h9 h10
    exact (ptd (d := u.smul c + V3.smul (⟨-a.y, a.x, FP.lit 0⟩ : V3 (Fl R)) c') h1 h2 x1 (x2.trans ten) y1 (y2.trans ten) d3).1
  have along : ∀ {x : V3 (Fl R)} {X : V3 ℝ}, V3.NearTo x X (790 * (M * η)) → X.Within (6 * M) →
      V2.NearTo ((x + a.smul (FP.lit 10)).xy.moved K ⟨(Ext.fin o.x : Ext ℝ), (Ext.fin o.y : Ext ℝ)⟩) (X.placed k o + e.smul 10) (strokeError M k η G o) ∧
      V2.NearTo ((x - a.smul (FP.lit 10)).xy.moved K ⟨(Ext.fin o.x : Ext ℝ), (Ext.fin o.y : Ext ℝ)⟩) (X.placed k o - e.smul 10) (strokeError M k η G o) := by
    intro x X h1 h2
    obtain ⟨x1, x2⟩ := mul1 hax ex l10 (by norm_num)
    obtain ⟨y1, y2⟩ := mul1 hay ey l10 (by norm_num)
    exact ptd (d := a.smul (FP.lit 10)) h1 h2 x1 (x2.trans ten') y1 (y2.trans ten') d1
  have rims := ptd (d := a.smul gap) hp wP (rim hax ex).1 ((rim hax ex).2.trans ten2) (rim hay ey).1 ((rim hay ey).2.trans ten2) le_rfl
  have four : |(4 : ℝ)| ≤ 10 := by norm_num
  have two : |(2 : ℝ)| ≤ 10 := by norm_num
  have two' : |(-2 : ℝ)| ≤ 10 := by norm_num
  have six : |(6 : ℝ)| ≤ 10 := by norm_num
  have six' : |(-6 : ℝ)| ≤ 10 := by norm_num
  have re : ∀ {x : V2 (Fl R)} {y z : V2 ℝ} {ε : ℝ}, V2.NearTo x y ε → y = z → V2.NearTo x z ε := fun h e => e ▸ h
  unfold strokesOf
  dsimp only
  rw [fF, fT]
  cases fits
  · refine .cons ⟨pt hF wPF, (along hF wPF).2⟩ (.cons ⟨pt hT wPT, (along hT wPT).1⟩ (.cons ⟨ext hF wPF l4 four hs1 b1, ext hf wF l2 two hs1 b1⟩
      (.cons ⟨ext hT wPT l4 four hs2 b2, ext ht wT l2 two hs2 b2⟩ (.cons ⟨pt hF wPF, ?_⟩ (.cons ⟨pt hF wPF, ?_⟩ (.cons ⟨pt hT wPT, ?_⟩ (.cons ⟨pt hT wPT, ?_⟩ .nil)))))))
    · exact re (barb (u := -a) (U := ⟨-e.x, -e.y⟩) hF wPF nax nay nex ney l6 six l2 two) (by ext <;> simp [V2.smul, V2.left])
    · exact re (barb (u := -a) (U := ⟨-e.x, -e.y⟩) hF wPF nax nay nex ney l6 six ln2 two') (by ext <;> simp [V2.smul, V2.left] <;> ring)
    · exact re (barb (u := -a) (U := ⟨-e.x, -e.y⟩) hT wPT nax nay nex ney ln6 six' l2 two) (by ext <;> simp [V2.smul, V2.left] <;> ring)
    · exact re (barb (u := -a) (U := ⟨-e.x, -e.y⟩) hT wPT nax nay nex ney ln6 six' ln2 two') (by ext <;> simp [V2.smul, V2.left] <;> ring)
  · refine .cons ⟨pt hF wPF, rims.2⟩ (.cons ⟨rims.1, pt hT wPT⟩ (.cons ⟨ext hF wPF l4 four hs1 b1, ext hf wF l2 two hs1 b1⟩
      (.cons ⟨ext hT wPT l4 four hs2 b2, ext ht wT l2 two hs2 b2⟩ (.cons ⟨pt hF wPF, ?_⟩ (.cons ⟨pt hF wPF, ?_⟩ (.cons ⟨pt hT wPT, ?_⟩ (.cons ⟨pt hT wPT, ?_⟩ .nil)))))))
    · exact re (barb (u := a) (U := e) hF wPF hax hay ex ey l6 six l2 two) (by ext <;> simp [V2.smul, V2.left])
    · exact re (barb (u := a) (U := e) hF wPF hax hay ex ey l6 six ln2 two') (by ext <;> simp [V2.smul, V2.left] <;> ring)
    · exact re (barb (u := a) (U := e) hT wPT hax hay ex ey ln6 six' l2 two) (by ext <;> simp [V2.smul, V2.left] <;> ring)
    · exact re (barb (u := a) (U := e) hT wPT hax hay ex ey ln6 six' ln2 two') (by ext <;> simp [V2.smul, V2.left] <;> ring)

end
end S2P
