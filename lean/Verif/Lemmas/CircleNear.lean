import Verif.Lemmas.FitNear
import Verif.Lemmas.NearDouble
import Verif.Lemmas.StrokeDim
import Verif.Spec.RimDouble

set_option linter.unusedSectionVars false
set_option linter.unusedVariables false
set_option linter.unusedSimpArgs false

/-! # `FindCircle` in double arithmetic: centre and radius -/

namespace S2P

theorem gramDet_perm {l m : List (V2 ℝ)} (h : l.Perm m) : gramDet l = gramDet m := by
  simp only [gramDet, sxx, sxy, syy, sx, sy, s1, (h.map _).sum_eq]

/-- a triangle among the points bounds the determinant -/
theorem gramDet_area {l : List (V2 ℝ)} {p q r : V2 ℝ} (h : [p, q, r].Subperm l) {A : ℝ} (hA : 0 ≤ A) (ha : 2 * A ≤ |twiceArea p q r|) : A ^ 2 ≤ gramDet l := by
  obtain ⟨l', h1, h2⟩ := h
  refine le_trans ?_ (gramDet_sub h2)
  rw [gramDet_perm h1, gramDet_three, ← sq_abs (((q.x - p.x) * (r.y - p.y) - (q.y - p.y) * (r.x - p.x)) / 2), abs_div, abs_of_pos (show (0 : ℝ) < 2 by norm_num)]
  apply pow_le_pow_left₀ hA
  unfold twiceArea at ha
  linarith

theorem twiceArea_le {p q r : V2 ℝ} {M : ℝ} (hM : 0 ≤ M) (hp : |p.x| ≤ M ∧ |p.y| ≤ M) (hq : |q.x| ≤ M ∧ |q.y| ≤ M) (hr : |r.x| ≤ M ∧ |r.y| ≤ M) :
    |twiceArea p q r| ≤ 8 * M ^ 2 := by
  have d : ∀ {a b : ℝ}, |a| ≤ M → |b| ≤ M → |a - b| ≤ 2 * M := fun ha hb => (abs_sub _ _).trans (by linarith)
  unfold twiceArea
  refine (abs_sub _ _).trans ?_
  rw [abs_mul, abs_mul]
  have h1 := mul_le_mul (d hq.1 hp.1) (d hr.2 hp.2) (abs_nonneg _) (by linarith)
  have h2 := mul_le_mul (d hq.2 hp.2) (d hr.1 hp.1) (abs_nonneg _) (by linarith)
  nlinarith

section
variable {R : Rounding} (hR : R.Accurate)

theorem lt_of_near {x y : Fl R} {a b ε δ : ℝ} (hx : Fl.Near x a ε) (hy : Fl.Near y b δ) (h : a + (ε + δ) < b) : FP.lt x y = true := by
  cases hl : FP.lt x y with
  | true => rfl
  | false => exact absurd (not_lt_near hx hy hl) (not_le.2 h)

theorem not_lt_of_near {x y : Fl R} {a b ε δ : ℝ} (hx : Fl.Near x a ε) (hy : Fl.Near y b δ) (h : b + (ε + δ) < a) : FP.lt x y = false := by
  cases hl : FP.lt x y with
  | false => rfl
  | true => exact absurd (near_lt hx hy hl) (not_le.2 h)

include hR

theorem Fl.Near.sqrt {x : Fl R} {r δ S : ℝ} (hr : 0 < r) (hx : Fl.Near x (r ^ 2) δ) (hδ : δ ≤ r ^ 2) (hS : r + δ / r ≤ S) (h1 : 1 / 2 ^ 100 ≤ S) (h2 : S ≤ 2 ^ 1000) :
    Fl.Near (FP.sqrt x) r (δ / r + S / 2 ^ 51) := by
  obtain ⟨z, rfl, hz⟩ := hx
  have hz0 : 0 ≤ z := by rw [abs_le] at hz; linarith
  have hs : |Real.sqrt z - r| ≤ δ / r := by
    rw [le_div_iff₀ hr]
    have e : z - r ^ 2 = (Real.sqrt z - r) * (Real.sqrt z + r) := by
      have := Real.mul_self_sqrt hz0
      linear_combination -this
    rw [e, abs_mul] at hz
    refine le_trans (mul_le_mul_of_nonneg_left ?_ (abs_nonneg _)) hz
    rw [abs_of_nonneg (by have := Real.sqrt_nonneg z; linarith)]
    linarith [Real.sqrt_nonneg z]
  have e : FP.sqrt (α := Fl R) (Ext.fin z : Ext ℝ) = R.fix (.fin (Real.sqrt z)) := by
    show R.fix (FP.sqrt (α := Ext ℝ) (.fin z)) = _
    show R.fix (if z < 0 then _ else .fin (Real.sqrt z)) = _
    rw [if_neg (not_lt.2 hz0)]
  rw [e]
  exact fix_near hR hs (by rw [abs_of_pos hr]; exact hS) h1 h2

/-- **`FindCircle` in doubles**: centre within `ε`, radius within `8 M ε / r`. -/
theorem findCircle_near {N M : ℝ} (hS : FitSize N M) (qs : List (V2 ℝ)) (hN : N = qs.length + 1) (hq : ∀ q ∈ qs, |q.x| ≤ M ∧ |q.y| ≤ M)
    (hD : 64 * N ^ 4 * M ^ 4 / 2 ^ 51 ≤ gramDet qs) {m : V2 ℝ} {r η : ℝ} (h0 : 0 ≤ η) (hm : |m.x| ≤ M ∧ |m.y| ≤ M) (hr : 0 < r) (hrM : r ≤ M)
    (hη : ∀ q ∈ qs, |dist2 q m - r ^ 2| ≤ 2 * η) {ε : ℝ}
    (hε : 64 * N ^ 4 * M ^ 4 / (2 ^ 51 * gramDet qs) * M + 3 * N ^ 3 * M ^ 3 * η / gramDet qs ≤ ε) (hε1 : 16 * M / 2 ^ 51 ≤ ε) (hεr : 16 * M * ε ≤ r ^ 2) :
    ∃ c rad, findCircle (qs.map (V2.toFl R)) = some (c, rad) ∧ Fl.Near c.x m.x ε ∧ Fl.Near c.y m.y ε ∧ Fl.Near rad r (8 * M * ε / r) := by
  have m1 := hS.m1
  have m16 := hS.m16
  have M0 : 0 < M := by linarith
  have hlen : ¬ (qs.map (V2.toFl R)).length < 3 := by
    rw [List.length_map]
    have := hS.n4
    rw [hN] at this
    have : (3 : ℝ) ≤ qs.length := by linarith
    have : 3 ≤ qs.length := by exact_mod_cast this
    omega
  have hr2 : r ^ 2 ≤ M ^ 2 := pow_le_pow_left₀ hr.le hrM 2
  have hmx : m.x * m.x ≤ M ^ 2 := by rw [← abs_mul_abs_self, sq]; exact mul_le_mul hm.1 hm.1 (abs_nonneg _) M0.le
  have hmy : m.y * m.y ≤ M ^ 2 := by rw [← abs_mul_abs_self, sq]; exact mul_le_mul hm.2 hm.2 (abs_nonneg _) M0.le
  have hmx0 := mul_self_nonneg m.x
  have hmy0 := mul_self_nonneg m.y
  have hr20 : 0 < r ^ 2 := by positivity
  obtain ⟨n1, n2, n3⟩ := fitRes_near hR hS qs hN hq hD (cx := m.x) (cy := m.y) (w := r ^ 2 - m.x * m.x - m.y * m.y) h0 hm.1 hm.2
    (by rw [abs_le]; constructor <;> linarith) (by
      intro q hqm
      have := hη q hqm
      rw [show (q.x * q.x + q.y * q.y) / 2 - (m.x * q.x + m.y * q.y + (r ^ 2 - m.x * m.x - m.y * m.y) / 2) = (dist2 q m - r ^ 2) / 2 by unfold dist2; ring, abs_div,
        abs_of_pos (show (0 : ℝ) < 2 by norm_num)]
      linarith) hε
  have hMε : 16 * M ^ 2 / 2 ^ 51 ≤ M * ε := by
    have := mul_le_mul_of_nonneg_left hε1 M0.le
    refine le_trans (le_of_eq ?_) this
    ring
  have hε0 : 0 ≤ ε := le_trans (by positivity) hε1
  have hεM : ε ≤ M / 16 := by
    rw [le_div_iff₀ (by norm_num)]
    have : M * (ε * 16) ≤ M * M := by nlinarith
    exact le_of_mul_le_mul_left this M0
  have hεε : ε * ε ≤ M * ε / 16 := by nlinarith
  have big : 2 * M ^ 2 ≤ 2 ^ 1000 := by
    calc 2 * M ^ 2 ≤ 2 * (2 ^ 16) ^ 2 := by gcongr
      _ = 2 ^ 33 := by norm_num
      _ ≤ 2 ^ 1000 := pow_le_pow_right₀ (by norm_num) (by norm_num)
  have low : 1 / 2 ^ 100 ≤ 2 * M ^ 2 := le_trans (by norm_num) (show (1 : ℝ) ≤ 2 * M ^ 2 by nlinarith)
  have sq : ∀ {a : ℝ} {x : Fl R}, |a| ≤ M → Fl.Near x a ε → Fl.Near (x * x) (a * a) (11 / 5 * (M * ε)) := by
    intro a x ha hx
    refine (Fl.Near.mul hR hx hx ha ha (S := 2 * M ^ 2) (by nlinarith) low big).mono ?_
    have : 2 * M ^ 2 / 2 ^ 51 ≤ M * ε / 8 := by linarith
    linarith
  have z1 := Fl.Near.add hR n3 (sq hm.1 n1) (S := 2 * M ^ 2) (by
    have : |r ^ 2 - m.x * m.x - m.y * m.y + m.x * m.x| ≤ M ^ 2 := by rw [abs_le]; constructor <;> linarith
    nlinarith) low big
  have z2 := Fl.Near.add hR z1 (sq hm.2 n2) (S := 2 * M ^ 2) (by
    have : |r ^ 2 - m.x * m.x - m.y * m.y + m.x * m.x + m.y * m.y| ≤ M ^ 2 := by rw [abs_le]; constructor <;> linarith
    have : 2 * M ^ 2 / 2 ^ 51 ≤ M * ε / 8 := by linarith
    nlinarith) low big
  rw [show r ^ 2 - m.x * m.x - m.y * m.y + m.x * m.x + m.y * m.y = r ^ 2 by ring] at z2
  have z3 := z2.mono (δ := 7 * (M * ε)) (by
    have : 2 * M ^ 2 / 2 ^ 51 ≤ M * ε / 8 := by linarith
    linarith)
  have h7 : 7 * (M * ε) / r ≤ M := by
    rw [div_le_iff₀ hr]; nlinarith
  have z4 := Fl.Near.sqrt hR hr z3 (by linarith) (S := 2 * M) (by linarith) (le_trans (by norm_num) (show (1 : ℝ) ≤ 2 * M by linarith))
    (by
      calc 2 * M ≤ 2 * 2 ^ 16 := by linarith
        _ = 2 ^ 17 := by norm_num
        _ ≤ 2 ^ 1000 := pow_le_pow_right₀ (by norm_num) (by norm_num))
  refine ⟨⟨(fitRes (qs.map (V2.toFl R))).x, (fitRes (qs.map (V2.toFl R))).y⟩, _, ?_, n1, n2, z4.mono ?_⟩
  · unfold findCircle
    rw [if_neg hlen]
  · have : 2 * M / 2 ^ 51 ≤ M * ε / r := by
      rw [le_div_iff₀ hr]
      have : 2 * M / 2 ^ 51 * r ≤ 2 * M / 2 ^ 51 * M := by gcongr
      refine this.trans (le_trans (le_of_eq ?_) ((show 2 * M ^ 2 / 2 ^ 51 ≤ 16 * M ^ 2 / 2 ^ 51 by gcongr; norm_num).trans hMε))
      ring
    rw [show 8 * M * ε / r = 7 * (M * ε) / r + M * ε / r by ring]
    linarith

end
end S2P
