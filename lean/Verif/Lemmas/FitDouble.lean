import Verif.Spec.RimDouble
import Verif.Lemmas.Gauge
import Mathlib.Data.List.Forall2
import Mathlib.Tactic.FieldSimp

set_option linter.unusedSectionVars false
set_option linter.unusedVariables false
set_option linter.unusedSimpArgs false

/-! # The circle fitted in double arithmetic -/

namespace S2P

/-! ## Sums over the points -/

noncomputable def sxx (l : List (V2 ℝ)) : ℝ := (l.map (fun p => p.x * p.x)).sum
noncomputable def sxy (l : List (V2 ℝ)) : ℝ := (l.map (fun p => p.x * p.y)).sum
noncomputable def syy (l : List (V2 ℝ)) : ℝ := (l.map (fun p => p.y * p.y)).sum
noncomputable def sx (l : List (V2 ℝ)) : ℝ := (l.map (fun p => p.x * (1 / 2))).sum
noncomputable def sy (l : List (V2 ℝ)) : ℝ := (l.map (fun p => p.y * (1 / 2))).sum
noncomputable def s1 (l : List (V2 ℝ)) : ℝ := (l.map (fun _ => (1 / 2 : ℝ) * (1 / 2))).sum

/-- the determinant of the normal equations -/
noncomputable def gramDet (l : List (V2 ℝ)) : ℝ :=
  (syy l * s1 l - sy l * sy l) * sxx l + (sy l * sx l - s1 l * sxy l) * sxy l + (sxy l * sy l - sx l * syy l) * sx l

/-- the adjugate of the matrix as a quadratic form -/
noncomputable def adjQ (l : List (V2 ℝ)) (a b c : ℝ) : ℝ :=
  (syy l * s1 l - sy l * sy l) * a ^ 2 + (s1 l * sxx l - sx l * sx l) * b ^ 2 + (sxx l * syy l - sxy l * sxy l) * c ^ 2 +
    2 * (sy l * sx l - s1 l * sxy l) * a * b + 2 * (sxy l * sy l - sx l * syy l) * a * c + 2 * (sx l * sxy l - sxx l * sy l) * b * c

/-- the matrix as a quadratic form -/
noncomputable def matQ (l : List (V2 ℝ)) (a b c : ℝ) : ℝ :=
  sxx l * a ^ 2 + syy l * b ^ 2 + s1 l * c ^ 2 + 2 * sxy l * a * b + 2 * sx l * a * c + 2 * sy l * b * c

theorem matQ_cons (p : V2 ℝ) (l : List (V2 ℝ)) (a b c : ℝ) : matQ (p :: l) a b c = matQ l a b c + (p.x * a + p.y * b + 1 / 2 * c) ^ 2 := by
  simp only [matQ, sxx, sxy, syy, sx, sy, s1, List.map_cons, List.sum_cons]; ring

theorem adjQ_cons (p : V2 ℝ) (l : List (V2 ℝ)) (a b c : ℝ) :
    adjQ (p :: l) a b c = adjQ l a b c + matQ l (b * (1 / 2) - c * p.y) (c * p.x - a * (1 / 2)) (a * p.y - b * p.x) := by
  simp only [adjQ, matQ, sxx, sxy, syy, sx, sy, s1, List.map_cons, List.sum_cons]; ring

theorem gramDet_cons (p : V2 ℝ) (l : List (V2 ℝ)) : gramDet (p :: l) = gramDet l + adjQ l p.x p.y (1 / 2) := by
  simp only [gramDet, adjQ, sxx, sxy, syy, sx, sy, s1, List.map_cons, List.sum_cons]; ring

theorem matQ_sub {l m : List (V2 ℝ)} (h : l.Sublist m) (a b c : ℝ) : matQ l a b c ≤ matQ m a b c := by
  induction h with
  | slnil => exact le_rfl
  | cons p _ ih => rw [matQ_cons]; nlinarith [sq_nonneg (p.x * a + p.y * b + 1 / 2 * c)]
  | cons_cons p _ ih => rw [matQ_cons, matQ_cons]; linarith

theorem matQ_nil (a b c : ℝ) : matQ [] a b c = 0 := by simp [matQ, sxx, sxy, syy, sx, sy, s1]

theorem adjQ_sub {l m : List (V2 ℝ)} (h : l.Sublist m) (a b c : ℝ) : adjQ l a b c ≤ adjQ m a b c := by
  induction h with
  | slnil => exact le_rfl
  | @cons l m p hs ih =>
    rw [adjQ_cons]
    have := matQ_sub (List.nil_sublist m) (b * (1 / 2) - c * p.y) (c * p.x - a * (1 / 2)) (a * p.y - b * p.x)
    rw [matQ_nil] at this
    linarith
  | cons_cons p hs ih => rw [adjQ_cons, adjQ_cons]; linarith [matQ_sub hs (b * (1 / 2) - c * p.y) (c * p.x - a * (1 / 2)) (a * p.y - b * p.x)]

theorem adjQ_nil (a b c : ℝ) : adjQ [] a b c = 0 := by simp [adjQ, sxx, sxy, syy, sx, sy, s1]

/-- more points, larger determinant -/
theorem gramDet_sub {l m : List (V2 ℝ)} (h : l.Sublist m) : gramDet l ≤ gramDet m := by
  induction h with
  | slnil => exact le_rfl
  | @cons l m p hs ih =>
    rw [gramDet_cons]
    have := adjQ_sub (List.nil_sublist m) p.x p.y (1 / 2)
    rw [adjQ_nil] at this
    linarith
  | cons_cons p hs ih => rw [gramDet_cons, gramDet_cons]; linarith [adjQ_sub hs p.x p.y (1 / 2)]

/-- the determinant for three points is the square of the area of the triangle -/
theorem gramDet_three (p q r : V2 ℝ) : gramDet [p, q, r] = (((q.x - p.x) * (r.y - p.y) - (q.y - p.y) * (r.x - p.x)) / 2) ^ 2 := by
  simp only [gramDet, sxx, sxy, syy, sx, sy, s1, List.map_cons, List.map_nil, List.sum_cons, List.sum_nil]; ring

/-! ## The normal equations, with a remainder -/

theorem lin3 (α β γ cx cy z : ℝ) (g : V2 ℝ → ℝ) (l : List (V2 ℝ)) :
    (l.map (fun p => (α * p.x + β * p.y + γ * (1 / 2)) * g p)).sum =
      α * (sxx l * cx + sxy l * cy + sx l * z) + β * (sxy l * cx + syy l * cy + sy l * z) + γ * (sx l * cx + sy l * cy + s1 l * z) +
        (l.map (fun p => (α * p.x + β * p.y + γ * (1 / 2)) * (g p - (cx * p.x + cy * p.y + z / 2)))).sum := by
  induction l with
  | nil => simp [sxx, sxy, syy, sx, sy, s1]
  | cons p l ih =>
    simp only [List.map_cons, List.sum_cons, sxx, sxy, syy, sx, sy, s1] at ih ⊢
    rw [ih]; ring

theorem abs_sum_le (f : V2 ℝ → ℝ) (B : ℝ) (l : List (V2 ℝ)) (h : ∀ p ∈ l, |f p| ≤ B) : |(l.map f).sum| ≤ l.length * B := by
  induction l with
  | nil => simp
  | cons p l ih =>
    rw [List.map_cons, List.sum_cons, List.length_cons]
    have h1 := h p (by simp)
    have h2 := ih (fun q hq => h q (by simp [hq]))
    push_cast
    exact (abs_add_le _ _).trans (by linarith)

/-! ## Sizes -/

structure FitSize (N M : ℝ) : Prop where
  n4 : 4 ≤ N
  n9 : N ≤ 2 ^ 9
  m1 : 1 ≤ M
  m16 : M ≤ 2 ^ 16

theorem FitSize.mon {N M : ℝ} (h : FitSize N M) {c : ℝ} (hc : 1 / 4 ≤ c) (hc' : c ≤ 4) (a b : ℕ) (ha : a ≤ 4) (hb : b ≤ 6) :
    1 / 4 ≤ c * N ^ a * M ^ b ∧ c * N ^ a * M ^ b ≤ 2 ^ 134 := by
  have n0 : (0 : ℝ) ≤ N := by linarith [h.n4]
  have m0 : (0 : ℝ) ≤ M := by linarith [h.m1]
  have hN : 1 ≤ N ^ a := one_le_pow₀ (by linarith [h.n4])
  have hM : 1 ≤ M ^ b := one_le_pow₀ h.m1
  have hN' : N ^ a ≤ 2 ^ 36 := by
    calc N ^ a ≤ (2 ^ 9) ^ a := pow_le_pow_left₀ n0 h.n9 a
      _ ≤ (2 ^ 9) ^ 4 := pow_le_pow_right₀ (by norm_num) ha
      _ = 2 ^ 36 := by norm_num
  have hM' : M ^ b ≤ 2 ^ 96 := by
    calc M ^ b ≤ (2 ^ 16) ^ b := pow_le_pow_left₀ m0 h.m16 b
      _ ≤ (2 ^ 16) ^ 6 := pow_le_pow_right₀ (by norm_num) hb
      _ = 2 ^ 96 := by norm_num
  constructor
  · calc (1 / 4 : ℝ) = 1 / 4 * 1 * 1 := by norm_num
      _ ≤ c * N ^ a * M ^ b := by gcongr
  · calc c * N ^ a * M ^ b ≤ 4 * 2 ^ 36 * 2 ^ 96 := by gcongr
      _ = 2 ^ 134 := by norm_num

theorem FitSize.sized {N M : ℝ} (h : FitSize N M) {c : ℝ} (hc : 1 / 4 ≤ c) (hc' : c ≤ 4) (a b : ℕ) (ha : a ≤ 4) (hb : b ≤ 6) : Sized (c * N ^ a * M ^ b) := by
  obtain ⟨h1, h2⟩ := h.mon hc hc' a b ha hb
  exact ⟨le_trans (by norm_num) h1, h2.trans (by norm_num)⟩

theorem FitSize.sizedI {N M I : ℝ} (h : FitSize N M) (hI : 1 / 2 ^ 92 ≤ I) (hI' : I ≤ 2 ^ 38) {c : ℝ} (hc : 1 / 4 ≤ c) (hc' : c ≤ 4) (a b : ℕ) (ha : a ≤ 4) (hb : b ≤ 6) :
    Sized (c * N ^ a * M ^ b * I) := by
  obtain ⟨h1, h2⟩ := h.mon hc hc' a b ha hb
  have i0 : 0 < I := lt_of_lt_of_le (by positivity) hI
  constructor
  · calc (1 / 2 ^ 100 : ℝ) ≤ 1 / 4 * (1 / 2 ^ 92) := by norm_num
      _ ≤ c * N ^ a * M ^ b * I := by gcongr
  · calc c * N ^ a * M ^ b * I ≤ 2 ^ 134 * 2 ^ 38 := by gcongr
      _ ≤ 2 ^ 200 := by norm_num

/-! ## The sums as they are computed -/

section
variable {R : Rounding} (hR : R.Accurate)
include hR

theorem gauge_sum {N M : ℝ} (hS : FitSize N M) (qs : List (V2 ℝ)) (hN : N = qs.length + 1) (f : V2 (Fl R) → Fl R) (g : V2 ℝ → ℝ) {B k : ℝ}
    (hk : 1 ≤ k) (hk' : k ≤ 2 ^ 20) (hB : Sized B) (hNB : Sized (N * B)) (h : ∀ q ∈ qs, Gauge (f (V2.toFl R q)) (g q) B k) :
    Gauge (sumL ((qs.map (V2.toFl R)).map f)) (qs.map g).sum (N * B) (k + 2 * N - 2) := by
  have h9 := hS.n9
  have h2 : List.Forall₂ (fun x a => Gauge x a B k) ((qs.map (V2.toFl R)).map f) (qs.map g) := by
    rw [List.map_map, List.forall₂_map_left_iff, List.forall₂_map_right_iff, List.forall₂_same]
    exact h
  have hl : (((qs.map (V2.toFl R)).map f).length : ℝ) = N - 1 := by
    rw [List.length_map, List.length_map, hN]; ring
  have := gauge_sumL hR hk hB _ _ h2 (by rw [hl]; norm_num at hk' h9 ⊢; linarith) (by rw [hl, sub_add_cancel]; exact hNB)
  rw [hl] at this
  exact this.to rfl (by ring) (by linarith)

theorem gauge_cof {x y z w : Fl R} {a b c d A B C D P k : ℝ} (hx : Gauge x a A k) (hy : Gauge y b B k) (hz : Gauge z c C k) (hw : Gauge w d D k)
    (h1 : A * B = P) (h2 : C * D = P) (hP : Sized P) (hP2 : Sized (2 * P)) (hk : 0 ≤ k) (hk' : k ≤ 2 ^ 20) :
    Gauge (x * y - z * w) (a * b - c * d) (2 * P) (2 * k + 4) := by
  have e1 := Gauge.mul hR hx hy (by rw [h1]; exact hP) hk (hk'.trans (by norm_num)) hk (hk'.trans (by norm_num))
  have e2 := Gauge.mul hR hz hw (by rw [h2]; exact hP) hk (hk'.trans (by norm_num)) hk (hk'.trans (by norm_num))
  rw [h1] at e1; rw [h2] at e2
  have := Gauge.sub hR e1 e2 (by rw [← two_mul]; exact hP2) (by linarith) (by norm_num at hk' ⊢; linarith)
  exact this.to rfl (by ring) (by linarith)


/-- what is computed from the points before the division -/
structure Normal (qs : List (V2 ℝ)) (N M : ℝ) (m : M3 (Fl R)) : Prop where
  xx : Gauge m.r0.x (sxx qs) (1 * N ^ 1 * M ^ 2) (2 * N + 2)
  xy : Gauge m.r0.y (sxy qs) (1 * N ^ 1 * M ^ 2) (2 * N + 2)
  xz : Gauge m.r0.z (sx qs) (1 / 2 * N ^ 1 * M ^ 1) (2 * N + 2)
  yx : Gauge m.r1.x (sxy qs) (1 * N ^ 1 * M ^ 2) (2 * N + 2)
  yy : Gauge m.r1.y (syy qs) (1 * N ^ 1 * M ^ 2) (2 * N + 2)
  yz : Gauge m.r1.z (sy qs) (1 / 2 * N ^ 1 * M ^ 1) (2 * N + 2)
  zx : Gauge m.r2.x (sx qs) (1 / 2 * N ^ 1 * M ^ 1) (2 * N + 2)
  zy : Gauge m.r2.y (sy qs) (1 / 2 * N ^ 1 * M ^ 1) (2 * N + 2)
  zz : Gauge m.r2.z (s1 qs) (1 / 4 * N ^ 1 * M ^ 0) (2 * N + 2)

theorem fitMat_normal {N M : ℝ} (hS : FitSize N M) (qs : List (V2 ℝ)) (hN : N = qs.length + 1) (hq : ∀ q ∈ qs, |q.x| ≤ M ∧ |q.y| ≤ M) :
    Normal qs N M (fitMat (qs.map (V2.toFl R))) := by
  have m0 := hS.m1
  have gx : ∀ q ∈ qs, Gauge (V2.toFl R q).x q.x M 0 := fun q h => gauge_fin (hq q h).1
  have gy : ∀ q ∈ qs, Gauge (V2.toFl R q).y q.y M 0 := fun q h => gauge_fin (hq q h).2
  have gz : Gauge (R := R) (FP.lit (1 / 2)) (1 / 2) (1 / 2) 1 := by
    have := gauge_lit hR (1 / 2) (B := 1 / 2) (by norm_num) ⟨by norm_num, by norm_num⟩
    exact this.to (by norm_num) rfl le_rfl
  have z1 := hS.sized (c := 1) (by norm_num) (by norm_num) 0 2 (by norm_num) (by norm_num)
  have z2 := hS.sized (c := 1 / 2) (by norm_num) (by norm_num) 0 1 (by norm_num) (by norm_num)
  have z3 := hS.sized (c := 1 / 4) (by norm_num) (by norm_num) 0 0 (by norm_num) (by norm_num)
  have y1 := hS.sized (c := 1) (by norm_num) (by norm_num) 1 2 (by norm_num) (by norm_num)
  have y2 := hS.sized (c := 1 / 2) (by norm_num) (by norm_num) 1 1 (by norm_num) (by norm_num)
  have y3 := hS.sized (c := 1 / 4) (by norm_num) (by norm_num) 1 0 (by norm_num) (by norm_num)
  have w1 : 1 * N ^ 0 * M ^ 2 = M * M := by ring
  have w2 : 1 / 2 * N ^ 0 * M ^ 1 = M * (1 / 2) := by ring
  have w2' : 1 / 2 * N ^ 0 * M ^ 1 = 1 / 2 * M := by ring
  have w3 : 1 / 4 * N ^ 0 * M ^ 0 = 1 / 2 * (1 / 2 : ℝ) := by norm_num
  have e1 : N * (1 * N ^ 0 * M ^ 2) = 1 * N ^ 1 * M ^ 2 := by ring
  have e2 : N * (1 / 2 * N ^ 0 * M ^ 1) = 1 / 2 * N ^ 1 * M ^ 1 := by ring
  have e3 : N * (1 / 4 * N ^ 0 * M ^ 0) = 1 / 4 * N ^ 1 * M ^ 0 := by ring
  have k4 : (4 : ℝ) + 2 * N - 2 ≤ 2 * N + 2 := by linarith
  constructor
  · refine (gauge_sum hR hS qs hN (fun p => (fitRow p).x * (fitRow p).x) (fun p => p.x * p.x) (k := 4) (B := 1 * N ^ 0 * M ^ 2) (by norm_num) (by norm_num) z1 (by rw [e1]; exact y1) ?_).to rfl e1 k4
    intro q h
    exact (Gauge.mul hR (gx q h) (gx q h) (by rw [← w1]; exact z1) le_rfl (by norm_num) le_rfl (by norm_num)).to rfl w1.symm (by norm_num)
  · refine (gauge_sum hR hS qs hN (fun p => (fitRow p).x * (fitRow p).y) (fun p => p.x * p.y) (k := 4) (B := 1 * N ^ 0 * M ^ 2) (by norm_num) (by norm_num) z1 (by rw [e1]; exact y1) ?_).to rfl e1 k4
    intro q h
    exact (Gauge.mul hR (gx q h) (gy q h) (by rw [← w1]; exact z1) le_rfl (by norm_num) le_rfl (by norm_num)).to rfl w1.symm (by norm_num)
  · refine (gauge_sum hR hS qs hN (fun p => (fitRow p).x * (fitRow p).z) (fun p => p.x * (1 / 2)) (k := 4) (B := 1 / 2 * N ^ 0 * M ^ 1) (by norm_num) (by norm_num) z2 (by rw [e2]; exact y2) ?_).to rfl e2 k4
    intro q h
    exact (Gauge.mul hR (gx q h) gz (by rw [← w2]; exact z2) le_rfl (by norm_num) (by norm_num) (by norm_num)).to rfl w2.symm (by norm_num)
  · refine (gauge_sum hR hS qs hN (fun p => (fitRow p).y * (fitRow p).x) (fun p => p.x * p.y) (k := 4) (B := 1 * N ^ 0 * M ^ 2) (by norm_num) (by norm_num) z1 (by rw [e1]; exact y1) ?_).to rfl e1 k4
    intro q h
    exact (Gauge.mul hR (gy q h) (gx q h) (by rw [← w1]; exact z1) le_rfl (by norm_num) le_rfl (by norm_num)).to (mul_comm _ _) w1.symm (by norm_num)
  · refine (gauge_sum hR hS qs hN (fun p => (fitRow p).y * (fitRow p).y) (fun p => p.y * p.y) (k := 4) (B := 1 * N ^ 0 * M ^ 2) (by norm_num) (by norm_num) z1 (by rw [e1]; exact y1) ?_).to rfl e1 k4
    intro q h
    exact (Gauge.mul hR (gy q h) (gy q h) (by rw [← w1]; exact z1) le_rfl (by norm_num) le_rfl (by norm_num)).to rfl w1.symm (by norm_num)
  · refine (gauge_sum hR hS qs hN (fun p => (fitRow p).y * (fitRow p).z) (fun p => p.y * (1 / 2)) (k := 4) (B := 1 / 2 * N ^ 0 * M ^ 1) (by norm_num) (by norm_num) z2 (by rw [e2]; exact y2) ?_).to rfl e2 k4
    intro q h
    exact (Gauge.mul hR (gy q h) gz (by rw [← w2]; exact z2) le_rfl (by norm_num) (by norm_num) (by norm_num)).to rfl w2.symm (by norm_num)
  · refine (gauge_sum hR hS qs hN (fun p => (fitRow p).z * (fitRow p).x) (fun p => p.x * (1 / 2)) (k := 4) (B := 1 / 2 * N ^ 0 * M ^ 1) (by norm_num) (by norm_num) z2 (by rw [e2]; exact y2) ?_).to rfl e2 k4
    intro q h
    exact (Gauge.mul hR gz (gx q h) (by rw [← w2']; exact z2) (by norm_num) (by norm_num) le_rfl (by norm_num)).to (mul_comm _ _) w2'.symm (by norm_num)
  · refine (gauge_sum hR hS qs hN (fun p => (fitRow p).z * (fitRow p).y) (fun p => p.y * (1 / 2)) (k := 4) (B := 1 / 2 * N ^ 0 * M ^ 1) (by norm_num) (by norm_num) z2 (by rw [e2]; exact y2) ?_).to rfl e2 k4
    intro q h
    exact (Gauge.mul hR gz (gy q h) (by rw [← w2']; exact z2) (by norm_num) (by norm_num) le_rfl (by norm_num)).to (mul_comm _ _) w2'.symm (by norm_num)
  · refine (gauge_sum hR hS qs hN (fun p => (fitRow p).z * (fitRow p).z) (fun p => 1 / 2 * (1 / 2)) (k := 4) (B := 1 / 4 * N ^ 0 * M ^ 0) (by norm_num) (by norm_num) z3 (by rw [e3]; exact y3) ?_).to rfl e3 k4
    intro q h
    exact (Gauge.mul hR gz gz (by rw [← w3]; exact z3) (by norm_num) (by norm_num) (by norm_num) (by norm_num)).to rfl w3.symm (by norm_num)

/-- the cofactors -/
structure Cofactors (qs : List (V2 ℝ)) (N M : ℝ) (k : M3 (Fl R)) : Prop where
  k00 : Gauge k.r0.x (syy qs * s1 qs - sy qs * sy qs) (1 / 2 * N ^ 2 * M ^ 2) (4 * N + 8)
  k10 : Gauge k.r0.y (sy qs * sx qs - s1 qs * sxy qs) (1 / 2 * N ^ 2 * M ^ 2) (4 * N + 8)
  k20 : Gauge k.r0.z (sxy qs * sy qs - sx qs * syy qs) (1 * N ^ 2 * M ^ 3) (4 * N + 8)
  k01 : Gauge k.r1.x (sy qs * sx qs - sxy qs * s1 qs) (1 / 2 * N ^ 2 * M ^ 2) (4 * N + 8)
  k11 : Gauge k.r1.y (s1 qs * sxx qs - sx qs * sx qs) (1 / 2 * N ^ 2 * M ^ 2) (4 * N + 8)
  k21 : Gauge k.r1.z (sx qs * sxy qs - sxx qs * sy qs) (1 * N ^ 2 * M ^ 3) (4 * N + 8)
  k02 : Gauge k.r2.x (sxy qs * sy qs - syy qs * sx qs) (1 * N ^ 2 * M ^ 3) (4 * N + 8)
  k12 : Gauge k.r2.y (sx qs * sxy qs - sy qs * sxx qs) (1 * N ^ 2 * M ^ 3) (4 * N + 8)
  k22 : Gauge k.r2.z (sxx qs * syy qs - sxy qs * sxy qs) (2 * N ^ 2 * M ^ 4) (4 * N + 8)

/-- the inverse is the cofactors times the reciprocal of the determinant -/
theorem inv3_cof {N M : ℝ} (hS : FitSize N M) (qs : List (V2 ℝ)) (m : M3 (Fl R)) (h : Normal qs N M m) :
    ∃ k : M3 (Fl R), Cofactors qs N M k ∧ ∃ det : Fl R, Gauge det (gramDet qs) (3 / 2 * N ^ 3 * M ^ 4) (6 * N + 16) ∧
      inv3 m = ⟨⟨k.r0.x * (FP.lit 1 / det), k.r0.y * (FP.lit 1 / det), k.r0.z * (FP.lit 1 / det)⟩,
        ⟨k.r1.x * (FP.lit 1 / det), k.r1.y * (FP.lit 1 / det), k.r1.z * (FP.lit 1 / det)⟩,
        ⟨k.r2.x * (FP.lit 1 / det), k.r2.y * (FP.lit 1 / det), k.r2.z * (FP.lit 1 / det)⟩⟩ := by
  have n9 := hS.n9
  have n4 := hS.n4
  have k0 : 0 ≤ 2 * N + 2 := by linarith
  have k1 : 2 * N + 2 ≤ 2 ^ 20 := by norm_num at n9 ⊢; linarith
  have hk : 2 * (2 * N + 2) + 4 ≤ 4 * N + 8 := by linarith
  have p1 := hS.sized (c := 1 / 4) (by norm_num) (by norm_num) 2 2 (by norm_num) (by norm_num)
  have p1' := hS.sized (c := 1 / 2) (by norm_num) (by norm_num) 2 2 (by norm_num) (by norm_num)
  have p2 := hS.sized (c := 1 / 2) (by norm_num) (by norm_num) 2 3 (by norm_num) (by norm_num)
  have p2' := hS.sized (c := 1) (by norm_num) (by norm_num) 2 3 (by norm_num) (by norm_num)
  have p3 := hS.sized (c := 1) (by norm_num) (by norm_num) 2 4 (by norm_num) (by norm_num)
  have p3' := hS.sized (c := 2) (by norm_num) (by norm_num) 2 4 (by norm_num) (by norm_num)
  have d1 : 2 * (1 / 4 * N ^ 2 * M ^ 2) = 1 / 2 * N ^ 2 * M ^ 2 := by ring
  have d2 : 2 * (1 / 2 * N ^ 2 * M ^ 3) = 1 * N ^ 2 * M ^ 3 := by ring
  have d3 : 2 * (1 * N ^ 2 * M ^ 4) = 2 * N ^ 2 * M ^ 4 := by ring
  have a00 := (gauge_cof hR h.yy h.zz h.yz h.zy (P := 1 / 4 * N ^ 2 * M ^ 2) (by ring) (by ring) p1 (by rw [d1]; exact p1') k0 k1).to rfl d1 hk
  have a10 := (gauge_cof hR h.zy h.xz h.zz h.xy (P := 1 / 4 * N ^ 2 * M ^ 2) (by ring) (by ring) p1 (by rw [d1]; exact p1') k0 k1).to rfl d1 hk
  have a20 := (gauge_cof hR h.xy h.yz h.xz h.yy (P := 1 / 2 * N ^ 2 * M ^ 3) (by ring) (by ring) p2 (by rw [d2]; exact p2') k0 k1).to rfl d2 hk
  have a01 := (gauge_cof hR h.yz h.zx h.yx h.zz (P := 1 / 4 * N ^ 2 * M ^ 2) (by ring) (by ring) p1 (by rw [d1]; exact p1') k0 k1).to rfl d1 hk
  have a11 := (gauge_cof hR h.zz h.xx h.zx h.xz (P := 1 / 4 * N ^ 2 * M ^ 2) (by ring) (by ring) p1 (by rw [d1]; exact p1') k0 k1).to rfl d1 hk
  have a21 := (gauge_cof hR h.xz h.yx h.xx h.yz (P := 1 / 2 * N ^ 2 * M ^ 3) (by ring) (by ring) p2 (by rw [d2]; exact p2') k0 k1).to rfl d2 hk
  have a02 := (gauge_cof hR h.yx h.zy h.yy h.zx (P := 1 / 2 * N ^ 2 * M ^ 3) (by ring) (by ring) p2 (by rw [d2]; exact p2') k0 k1).to rfl d2 hk
  have a12 := (gauge_cof hR h.zx h.xy h.zy h.xx (P := 1 / 2 * N ^ 2 * M ^ 3) (by ring) (by ring) p2 (by rw [d2]; exact p2') k0 k1).to rfl d2 hk
  have a22 := (gauge_cof hR h.xx h.yy h.xy h.yx (P := 1 * N ^ 2 * M ^ 4) (by ring) (by ring) p3 (by rw [d3]; exact p3') k0 k1).to rfl d3 hk
  refine ⟨⟨⟨_, _, _⟩, ⟨_, _, _⟩, ⟨_, _, _⟩⟩, ⟨a00, a10, a20, a01, a11, a21, a02, a12, a22⟩, _, ?_, rfl⟩
  have q1 := hS.sized (c := 1 / 2) (by norm_num) (by norm_num) 3 4 (by norm_num) (by norm_num)
  have q2 := hS.sized (c := 1) (by norm_num) (by norm_num) 3 4 (by norm_num) (by norm_num)
  have q3 := hS.sized (c := 3 / 2) (by norm_num) (by norm_num) 3 4 (by norm_num) (by norm_num)
  have j0 : 0 ≤ 4 * N + 8 := by linarith
  have j1 : 4 * N + 8 ≤ 2 ^ 24 := by norm_num at n9 ⊢; linarith
  have j2 : 2 * N + 2 ≤ 2 ^ 24 := by norm_num at n9 ⊢; linarith
  have r1 : 1 / 2 * N ^ 2 * M ^ 2 * (1 * N ^ 1 * M ^ 2) = 1 / 2 * N ^ 3 * M ^ 4 := by ring
  have r2 : 1 * N ^ 2 * M ^ 3 * (1 / 2 * N ^ 1 * M ^ 1) = 1 / 2 * N ^ 3 * M ^ 4 := by ring
  have b1 := (Gauge.mul hR a00 h.xx (by rw [r1]; exact q1) j0 j1 k0 j2).to rfl r1 (le_refl _)
  have b2 := (Gauge.mul hR a10 h.yx (by rw [r1]; exact q1) j0 j1 k0 j2).to rfl r1 (le_refl _)
  have b3 := (Gauge.mul hR a20 h.zx (by rw [r2]; exact q1) j0 j1 k0 j2).to rfl r2 (le_refl _)
  have c1 := Gauge.add hR b1 b2 (by convert q2 using 1; ring) (by linarith) (by norm_num at n9 ⊢; linarith)
  have c2 := Gauge.add hR c1 (b3.mono (by linarith)) (by convert q3 using 1; ring) (by linarith) (by norm_num at n9 ⊢; linarith)
  exact c2.to rfl (by ring) (by linarith)


/-- half the square of the distance from the origin -/
theorem fitRhs_gauge {N M : ℝ} (hS : FitSize N M) {q : V2 ℝ} (hq : |q.x| ≤ M ∧ |q.y| ≤ M) :
    Gauge (fitRhs (V2.toFl R q)) ((q.x * q.x + q.y * q.y) / 2) (1 * N ^ 0 * M ^ 2) 8 := by
  have m1 := hS.m1
  have z1 := hS.sized (c := 1) (by norm_num) (by norm_num) 0 2 (by norm_num) (by norm_num)
  have z2 := hS.sized (c := 2) (by norm_num) (by norm_num) 0 2 (by norm_num) (by norm_num)
  have w1 : M * M = 1 * N ^ 0 * M ^ 2 := by ring
  have gx := Gauge.mul hR (gauge_fin (R := R) hq.1) (gauge_fin (R := R) hq.1) (by rw [w1]; exact z1) le_rfl (by norm_num) le_rfl (by norm_num)
  have gy := Gauge.mul hR (gauge_fin (R := R) hq.2) (gauge_fin (R := R) hq.2) (by rw [w1]; exact z1) le_rfl (by norm_num) le_rfl (by norm_num)
  have g := (Gauge.add hR gx gy (by convert z2 using 1; ring) (by norm_num) (by norm_num)).to rfl (show M * M + M * M = 2 * M ^ 2 by ring) (show (0 : ℝ) + 0 + 2 + 2 ≤ 4 by norm_num)
  have g2 := (gauge_lit hR 2 (B := 2) (by norm_num) ⟨by norm_num, by norm_num⟩)
  have hM2 : 0 < M ^ 2 := by positivity
  have hv : |(q.x * q.x + q.y * q.y) / 2| ≤ M ^ 2 := by
    rw [abs_div, abs_of_pos (show (0 : ℝ) < 2 by norm_num), div_le_iff₀ (by norm_num)]
    have := g.1; linarith
  refine ⟨by simpa using hv, ?_⟩
  have hd := Fl.Near.div hR g.2 g2.2 (S := 2 * M ^ 2) (by norm_num)
  have e2 : |((2 : ℚ) : ℝ)| = 2 := by norm_num
  have key : (4 * (2 * M ^ 2) / 2 ^ 51 + |(q.x * q.x + q.y * q.y) / ((2 : ℚ) : ℝ)| * (1 * 2 / 2 ^ 51)) / (|((2 : ℚ) : ℝ)| - 1 * 2 / 2 ^ 51) ≤ 6 * M ^ 2 / 2 ^ 51 := by
    rw [e2, div_le_iff₀ (by norm_num)]
    have : |(q.x * q.x + q.y * q.y) / ((2 : ℚ) : ℝ)| ≤ M ^ 2 := by push_cast; exact hv
    norm_num
    norm_num at this
    linarith
  have hS' : |(q.x * q.x + q.y * q.y) / ((2 : ℚ) : ℝ)| + (4 * (2 * M ^ 2) / 2 ^ 51 + |(q.x * q.x + q.y * q.y) / ((2 : ℚ) : ℝ)| * (1 * 2 / 2 ^ 51)) / (|((2 : ℚ) : ℝ)| - 1 * 2 / 2 ^ 51) ≤ 2 * M ^ 2 := by
    have h1 : |(q.x * q.x + q.y * q.y) / ((2 : ℚ) : ℝ)| ≤ M ^ 2 := by push_cast; exact hv
    have h2 : 6 * M ^ 2 / 2 ^ 51 ≤ M ^ 2 := by norm_num; linarith
    linarith
  have hd := hd hS' (by have := z2.1; simpa using this) (le_trans (by have := z2.pos; simp at this ⊢; linarith) z2.big)
  have : ((2 : ℚ) : ℝ) = 2 := by norm_num
  rw [this] at hd
  rw [this] at key
  refine hd.mono ?_
  have h3 : 8 * (1 * N ^ 0 * M ^ 2) / 2 ^ 51 = 6 * M ^ 2 / 2 ^ 51 + 2 * M ^ 2 / 2 ^ 51 := by ring
  rw [h3]
  linarith

/-- a row of the result -/
theorem row_gauge {N M I ι : ℝ} (hS : FitSize N M) (hI : 1 / 2 ^ 92 ≤ I) (hI' : I ≤ 2 ^ 38) (hι : |ι| ≤ I) (qs : List (V2 ℝ)) (hN : N = qs.length + 1)
    (hq : ∀ q ∈ qs, |q.x| ≤ M ∧ |q.y| ≤ M) {c : ℝ} {e : ℕ} (hc : 1 ≤ c) (hc' : c ≤ 2) (he : e ≤ 1) {x y z i : Fl R} (hi : i = (Ext.fin ι : Ext ℝ)) {α β γ : ℝ}
    (hx : Gauge x α (c / 2 * N ^ 2 * M ^ (2 + e)) (4 * N + 8)) (hy : Gauge y β (c / 2 * N ^ 2 * M ^ (2 + e)) (4 * N + 8)) (hz : Gauge z γ (c * N ^ 2 * M ^ (3 + e)) (4 * N + 8)) :
    Gauge (sumL ((qs.map (V2.toFl R)).map (fun p => (⟨x * i, y * i, z * i⟩ : V3 (Fl R)).dot (fitRow p) * fitRhs p)))
      (qs.map (fun p => (α * ι * p.x + β * ι * p.y + γ * ι * (1 / 2)) * ((p.x * p.x + p.y * p.y) / 2))).sum (3 / 2 * c * N ^ 3 * M ^ (5 + e) * I) (6 * N + 25) := by
  have n9 := hS.n9
  have n4 := hS.n4
  have j0 : 0 ≤ 4 * N + 8 := by linarith
  have j1 : 4 * N + 8 ≤ 2 ^ 24 := by norm_num at n9 ⊢; linarith
  have gi : Gauge i ι I 0 := by rw [hi]; exact gauge_fin hι
  have sz : ∀ (d : ℝ) (a b : ℕ), 1 / 4 ≤ d → d ≤ 4 → a ≤ 4 → b ≤ 6 → Sized (d * N ^ a * M ^ b * I) := fun d a b h1 h2 h3 h4 => hS.sizedI hI hI' h1 h2 a b h3 h4
  have ax := Gauge.mul hR hx gi (sz _ _ _ (by linarith) (by linarith) (by norm_num) (by omega)) j0 j1 le_rfl (by norm_num)
  have ay := Gauge.mul hR hy gi (sz _ _ _ (by linarith) (by linarith) (by norm_num) (by omega)) j0 j1 le_rfl (by norm_num)
  have az := Gauge.mul hR hz gi (sz _ _ _ (by linarith) (by linarith) (by norm_num) (by omega)) j0 j1 le_rfl (by norm_num)
  have gz : Gauge (R := R) (FP.lit (1 / 2)) (1 / 2) (1 / 2) 1 := by
    have := gauge_lit hR (1 / 2) (B := 1 / 2) (by norm_num) ⟨by norm_num, by norm_num⟩
    exact this.to (by norm_num) rfl le_rfl
  have eB : N * (3 / 2 * c * N ^ 2 * M ^ (5 + e) * I) = 3 / 2 * c * N ^ 3 * M ^ (5 + e) * I := by ring
  refine (gauge_sum hR hS qs hN (fun p => (⟨x * i, y * i, z * i⟩ : V3 (Fl R)).dot (fitRow p) * fitRhs p)
    (fun p => (α * ι * p.x + β * ι * p.y + γ * ι * (1 / 2)) * ((p.x * p.x + p.y * p.y) / 2)) (k := 4 * N + 27) (B := 3 / 2 * c * N ^ 2 * M ^ (5 + e) * I)
    (by linarith) (by norm_num at n9 ⊢; linarith) (sz _ _ _ (by linarith) (by linarith) (by norm_num) (by omega)) (by rw [eB]; exact sz _ _ _ (by linarith) (by linarith) (by norm_num) (by omega)) ?_).to rfl eB (by linarith)
  intro q h
  have l0 : 0 ≤ 4 * N + 8 + 0 + 2 := by linarith
  have l1 : 4 * N + 8 + 0 + 2 ≤ 2 ^ 24 := by norm_num at n9 ⊢; linarith
  have e1 : c / 2 * N ^ 2 * M ^ (2 + e) * I * M = c / 2 * N ^ 2 * M ^ (3 + e) * I := by ring
  have e3 : c * N ^ 2 * M ^ (3 + e) * I * (1 / 2) = c / 2 * N ^ 2 * M ^ (3 + e) * I := by ring
  have s1 := sz (c / 2) 2 (3 + e) (by linarith) (by linarith) (by norm_num) (by omega)
  have s2 := sz c 2 (3 + e) (by linarith) (by linarith) (by norm_num) (by omega)
  have s3 := sz (3 / 2 * c) 2 (3 + e) (by linarith) (by linarith) (by norm_num) (by omega)
  have bx := (Gauge.mul hR ax (gauge_fin (R := R) (hq q h).1) (by rw [e1]; exact s1) l0 l1 le_rfl (by norm_num)).to rfl e1 (show _ ≤ 4 * N + 13 by linarith)
  have byy := (Gauge.mul hR ay (gauge_fin (R := R) (hq q h).2) (by rw [e1]; exact s1) l0 l1 le_rfl (by norm_num)).to rfl e1 (show _ ≤ 4 * N + 13 by linarith)
  have bz := (Gauge.mul hR az gz (by rw [e3]; exact s1) l0 l1 (by norm_num) (by norm_num)).to rfl e3 (show _ ≤ 4 * N + 15 by linarith)
  have c1 := (Gauge.add hR bx byy (by convert s2 using 1; ring) (by linarith) (by norm_num at n9 ⊢; linarith)).to rfl (show _ = c * N ^ 2 * M ^ (3 + e) * I by ring) (show _ ≤ 4 * N + 15 by linarith)
  have c2 := (Gauge.add hR c1 bz (by convert s3 using 1; ring) (by linarith) (by norm_num at n9 ⊢; linarith)).to rfl (show _ = 3 / 2 * c * N ^ 2 * M ^ (3 + e) * I by ring) (show _ ≤ 4 * N + 17 by linarith)
  have e5 : 3 / 2 * c * N ^ 2 * M ^ (3 + e) * I * (1 * N ^ 0 * M ^ 2) = 3 / 2 * c * N ^ 2 * M ^ (5 + e) * I := by ring
  exact (Gauge.mul hR c2 (fitRhs_gauge hR hS (hq q h)) (by rw [e5]; exact sz _ _ _ (by linarith) (by linarith) (by norm_num) (by omega)) (by linarith)
    (by norm_num at n9 ⊢; linarith) (by norm_num) (by norm_num)).to rfl e5 (by linarith)

end
end S2P
