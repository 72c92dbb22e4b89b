import Verif.Lemmas.AccuracyView
import Verif.Lemmas.OnEdge
import Verif.Lemmas.Ink

set_option linter.unusedSectionVars false
set_option linter.unusedVariables false
set_option linter.unusedSimpArgs false

/-! # What is drawn with rounded arithmetic is near what is asked for -/

namespace S2P

/-- entries of a rotation are at most 1 -/
theorem rotation_le {r : M3 ℝ} (h : IsRotation r) : (|r.r0.x| ≤ 1 ∧ |r.r0.y| ≤ 1 ∧ |r.r0.z| ≤ 1) ∧ (|r.r1.x| ≤ 1 ∧ |r.r1.y| ≤ 1 ∧ |r.r1.z| ≤ 1) ∧
    (|r.r2.x| ≤ 1 ∧ |r.r2.y| ≤ 1 ∧ |r.r2.z| ≤ 1) := by
  have h0 := h.1 ⟨1, 0, 0⟩ ⟨1, 0, 0⟩
  have h1 := h.1 ⟨0, 1, 0⟩ ⟨0, 1, 0⟩
  have h2 := h.1 ⟨0, 0, 1⟩ ⟨0, 0, 1⟩
  simp [V3.dot, V3.mulM] at h0 h1 h2
  refine ⟨⟨?_, ?_, ?_⟩, ⟨?_, ?_, ?_⟩, ⟨?_, ?_, ?_⟩⟩ <;> (apply abs_le_one_iff_mul_self_le_one.2; nlinarith)

section
variable {R : Rounding} (hR : R.Accurate)

/-- the size of the numbers considered -/
structure Mid (M : ℝ) : Prop where
  one : 1 ≤ M
  top : M ≤ 2 ^ 600

theorem Mid.small {M : ℝ} (h : Mid M) {S : ℝ} (hS : S ≤ M * 2 ^ 50) : S ≤ 2 ^ 1000 := by
  have : M * 2 ^ 50 ≤ 2 ^ 600 * 2 ^ 50 := mul_le_mul_of_nonneg_right h.top (by positivity)
  rw [← pow_add] at this
  exact hS.trans (this.trans (pow_le_pow_right₀ (by norm_num) (by norm_num)))

include hR

theorem lin_fine {M : ℝ} (hM : Mid M) {x0 x1 x2 m0 m1 m2 : Fl R} {a0 a1 a2 r0 r1 r2 : ℝ} (h0 : Fl.Near x0 a0 0) (h1 : Fl.Near x1 a1 0)
    (h2 : Fl.Near x2 a2 0) (b0 : |a0| ≤ M) (b1 : |a1| ≤ M) (b2 : |a2| ≤ M) (k0 : Fl.Near m0 r0 (1 / 2 ^ 40)) (k1 : Fl.Near m1 r1 (1 / 2 ^ 40))
    (k2 : Fl.Near m2 r2 (1 / 2 ^ 40)) (c0 : |r0| ≤ 1) (c1 : |r1| ≤ 1) (c2 : |r2| ≤ 1) :
    Fl.Near (x0 * m0 + x1 * m1 + x2 * m2) (a0 * r0 + a1 * r1 + a2 * r2) (25 * M / 2 ^ 43) ∧ |a0 * r0 + a1 * r1 + a2 * r2| ≤ 3 * M := by
  have h1M := hM.one
  have pr : ∀ {x m : Fl R} {a r : ℝ}, Fl.Near x a 0 → |a| ≤ M → Fl.Near m r (1 / 2 ^ 40) → |r| ≤ 1 →
      Fl.Near (x * m) (a * r) (M / 2 ^ 40 + M / 2 ^ 50) := by
    intro x m a r hx ha hm hr
    refine (hx.mul hR hm ha hr (S := 2 * M) ?_ ?_ (hM.small ?_)).mono ?_ <;> norm_num <;> linarith
  have ab : ∀ {a r : ℝ}, |a| ≤ M → |r| ≤ 1 → |a * r| ≤ M := by
    intro a r h1 h2; rw [abs_mul]; nlinarith [abs_nonneg a, abs_nonneg r]
  have s0 := ab b0 c0
  have s1 := ab b1 c1
  have s2 := ab b2 c2
  have t1 := abs_add_le (a0 * r0) (a1 * r1)
  have t2 := abs_add_le (a0 * r0 + a1 * r1) (a2 * r2)
  have f1 := (pr h0 b0 k0 c0).add hR (pr h1 b1 k1 c1) (S := 3 * M) (by norm_num; linarith) (by norm_num; linarith) (hM.small (by norm_num; linarith))
  refine ⟨(f1.add hR (pr h2 b2 k2 c2) (S := 4 * M) (by norm_num; linarith) (by norm_num; linarith) (hM.small (by norm_num; linarith))).mono ?_, by linarith⟩
  norm_num; linarith

theorem lin_near {M : ℝ} (hM : Mid M) {x0 x1 x2 m0 m1 m2 : Fl R} {a0 a1 a2 r0 r1 r2 : ℝ} (h0 : Fl.Near x0 a0 0) (h1 : Fl.Near x1 a1 0)
    (h2 : Fl.Near x2 a2 0) (b0 : |a0| ≤ M) (b1 : |a1| ≤ M) (b2 : |a2| ≤ M) (k0 : Fl.Near m0 r0 (1 / 2 ^ 40)) (k1 : Fl.Near m1 r1 (1 / 2 ^ 40))
    (k2 : Fl.Near m2 r2 (1 / 2 ^ 40)) (c0 : |r0| ≤ 1) (c1 : |r1| ≤ 1) (c2 : |r2| ≤ 1) :
    Fl.Near (x0 * m0 + x1 * m1 + x2 * m2) (a0 * r0 + a1 * r1 + a2 * r2) (M / 2 ^ 38) ∧ |a0 * r0 + a1 * r1 + a2 * r2| ≤ 3 * M := by
  obtain ⟨h, h'⟩ := lin_fine hR hM h0 h1 h2 b0 b1 b2 k0 k1 k2 c0 c1 c2
  have h1M := hM.one
  exact ⟨h.mono (by norm_num; linarith), h'⟩

theorem mulM_near {M : ℝ} (hM : Mid M) {v : V3 (Fl R)} {a : V3 ℝ} {m : M3 (Fl R)} {r : M3 ℝ} (hv : V3.NearTo v a 0) (ha : a.Within M)
    (hm : M3.NearTo m r (1 / 2 ^ 40)) (hr : IsRotation r) : V3.NearTo (v.mulM m) (a.mulM r) (M / 2 ^ 38) ∧ (a.mulM r).Within (3 * M) := by
  obtain ⟨⟨a1, a2, a3⟩, ⟨b1, b2, b3⟩, ⟨c1, c2, c3⟩⟩ := rotation_le hr
  obtain ⟨⟨k1, k2, k3⟩, ⟨k4, k5, k6⟩, ⟨k7, k8, k9⟩⟩ := hm
  obtain ⟨v1, v2, v3⟩ := hv
  obtain ⟨w1, w2, w3⟩ := ha
  have e1 := lin_near hR hM v1 v2 v3 w1 w2 w3 k1 k4 k7 a1 b1 c1
  have e2 := lin_near hR hM v1 v2 v3 w1 w2 w3 k2 k5 k8 a2 b2 c2
  have e3 := lin_near hR hM v1 v2 v3 w1 w2 w3 k3 k6 k9 a3 b3 c3
  exact ⟨⟨e1.1, e2.1, e3.1⟩, e1.2, e2.2, e3.2⟩

theorem mulM_fine {M : ℝ} (hM : Mid M) {v : V3 (Fl R)} {a : V3 ℝ} {m : M3 (Fl R)} {r : M3 ℝ} (hv : V3.NearTo v a 0) (ha : a.Within M)
    (hm : M3.NearTo m r (1 / 2 ^ 40)) (hr : IsRotation r) : V3.NearTo (v.mulM m) (a.mulM r) (25 * M / 2 ^ 43) := by
  obtain ⟨⟨a1, a2, a3⟩, ⟨b1, b2, b3⟩, ⟨c1, c2, c3⟩⟩ := rotation_le hr
  obtain ⟨⟨k1, k2, k3⟩, ⟨k4, k5, k6⟩, ⟨k7, k8, k9⟩⟩ := hm
  obtain ⟨v1, v2, v3⟩ := hv
  obtain ⟨w1, w2, w3⟩ := ha
  exact ⟨(lin_fine hR hM v1 v2 v3 w1 w2 w3 k1 k4 k7 a1 b1 c1).1, (lin_fine hR hM v1 v2 v3 w1 w2 w3 k2 k5 k8 a2 b2 c2).1,
    (lin_fine hR hM v1 v2 v3 w1 w2 w3 k3 k6 k9 a3 b3 c3).1⟩

/-! ## Points of an edge -/

theorem mid_near {M : ℝ} (hM : Mid M) {x y i : Fl R} {a b t : ℝ} (hx : Fl.Near x a (M / 2 ^ 38)) (hy : Fl.Near y b (M / 2 ^ 38)) (hi : Fl.Near i t 0)
    (ha : |a| ≤ 3 * M) (hb : |b| ≤ 3 * M) (h0 : 0 ≤ t) (h1 : t ≤ 1) : Fl.Near (x + (y - x) * i) (a + (b - a) * t) (M / 2 ^ 36) := by
  have h1M := hM.one
  have t1 := abs_sub b a
  have ht : |t| ≤ 1 := by rw [abs_le]; constructor <;> linarith
  have d := hy.sub hR hx (S := 7 * M) (by norm_num; linarith) (by norm_num; linarith) (hM.small (by norm_num; linarith))
  have hd6 : |b - a| ≤ 6 * M := by linarith
  have p := d.mul hR hi hd6 ht (S := 7 * M) (by norm_num; linarith) (by norm_num; linarith) (hM.small (by norm_num; linarith))
  have t2 := abs_add_le a ((b - a) * t)
  have t3 : |(b - a) * t| ≤ 6 * M := by rw [abs_mul]; nlinarith [abs_nonneg (b - a), abs_nonneg t]
  refine (hx.add hR p (S := 10 * M) (by norm_num; linarith) (by norm_num; linarith) (hM.small (by norm_num; linarith))).mono ?_
  norm_num; linarith

omit hR in
theorem le_unit {i : Fl R} (h0 : FP.le (FP.lit 0) i = true) (h1 : FP.le i (FP.lit 1) = true) : ∃ t : ℝ, i = (Ext.fin t : Ext ℝ) ∧ 0 ≤ t ∧ t ≤ 1 := by
  rw [lit_zero] at h0
  rw [lit_one_fl] at h1
  change Ext.le (.fin 0) i = true at h0
  change Ext.le i (.fin 1) = true at h1
  change Ext ℝ at i
  cases i with
  | fin t => simp [Ext.le] at h0 h1; exact ⟨t, rfl, h0, h1⟩
  | pinf => simp [Ext.le] at h1
  | ninf => simp [Ext.le] at h0
  | nan => simp [Ext.le] at h0

theorem pointOn_near {M : ℝ} (hM : Mid M) {e : Edge (Fl R)} {E : Edge ℝ} (h1 : V3.NearTo e.1 E.1 (M / 2 ^ 38)) (h2 : V3.NearTo e.2 E.2 (M / 2 ^ 38))
    (w1 : E.1.Within (3 * M)) (w2 : E.2.Within (3 * M)) {p : V3 (Fl R)} (hp : PointOn e p) :
    ∃ t, 0 ≤ t ∧ t ≤ 1 ∧ V3.NearTo p (edgeAt E t) (M / 2 ^ 36) ∧ (edgeAt E t).Within (9 * M) := by
  have h1M := hM.one
  have le : M / 2 ^ 38 ≤ M / 2 ^ 36 := by norm_num; linarith
  have ww : ∀ t, 0 ≤ t → t ≤ 1 → (edgeAt E t).Within (9 * M) := by
    intro t h0 h1
    have : ∀ a b : ℝ, |a| ≤ 3 * M → |b| ≤ 3 * M → |a + (b - a) * t| ≤ 9 * M := by
      intro a b ha hb
      rw [abs_le] at *
      constructor <;> nlinarith
    exact ⟨this _ _ w1.1 w2.1, this _ _ w1.2.1 w2.2.1, this _ _ w1.2.2 w2.2.2⟩
  rcases hp with rfl | rfl | ⟨i, i0, i1, rfl⟩
  · refine ⟨0, le_rfl, zero_le_one, ?_, ww 0 le_rfl zero_le_one⟩
    have : edgeAt E 0 = E.1 := by ext <;> simp [edgeAt, V3.smul]
    rw [this]
    exact ⟨h1.1.mono le, h1.2.1.mono le, h1.2.2.mono le⟩
  · refine ⟨1, zero_le_one, le_rfl, ?_, ww 1 zero_le_one le_rfl⟩
    have : edgeAt E 1 = E.2 := by ext <;> simp [edgeAt, V3.smul]
    rw [this]
    exact ⟨h2.1.mono le, h2.2.1.mono le, h2.2.2.mono le⟩
  · obtain ⟨t, rfl, t0, t1⟩ := le_unit i0 i1
    refine ⟨t, t0, t1, ⟨?_, ?_, ?_⟩, ww t t0 t1⟩
    · exact mid_near hR hM h1.1 h2.1 (Fl.near_fin t) w1.1 w2.1 t0 t1
    · exact mid_near hR hM h1.2.1 h2.2.1 (Fl.near_fin t) w1.2.1 w2.2.1 t0 t1
    · exact mid_near hR hM h1.2.2 h2.2.2 (Fl.near_fin t) w1.2.2 w2.2.2 t0 t1

/-! ## On the page -/

/-- sizes on the page -/
structure PageMid (M k P : ℝ) : Prop where
  mid : Mid M
  scale : |k| ≤ 2 ^ 40
  loc0 : 0 ≤ P
  loc : P ≤ 2 ^ 140

omit hR in
theorem PageMid.small {M k P : ℝ} (h : PageMid M k P) {S : ℝ} (hS : S ≤ 100 * (M * |k| + P + 1)) : S ≤ 2 ^ 1000 := by
  have h1 : M * |k| ≤ 2 ^ 600 * 2 ^ 40 := mul_le_mul h.mid.top h.scale (abs_nonneg _) (by positivity)
  rw [← pow_add] at h1
  have h2 := h.loc
  have h3 : (2 : ℝ) ^ 140 ≤ 2 ^ (600 + 40) := pow_le_pow_right₀ (by norm_num) (by norm_num)
  have h4 : (1 : ℝ) ≤ 2 ^ (600 + 40) := one_le_pow₀ (by norm_num)
  have h5 : (2 : ℝ) ^ (600 + 40) * 2 ^ 10 ≤ 2 ^ 1000 := by rw [← pow_add]; exact pow_le_pow_right₀ (by norm_num) (by norm_num)
  generalize (2 : ℝ) ^ (600 + 40) = z at *
  generalize (2 : ℝ) ^ 1000 = w at *
  norm_num at h5 h2
  linarith

theorem page_near {M k P o : ℝ} (h : PageMid M k P) (ho : |o| ≤ 4 * (M * |k|) + 2 * P + 1) {p : Fl R} {a : ℝ} (hp : Fl.Near p a (M / 2 ^ 36))
    (ha : |a| ≤ 9 * M) : Fl.Near (p * (show Fl R from (Ext.fin k : Ext ℝ)) + (show Fl R from (Ext.fin o : Ext ℝ))) (a * k + o) ((M * |k| + P + 1) / 2 ^ 35) := by
  have h1M := h.mid.one
  have hk := abs_nonneg k
  have hP := h.loc0
  have hMk : 0 ≤ M * |k| := mul_nonneg (by linarith) hk
  have m := hp.mul hR (Fl.near_fin k) ha le_rfl (S := 10 * (M * |k|) + 1) (by norm_num; nlinarith) (by norm_num; linarith) (h.small (by linarith))
  have hak : |a * k| ≤ 9 * (M * |k|) := by rw [abs_mul]; nlinarith
  have t := abs_add_le (a * k) o
  have e : |k| * (M / 2 ^ 36) = M * |k| / 2 ^ 36 := by ring
  refine (m.add hR (Fl.near_fin o) (S := 14 * (M * |k|) + 2 * P + 3) ?_ (by norm_num; linarith) (h.small (by linarith))).mono ?_
  · rw [e]; norm_num; linarith
  · rw [e]; norm_num; linarith

theorem centre_near {M k P : ℝ} (h : PageMid M k P) {lo hi loc : Fl R} {a b p : ℝ} (hl : Fl.Near lo a (M / 2 ^ 38)) (hh : Fl.Near hi b (M / 2 ^ 38))
    (ha : |a| ≤ 3 * M) (hb : |b| ≤ 3 * M) (hp : Fl.Near loc p ((P + 1) / 2 ^ 40)) (hpP : |p| ≤ P) :
    Fl.Near (loc - (lo + hi) / FP.lit 2 * (show Fl R from (Ext.fin k : Ext ℝ))) (p - (a + b) / 2 * k) ((M * |k| + P + 1) / 2 ^ 35) := by
  have h1M := h.mid.one
  have hk := abs_nonneg k
  have hP := h.loc0
  have hMk : 0 ≤ M * |k| := mul_nonneg (by linarith) hk
  have t1 := abs_add_le a b
  have s := hl.add hR hh (S := 7 * M) (by norm_num; linarith) (by norm_num; linarith) (h.mid.small (by norm_num; linarith))
  have two : Fl.Near (FP.lit 2 : Fl R) 2 0 := by
    have := lit_pow R (n := 1) (by norm_num)
    norm_num at this
    rw [this]; exact Fl.near_fin 2
  have hc : |(a + b) / 2| ≤ 3 * M := by rw [abs_div]; norm_num; linarith
  have d := (s.div hR two (S := 4 * M) (by norm_num) (by norm_num; linarith) (by norm_num; linarith)
    (h.mid.small (by norm_num; linarith))).mono (show _ ≤ M / 2 ^ 37 by norm_num; linarith)
  have m := d.mul hR (Fl.near_fin k) hc le_rfl (S := 4 * (M * |k|) + 1) (by norm_num; nlinarith) (by norm_num; linarith) (h.small (by linarith))
  have hck : |(a + b) / 2 * k| ≤ 3 * (M * |k|) := by rw [abs_mul]; nlinarith
  have t := abs_sub p ((a + b) / 2 * k)
  have e : |k| * (M / 2 ^ 37) = M * |k| / 2 ^ 37 := by ring
  refine (hp.sub hR m (S := 4 * (M * |k|) + 2 * P + 3) ?_ (by norm_num; linarith) (h.small (by linarith))).mono ?_
  · rw [e]; norm_num; linarith
  · rw [e]; norm_num; linarith

theorem loc_near {x c : ℝ} (q : ℚ) (hq : (q : ℝ) = c) (h0 : 0 ≤ c) (h1 : c ≤ 396) (hx : |x| ≤ 2 ^ 128) :
    Fl.Near ((show Fl R from (Ext.fin x : Ext ℝ)) * FP.lit 72 + FP.lit q) (72 * x + c) ((|72 * x + c| + 1) / 2 ^ 40) := by
  have b1 : ∀ {S : ℝ}, S ≤ 2 ^ 140 → S ≤ 2 ^ 1000 := fun h => h.trans (pow_le_pow_right₀ (by norm_num) (by norm_num))
  have l72 := Fl.near_lit hR 72 (S := 128) (by norm_num) (by norm_num) (le_top (by norm_num))
  push_cast at l72
  have lq := Fl.near_lit hR q (S := 512) (by rw [hq, abs_of_nonneg h0]; linarith) (by norm_num) (le_top (by norm_num))
  rw [hq] at lq
  have hx0 := abs_nonneg x
  have m := (Fl.near_fin x).mul hR l72 le_rfl (B := 72) (S := 73 * |x| + 1) (by norm_num) (by norm_num; linarith) (by norm_num; linarith)
    (b1 (by norm_num at hx ⊢; linarith))
  have hxx : 72 * |x| ≤ |72 * x + c| + 396 := by
    have := abs_sub (72 * x + c) c
    rw [add_sub_cancel_right, abs_mul] at this
    rw [abs_of_nonneg h0] at this
    norm_num at this
    linarith
  have up : |72 * x + c| ≤ 72 * |x| + 396 := by
    have := abs_add_le (72 * x) c
    rw [abs_mul, abs_of_nonneg h0] at this
    norm_num at this
    linarith
  rw [mul_comm x 72] at m
  have hxc := abs_nonneg (72 * x + c)
  refine (m.add hR lq (S := |72 * x + c| + |x| + 2) (by norm_num; linarith) (by norm_num; linarith) (b1 (by norm_num at hx ⊢; linarith))).mono ?_
  norm_num; linarith

/-- the scale asked for, to the accuracy of a `float` -/
theorem scale_near (a b : Int) (hb : b ≠ 0) (ha : |(a : ℝ)| ≤ 2 ^ 31) (hb2 : |(b : ℝ)| ≤ 2 ^ 31) :
    ∃ k : ℝ, (projScale (a, b) : Fl R) = (Ext.fin k : Ext ℝ) ∧ |k - 72 * ((a : ℝ) / b)| ≤ |72 * ((a : ℝ) / b)| / 2 ^ 22 ∧ |k| ≤ 2 ^ 40 := by
  have hb0 : (b : ℝ) ≠ 0 := by exact_mod_cast hb
  have b1 : 1 ≤ |(b : ℝ)| := by exact_mod_cast Int.one_le_abs hb
  have l72 := Fl.near_lit hR 72 (S := 128) (by norm_num) (by norm_num) (le_top (by norm_num))
  push_cast at l72
  have up : ∀ {S : ℝ}, S ≤ 2 ^ 50 → S ≤ 2 ^ 1000 := fun h => h.trans (pow_le_pow_right₀ (by norm_num) (by norm_num))
  have lb : Fl.Near (FP.lit (b : ℚ) : Fl R) (b : ℝ) (|(b : ℝ)| / 2 ^ 51) := by
    have := Fl.near_lit hR (b : ℚ) (S := |(b : ℝ)|) (by push_cast; exact le_rfl) (by norm_num; linarith) (up (by norm_num at hb2 ⊢; linarith))
    push_cast at this
    exact this
  rcases eq_or_ne a 0 with rfl | ha0
  · refine ⟨0, ?_, by simp, by norm_num⟩
    obtain ⟨c, hc, -⟩ := l72
    obtain ⟨d, hd, hd2⟩ := lb
    have hd0 : d ≠ 0 := by
      rintro rfl
      rw [zero_sub, abs_neg] at hd2
      norm_num at hd2; linarith
    unfold projScale
    rw [show ((((0 : Int), b) : Int × Int).1 : ℚ) = 0 by simp, show ((((0 : Int), b) : Int × Int).2 : ℚ) = (b : ℚ) from rfl, hc, hd, lit_zero]
    show R.fix32 (R.fix (Ext.div (R.fix (Ext.mul (.fin c) (.fin 0))) (.fin d))) = _
    simp only [Ext.mul, mul_zero, fix_zero, Ext.div, if_neg hd0, zero_div]
    show overflow _ (R.rnd32 0) = _
    rw [R.zero32]
    exact overflow_fin (by simp)
  · have a1 : 1 ≤ |(a : ℝ)| := by exact_mod_cast Int.one_le_abs ha0
    have la : Fl.Near (FP.lit (a : ℚ) : Fl R) (a : ℝ) (|(a : ℝ)| / 2 ^ 51) := by
      have := Fl.near_lit hR (a : ℚ) (S := |(a : ℝ)|) (by push_cast; exact le_rfl) (by norm_num; linarith) (up (by norm_num at ha ⊢; linarith))
      push_cast at this
      exact this
    have m := (l72.mul hR la (A := 72) (by norm_num) le_rfl (S := 74 * |(a : ℝ)|) (by norm_num; linarith) (by norm_num; linarith)
      (up (by norm_num at ha ⊢; linarith))).mono (show _ ≤ 300 * |(a : ℝ)| / 2 ^ 51 by norm_num; linarith)
    set q : ℝ := |72 * (a : ℝ) / b| with hq
    have hqb : q * |(b : ℝ)| = 72 * |(a : ℝ)| := by
      rw [hq, abs_div, abs_mul, div_mul_cancel₀ _ (by positivity)]; norm_num
    have q0 : 0 ≤ q := abs_nonneg _
    have ql : 1 / 2 ^ 25 ≤ q := by
      norm_num at hb2 ⊢
      nlinarith
    have qu : q ≤ 2 ^ 38 := by
      norm_num at ha ⊢
      nlinarith
    have hfrac : (300 * |(a : ℝ)| / 2 ^ 51 + q * (|(b : ℝ)| / 2 ^ 51)) / (|(b : ℝ)| - |(b : ℝ)| / 2 ^ 51) ≤ 6 * q / 2 ^ 51 := by
      rw [div_le_iff₀ (by norm_num; linarith)]
      have hz : 0 ≤ q * |(b : ℝ)| := mul_nonneg q0 (abs_nonneg _)
      have e1 : 300 * |(a : ℝ)| / 2 ^ 51 = 300 / 72 / 2 ^ 51 * (q * |(b : ℝ)|) := by rw [hqb]; ring
      have e2 : q * (|(b : ℝ)| / 2 ^ 51) = 1 / 2 ^ 51 * (q * |(b : ℝ)|) := by ring
      have e3 : 6 * q / 2 ^ 51 * (|(b : ℝ)| - |(b : ℝ)| / 2 ^ 51) = 6 / 2 ^ 51 * (1 - 1 / 2 ^ 51) * (q * |(b : ℝ)|) := by ring
      rw [e1, e2, e3, ← add_mul]
      exact mul_le_mul_of_nonneg_right (by norm_num) hz
    have d := (m.div hR lb (S := 2 * q) (by norm_num; linarith) (by rw [← hq]; norm_num at hfrac ⊢; linarith) (by norm_num at ql ⊢; linarith)
      (up (by norm_num at qu ⊢; linarith))).mono (show _ ≤ q / 2 ^ 48 by rw [← hq]; norm_num at hfrac ⊢; linarith)
    obtain ⟨c, hc, hcq⟩ := d
    have hcabs : |c| ≤ q + q / 2 ^ 48 := by
      have := abs_add_le (c - 72 * (a : ℝ) / b) (72 * (a : ℝ) / b)
      rw [sub_add_cancel] at this
      linarith
    have hc40 : |c| ≤ 2 ^ 40 := by norm_num at hcabs qu ⊢; linarith
    refine ⟨R.rnd32 c, ?_, ?_, rnd32_le R (by norm_num) hc40⟩
    · unfold projScale
      show R.fix32 (FP.lit 72 * FP.lit (a : ℚ) / FP.lit (b : ℚ) : Fl R) = _
      rw [hc]
      exact overflow_fin (lt_of_le_of_lt (rnd32_le R (by norm_num) hc40) (pow_lt_pow_right₀ (by norm_num) (by norm_num)))
    · rw [← mul_div_assoc, ← hq]
      have := abs_add_le (R.rnd32 c - c) (c - 72 * (a : ℝ) / b)
      rw [sub_add_sub_cancel] at this
      have := hR.err32 c
      norm_num at *
      linarith

end
end S2P
