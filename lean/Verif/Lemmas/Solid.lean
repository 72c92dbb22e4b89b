import Verif.Spec.Solid
import Verif.Lemmas.ClearDraw
import Verif.Lemmas.AccuracyDim
import Verif.Props.Labels

set_option linter.unusedSectionVars false
set_option linter.unusedVariables false
set_option linter.unusedSimpArgs false

/-! # Facets as read, in rounded arithmetic -/

namespace S2P

section
variable {R : Rounding}

/-- the numbers as read -/
def ReadAs (p : V3 (Fl R)) (q : V3 ℚ) : Prop := FP.ofDec64 q.x = some p.x ∧ FP.ofDec64 q.y = some p.y ∧ FP.ofDec64 q.z = some p.z

theorem read_near (hR : R.Accurate) {q : ℚ} {x : Fl R} {S : ℝ} (hS : |(q : ℝ)| ≤ S) (h1 : 1 / 2 ^ 100 ≤ S) (h2 : S ≤ 2 ^ 1000) (h : FP.ofDec64 q = some x) :
    Fl.Near x (q : ℝ) (S / 2 ^ 51) := by
  have := fix_near hR (x := (q : ℝ)) (a := q) (ε := 0) (by simp) (by simpa using hS) h1 h2
  rw [zero_add] at this
  obtain ⟨b, hb, hb2⟩ := this
  change (match R.fix (.fin q) with | .fin x => if R.range64 q then some (.fin x) else none | _ => none) = some x at h
  have hb' : R.fix (.fin (q : ℝ)) = .fin b := hb
  rw [hb'] at h
  simp only at h
  split_ifs at h
  cases h
  exact ⟨b, rfl, hb2⟩

theorem reads_near (hR : R.Accurate) {M : ℝ} (h1 : 1 ≤ M) (h2 : M ≤ 2 ^ 1000) {p : V3 (Fl R)} {q : V3 ℚ} (hq : q.real.Within M) (h : ReadAs p q) :
    V3.NearTo p q.real (M / 2 ^ 51) :=
  ⟨read_near hR hq.1 (by norm_num; linarith) h2 h.1, read_near hR hq.2.1 (by norm_num; linarith) h2 h.2.1, read_near hR hq.2.2 (by norm_num; linarith) h2 h.2.2⟩

theorem near_mono3 {p : V3 (Fl R)} {a : V3 ℝ} {ε δ : ℝ} (h : V3.NearTo p a ε) (hd : ε ≤ δ) : V3.NearTo p a δ := ⟨h.1.mono hd, h.2.1.mono hd, h.2.2.mono hd⟩

/-- what the program stores for the triangle `t` -/
structure Stored (M : ℝ) (f : Facet (Fl R)) (t : Tri ℝ) : Prop where
  corners : ∀ z ∈ pairs f t, (∃ q, ReadAs z.1 q ∧ q.real = z.2) ∧ z.2.Within M
  normal : V3.NearTo f.norm t.n (1 / 2 ^ 22)
  unit : t.n.Within 1
  dist : Fl.Near f.r t.r (M / 2 ^ 19)

variable (hR : R.Accurate)
include hR

/-- the cross product of two sides -/
theorem cross3_near {M : ℝ} (hM : Small M) {a0 b0 c0 : V3 (Fl R)} {a b c : V3 ℝ} (ha : V3.NearTo a0 a (M / 2 ^ 51)) (hb : V3.NearTo b0 b (M / 2 ^ 51))
    (hc : V3.NearTo c0 c (M / 2 ^ 51)) (wa : a.Within M) (wb : b.Within M) (wc : c.Within M) :
    V3.NearTo ((b0 - a0).cross (c0 - a0)) ((b - a).cross (c - a)) (M ^ 2 / 2 ^ 44) := by
  have h1M := hM.one
  have hM2 := hM.top
  have hQ : 1 ≤ M ^ 2 := by nlinarith
  have hsq := hM.sq
  have dif : ∀ {x y : Fl R} {u v : ℝ}, Fl.Near x u (M / 2 ^ 51) → Fl.Near y v (M / 2 ^ 51) → |u| ≤ M → |v| ≤ M →
      Fl.Near (x - y) (u - v) (M / 2 ^ 48) ∧ |u - v| ≤ 2 * M := by
    intro x y u v hx hy hu hv
    have t := abs_sub u v
    refine ⟨(hx.sub hR hy (S := 3 * M) ?_ ?_ (top_of ?_)).mono ?_, by linarith⟩ <;> norm_num at * <;> linarith
  have det : ∀ {x y z w : Fl R} {u v s t : ℝ}, Fl.Near x u (M / 2 ^ 48) → Fl.Near y v (M / 2 ^ 48) → Fl.Near z s (M / 2 ^ 48) → Fl.Near w t (M / 2 ^ 48) →
      |u| ≤ 2 * M → |v| ≤ 2 * M → |s| ≤ 2 * M → |t| ≤ 2 * M → Fl.Near (x * y - z * w) (u * v - s * t) (M ^ 2 / 2 ^ 44) := by
    intro x y z w u v s t hx hy hz hw hu hv hs ht
    have pr : ∀ {x y : Fl R} {u v : ℝ}, Fl.Near x u (M / 2 ^ 48) → Fl.Near y v (M / 2 ^ 48) → |u| ≤ 2 * M → |v| ≤ 2 * M →
        Fl.Near (x * y) (u * v) (5 * (M ^ 2 / 2 ^ 48)) ∧ |u * v| ≤ 4 * M ^ 2 := by
      intro x y u v hx hy hu hv
      constructor
      · refine (hx.mul hR hy hu hv (S := 5 * M ^ 2) ?_ ?_ (top_of ?_)).mono ?_
        · have e : (2 * M + M / 2 ^ 48) * (2 * M + M / 2 ^ 48) = M ^ 2 * ((2 + 1 / 2 ^ 48) * (2 + 1 / 2 ^ 48)) := by ring
          rw [e]; generalize M ^ 2 = Q at *; norm_num at *; linarith
        · generalize M ^ 2 = Q at *; norm_num at *; linarith
        · have : M ^ 2 ≤ (2 ^ 40) ^ 2 := pow_le_pow_left₀ (by linarith) hM2 2
          generalize M ^ 2 = Q at *; norm_num at *; linarith
        · have e : 2 * M * (M / 2 ^ 48) + 2 * M * (M / 2 ^ 48) + M / 2 ^ 48 * (M / 2 ^ 48) = M ^ 2 * (4 / 2 ^ 48 + 1 / 2 ^ 96) := by ring
          rw [e]; generalize M ^ 2 = Q at *; norm_num at *; linarith
      · rw [abs_mul]
        have := mul_le_mul hu hv (abs_nonneg _) (by linarith)
        linarith
    obtain ⟨p1, q1⟩ := pr hx hy hu hv
    obtain ⟨p2, q2⟩ := pr hz hw hs ht
    have tt := abs_sub (u * v) (s * t)
    have : M ^ 2 ≤ (2 ^ 40) ^ 2 := pow_le_pow_left₀ (by linarith) hM2 2
    generalize u * v = A at *
    generalize s * t = B at *
    generalize M ^ 2 = Q at *
    refine (p1.sub hR p2 (S := 9 * Q) ?_ ?_ (top_of ?_)).mono ?_ <;> norm_num at * <;> linarith
  obtain ⟨x1, x2⟩ := dif hb.1 ha.1 wb.1 wa.1
  obtain ⟨y1, y2⟩ := dif hb.2.1 ha.2.1 wb.2.1 wa.2.1
  obtain ⟨z1, z2⟩ := dif hb.2.2 ha.2.2 wb.2.2 wa.2.2
  obtain ⟨x3, x4⟩ := dif hc.1 ha.1 wc.1 wa.1
  obtain ⟨y3, y4⟩ := dif hc.2.1 ha.2.1 wc.2.1 wa.2.1
  obtain ⟨z3, z4⟩ := dif hc.2.2 ha.2.2 wc.2.2 wa.2.2
  exact ⟨det y1 z3 z1 y3 y2 z4 z2 y4, det z1 x3 x1 z3 z2 x4 x2 z4, det x1 y3 y1 x3 x2 y4 y2 x4⟩

/-- the normal before it is turned to fit -/
theorem normal_near {M : ℝ} (hM : Small M) {a0 b0 c0 : V3 (Fl R)} {a b c : V3 ℝ} (ha : V3.NearTo a0 a (M / 2 ^ 51)) (hb : V3.NearTo b0 b (M / 2 ^ 51))
    (hc : V3.NearTo c0 c (M / 2 ^ 51)) (wa : a.Within M) (wb : b.Within M) (wc : c.Within M) (har : M ^ 2 / 2 ^ 20 ≤ len3 ((b - a).cross (c - a))) :
    V3.NearTo ((b0 - a0).cross (c0 - a0)).normalized (unitNormal a b c) (51 / 2 ^ 28) ∧ len3 (unitNormal a b c) = 1 := by
  have h1M := hM.one
  have hQ : 1 ≤ M ^ 2 := by nlinarith
  have h := cross3_near hR hM ha hb hc wa wb wc
  have hlen : len3 ((b - a).cross (c - a)) ≤ 7 / 4 * (8 * M ^ 2) := by
    apply len_within (by linarith)
    have ab : ∀ {x y z w : ℝ}, |x| ≤ 2 * M → |y| ≤ 2 * M → |z| ≤ 2 * M → |w| ≤ 2 * M → |x * y - z * w| ≤ 8 * M ^ 2 := by
      intro x y z w h1 h2 h3 h4
      have := abs_sub (x * y) (z * w)
      rw [abs_mul, abs_mul] at this
      have m1 := mul_le_mul h1 h2 (abs_nonneg _) (by linarith)
      have m2 := mul_le_mul h3 h4 (abs_nonneg _) (by linarith)
      linarith
    have d : ∀ {x y : ℝ}, |x| ≤ M → |y| ≤ M → |x - y| ≤ 2 * M := fun {x y} h1 h2 => (abs_sub x y).trans (by linarith)
    exact ⟨ab (d wb.2.1 wa.2.1) (d wc.2.2 wa.2.2) (d wb.2.2 wa.2.2) (d wc.2.1 wa.2.1), ab (d wb.2.2 wa.2.2) (d wc.1 wa.1) (d wb.1 wa.1) (d wc.2.2 wa.2.2),
      ab (d wb.1 wa.1) (d wc.2.1 wa.2.1) (d wb.2.1 wa.2.1) (d wc.1 wa.1)⟩
  have h80 : M ^ 2 ≤ (2 ^ 40) ^ 2 := pow_le_pow_left₀ (by linarith) hM.top 2
  unfold unitNormal
  generalize (b - a).cross (c - a) = w at *
  generalize (b0 - a0).cross (c0 - a0) = v at *
  generalize M ^ 2 = Q at *
  have hU : Wide (len3 w) := by
    constructor
    · norm_num at *; linarith
    · have : (14 : ℝ) * (2 ^ 40) ^ 2 ≤ 2 ^ 200 := by norm_num
      linarith
  have hv : V3.NearTo v w (len3 w * (1 / 2 ^ 24)) := by
    have : Q / 2 ^ 44 ≤ len3 w * (1 / 2 ^ 24) := by norm_num at *; linarith
    exact ⟨h.1.mono this, h.2.1.mono this, h.2.2.mono this⟩
  have hpos : 0 < len3 w := lt_of_lt_of_le (by positivity) har
  obtain ⟨-, k⟩ := unit_near2 hR hU (by norm_num) (by norm_num) hv le_rfl (by linarith)
  have e : 25 / 8 * (1 / 2 ^ 24) + 18 / 2 ^ 50 ≤ (51 : ℝ) / 2 ^ 28 := by norm_num
  exact ⟨⟨k.1.mono e, k.2.1.mono e, k.2.2.mono e⟩, unit_len (by rintro rfl; simp [len3, V3.sqNorm, V3.dot] at hpos)⟩

theorem dot_gen {A B ε δ S : ℝ} (hε : 0 ≤ ε) (hδ : 0 ≤ δ) (hS : (A + ε) * (B + δ) ≤ S) (h1 : 1 / 2 ^ 100 ≤ S) (h2 : S ≤ 2 ^ 90)
    (hE : A * δ + B * ε + ε * δ ≤ S) {v p : V3 (Fl R)} {w q : V3 ℝ} (hv : V3.NearTo v w ε) (hp : V3.NearTo p q δ) (ww : w.Within A) (wq : q.Within B) :
    Fl.Near (v.dot p) (w.dot q) (3 * (A * δ + B * ε + ε * δ) + 20 * (S / 2 ^ 51)) := by
  have hA := (abs_nonneg _).trans ww.1
  have hB := (abs_nonneg _).trans wq.1
  have hAB : A * B ≤ S := le_trans (by nlinarith [mul_nonneg hA hδ, mul_nonneg hB hε, mul_nonneg hε hδ]) hS
  have top : S ≤ 2 ^ 1000 := h2.trans (pow_le_pow_right₀ (by norm_num) (by norm_num))
  have bd : ∀ {a b : ℝ}, |a| ≤ A → |b| ≤ B → |a * b| ≤ S := by
    intro a b ha hb
    rw [abs_mul]
    exact (mul_le_mul ha hb (abs_nonneg _) hA).trans hAB
  have p1 := hv.1.mul hR hp.1 ww.1 wq.1 hS h1 top
  have p2 := hv.2.1.mul hR hp.2.1 ww.2.1 wq.2.1 hS h1 top
  have p3 := hv.2.2.mul hR hp.2.2 ww.2.2 wq.2.2 hS h1 top
  have b1 := bd ww.1 wq.1
  have b2 := bd ww.2.1 wq.2.1
  have b3 := bd ww.2.2 wq.2.2
  show Fl.Near (v.x * p.x + v.y * p.y + v.z * p.z) (w.x * q.x + w.y * q.y + w.z * q.z) _
  generalize w.x * q.x = a at *
  generalize w.y * q.y = b at *
  generalize w.z * q.z = c at *
  generalize A * δ + B * ε + ε * δ = E at *
  have t1 := abs_add_le a b
  have t2 := abs_add_three a b c
  have e1 := p1.add hR p2 (S := 5 * S) (by norm_num at *; linarith) (by norm_num at *; linarith) (top_of (by norm_num at *; linarith))
  refine (e1.add hR p3 (S := 8 * S) (by norm_num at *; linarith) (by norm_num at *; linarith) (top_of (by norm_num at *; linarith))).mono ?_
  norm_num at *
  linarith

omit hR in
theorem lt_zero_near {x : Fl R} {a η : ℝ} (h : Fl.Near x a η) : (a + η < 0 → FP.lt x (FP.lit 0) = true) ∧ (0 ≤ a - η → FP.lt x (FP.lit 0) = false) := by
  obtain ⟨b, rfl, hb⟩ := h
  have e : (FP.lit 0 : Fl R) = (Ext.fin 0 : Ext ℝ) := by
    show R.fix (.fin ((0 : ℚ) : ℝ)) = _
    rw [Rat.cast_zero, fix_zero]
  rw [abs_le] at hb
  rw [e]
  show (_ → Ext.lt (.fin b) (.fin 0) = true) ∧ (_ → Ext.lt (.fin b) (.fin 0) = false)
  simp only [Ext.lt]
  constructor
  · intro h; simp; linarith
  · intro h; simp; linarith

/-- the distance of the plane -/
theorem plane_near {M : ℝ} (hM : Small M) {N a b c : V3 ℝ} {m a0 b0 c0 : V3 (Fl R)} (hN : N.Within 1) (hm : V3.NearTo m N (52 / 2 ^ 28))
    (ha : V3.NearTo a0 a (M / 2 ^ 51)) (hb : V3.NearTo b0 b (M / 2 ^ 51)) (hc : V3.NearTo c0 c (M / 2 ^ 51)) (wa : a.Within M) (wb : b.Within M) (wc : c.Within M)
    {ρ : ℝ} (ea : N.dot a = ρ) (eb : N.dot b = ρ) (ec : N.dot c = ρ) :
    Fl.Near ((m.dot a0 + m.dot b0 + m.dot c0) / FP.lit 3) ρ (M / 2 ^ 19) := by
  have h1M := hM.one
  have hM2 := hM.top
  have one : ∀ {p0 : V3 (Fl R)} {p : V3 ℝ}, V3.NearTo p0 p (M / 2 ^ 51) → p.Within M → Fl.Near (m.dot p0) (N.dot p) (M / 2 ^ 20) := by
    intro p0 p h w
    have e1 : (1 + 52 / 2 ^ 28) * (M + M / 2 ^ 51) = M * ((1 + 52 / 2 ^ 28) * (1 + 1 / 2 ^ 51)) := by ring
    have e2 : 1 * (M / 2 ^ 51) + M * (52 / 2 ^ 28) + 52 / 2 ^ 28 * (M / 2 ^ 51) = M * (1 / 2 ^ 51 + 52 / 2 ^ 28 + 52 / 2 ^ 28 * (1 / 2 ^ 51)) := by ring
    refine (dot_gen hR (A := 1) (B := M) (S := 2 * M) (by norm_num) (by positivity) ?_ ?_ ?_ ?_ hm h hN w).mono ?_
    · rw [e1]; norm_num; linarith
    · norm_num; linarith
    · norm_num at *; linarith
    · rw [e2]; norm_num; linarith
    · rw [e2]; norm_num; linarith
  have na := one ha wa
  have nb := one hb wb
  have nc := one hc wc
  have hρ : |ρ| ≤ 3 * M := by
    rw [← ea]
    refine (abs_add_three _ _ _).trans ?_
    rw [abs_mul, abs_mul, abs_mul]
    have := mul_le_mul hN.1 wa.1 (abs_nonneg _) (by norm_num)
    have := mul_le_mul hN.2.1 wa.2.1 (abs_nonneg _) (by norm_num)
    have := mul_le_mul hN.2.2 wa.2.2 (abs_nonneg _) (by norm_num)
    linarith
  rw [ea] at na; rw [eb] at nb; rw [ec] at nc
  have t1 := abs_add_le ρ ρ
  have t2 := abs_add_three ρ ρ ρ
  have s1 := na.add hR nb (S := 7 * M) (by norm_num at *; linarith) (by norm_num at *; linarith) (top_of (by norm_num at *; linarith))
  have s2 := s1.add hR nc (S := 10 * M) (by norm_num at *; linarith) (by norm_num at *; linarith) (top_of (by norm_num at *; linarith))
  have s2' : Fl.Near (m.dot a0 + m.dot b0 + m.dot c0) (ρ + ρ + ρ) (3 * (M / 2 ^ 20) + M / 2 ^ 46) := s2.mono (by norm_num at *; linarith)
  have l3 : Fl.Near (FP.lit 3 : Fl R) (3 : ℝ) (4 / 2 ^ 51) := by
    have := Fl.near_lit hR 3 (S := 4) (by norm_num) (by norm_num) (top_of (by norm_num))
    simpa using this
  have q : (ρ + ρ + ρ) / 3 = ρ := by ring
  have a3 : |(3 : ℝ)| = 3 := by norm_num
  have d := s2'.div hR l3 (S := 4 * M) (by rw [a3]; norm_num) (by
    rw [q, a3, ← le_sub_iff_add_le', div_le_iff₀ (by norm_num)]
    norm_num at *
    linarith) (by norm_num at *; linarith) (top_of (by norm_num at *; linarith))
  rw [q, a3] at d
  refine d.mono ?_
  rw [← le_sub_iff_add_le, div_le_iff₀ (by norm_num)]
  norm_num at *
  linarith

/-- **accuracy of a facet as read** -/
theorem facet_near {M : ℝ} (hM : Small M) {n0 a0 b0 c0 : V3 (Fl R)} {rest : List (V3 (Fl R))} {n a b c : V3 ℚ} (hn : ReadAs n0 n) (ha : ReadAs a0 a)
    (hb : ReadAs b0 b) (hc : ReadAs c0 c) (h : Stout M n.real a.real b.real c.real) :
    ∃ f, mkFacet n0 (a0 :: b0 :: c0 :: rest) = .ok f ∧ Stored M f (triOf n.real a.real b.real c.real) := by
  have h1M := hM.one
  have hM2 := hM.top
  have hM3 : M ≤ 2 ^ 1000 := hM2.trans (pow_le_pow_right₀ (by norm_num) (by norm_num))
  have na := reads_near hR h1M hM3 h.first ha
  have nb := reads_near hR h1M hM3 h.second hb
  have nc := reads_near hR h1M hM3 h.third hc
  have nn := reads_near hR (M := 2) (by norm_num) (top_of (by norm_num)) h.normal hn
  obtain ⟨nN, uN⟩ := normal_near hR hM na nb nc h.first h.second h.third h.area
  have wN : (unitNormal a.real b.real c.real).Within 1 := within_len uN.le
  have hd := dot_gen hR (A := 2) (B := 1) (S := 4) (by norm_num) (by norm_num) (by norm_num) (by norm_num) (by norm_num) (by norm_num) nn nN h.normal wN
  have hd' := hd.mono (δ := 1 / 2 ^ 17) (by norm_num)
  have eb : (unitNormal a.real b.real c.real).dot b.real = (unitNormal a.real b.real c.real).dot a.real := by
    simp only [unitNormal, V3.sdiv, V3.dot, V3.cross, V3.sub_x, V3.sub_y, V3.sub_z]
    ring
  have ec : (unitNormal a.real b.real c.real).dot c.real = (unitNormal a.real b.real c.real).dot a.real := by
    simp only [unitNormal, V3.sdiv, V3.dot, V3.cross, V3.sub_x, V3.sub_y, V3.sub_z]
    ring
  have hs := h.sense
  unfold mkFacet triOf
  simp only
  rcases lt_or_ge (n.real.dot (unitNormal a.real b.real c.real)) 0 with k | k
  · rw [abs_of_neg k] at hs
    rw [(lt_zero_near hd').1 (by norm_num at *; linarith), if_pos k]
    have nN' : V3.NearTo (((b0 - a0).cross (c0 - a0)).normalized.smul (FP.lit (-1))) (-unitNormal a.real b.real c.real) (52 / 2 ^ 28) := by
      have l1 : Fl.Near (FP.lit (-1) : Fl R) (-1 : ℝ) (1 / 2 ^ 51) := by
        have := Fl.near_lit hR (-1) (S := 1) (by norm_num) (by norm_num) (top_of (by norm_num))
        simpa using this
      have go : ∀ {x : Fl R} {y : ℝ}, Fl.Near x y (51 / 2 ^ 28) → |y| ≤ 1 → Fl.Near (x * FP.lit (-1)) (-y) (52 / 2 ^ 28) := by
        intro x y hx hy
        have := (hx.mul hR l1 hy (B := 1) (by norm_num) (S := 2) (by norm_num) (by norm_num) (top_of (by norm_num))).mono (δ := 52 / 2 ^ 28) (by norm_num)
        rwa [mul_neg, mul_one] at this
      exact ⟨go nN.1 wN.1, go nN.2.1 wN.2.1, go nN.2.2 wN.2.2⟩
    have wN' : (-unitNormal a.real b.real c.real).Within 1 := by
      refine ⟨?_, ?_, ?_⟩
      · show |-_| ≤ _; rw [abs_neg]; exact wN.1
      · show |-_| ≤ _; rw [abs_neg]; exact wN.2.1
      · show |-_| ≤ _; rw [abs_neg]; exact wN.2.2
    have ng : ∀ p : V3 ℝ, (-unitNormal a.real b.real c.real).dot p = -(unitNormal a.real b.real c.real).dot p := by
      intro p
      show -_ * _ + -_ * _ + -_ * _ = -(_ * _ + _ * _ + _ * _)
      ring
    refine ⟨_, rfl, ?_, near_mono3 nN' (by norm_num), wN', plane_near hR hM wN' nN' nc nb na h.third h.second h.first (by rw [ng, ec]) (by rw [ng, eb]) (ng _)⟩
    intro z hz
    simp only [pairs, List.mem_cons, List.not_mem_nil, or_false] at hz
    rcases hz with rfl | rfl | rfl
    · exact ⟨⟨c, hc, rfl⟩, h.third⟩
    · exact ⟨⟨b, hb, rfl⟩, h.second⟩
    · exact ⟨⟨a, ha, rfl⟩, h.first⟩
  · rw [abs_of_nonneg k] at hs
    rw [(lt_zero_near hd').2 (by norm_num at *; linarith), if_neg (not_lt.2 k)]
    refine ⟨_, rfl, ?_, ?_, wN, plane_near hR hM wN (near_mono3 nN (by norm_num)) na nb nc h.first h.second h.third rfl eb ec⟩
    · intro z hz
      simp only [pairs, List.mem_cons, List.not_mem_nil, or_false] at hz
      rcases hz with rfl | rfl | rfl
      · exact ⟨⟨a, ha, rfl⟩, h.first⟩
      · exact ⟨⟨b, hb, rfl⟩, h.second⟩
      · exact ⟨⟨c, hc, rfl⟩, h.third⟩
    · exact near_mono3 nN (by norm_num)

omit hR in
theorem readAs_oneToOne : OneToOne (R := R) (fun p a => ∃ q, ReadAs p q ∧ q.real = a) := by
  rintro p q a ⟨u, hu, rfl⟩ ⟨v, hv, e⟩
  have e' : u = v := by
    ext1
    · exact (Rat.cast_injective (congrArg V3.x e)).symm
    · exact (Rat.cast_injective (congrArg V3.y e)).symm
    · exact (Rat.cast_injective (congrArg V3.z e)).symm
  subst e'
  ext1
  · exact Option.some.inj (hu.1.symm.trans hv.1)
  · exact Option.some.inj (hu.2.1.symm.trans hv.2.1)
  · exact Option.some.inj (hu.2.2.symm.trans hv.2.2)

omit hR in
/-- turning does not make a small difference much larger -/
theorem turn_diff {p q : V3 ℝ} {r : M3 ℝ} (hr : IsRotation r) {η : ℝ} (h : (p - q).Within η) : (p.mulM r - q.mulM r).Within (3 * η) := by
  obtain ⟨⟨a1, a2, a3⟩, ⟨b1, b2, b3⟩, ⟨c1, c2, c3⟩⟩ := rotation_le hr
  obtain ⟨h1, h2, h3⟩ := h
  have go : ∀ {u v w p1 p2 p3 q1 q2 q3 : ℝ}, |u| ≤ 1 → |v| ≤ 1 → |w| ≤ 1 → |p1 - q1| ≤ η → |p2 - q2| ≤ η → |p3 - q3| ≤ η →
      |p1 * u + p2 * v + p3 * w - (q1 * u + q2 * v + q3 * w)| ≤ 3 * η := by
    intro u v w p1 p2 p3 q1 q2 q3 hu hv hw g1 g2 g3
    rw [show p1 * u + p2 * v + p3 * w - (q1 * u + q2 * v + q3 * w) = (p1 - q1) * u + (p2 - q2) * v + (p3 - q3) * w by ring]
    refine (abs_add_three _ _ _).trans ?_
    rw [abs_mul, abs_mul, abs_mul]
    have h0 := (abs_nonneg _).trans g1
    have := mul_le_mul g1 hu (abs_nonneg _) h0
    have := mul_le_mul g2 hv (abs_nonneg _) h0
    have := mul_le_mul g3 hw (abs_nonneg _) h0
    linarith
  exact ⟨go a1 b1 c1 h1 h2 h3, go a2 b2 c2 h1 h2 h3, go a3 b3 c3 h1 h2 h3⟩

/-- a facet as read, turned -/
theorem turned_stored {n : ℕ} (hn : n ≤ 40) {rot : M3 (Fl R)} {r : M3 ℝ} (hr : IsRotation r) (hm : M3.NearTo rot r (1 / 2 ^ 40)) {f : Facet (Fl R)} {t : Tri ℝ}
    (hb : ∀ p ∈ f.corners, FP.Bd n p.x ∧ FP.Bd n p.y ∧ FP.Bd n p.z) (h : Stored (2 ^ n) f t) :
    Turned (fun p a => ∃ q, ReadAs p q ∧ q.real = a) (1 / 2 ^ 20) (2 ^ n) rot r f t := by
  have hMid : Mid ((2 : ℝ) ^ n) := ⟨one_le_pow₀ (by norm_num), pow_le_pow_right₀ (by norm_num) (by omega)⟩
  have hMid2 : Mid (2 : ℝ) := ⟨by norm_num, by
    have : (2 : ℝ) ^ 1 ≤ 2 ^ 600 := pow_le_pow_right₀ (by norm_num) (by norm_num)
    simpa using this⟩
  have h1 := hMid.one
  have top : (2 : ℝ) ^ n ≤ 2 ^ 1000 := pow_le_pow_right₀ (by norm_num) (by omega)
  have rot3 : ∀ {M : ℝ} {a : V3 ℝ}, a.Within M → (a.mulM r).Within (3 * M) := by
    intro M a ha
    have := turn_diff (p := a) (q := ⟨0, 0, 0⟩) hr (η := M) (by simpa [V3.Within] using ha)
    simpa [V3.mulM, V3.Within] using this
  have key : ∀ z ∈ pairs f t, Exact (z.1.mulM rot) (z.1.mulM rot).val (2 ^ n) ∧ Shifted (2 ^ n) (z.2.mulM r) (z.1.mulM rot).val := by
    intro z hz
    have hz' : z.1 ∈ f.corners := by
      simp only [pairs, List.mem_cons, List.not_mem_nil, or_false] at hz
      rcases hz with rfl | rfl | rfl <;> simp [Facet.corners]
    obtain ⟨⟨q, hq, e⟩, w⟩ := h.corners z hz
    have nq := reads_near hR h1 top (by rw [e]; exact w) hq
    rw [e] at nq
    obtain ⟨-, d⟩ := near_val3 nq
    obtain ⟨k1, k2⟩ := bd_val (by omega) (hb z.1 hz')
    have k3 := mulM_fine hR hMid k1 k2 hm hr
    obtain ⟨k5, k6⟩ := near_val3 k3
    have k7 := turn_diff hr d
    have sh : Shifted (2 ^ n) (z.2.mulM r) (z.1.mulM rot).val := by
      refine ⟨?_, rot3 w⟩
      have go : ∀ {x y s : ℝ}, |x - y| ≤ 25 * 2 ^ n / 2 ^ 43 → |y - s| ≤ 3 * (2 ^ n / 2 ^ 51) → |x - s| ≤ 2 ^ n / 2 ^ 38 := by
        intro x y s g1 g2
        have := abs_sub_le x y s
        generalize (2 : ℝ) ^ n = M at *
        norm_num at *
        linarith
      exact ⟨go k6.1 k7.1, go k6.2.1 k7.2.1, go k6.2.2 k7.2.2⟩
    exact ⟨⟨k5, shift_size sh⟩, sh⟩
  refine ⟨fun z hz => (h.corners z hz).1, fun z hz => (key z hz).1, fun z hz => (key z hz).2, ⟨?_, ?_⟩, h.dist.mono ?_⟩
  · obtain ⟨d1, d2⟩ := near_val3 h.normal
    have wv : f.norm.val.Within 2 := by
      have go : ∀ {x y : ℝ}, |x - y| ≤ 1 / 2 ^ 22 → |y| ≤ 1 → |x| ≤ 2 := by
        intro x y g1 g2
        have := abs_add_le (x - y) y
        rw [sub_add_cancel] at this
        norm_num at *
        linarith
      exact ⟨go d2.1 h.unit.1, go d2.2.1 h.unit.2.1, go d2.2.2 h.unit.2.2⟩
    obtain ⟨k3, -⟩ := mulM_near hR hMid2 d1 wv hm hr
    have k7 := turn_diff hr d2
    have go : ∀ {x : Fl R} {y s : ℝ}, Fl.Near x y (2 / 2 ^ 38) → |y - s| ≤ 3 * (1 / 2 ^ 22) → Fl.Near x s (1 / 2 ^ 20) := by
      rintro x y s ⟨b, rfl, g1⟩ g2
      refine ⟨b, rfl, ?_⟩
      have := abs_sub_le b y s
      norm_num at *
      linarith
    exact ⟨go k3.1 k7.1, go k3.2.1 k7.2.1, go k3.2.2 k7.2.2⟩
  · have := rot3 h.unit
    exact ⟨this.1.trans (by norm_num), this.2.1.trans (by norm_num), this.2.2.trans (by norm_num)⟩
  · generalize (2 : ℝ) ^ n = M at *
    norm_num at *
    linarith

end
end S2P
