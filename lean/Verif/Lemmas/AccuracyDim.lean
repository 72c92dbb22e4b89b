import Verif.Lemmas.AccuracyDraw
import Verif.Props.DimLines

set_option linter.unusedSectionVars false
set_option linter.unusedVariables false
set_option linter.unusedSimpArgs false

/-! # Lengths in rounded arithmetic -/

namespace S2P

section
variable {R : Rounding} (hR : R.Accurate)

theorem rnd_nonneg {x : ℝ} (h : 0 ≤ x) : 0 ≤ R.rnd x := by
  have := R.mono h
  rwa [R.zero] at this

/-- square root of a number known to a relative error `α` and an absolute error `β ^ 2` -/
theorem sqrt_err {z q α β : ℝ} (hq : 0 ≤ q) (hz : 0 ≤ z) (ha : 0 ≤ α) (ha1 : α ≤ 1) (hb : 0 ≤ β) (h : |z - q| ≤ q * α + β ^ 2) :
    |Real.sqrt z - Real.sqrt q| ≤ Real.sqrt q * α + β := by
  have hs := Real.sqrt_nonneg q
  have hqq := Real.mul_self_sqrt hq
  rw [abs_le] at h ⊢
  constructor
  · by_contra hc
    push Not at hc
    have h1 : Real.sqrt z < Real.sqrt q * (1 - α) - β := by linarith
    have h0 := Real.sqrt_nonneg z
    have h2 : z < (Real.sqrt q * (1 - α) - β) ^ 2 := by
      rw [← Real.sq_sqrt hz]
      exact pow_lt_pow_left₀ h1 h0 (by norm_num)
    have h3 : (Real.sqrt q * (1 - α) - β) ^ 2 ≤ q * (1 - α) - β ^ 2 := by
      have e1 : β ≤ Real.sqrt q * (1 - α) := by linarith
      have e2 : (Real.sqrt q * (1 - α)) ^ 2 ≤ q * (1 - α) := by
        rw [mul_pow, Real.sq_sqrt hq]
        have : (1 - α) ^ 2 ≤ 1 - α := by nlinarith
        exact mul_le_mul_of_nonneg_left this hq
      nlinarith
    linarith [h.1]
  · have h1 : z ≤ (Real.sqrt q * (1 + α) + β) ^ 2 := by
      have e2 : q * (1 + α) ≤ (Real.sqrt q * (1 + α)) ^ 2 := by
        rw [mul_pow, Real.sq_sqrt hq]
        have : 1 + α ≤ (1 + α) ^ 2 := by nlinarith
        exact mul_le_mul_of_nonneg_left this hq
      have e3 : 0 ≤ Real.sqrt q * (1 + α) * β := by positivity
      nlinarith [h.2]
    have := Real.sqrt_le_sqrt h1
    rw [Real.sqrt_sq (by positivity)] at this
    linarith

include hR

/-- the sum of the squares as it is rounded -/
theorem sq_near {x y z B : ℝ} (hx : |x| ≤ B) (hy : |y| ≤ B) (hz : |z| ≤ B) (hB1 : 1 / 2 ^ 50 ≤ B) (hB : B ≤ 2 ^ 400) :
    ∃ w : ℝ, V3.sqNorm (⟨(Ext.fin x : Ext ℝ), (Ext.fin y : Ext ℝ), (Ext.fin z : Ext ℝ)⟩ : V3 (Fl R)) = (Ext.fin w : Ext ℝ) ∧ 0 ≤ w ∧ w ≤ 4 * B ^ 2 ∧
      |w - (x ^ 2 + y ^ 2 + z ^ 2)| ≤ (x ^ 2 + y ^ 2 + z ^ 2) * (1 / 2 ^ 50) + (1 / 2 ^ 98) ^ 2 := by
  have hB0 : 0 ≤ B := (by positivity : (0 : ℝ) ≤ 1 / 2 ^ 50).trans hB1
  have big : B ^ 2 * 2 ^ 10 ≤ 2 ^ 1000 := by
    have : B ^ 2 ≤ (2 ^ 400) ^ 2 := pow_le_pow_left₀ hB0 hB 2
    calc B ^ 2 * 2 ^ 10 ≤ (2 ^ 400) ^ 2 * 2 ^ 10 := mul_le_mul_of_nonneg_right this (by positivity)
      _ = 2 ^ 810 := by rw [← pow_mul, ← pow_add]
      _ ≤ 2 ^ 1000 := pow_le_pow_right₀ (by norm_num) (by norm_num)
  have low : 1 / 2 ^ 100 ≤ B ^ 2 := by
    have := pow_le_pow_left₀ (by positivity) hB1 2
    norm_num at this ⊢
    linarith
  have step : ∀ {q : ℝ}, 0 ≤ q → q ≤ 16 * B ^ 2 → R.fix (.fin q) = .fin (R.rnd q) := by
    intro q h0 h1
    obtain ⟨b, hb, -⟩ := fix_bd R (n := 1000) (by norm_num) (x := q) (by rw [abs_of_nonneg h0]; exact (h1.trans (by nlinarith [sq_nonneg B] : 16 * B ^ 2 ≤ B ^ 2 * 2 ^ 10)).trans big)
    obtain ⟨e, -⟩ := overflow_of_fin (a := b) (t := 2 ^ 1024) (y := R.rnd q) hb
    rw [← e]; exact hb
  have sqle : ∀ {a : ℝ}, |a| ≤ B → a * a ≤ B ^ 2 := by
    intro a ha
    have := pow_le_pow_left₀ (abs_nonneg a) ha 2
    rw [sq_abs] at this
    linarith [sq a]
  have er : ∀ {q : ℝ}, 0 ≤ q → |R.rnd q - q| ≤ q / 2 ^ 52 + 1 / 2 ^ 200 := by
    intro q h0
    have := hR.err q
    rwa [abs_of_nonneg h0] at this
  have hx2 := mul_self_nonneg x
  have hy2 := mul_self_nonneg y
  have hz2 := mul_self_nonneg z
  have e1 := er hx2
  have e2 := er hy2
  have e3 := er hz2
  have n1 := rnd_nonneg (R := R) hx2
  have n2 := rnd_nonneg (R := R) hy2
  have n3 := rnd_nonneg (R := R) hz2
  have s1 := sqle hx
  have s2 := sqle hy
  have s3 := sqle hz
  have e4 := er (add_nonneg n1 n2)
  have n4 := rnd_nonneg (R := R) (add_nonneg n1 n2)
  have e5 := er (add_nonneg n4 n3)
  have n5 := rnd_nonneg (R := R) (add_nonneg n4 n3)
  rw [abs_le] at e1 e2 e3 e4 e5
  norm_num at e1 e2 e3 e4 e5 low
  have hw : V3.sqNorm (⟨(Ext.fin x : Ext ℝ), (Ext.fin y : Ext ℝ), (Ext.fin z : Ext ℝ)⟩ : V3 (Fl R)) =
      (Ext.fin (R.rnd (R.rnd (R.rnd (x * x) + R.rnd (y * y)) + R.rnd (z * z))) : Ext ℝ) := by
    show R.fix (Ext.add (R.fix (Ext.add (R.fix (.fin (x * x))) (R.fix (.fin (y * y))))) (R.fix (.fin (z * z)))) = _
    rw [step hx2 (by linarith), step hy2 (by linarith), step hz2 (by linarith)]
    show R.fix (Ext.add (R.fix (.fin (R.rnd (x * x) + R.rnd (y * y)))) (.fin (R.rnd (z * z)))) = _
    rw [step (add_nonneg n1 n2) (by linarith)]
    show R.fix (.fin (R.rnd (R.rnd (x * x) + R.rnd (y * y)) + R.rnd (z * z))) = _
    rw [step (add_nonneg n4 n3) (by linarith)]
  refine ⟨_, hw, n5, by linarith, ?_⟩
  rw [show x ^ 2 + y ^ 2 + z ^ 2 = x * x + y * y + z * z by ring, abs_le]
  norm_num
  constructor <;> linarith

/-- the length as it is rounded -/
theorem norm_near {v : V3 (Fl R)} {a : V3 ℝ} {ε B : ℝ} (h : V3.NearTo v a ε) (ha : a.Within B) (hε : ε ≤ B / 2 ^ 10) (hB1 : 1 / 2 ^ 45 ≤ B) (hB : B ≤ 2 ^ 300) :
    Fl.Near v.norm (len3 a) (2 * ε + B / 2 ^ 47) := by
  obtain ⟨⟨x, hx, ex⟩, ⟨y, hy, ey⟩, ⟨z, hz, ez⟩⟩ := h
  have hv : v = ⟨(Ext.fin x : Ext ℝ), (Ext.fin y : Ext ℝ), (Ext.fin z : Ext ℝ)⟩ := V3.ext hx hy hz
  have hε0 := (abs_nonneg _).trans ex
  have hB0 : 0 < B := lt_of_lt_of_le (by positivity) hB1
  have bd : ∀ {x a : ℝ}, |x - a| ≤ ε → |a| ≤ B → |x| ≤ 2 * B := by
    intro x a h1 h2
    have := abs_add_le (x - a) a
    rw [sub_add_cancel] at this
    norm_num at hε
    linarith
  obtain ⟨w, w1, w2, w3, w4⟩ := sq_near hR (bd ex ha.1) (bd ey ha.2.1) (bd ez ha.2.2) (by norm_num at hB1 ⊢; linarith) (by
    calc 2 * B ≤ 2 * 2 ^ 300 := mul_le_mul_of_nonneg_left hB (by norm_num)
      _ = 2 ^ 301 := (pow_succ' 2 300).symm
      _ ≤ 2 ^ 400 := pow_le_pow_right₀ (by norm_num) (by norm_num))
  have hn : v.norm = R.fix (.fin (Real.sqrt w)) := by
    unfold V3.norm
    rw [hv, w1]
    show R.fix (FP.sqrt (α := Ext ℝ) (.fin w)) = _
    rw [Ext.fin_sqrt _ w2]; rfl
  set q := x ^ 2 + y ^ 2 + z ^ 2 with hq
  have hq0 : 0 ≤ q := by positivity
  have s1 := sqrt_err hq0 w2 (by positivity) (by norm_num) (by positivity) w4
  -- distance of the lengths
  have s2 : |Real.sqrt q - len3 a| ≤ 2 * ε := by
    have e1 : Real.sqrt q = len3 ⟨x, y, z⟩ := rfl
    have tri : ∀ p q : V3 ℝ, len3 p ≤ len3 q + len3 (p - q) := by
      intro p q
      have h1 := len3_mul_self q
      have h2 := len3_mul_self (p - q)
      have n1 : 0 ≤ len3 q := Real.sqrt_nonneg _
      have n2 : 0 ≤ len3 (p - q) := Real.sqrt_nonneg _
      rw [len3_sq p]
      apply Real.sqrt_le_iff.2 ⟨by linarith, ?_⟩
      have cs : q.dot (p - q) ≤ len3 q * len3 (p - q) := by
        apply le_trans (le_abs_self _)
        rw [← Real.sqrt_sq_eq_abs]
        apply Real.sqrt_le_iff.2 ⟨by positivity, ?_⟩
        rw [mul_pow, sq (len3 q), sq (len3 (p - q)), h1, h2]
        simp only [V3.sqNorm, V3.dot]
        generalize (p - q).x = d1
        generalize (p - q).y = d2
        generalize (p - q).z = d3
        nlinarith [sq_nonneg (q.x * d2 - q.y * d1), sq_nonneg (q.x * d3 - q.z * d1), sq_nonneg (q.y * d3 - q.z * d2)]
      have e : p.sqNorm = q.sqNorm + 2 * q.dot (p - q) + (p - q).sqNorm := by
        simp only [V3.sqNorm, V3.dot, V3.sub_x, V3.sub_y, V3.sub_z]; ring
      rw [e, ← h1, ← h2]
      nlinarith
    have d : len3 ((⟨x, y, z⟩ : V3 ℝ) - a) ≤ 2 * ε := by
      unfold len3
      apply Real.sqrt_le_iff.2 ⟨by linarith, ?_⟩
      have sq1 : ∀ {d : ℝ}, |d| ≤ ε → d ^ 2 ≤ ε ^ 2 := by
        intro d hd
        rw [← sq_abs d]; exact pow_le_pow_left₀ (abs_nonneg _) hd 2
      simp only [V3.sub_x, V3.sub_y, V3.sub_z]
      nlinarith [sq1 ex, sq1 ey, sq1 ez]
    have d' : len3 (a - (⟨x, y, z⟩ : V3 ℝ)) ≤ 2 * ε := by
      have : len3 (a - (⟨x, y, z⟩ : V3 ℝ)) = len3 ((⟨x, y, z⟩ : V3 ℝ) - a) := by
        unfold len3; congr 1; simp only [V3.sub_x, V3.sub_y, V3.sub_z]; ring
      rw [this]; exact d
    rw [e1, abs_le]
    constructor <;> linarith [tri ⟨x, y, z⟩ a, tri a ⟨x, y, z⟩]
  have lenB : len3 a ≤ 2 * B := by
    unfold len3
    apply Real.sqrt_le_iff.2 ⟨by linarith, ?_⟩
    have sq1 : ∀ {d : ℝ}, |d| ≤ B → d ^ 2 ≤ B ^ 2 := by
      intro d hd
      rw [← sq_abs d]; exact pow_le_pow_left₀ (abs_nonneg _) hd 2
    nlinarith [sq1 ha.1, sq1 ha.2.1, sq1 ha.2.2]
  have len0 : 0 ≤ len3 a := Real.sqrt_nonneg _
  rw [abs_le] at s1 s2
  norm_num at s1 hε hB1
  rw [hn]
  refine (fix_near hR (x := Real.sqrt w) (a := len3 a) (ε := 2 * ε + B / 2 ^ 48) (S := 3 * B) ?_ ?_ ?_ ?_).mono ?_
  · rw [abs_le]
    norm_num
    constructor <;> linarith
  · rw [abs_of_nonneg len0]
    norm_num
    linarith
  · norm_num; linarith
  · calc 3 * B ≤ 2 ^ 2 * B := by norm_num; linarith
      _ ≤ 2 ^ 2 * 2 ^ 300 := mul_le_mul_of_nonneg_left hB (by norm_num)
      _ = 2 ^ 302 := (pow_add 2 2 300).symm
      _ ≤ 2 ^ 1000 := pow_le_pow_right₀ (by norm_num) (by norm_num)
  · norm_num; linarith


omit hR in
/-- accuracy of the view: between that of a named view and that of angles -/
structure Fine (η : ℝ) : Prop where
  lo : 1 / 2 ^ 50 ≤ η
  hi : η ≤ 1 / 2 ^ 40

omit hR in
/-- sizes of vectors -/
structure Wide (M : ℝ) : Prop where
  lo : 1 / 2 ^ 40 ≤ M
  hi : M ≤ 2 ^ 200

omit hR in
theorem Wide.top {M : ℝ} (h : Wide M) {S : ℝ} (hS : S ≤ M * 2 ^ 50) : S ≤ 2 ^ 1000 := by
  have : M * 2 ^ 50 ≤ 2 ^ 200 * 2 ^ 50 := mul_le_mul_of_nonneg_right h.hi (by positivity)
  rw [← pow_add] at this
  exact hS.trans (this.trans (pow_le_pow_right₀ (by norm_num) (by norm_num)))

omit hR in
theorem Wide.bot {M : ℝ} (h : Wide M) {S : ℝ} (hS : M ≤ S) : 1 / 2 ^ 100 ≤ S := by
  have := h.lo
  norm_num at this ⊢
  linarith

theorem lin_near' {M η : ℝ} (hM : Wide M) (hη : Fine η) {x0 x1 x2 m0 m1 m2 : Fl R} {a0 a1 a2 r0 r1 r2 : ℝ} (h0 : Fl.Near x0 a0 0) (h1 : Fl.Near x1 a1 0)
    (h2 : Fl.Near x2 a2 0) (b0 : |a0| ≤ M) (b1 : |a1| ≤ M) (b2 : |a2| ≤ M) (k0 : Fl.Near m0 r0 η) (k1 : Fl.Near m1 r1 η)
    (k2 : Fl.Near m2 r2 η) (c0 : |r0| ≤ 1) (c1 : |r1| ≤ 1) (c2 : |r2| ≤ 1) :
    Fl.Near (x0 * m0 + x1 * m1 + x2 * m2) (a0 * r0 + a1 * r1 + a2 * r2) (8 * (M * η)) := by
  have hη1 := hη.lo
  have hη2 := hη.hi
  have hM0 : 0 < M := lt_of_lt_of_le (by positivity) hM.lo
  have g1 : M * (1 / 2 ^ 50) ≤ M * η := mul_le_mul_of_nonneg_left hη1 hM0.le
  have g2 : M * η ≤ M * (1 / 2 ^ 40) := mul_le_mul_of_nonneg_left hη2 hM0.le
  norm_num at g1 g2
  have pr : ∀ {x m : Fl R} {a r : ℝ}, Fl.Near x a 0 → |a| ≤ M → Fl.Near m r η → |r| ≤ 1 →
      Fl.Near (x * m) (a * r) (8 / 5 * (M * η)) := by
    intro x m a r hx ha hm hr
    refine (hx.mul hR hm ha hr (S := 11 / 10 * M) ?_ (hM.bot (by linarith)) (hM.top (by linarith))).mono ?_
    · nlinarith
    · norm_num; linarith
  have ab : ∀ {a r : ℝ}, |a| ≤ M → |r| ≤ 1 → |a * r| ≤ M := by
    intro a r h1 h2; rw [abs_mul]; nlinarith [abs_nonneg a, abs_nonneg r]
  have s0 := ab b0 c0
  have s1 := ab b1 c1
  have s2 := ab b2 c2
  have t1 := abs_add_le (a0 * r0) (a1 * r1)
  have t2 := abs_add_le (a0 * r0 + a1 * r1) (a2 * r2)
  have f1 := (pr h0 b0 k0 c0).add hR (pr h1 b1 k1 c1) (S := 21 / 10 * M) (by linarith) (hM.bot (by linarith)) (hM.top (by linarith))
  refine (f1.add hR (pr h2 b2 k2 c2) (S := 31 / 10 * M) ?_ (hM.bot (by linarith)) (hM.top (by linarith))).mono ?_
  · norm_num; linarith
  · norm_num; linarith

theorem mulM_near' {M η : ℝ} (hM : Wide M) (hη : Fine η) {v : V3 (Fl R)} {a : V3 ℝ} {m : M3 (Fl R)} {r : M3 ℝ} (hv : V3.NearTo v a 0) (ha : a.Within M)
    (hm : M3.NearTo m r η) (hr : IsRotation r) : V3.NearTo (v.mulM m) (a.mulM r) (8 * (M * η)) := by
  obtain ⟨⟨a1, a2, a3⟩, ⟨b1, b2, b3⟩, ⟨c1, c2, c3⟩⟩ := rotation_le hr
  obtain ⟨⟨k1, k2, k3⟩, ⟨k4, k5, k6⟩, ⟨k7, k8, k9⟩⟩ := hm
  obtain ⟨v1, v2, v3⟩ := hv
  obtain ⟨w1, w2, w3⟩ := ha
  exact ⟨lin_near' hR hM hη v1 v2 v3 w1 w2 w3 k1 k4 k7 a1 b1 c1, lin_near' hR hM hη v1 v2 v3 w1 w2 w3 k2 k5 k8 a2 b2 c2,
    lin_near' hR hM hη v1 v2 v3 w1 w2 w3 k3 k6 k9 a3 b3 c3⟩

omit hR in
theorem within_len {a : V3 ℝ} {L : ℝ} (h : len3 a ≤ L) : a.Within L := by
  have hs := len3_mul_self a
  have h0 : 0 ≤ len3 a := Real.sqrt_nonneg _
  have key : ∀ {x : ℝ}, x * x ≤ a.sqNorm → |x| ≤ L := by
    intro x hx
    refine le_trans ?_ h
    rw [← hs] at hx
    exact abs_le_of_sq_le_sq (by nlinarith) h0
  simp only [V3.sqNorm, V3.dot] at key
  exact ⟨key (by nlinarith [mul_self_nonneg a.y, mul_self_nonneg a.z]), key (by nlinarith [mul_self_nonneg a.x, mul_self_nonneg a.z]),
    key (by nlinarith [mul_self_nonneg a.y, mul_self_nonneg a.x])⟩

omit hR in
theorem len_within {a : V3 ℝ} {M : ℝ} (hM : 0 ≤ M) (h : a.Within M) : len3 a ≤ 7 / 4 * M := by
  unfold len3
  apply Real.sqrt_le_iff.2 ⟨by linarith, ?_⟩
  have sq1 : ∀ {d : ℝ}, |d| ≤ M → d ^ 2 ≤ M ^ 2 := by
    intro d hd
    rw [← sq_abs d]; exact pow_le_pow_left₀ (abs_nonneg _) hd 2
  nlinarith [sq1 h.1, sq1 h.2.1, sq1 h.2.2]

/-- the unit vector along `dir` -/
theorem unit_near2 {U δ : ℝ} (hU : Wide U) (hη1 : 1 / 2 ^ 50 ≤ δ) (hη2 : δ ≤ 1 / 2 ^ 16) {v : V3 (Fl R)} {w : V3 ℝ} (hv : V3.NearTo v w (U * δ))
    (h1 : U ≤ len3 w) (h2 : len3 w ≤ 7 / 4 * U) :
    v.eqv V3.zero = false ∧ V3.NearTo v.normalized (w.sdiv (len3 w)) (25 / 8 * δ + 18 / 2 ^ 50) := by
  have hU0 : 0 < U := lt_of_lt_of_le (by positivity) hU.lo
  have hL0 : 0 < len3 w := by linarith
  have g1 : U * (1 / 2 ^ 50) ≤ U * δ := mul_le_mul_of_nonneg_left hη1 hU0.le
  have g2 : U * δ ≤ U * (1 / 2 ^ 16) := mul_le_mul_of_nonneg_left hη2 hU0.le
  have hlo := hU.lo
  norm_num at g1 g2 hη1 hη2 hlo
  have hw : w.Within (2 * U) := within_len (by linarith)
  have hn := norm_near hR hv hw (by norm_num; linarith) (by norm_num; linarith) (by
    calc 2 * U ≤ 2 * 2 ^ 200 := mul_le_mul_of_nonneg_left hU.hi (by norm_num)
      _ = 2 ^ 201 := (pow_succ' 2 200).symm
      _ ≤ 2 ^ 300 := pow_le_pow_right₀ (by norm_num) (by norm_num))
  have hn' : Fl.Near v.norm (len3 w) (2 * (U * δ) + 16 / 2 ^ 50 * U) := hn.mono (by norm_num; linarith)
  have hpos : FP.lt (FP.lit 0) v.sqNorm = true := by
    obtain ⟨b, hb, hb2⟩ := hn'
    by_contra hc
    rw [Bool.not_eq_true] at hc
    obtain ⟨⟨x, hx, ex⟩, ⟨y, hy, ey⟩, ⟨z, hz, ez⟩⟩ := hv
    have hv' : v = ⟨(Ext.fin x : Ext ℝ), (Ext.fin y : Ext ℝ), (Ext.fin z : Ext ℝ)⟩ := V3.ext hx hy hz
    have bd : ∀ {x a : ℝ}, |x - a| ≤ U * δ → |a| ≤ 2 * U → |x| ≤ 3 * U := by
      intro x a h1 h2
      have := abs_add_le (x - a) a
      rw [sub_add_cancel] at this
      linarith
    obtain ⟨q, q1, q2, -⟩ := sq_near hR (bd ex hw.1) (bd ey hw.2.1) (bd ez hw.2.2) (by norm_num; linarith) (by
      calc 3 * U ≤ 2 ^ 2 * U := by norm_num; linarith
        _ ≤ 2 ^ 2 * 2 ^ 200 := mul_le_mul_of_nonneg_left hU.hi (by norm_num)
        _ = 2 ^ 202 := (pow_add 2 2 200).symm
        _ ≤ 2 ^ 400 := pow_le_pow_right₀ (by norm_num) (by norm_num))
    rw [← hv'] at q1
    rw [q1, lit_zero] at hc
    have hc' : ¬ (0 < q) := by
      simpa [FP.lt, Ext.lt] using hc
    have q0 : q = 0 := le_antisymm (not_lt.1 hc') q2
    have : v.norm = (Ext.fin 0 : Ext ℝ) := by
      unfold V3.norm
      rw [q1, q0]
      show R.fix (FP.sqrt (α := Ext ℝ) (.fin 0)) = _
      rw [Ext.fin_sqrt _ le_rfl]
      show overflow _ (R.rnd (Real.sqrt 0)) = _
      rw [Real.sqrt_zero, R.zero]
      unfold overflow
      rw [if_neg (by simp), if_neg (by simp)]
    rw [this] at hb
    injection hb with hb
    subst hb
    rw [zero_sub, abs_neg, abs_of_pos hL0] at hb2
    linarith
  refine ⟨?_, ?_⟩
  · by_contra hc
    rw [Bool.not_eq_false] at hc
    obtain ⟨⟨x, hx, ex⟩, ⟨y, hy, ey⟩, ⟨z, hz, ez⟩⟩ := hv
    unfold V3.eqv V3.zero at hc
    rw [hx, hy, hz, lit_zero, Bool.and_eq_true, Bool.and_eq_true] at hc
    have z0 : ∀ {x : ℝ}, FP.eq (α := Fl R) (Ext.fin x : Ext ℝ) (Ext.fin 0 : Ext ℝ) = true → x = 0 := by
      intro x h
      simpa [FP.eq, Ext.eq] using h
    have x0 := z0 hc.1.1
    have y0 := z0 hc.1.2
    have z0 := z0 hc.2
    subst x0 y0 z0
    have := len_within (a := w) (M := U * δ) (by nlinarith) ⟨by simpa using ex, by simpa using ey, by simpa using ez⟩
    linarith
  · unfold V3.normalized
    rw [if_pos hpos]
    have wl := within_len (le_refl (len3 w))
    have hd : ∀ {x : Fl R} {a : ℝ}, Fl.Near x a (U * δ) → |a| ≤ len3 w → Fl.Near (x / v.norm) (a / len3 w) (25 / 8 * δ + 18 / 2 ^ 50) := by
      intro x a hx ha
      have q1 : |a / len3 w| ≤ 1 := by
        rw [abs_div, abs_of_pos hL0]; exact (div_le_one hL0).2 ha
      have q2 : (U * δ + |a / len3 w| * (2 * (U * δ) + 16 / 2 ^ 50 * U)) / (|len3 w| - (2 * (U * δ) + 16 / 2 ^ 50 * U)) ≤ 25 / 8 * δ + 17 / 2 ^ 50 := by
        rw [abs_of_pos hL0]
        have hden : U * (1 - 1 / 2 ^ 14) ≤ len3 w - (2 * (U * δ) + 16 / 2 ^ 50 * U) := by norm_num; linarith
        have hden0 : 0 < U * (1 - 1 / 2 ^ 14) := by norm_num; linarith
        rw [div_le_iff₀ (by linarith)]
        have : |a / len3 w| * (2 * (U * δ) + 16 / 2 ^ 50 * U) ≤ 1 * (2 * (U * δ) + 16 / 2 ^ 50 * U) := mul_le_mul_of_nonneg_right q1 (by nlinarith)
        have h3 : (25 / 8 * δ + 17 / 2 ^ 50) * (U * (1 - 1 / 2 ^ 14)) ≤ (25 / 8 * δ + 17 / 2 ^ 50) * (len3 w - (2 * (U * δ) + 16 / 2 ^ 50 * U)) := mul_le_mul_of_nonneg_left hden
          (show (0 : ℝ) ≤ 25 / 8 * δ + 17 / 2 ^ 50 by norm_num; linarith)
        norm_num at h3
        nlinarith
      refine (hx.div hR hn' ?_ (S := 2) ?_ (by norm_num) ?_).mono ?_
      · rw [abs_of_pos hL0]; linarith
      · linarith
      · calc (2 : ℝ) = 2 ^ 1 := by norm_num
          _ ≤ 2 ^ 1000 := pow_le_pow_right₀ (by norm_num) (by norm_num)
      · norm_num; linarith
    exact ⟨hd hv.1 wl.1, hd hv.2.1 wl.2.1, hd hv.2.2 wl.2.2⟩

theorem unit_near {U η : ℝ} (hU : Wide U) (hη : Fine η) {v : V3 (Fl R)} {w : V3 ℝ} (hv : V3.NearTo v w (8 * (U * η))) (h1 : U ≤ len3 w)
    (h2 : len3 w ≤ 7 / 4 * U) : v.eqv V3.zero = false ∧ V3.NearTo v.normalized (w.sdiv (len3 w)) (43 * η) := by
  have hη1 := hη.lo
  have hη2 := hη.hi
  obtain ⟨k1, k2⟩ := unit_near2 hR (δ := 8 * η) hU (by norm_num at hη1 ⊢; linarith) (by norm_num at hη2 ⊢; linarith)
    (by rw [show U * (8 * η) = 8 * (U * η) by ring]; exact hv) h1 h2
  refine ⟨k1, ?_⟩
  have : 25 / 8 * (8 * η) + 18 / 2 ^ 50 ≤ 43 * η := by norm_num at hη1 ⊢; linarith
  exact ⟨k2.1.mono this, k2.2.1.mono this, k2.2.2.mono this⟩

omit hR in
theorem len3_tri (p q : V3 ℝ) : len3 (p - q) ≤ len3 p + len3 q := by
  have h1 := len3_mul_self q
  have h2 := len3_mul_self p
  have n1 : 0 ≤ len3 q := Real.sqrt_nonneg _
  have n2 : 0 ≤ len3 p := Real.sqrt_nonneg _
  rw [len3_sq (p - q)]
  apply Real.sqrt_le_iff.2 ⟨by linarith, ?_⟩
  have cs : -(p.dot q) ≤ len3 p * len3 q := by
    apply le_trans (neg_le_abs _)
    rw [← Real.sqrt_sq_eq_abs]
    apply Real.sqrt_le_iff.2 ⟨by positivity, ?_⟩
    rw [mul_pow, sq (len3 q), sq (len3 p), h1, h2]
    simp only [V3.sqNorm, V3.dot]
    nlinarith [sq_nonneg (q.x * p.y - q.y * p.x), sq_nonneg (q.x * p.z - q.z * p.x), sq_nonneg (q.y * p.z - q.z * p.y)]
  have e : (p - q).sqNorm = p.sqNorm - 2 * p.dot q + q.sqNorm := by
    simp only [V3.sqNorm, V3.dot, V3.sub_x, V3.sub_y, V3.sub_z]; ring
  rw [e, ← h1, ← h2]
  nlinarith

omit hR in
theorem dot_le_len (n p : V3 ℝ) (h : len3 n = 1) : |n.dot p| ≤ len3 p := by
  have h1 := len3_mul_self p
  have h2 := len3_mul_self n
  rw [h] at h2
  rw [← Real.sqrt_sq_eq_abs]
  have h0 : 0 ≤ len3 p := Real.sqrt_nonneg _
  refine Real.sqrt_le_iff.2 ⟨h0, ?_⟩
  rw [sq (len3 p), h1]
  have : (n.dot p) ^ 2 ≤ n.sqNorm * p.sqNorm := by
    simp only [V3.sqNorm, V3.dot]
    nlinarith [sq_nonneg (n.x * p.y - n.y * p.x), sq_nonneg (n.x * p.z - n.z * p.x), sq_nonneg (n.y * p.z - n.z * p.y)]
  rw [← h2] at this
  linarith

/-- the number at a dimension, from the turned points and the unit vector -/
theorem value_near {M η : ℝ} (hM : Wide M) (hη : Fine η) {n a f t : V3 (Fl R)} {N A F T : V3 ℝ} (hn : V3.NearTo n N (43 * η)) (hN : len3 N = 1)
    (ha : V3.NearTo a A (8 * (M * η))) (hf : V3.NearTo f F (8 * (M * η))) (ht : V3.NearTo t T (8 * (M * η)))
    (lA : len3 A ≤ 7 / 4 * M) (lF : len3 F ≤ 7 / 4 * M) (lT : len3 T ≤ 7 / 4 * M) :
    Fl.Near ((a + n.smul (n.dot (t - a))) - (a + n.smul (n.dot (f - a)))).norm |N.dot (T - F)| (2 ^ 12 * (M * η)) := by
  have hη1 := hη.lo
  have hη2 := hη.hi
  have hM0 : 0 < M := lt_of_lt_of_le (by positivity) hM.lo
  have g1 : M * (1 / 2 ^ 50) ≤ M * η := mul_le_mul_of_nonneg_left hη1 hM0.le
  have g2 : M * η ≤ M * (1 / 2 ^ 40) := mul_le_mul_of_nonneg_left hη2 hM0.le
  have hη0 : 0 < η := lt_of_lt_of_le (by positivity) hη1
  have g3 : M * η * η ≤ M * η * (1 / 2 ^ 40) := mul_le_mul_of_nonneg_left hη2 (by positivity)
  have hlo := hM.lo
  norm_num at g1 g2 g3 hη1 hη2 hlo
  have wN : N.Within 1 := within_len hN.le
  have wA : A.Within (7 / 4 * M) := within_len lA
  -- a difference
  have diff : ∀ {p : V3 (Fl R)} {P : V3 ℝ}, V3.NearTo p P (8 * (M * η)) → len3 P ≤ 7 / 4 * M →
      V3.NearTo (p - a) (P - A) (19 * (M * η)) ∧ len3 (P - A) ≤ 7 / 2 * M := by
    intro p P hp lP
    have wP : P.Within (7 / 4 * M) := within_len lP
    have one : ∀ {x y : Fl R} {b c : ℝ}, Fl.Near x b (8 * (M * η)) → Fl.Near y c (8 * (M * η)) → |b| ≤ 7 / 4 * M → |c| ≤ 7 / 4 * M →
        Fl.Near (x - y) (b - c) (19 * (M * η)) := by
      intro x y b c h1 h2 h3 h4
      have := abs_sub b c
      refine (h1.sub hR h2 (S := 4 * M) (by linarith) (hM.bot (by linarith)) (hM.top (by linarith))).mono (by norm_num; linarith)
    refine ⟨⟨one hp.1 ha.1 wP.1 wA.1, one hp.2.1 ha.2.1 wP.2.1 wA.2.1, one hp.2.2 ha.2.2 wP.2.2 wA.2.2⟩, ?_⟩
    linarith [len3_tri P A]
  -- its component along `n`
  have comp : ∀ {p : V3 (Fl R)} {P : V3 ℝ}, V3.NearTo p P (8 * (M * η)) → len3 P ≤ 7 / 4 * M →
      Fl.Near (n.dot (p - a)) (N.dot (P - A)) (600 * (M * η)) ∧ |N.dot (P - A)| ≤ 7 / 2 * M := by
    intro p P hp lP
    obtain ⟨d, ld⟩ := diff hp lP
    have wd : (P - A).Within (7 / 2 * M) := within_len ld
    have pr : ∀ {x y : Fl R} {b c : ℝ}, Fl.Near x b (43 * η) → |b| ≤ 1 → Fl.Near y c (19 * (M * η)) → |c| ≤ 7 / 2 * M →
        Fl.Near (x * y) (b * c) (190 * (M * η)) ∧ |b * c| ≤ 7 / 2 * M := by
      intro x y b c h1 h2 h3 h4
      refine ⟨(h1.mul hR h3 h2 h4 (S := 4 * M) ?_ (hM.bot (by linarith)) (hM.top (by linarith))).mono ?_, ?_⟩
      · nlinarith
      · norm_num; nlinarith
      · rw [abs_mul]; nlinarith [abs_nonneg b, abs_nonneg c]
    obtain ⟨p1, q1⟩ := pr hn.1 wN.1 d.1 wd.1
    obtain ⟨p2, q2⟩ := pr hn.2.1 wN.2.1 d.2.1 wd.2.1
    obtain ⟨p3, q3⟩ := pr hn.2.2 wN.2.2 d.2.2 wd.2.2
    have t1 := abs_add_le (N.x * (P - A).x) (N.y * (P - A).y)
    have t2 := abs_add_le (N.x * (P - A).x + N.y * (P - A).y) (N.z * (P - A).z)
    have s1 := (p1.add hR p2 (S := 8 * M) (by linarith) (hM.bot (by linarith)) (hM.top (by linarith))).mono
      (show _ ≤ 385 * (M * η) by norm_num; linarith)
    refine ⟨(s1.add hR p3 (S := 12 * M) ?_ (hM.bot (by linarith)) (hM.top (by linarith))).mono ?_, (dot_le_len N _ hN).trans ld⟩
    · linarith
    · norm_num; linarith
  -- the point on the dimension line
  have arr : ∀ {p : V3 (Fl R)} {P : V3 ℝ}, V3.NearTo p P (8 * (M * η)) → len3 P ≤ 7 / 4 * M →
      V3.NearTo (a + n.smul (n.dot (p - a))) (A + N.smul (N.dot (P - A))) (790 * (M * η)) := by
    intro p P hp lP
    obtain ⟨d, ld⟩ := comp hp lP
    have one : ∀ {x y : Fl R} {b c : ℝ}, Fl.Near x b (43 * η) → |b| ≤ 1 → Fl.Near y c (8 * (M * η)) → |c| ≤ 7 / 4 * M →
        Fl.Near (y + x * n.dot (p - a)) (c + b * N.dot (P - A)) (790 * (M * η)) := by
      intro x y b c h1 h2 h3 h4
      have pm := h1.mul hR d h2 ld (S := 4 * M) (by nlinarith) (hM.bot (by linarith)) (hM.top (by linarith))
      have pm' : Fl.Near (x * n.dot (p - a)) (b * N.dot (P - A)) (775 * (M * η)) := pm.mono (by norm_num; nlinarith)
      have hb : |b * N.dot (P - A)| ≤ 7 / 2 * M := by rw [abs_mul]; nlinarith [abs_nonneg b, abs_nonneg (N.dot (P - A))]
      have t := abs_add_le c (b * N.dot (P - A))
      exact (h3.add hR pm' (S := 6 * M) (by linarith) (hM.bot (by linarith)) (hM.top (by linarith))).mono (by norm_num; linarith)
    exact ⟨one hn.1 wN.1 ha.1 wA.1, one hn.2.1 wN.2.1 ha.2.1 wA.2.1, one hn.2.2 wN.2.2 ha.2.2 wA.2.2⟩
  have r1 := arr ht lT
  have r2 := arr hf lF
  have lTF : len3 (T - F) ≤ 7 / 2 * M := by linarith [len3_tri T F]
  have hdot := (dot_le_len N (T - F) hN).trans lTF
  have e : (A + N.smul (N.dot (T - A))) - (A + N.smul (N.dot (F - A))) = N.smul (N.dot (T - F)) := by
    ext <;> simp [V3.smul, V3.dot] <;> ring
  have hl : len3 (N.smul (N.dot (T - F))) = |N.dot (T - F)| := by rw [len3_scaled, hN, mul_one]
  have wl : (N.smul (N.dot (T - F))).Within (4 * M) := within_len (by rw [hl]; linarith)
  have dif : V3.NearTo ((a + n.smul (n.dot (t - a))) - (a + n.smul (n.dot (f - a)))) (N.smul (N.dot (T - F))) (1590 * (M * η)) := by
    have one : ∀ {x y : Fl R} {b c : ℝ}, Fl.Near x b (790 * (M * η)) → Fl.Near y c (790 * (M * η)) → |b - c| ≤ 4 * M →
        Fl.Near (x - y) (b - c) (1590 * (M * η)) := by
      intro x y b c h1 h2 h3
      exact (h1.sub hR h2 (S := 5 * M) (by linarith) (hM.bot (by linarith)) (hM.top (by linarith))).mono (by norm_num; linarith)
    rw [← e] at wl ⊢
    exact ⟨one r1.1 r2.1 wl.1, one r1.2.1 r2.2.1 wl.2.1, one r1.2.2 r2.2.2 wl.2.2⟩
  rw [← hl]
  refine (norm_near hR dif wl (by norm_num; linarith) (by norm_num; linarith) ?_).mono (by norm_num; linarith)
  calc 4 * M ≤ 2 ^ 2 * 2 ^ 200 := by
        rw [show (4 : ℝ) = 2 ^ 2 by norm_num]
        exact mul_le_mul_of_nonneg_left hM.hi (by norm_num)
    _ = 2 ^ 202 := (pow_add 2 2 200).symm
    _ ≤ 2 ^ 300 := pow_le_pow_right₀ (by norm_num) (by norm_num)

end
end S2P
