import Verif.Lemmas.ClearFace

set_option linter.unusedSectionVars false
set_option linter.unusedVariables false
set_option linter.unusedSimpArgs false

/-! # Points moved by next to nothing -/

namespace S2P

/-- `a'` is `a`, moved by at most `M / 2^38` in each coordinate; `a` is not large -/
def Shifted (M : ℝ) (a a' : V3 ℝ) : Prop := (a' - a).Within (M / 2 ^ 38) ∧ a.Within (3 * M)

theorem bil {M x y x' y' : ℝ} (hM : 1 ≤ M) (hx : |x| ≤ 6 * M) (hy : |y| ≤ 6 * M) (hx' : |x' - x| ≤ M / 2 ^ 37) (hy' : |y' - y| ≤ M / 2 ^ 37) :
    |x' * y' - x * y| ≤ M ^ 2 / 2 ^ 33 := by
  rw [show x' * y' - x * y = x * (y' - y) + y * (x' - x) + (x' - x) * (y' - y) by ring]
  refine (abs_add_three _ _ _).trans ?_
  rw [abs_mul, abs_mul, abs_mul]
  have a1 := mul_le_mul hx hy' (abs_nonneg _) (by linarith)
  have a2 := mul_le_mul hy hx' (abs_nonneg _) (by linarith)
  have a3 := mul_le_mul hx' hy' (abs_nonneg _) (by positivity)
  have e1 : 6 * M * (M / 2 ^ 37) = 6 * M ^ 2 / 2 ^ 37 := by ring
  have e2 : M / 2 ^ 37 * (M / 2 ^ 37) = M ^ 2 / 2 ^ 74 := by ring
  rw [e1] at a1 a2
  rw [e2] at a3
  have : 0 ≤ M ^ 2 := by positivity
  generalize M ^ 2 = Q at *
  norm_num at *
  linarith

theorem diff_shift {M x y x' y' : ℝ} (hx : |x' - x| ≤ M / 2 ^ 38) (hy : |y' - y| ≤ M / 2 ^ 38) : |(y' - x') - (y - x)| ≤ M / 2 ^ 37 := by
  rw [show (y' - x') - (y - x) = (y' - y) - (x' - x) by ring]
  refine (abs_sub _ _).trans ?_
  norm_num at *
  linarith

theorem diff_size {M x y : ℝ} (hx : |x| ≤ 3 * M) (hy : |y| ≤ 3 * M) : |y - x| ≤ 6 * M := (abs_sub y x).trans (by linarith)

theorem cross_shift {M x y z w x' y' z' w' : ℝ} (hM : 1 ≤ M) (hx : |x| ≤ 6 * M) (hy : |y| ≤ 6 * M) (hz : |z| ≤ 6 * M) (hw : |w| ≤ 6 * M)
    (hx' : |x' - x| ≤ M / 2 ^ 37) (hy' : |y' - y| ≤ M / 2 ^ 37) (hz' : |z' - z| ≤ M / 2 ^ 37) (hw' : |w' - w| ≤ M / 2 ^ 37) :
    |(x' * y' - z' * w') - (x * y - z * w)| ≤ M ^ 2 / 2 ^ 32 := by
  have h1 := bil hM hx hy hx' hy'
  have h2 := bil hM hz hw hz' hw'
  rw [show (x' * y' - z' * w') - (x * y - z * w) = (x' * y' - x * y) - (z' * w' - z * w) by ring]
  refine (abs_sub _ _).trans ?_
  norm_num at *
  linarith

theorem leftOf_shift {M : ℝ} (hM : 1 ≤ M) {a b p a' b' p' : V3 ℝ} (ha : Shifted M a a') (hb : Shifted M b b') (hp : Shifted M p p') :
    |leftOf a' b' p' - leftOf a b p| ≤ M ^ 2 / 2 ^ 32 := by
  unfold leftOf
  obtain ⟨⟨a1, a2, -⟩, ⟨a3, a4, -⟩⟩ := ha
  obtain ⟨⟨b1, b2, -⟩, ⟨b3, b4, -⟩⟩ := hb
  obtain ⟨⟨p1, p2, -⟩, ⟨p3, p4, -⟩⟩ := hp
  exact cross_shift hM (diff_size a3 b3) (diff_size a4 p4) (diff_size a4 b4) (diff_size a3 p3) (diff_shift a1 b1) (diff_shift a2 p2) (diff_shift a2 b2)
    (diff_shift a1 p1)

theorem slant_shift {M : ℝ} (hM : 1 ≤ M) {a b c d a' b' c' d' : V3 ℝ} (ha : Shifted M a a') (hb : Shifted M b b') (hc : Shifted M c c') (hd : Shifted M d d') :
    |slant a' b' c' d' - slant a b c d| ≤ M ^ 2 / 2 ^ 32 := by
  unfold slant
  obtain ⟨⟨a1, a2, -⟩, ⟨a3, a4, -⟩⟩ := ha
  obtain ⟨⟨b1, b2, -⟩, ⟨b3, b4, -⟩⟩ := hb
  obtain ⟨⟨c1, c2, -⟩, ⟨c3, c4, -⟩⟩ := hc
  obtain ⟨⟨d1, d2, -⟩, ⟨d3, d4, -⟩⟩ := hd
  exact cross_shift hM (diff_size a3 b3) (diff_size c4 d4) (diff_size a4 b4) (diff_size c3 d3) (diff_shift a1 b1) (diff_shift c2 d2) (diff_shift a2 b2)
    (diff_shift c1 d1)

theorem slant_keep {M : ℝ} (hM : 1 ≤ M) {a b c d a' b' c' d' : V3 ℝ} (ha : Shifted M a a') (hb : Shifted M b b') (hc : Shifted M c c') (hd : Shifted M d d')
    (h : M ^ 2 / 2 ^ 14 ≤ |slant a b c d|) : M ^ 2 / 2 ^ 15 ≤ |slant a' b' c' d'| := by
  have h1 := slant_shift hM ha hb hc hd
  have h2 := abs_add_le (slant a b c d - slant a' b' c' d') (slant a' b' c' d')
  rw [sub_add_cancel, abs_sub_comm] at h2
  have : 1 ≤ M ^ 2 := by nlinarith
  generalize M ^ 2 = Q at *
  norm_num at *
  linarith

theorem Apart.shift {M : ℝ} (hM : 1 ≤ M) {a b c d a' b' c' d' : V3 ℝ} (ha : Shifted M a a') (hb : Shifted M b b') (hc : Shifted M c c') (hd : Shifted M d d')
    (h : Apart (M ^ 2 / 2 ^ 30) a b c d) : Apart (M ^ 2 / 2 ^ 31) a' b' c' d' := by
  have h1 := abs_le.1 (leftOf_shift hM ha hb hc)
  have h2 := abs_le.1 (leftOf_shift hM ha hb hd)
  have h3 := abs_le.1 (leftOf_shift hM hc hd ha)
  have h4 := abs_le.1 (leftOf_shift hM hc hd hb)
  have : 1 ≤ M ^ 2 := by nlinarith
  unfold Apart at *
  generalize M ^ 2 = Q at *
  norm_num at *
  rcases h with h | h | h | h
  · left; constructor <;> linarith
  · right; left; constructor <;> linarith
  · right; right; left; constructor <;> linarith
  · right; right; right; constructor <;> linarith

theorem Higher.shift {M : ℝ} (hM : 1 ≤ M) {a b c d a' b' c' d' : V3 ℝ} (ha : Shifted M a a') (hb : Shifted M b b') (hc : Shifted M c c') (hd : Shifted M d d')
    (h : Higher (M / 2 ^ 12) a b c d) : Higher (M / 2 ^ 13) a' b' c' d' := by
  have h1 := abs_le.1 ha.1.2.2
  have h2 := abs_le.1 hb.1.2.2
  have h3 := abs_le.1 hc.1.2.2
  have h4 := abs_le.1 hd.1.2.2
  simp only [V3.sub_z] at h1 h2 h3 h4
  obtain ⟨k1, k2, k3, k4⟩ := h
  norm_num at *
  refine ⟨?_, ?_, ?_, ?_⟩ <;> linarith

theorem Over.shift {M : ℝ} (hM : 1 ≤ M) {a b c d a' b' c' d' : V3 ℝ} (ha : Shifted M a a') (hb : Shifted M b b') (hc : Shifted M c c') (hd : Shifted M d d')
    (h : Over (M ^ 2 / 2 ^ 14) (M / 2 ^ 12) 1 a b c d) : Over (M ^ 2 / 2 ^ 15) (M / 2 ^ 13) (1 / 2) a' b' c' d' := by
  refine ⟨slant_keep hM ha hb hc hd h.1, ?_⟩
  intro s t s0 s1 t0 t1 hst
  have hQ : 1 ≤ M ^ 2 := by nlinarith
  set D := slant a b c d with hD
  have hD0 : D ≠ 0 := by
    intro h0
    have := h.1
    rw [← hD, h0, abs_zero] at this
    norm_num at this; nlinarith
  have hDp := abs_pos.2 hD0
  -- where the edges meet
  let u : ℝ := ((c.x - a.x) * (d.y - c.y) - (c.y - a.y) * (d.x - c.x)) / D
  let w : ℝ := ((c.x - a.x) * (b.y - a.y) - (c.y - a.y) * (b.x - a.x)) / D
  have hu : D * u = (c.x - a.x) * (d.y - c.y) - (c.y - a.y) * (d.x - c.x) := mul_div_cancel₀ _ hD0
  have hw : D * w = (c.x - a.x) * (b.y - a.y) - (c.y - a.y) * (b.x - a.x) := mul_div_cancel₀ _ hD0
  have mx : a.x + (b.x - a.x) * u = c.x + (d.x - c.x) * w := by
    apply mul_left_cancel₀ hD0
    rw [hD] at hu hw ⊢
    unfold slant at hu hw ⊢
    linear_combination (b.x - a.x) * hu - (d.x - c.x) * hw
  have my : a.y + (b.y - a.y) * u = c.y + (d.y - c.y) * w := by
    apply mul_left_cancel₀ hD0
    rw [hD] at hu hw ⊢
    unfold slant at hu hw ⊢
    linear_combination (b.y - a.y) * hu - (d.y - c.y) * hw
  simp only [edgeAt, V3.smul, V3.xy, V2.mk.injEq, V3.add_x, V3.add_y, V3.sub_x, V3.sub_y] at hst
  obtain ⟨ex, ey⟩ := hst
  obtain ⟨⟨a1, a2, a3⟩, ⟨a4, a5, a6⟩⟩ := ha
  obtain ⟨⟨b1, b2, b3⟩, ⟨b4, b5, b6⟩⟩ := hb
  obtain ⟨⟨c1, c2, c3⟩, ⟨c4, c5, c6⟩⟩ := hc
  obtain ⟨⟨d1, d2, d3⟩, ⟨d4, d5, d6⟩⟩ := hd
  simp only [V3.sub_x, V3.sub_y, V3.sub_z] at a1 a2 a3 b1 b2 b3 c1 c2 c3 d1 d2 d3
  have hs : |s| ≤ 3 / 2 := by rw [abs_le]; constructor <;> linarith
  have ht : |t| ≤ 3 / 2 := by rw [abs_le]; constructor <;> linarith
  -- the residual
  have res : ∀ {p q p' q' k l k' l' : ℝ}, |p' - p| ≤ M / 2 ^ 38 → |q' - q| ≤ M / 2 ^ 38 → |k' - k| ≤ M / 2 ^ 38 → |l' - l| ≤ M / 2 ^ 38 →
      p' + (q' - p') * s = k' + (l' - k') * t → p + (q - p) * u = k + (l - k) * w →
      |(q - p) * (s - u) - (l - k) * (t - w)| ≤ M / 2 ^ 35 := by
    intro p q p' q' k l k' l' hp hq hk hl e1 e2
    have h1 := diff_shift hp hq
    have h2 := diff_shift hk hl
    have e : (q - p) * (s - u) - (l - k) * (t - w) = ((k' - k) - (p' - p)) + ((l' - k') - (l - k)) * t - ((q' - p') - (q - p)) * s := by
      linear_combination e1 - e2
    rw [e]
    refine (abs_sub _ _).trans ?_
    have t1 := abs_add_le ((k' - k) - (p' - p)) (((l' - k') - (l - k)) * t)
    have t2 := abs_sub (k' - k) (p' - p)
    have m1 : |((l' - k') - (l - k)) * t| ≤ M / 2 ^ 37 * (3 / 2) := by
      rw [abs_mul]; exact mul_le_mul h2 ht (abs_nonneg _) (by positivity)
    have m2 : |((q' - p') - (q - p)) * s| ≤ M / 2 ^ 37 * (3 / 2) := by
      rw [abs_mul]; exact mul_le_mul h1 hs (abs_nonneg _) (by positivity)
    generalize |((l' - k') - (l - k)) * t| = g1 at *
    generalize |((q' - p') - (q - p)) * s| = g2 at *
    norm_num at *
    linarith
  have rx := res a1 b1 c1 d1 ex mx
  have ry := res a2 b2 c2 d2 ey my
  have sz : ∀ {x y r1 r2 : ℝ}, |x| ≤ 6 * M → |y| ≤ 6 * M → |r1| ≤ M / 2 ^ 35 → |r2| ≤ M / 2 ^ 35 → |r1 * x - r2 * y| ≤ M ^ 2 / 2 ^ 31 := by
    intro x y r1 r2 h1 h2 h3 h4
    refine (abs_sub _ _).trans ?_
    rw [abs_mul, abs_mul]
    have m1 := mul_le_mul h3 h1 (abs_nonneg _) (by positivity)
    have m2 := mul_le_mul h4 h2 (abs_nonneg _) (by positivity)
    have e1 : M / 2 ^ 35 * (6 * M) = 6 * M ^ 2 / 2 ^ 35 := by ring
    rw [e1] at m1 m2
    generalize M ^ 2 = Q at *
    norm_num at *
    linarith
  have div17 : ∀ {z : ℝ}, |z * D| ≤ M ^ 2 / 2 ^ 31 → |z| ≤ 1 / 2 ^ 17 := by
    intro z hz
    rw [abs_mul] at hz
    by_contra hcon
    push Not at hcon
    have hk := h.1
    have := mul_lt_mul' hk hcon (by positivity) hDp
    have e1 : M ^ 2 / 2 ^ 14 * (1 / 2 ^ 17) = M ^ 2 / 2 ^ 31 := by ring
    rw [e1] at this
    linarith
  have ds : |s - u| ≤ 1 / 2 ^ 17 := by
    apply div17
    have e : (s - u) * D = ((b.x - a.x) * (s - u) - (d.x - c.x) * (t - w)) * (d.y - c.y) - ((b.y - a.y) * (s - u) - (d.y - c.y) * (t - w)) * (d.x - c.x) := by
      rw [hD]; unfold slant; ring
    rw [e]
    exact sz (diff_size c5 d5) (diff_size c4 d4) rx ry
  have dt : |t - w| ≤ 1 / 2 ^ 17 := by
    apply div17
    have e : (t - w) * D = ((b.x - a.x) * (s - u) - (d.x - c.x) * (t - w)) * (b.y - a.y) - ((b.y - a.y) * (s - u) - (d.y - c.y) * (t - w)) * (b.x - a.x) := by
      rw [hD]; unfold slant; ring
    rw [e]
    exact sz (diff_size a5 b5) (diff_size a4 b4) rx ry
  have ds' := abs_le.1 ds
  have dt' := abs_le.1 dt
  have hov := h.2 u w (by norm_num at *; linarith) (by norm_num at *; linarith) (by norm_num at *; linarith) (by norm_num at *; linarith)
    (by simp only [edgeAt, V3.smul, V3.xy, V2.mk.injEq, V3.add_x, V3.add_y, V3.sub_x, V3.sub_y]; exact ⟨mx, my⟩)
  simp only [edgeAt, V3.smul, V3.add_z, V3.sub_z] at hov ⊢
  have zs : ∀ {p q p' q' x y : ℝ}, |p' - p| ≤ M / 2 ^ 38 → |q' - q| ≤ M / 2 ^ 38 → |p| ≤ 3 * M → |q| ≤ 3 * M → |x| ≤ 3 / 2 → |x - y| ≤ 1 / 2 ^ 17 →
      |(p' + (q' - p') * x) - (p + (q - p) * y)| ≤ M / 2 ^ 14 := by
    intro p q p' q' x y hp hq wp wq hx hxy
    have h1 := diff_shift hp hq
    have h2 := diff_size wp wq
    rw [show (p' + (q' - p') * x) - (p + (q - p) * y) = (p' - p) + ((q' - p') - (q - p)) * x + (q - p) * (x - y) by ring]
    refine (abs_add_three _ _ _).trans ?_
    rw [abs_mul, abs_mul]
    have m1 := mul_le_mul h1 hx (abs_nonneg _) (by positivity)
    have m2 := mul_le_mul h2 hxy (abs_nonneg _) (by linarith)
    norm_num at *
    linarith
  have z1 := abs_le.1 (zs a3 b3 a6 b6 hs ds)
  have z2 := abs_le.1 (zs c3 d3 c6 d6 ht dt)
  norm_num at *
  linarith

/-- the same for a plane and its normal -/
theorem NotBehind.shift {M : ℝ} (hM : 1 ≤ M) {t t' : Tri ℝ} {p p' : V3 ℝ} (ha : Shifted M t.a t'.a) (hb : Shifted M t.b t'.b) (hc : Shifted M t.c t'.c)
    (hp : Shifted M p p') (hn : (t'.n - t.n).Within (1 / 2 ^ 20)) (hn6 : t.n.Within 6) (hr : |t'.r - t.r| ≤ M / 2 ^ 18)
    (h : NotBehind (M ^ 2 / 2 ^ 30) (M / 2 ^ 12) t p) : NotBehind (M ^ 2 / 2 ^ 31) (M / 2 ^ 13) t' p' := by
  have hQ : 1 ≤ M ^ 2 := by nlinarith
  unfold NotBehind at *
  rcases h with h | h | h | h
  · left
    obtain ⟨⟨p1, p2, p3⟩, ⟨p4, p5, p6⟩⟩ := hp
    obtain ⟨n1, n2, n3⟩ := hn
    obtain ⟨n4, n5, n6⟩ := hn6
    simp only [V3.sub_x, V3.sub_y, V3.sub_z] at p1 p2 p3 n1 n2 n3
    have go : ∀ {x n x' n' : ℝ}, |x' - x| ≤ M / 2 ^ 38 → |x| ≤ 3 * M → |n' - n| ≤ 1 / 2 ^ 20 → |n| ≤ 6 → |x' * n' - x * n| ≤ M / 2 ^ 18 := by
      intro x n x' n' h1 h2 h3 h4
      rw [show x' * n' - x * n = x * (n' - n) + n * (x' - x) + (x' - x) * (n' - n) by ring]
      refine (abs_add_three _ _ _).trans ?_
      rw [abs_mul, abs_mul, abs_mul]
      have a1 := mul_le_mul h2 h3 (abs_nonneg _) (by linarith)
      have a2 := mul_le_mul h4 h1 (abs_nonneg _) (by linarith)
      have a3 := mul_le_mul h1 h3 (abs_nonneg _) (by positivity)
      norm_num at *
      linarith
    have g1 := abs_le.1 (go p1 p4 n1 n4)
    have g2 := abs_le.1 (go p2 p5 n2 n5)
    have g3 := abs_le.1 (go p3 p6 n3 n6)
    unfold V3.dot at *
    rw [abs_le] at hr
    norm_num at *
    linarith
  · right; left
    have := abs_le.1 (leftOf_shift hM ha hb hp)
    generalize M ^ 2 = Q at *
    norm_num at *; linarith
  · right; right; left
    have := abs_le.1 (leftOf_shift hM hb hc hp)
    generalize M ^ 2 = Q at *
    norm_num at *; linarith
  · right; right; right
    have := abs_le.1 (leftOf_shift hM hc ha hp)
    generalize M ^ 2 = Q at *
    norm_num at *; linarith

theorem FarApart.shift {M : ℝ} (hM : 1 ≤ M) {a b a' b' : V3 ℝ} (ha : Shifted M a a') (hb : Shifted M b b') (h : FarApart (M / 2 ^ 10) a b) :
    FarApart (M / 2 ^ 11) a' b' := by
  obtain ⟨a1, a2, a3⟩ := ha.1
  obtain ⟨b1, b2, b3⟩ := hb.1
  have go : ∀ {x y x' y' : ℝ}, |x' - x| ≤ M / 2 ^ 38 → |y' - y| ≤ M / 2 ^ 38 → M / 2 ^ 10 ≤ |y - x| → M / 2 ^ 11 ≤ |y' - x'| := by
    intro x y x' y' hx hy h
    have h1 := diff_shift hx hy
    have h2 := abs_add_le ((y - x) - (y' - x')) (y' - x')
    rw [sub_add_cancel, abs_sub_comm (y - x)] at h2
    norm_num at *; linarith
  rcases h with h | h | h
  · exact Or.inl (go a1 b1 h)
  · exact Or.inr (Or.inl (go a2 b2 h))
  · exact Or.inr (Or.inr (go a3 b3 h))

/-! ## Exchanging the ends -/

theorem Apart.swap {μ : ℝ} {a b c d : V3 ℝ} (h : Apart μ a b c d) : Apart μ b a c d := by
  have e : ∀ p, leftOf b a p = - leftOf a b p := fun p => by unfold leftOf; ring
  unfold Apart at *
  rw [e, e]
  rcases h with h | h | h | h
  · right; left; constructor <;> linarith
  · left; constructor <;> linarith
  · right; right; left; exact h.symm
  · right; right; right; exact h.symm

theorem slant_swap (a b c d : V3 ℝ) : slant b a c d = - slant a b c d := by unfold slant; ring

theorem Over.swap {κ ζ ρ : ℝ} {a b c d : V3 ℝ} (h : Over κ ζ ρ a b c d) : Over κ ζ ρ b a c d := by
  refine ⟨by rw [slant_swap, abs_neg]; exact h.1, ?_⟩
  intro s t s0 s1 t0 t1 hst
  have e : edgeAt (b, a) s = edgeAt (a, b) (1 - s) := by ext <;> simp [edgeAt, V3.smul] <;> ring
  rw [e] at hst ⊢
  exact h.2 (1 - s) t (by linarith) (by linarith) t0 t1 hst

theorem SideClear.swap {μ κ ζ : ℝ} {a b c d : V3 ℝ} (h : SideClear μ κ ζ a b c d) : SideClear μ κ ζ b a c d := by
  unfold SideClear at *
  rcases h with ⟨h1, h2⟩ | h | h | h
  · exact Or.inl ⟨h1.symm, by rw [slant_swap, abs_neg]; exact h2⟩
  · exact Or.inr (Or.inl h.swap)
  · exact Or.inr (Or.inr (Or.inl ⟨h.2.1, h.1, h.2.2.2, h.2.2.1⟩))
  · exact Or.inr (Or.inr (Or.inr h.swap))

theorem Tri.HasSide.swap {t : Tri ℝ} {a b : V3 ℝ} (h : t.HasSide (a, b)) : t.HasSide (b, a) := by
  unfold Tri.HasSide at *
  simp only [Prod.mk.injEq] at *
  tauto

theorem ClearOf.swap {μ κ ζ : ℝ} {a b : V3 ℝ} {t : Tri ℝ} (h : ClearOf μ κ ζ a b t) : ClearOf μ κ ζ b a t := by
  rcases h with h | ⟨h1, h2⟩
  · exact Or.inl h.swap
  · exact Or.inr ⟨fun p hp => h1 p hp.symm, fun c d hcd => (h2 c d hcd).swap⟩

theorem FarApart.swap {ℓ : ℝ} {a b : V3 ℝ} (h : FarApart ℓ a b) : FarApart ℓ b a := by
  unfold FarApart at *
  rw [abs_sub_comm a.x, abs_sub_comm a.y, abs_sub_comm a.z]
  exact h

end S2P
