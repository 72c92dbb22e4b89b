import Verif.Lemmas.SpanLines

set_option linter.unusedSectionVars false
set_option linter.unusedVariables false
set_option linter.unusedSimpArgs false

/-! # Parts hidden, with points moved by next to nothing -/

namespace S2P

theorem size_shift {M x y x' y' : ℝ} (hM : 1 ≤ M) (hx : |x| ≤ 3 * M) (hy : |y| ≤ 3 * M) (hx' : |x' - x| ≤ M / 2 ^ 38) (hy' : |y' - y| ≤ M / 2 ^ 38) : |y' - x'| ≤ 7 * M := by
  have h1 := diff_shift hx' hy'
  have h2 := diff_size hx hy
  have h3 := abs_add_le ((y' - x') - (y - x)) (y - x)
  rw [sub_add_cancel] at h3
  norm_num at *
  linarith

/-- where the edges cross moves by next to nothing -/
theorem cross_moves {M : ℝ} (hM : 1 ≤ M) {a b c d a' b' c' d' : V3 ℝ} (ha : Shifted M a a') (hb : Shifted M b b') (hc : Shifted M c c') (hd : Shifted M d d')
    (hk : M ^ 2 / 2 ^ 14 ≤ |slant a b c d|) {s t : ℝ} (s0 : 0 ≤ s) (s1 : s ≤ 1) (t0 : 0 ≤ t) (t1 : t ≤ 1) (hst : (edgeAt (a, b) s).xy = (edgeAt (c, d) t).xy) :
    ∃ u w, (edgeAt (a', b') u).xy = (edgeAt (c', d') w).xy ∧ |u - s| ≤ 1 / 2 ^ 17 ∧ |w - t| ≤ 1 / 2 ^ 17 := by
  have hQ : 1 ≤ M ^ 2 := by nlinarith
  have hsl := slant_shift hM ha hb hc hd
  set D := slant a' b' c' d' with hD
  have hDl : 7 / 8 * (M ^ 2 / 2 ^ 14) ≤ |D| := by
    have h2 := abs_add_le (slant a b c d - D) D
    rw [sub_add_cancel, abs_sub_comm] at h2
    generalize M ^ 2 = Q at *
    norm_num at *
    linarith
  have hDp : 0 < |D| := lt_of_lt_of_le (by positivity) hDl
  have hD0 : D ≠ 0 := abs_pos.1 hDp
  let u : ℝ := ((c'.x - a'.x) * (d'.y - c'.y) - (c'.y - a'.y) * (d'.x - c'.x)) / D
  let w : ℝ := ((c'.x - a'.x) * (b'.y - a'.y) - (c'.y - a'.y) * (b'.x - a'.x)) / D
  have hu : D * u = (c'.x - a'.x) * (d'.y - c'.y) - (c'.y - a'.y) * (d'.x - c'.x) := mul_div_cancel₀ _ hD0
  have hw : D * w = (c'.x - a'.x) * (b'.y - a'.y) - (c'.y - a'.y) * (b'.x - a'.x) := mul_div_cancel₀ _ hD0
  have mx : a'.x + (b'.x - a'.x) * u = c'.x + (d'.x - c'.x) * w := by
    apply mul_left_cancel₀ hD0
    rw [hD] at hu hw ⊢
    unfold slant at hu hw ⊢
    linear_combination (b'.x - a'.x) * hu - (d'.x - c'.x) * hw
  have my : a'.y + (b'.y - a'.y) * u = c'.y + (d'.y - c'.y) * w := by
    apply mul_left_cancel₀ hD0
    rw [hD] at hu hw ⊢
    unfold slant at hu hw ⊢
    linear_combination (b'.y - a'.y) * hu - (d'.y - c'.y) * hw
  simp only [edgeAt, V3.smul, V3.xy, V2.mk.injEq, V3.add_x, V3.add_y, V3.sub_x, V3.sub_y] at hst
  obtain ⟨ex, ey⟩ := hst
  obtain ⟨⟨a1, a2, a3⟩, ⟨a4, a5, a6⟩⟩ := ha
  obtain ⟨⟨b1, b2, b3⟩, ⟨b4, b5, b6⟩⟩ := hb
  obtain ⟨⟨c1, c2, c3⟩, ⟨c4, c5, c6⟩⟩ := hc
  obtain ⟨⟨d1, d2, d3⟩, ⟨d4, d5, d6⟩⟩ := hd
  simp only [V3.sub_x, V3.sub_y, V3.sub_z] at a1 a2 a3 b1 b2 b3 c1 c2 c3 d1 d2 d3
  have hs : |s| ≤ 1 := by rw [abs_le]; constructor <;> linarith
  have ht : |t| ≤ 1 := by rw [abs_le]; constructor <;> linarith
  -- the residual
  have res : ∀ {p q p' q' k l k' l' : ℝ}, |p' - p| ≤ M / 2 ^ 38 → |q' - q| ≤ M / 2 ^ 38 → |k' - k| ≤ M / 2 ^ 38 → |l' - l| ≤ M / 2 ^ 38 →
      p + (q - p) * s = k + (l - k) * t → p' + (q' - p') * u = k' + (l' - k') * w →
      |(q' - p') * (u - s) - (l' - k') * (w - t)| ≤ 3 * M / 2 ^ 37 := by
    intro p q p' q' k l k' l' hp hq hk hl e1 e2
    have h1 := diff_shift hp hq
    have h2 := diff_shift hk hl
    have e : (q' - p') * (u - s) - (l' - k') * (w - t) = ((k' - k) - (p' - p)) + ((l' - k') - (l - k)) * t - ((q' - p') - (q - p)) * s := by
      linear_combination e2 - e1
    rw [e]
    refine (abs_sub _ _).trans ?_
    have t1 := abs_add_le ((k' - k) - (p' - p)) (((l' - k') - (l - k)) * t)
    have t2 := abs_sub (k' - k) (p' - p)
    have m1 : |((l' - k') - (l - k)) * t| ≤ M / 2 ^ 37 * 1 := by
      rw [abs_mul]; exact mul_le_mul h2 ht (abs_nonneg _) (by positivity)
    have m2 : |((q' - p') - (q - p)) * s| ≤ M / 2 ^ 37 * 1 := by
      rw [abs_mul]; exact mul_le_mul h1 hs (abs_nonneg _) (by positivity)
    generalize |((l' - k') - (l - k)) * t| = g1 at *
    generalize |((q' - p') - (q - p)) * s| = g2 at *
    norm_num at *
    linarith
  have rx := res a1 b1 c1 d1 ex mx
  have ry := res a2 b2 c2 d2 ey my
  have sz : ∀ {x y r1 r2 : ℝ}, |x| ≤ 7 * M → |y| ≤ 7 * M → |r1| ≤ 3 * M / 2 ^ 37 → |r2| ≤ 3 * M / 2 ^ 37 → |r1 * x - r2 * y| ≤ 42 * (M ^ 2 / 2 ^ 37) := by
    intro x y r1 r2 h1 h2 h3 h4
    refine (abs_sub _ _).trans ?_
    rw [abs_mul, abs_mul]
    have m1 := mul_le_mul h3 h1 (abs_nonneg _) (by positivity)
    have m2 := mul_le_mul h4 h2 (abs_nonneg _) (by positivity)
    have e1 : 3 * M / 2 ^ 37 * (7 * M) = 21 * M ^ 2 / 2 ^ 37 := by ring
    rw [e1] at m1 m2
    generalize M ^ 2 = Q at *
    norm_num at *
    linarith
  have div17 : ∀ {z : ℝ}, |z * D| ≤ 42 * (M ^ 2 / 2 ^ 37) → |z| ≤ 1 / 2 ^ 17 := by
    intro z hz
    rw [abs_mul] at hz
    by_contra hcon
    push Not at hcon
    have := mul_lt_mul' hDl hcon (by positivity) hDp
    have e1 : 7 / 8 * (M ^ 2 / 2 ^ 14) * (1 / 2 ^ 17) = 56 * (M ^ 2 / 2 ^ 37) := by ring
    rw [e1] at this
    have : 0 < M ^ 2 / 2 ^ 37 := by positivity
    linarith
  refine ⟨u, w, ?_, ?_, ?_⟩
  · simp only [edgeAt, V3.smul, V3.xy, V2.mk.injEq, V3.add_x, V3.add_y, V3.sub_x, V3.sub_y]; exact ⟨mx, my⟩
  · apply div17
    have e : (u - s) * D = ((b'.x - a'.x) * (u - s) - (d'.x - c'.x) * (w - t)) * (d'.y - c'.y) - ((b'.y - a'.y) * (u - s) - (d'.y - c'.y) * (w - t)) * (d'.x - c'.x) := by
      rw [hD]; unfold slant; ring
    rw [e]
    exact sz (size_shift hM c5 d5 c2 d2) (size_shift hM c4 d4 c1 d1) rx ry
  · apply div17
    have e : (w - t) * D = ((b'.x - a'.x) * (u - s) - (d'.x - c'.x) * (w - t)) * (b'.y - a'.y) - ((b'.y - a'.y) * (u - s) - (d'.y - c'.y) * (w - t)) * (b'.x - a'.x) := by
      rw [hD]; unfold slant; ring
    rw [e]
    exact sz (size_shift hM a5 b5 a2 b2) (size_shift hM a4 b4 a1 b1) rx ry

theorem PassesUnder.shift {M : ℝ} (hM : 1 ≤ M) {a b c d a' b' c' d' : V3 ℝ} (ha : Shifted M a a') (hb : Shifted M b b') (hc : Shifted M c c') (hd : Shifted M d d')
    {s : ℝ} (h : PassesUnder (M ^ 2 / 2 ^ 14) (M / 2 ^ 12) (1 / 2 ^ 15) a b c d s) :
    ∃ u, |u - s| ≤ 1 / 2 ^ 17 ∧ PassesUnder (M ^ 2 / 2 ^ 15) (M / 2 ^ 13) (1 / 2 ^ 16) a' b' c' d' u := by
  obtain ⟨h1, h2, h3, t, h4, h5, h6, h7⟩ := h
  obtain ⟨u, w, k1, k2, k3⟩ := cross_moves hM ha hb hc hd h1 (by norm_num at *; linarith) (by norm_num at *; linarith) (by norm_num at *; linarith)
    (by norm_num at *; linarith) h6
  refine ⟨u, k2, slant_keep hM ha hb hc hd h1, ?_, ?_, w, ?_, ?_, k1, ?_⟩
  · rw [abs_le] at k2; norm_num at *; linarith
  · rw [abs_le] at k2; norm_num at *; linarith
  · rw [abs_le] at k3; norm_num at *; linarith
  · rw [abs_le] at k3; norm_num at *; linarith
  have hus : |u| ≤ 3 / 2 := by rw [abs_le] at *; norm_num at *; constructor <;> linarith
  have hwt : |w| ≤ 3 / 2 := by rw [abs_le] at *; norm_num at *; constructor <;> linarith
  have a3 := ha.1.2.2
  have b3 := hb.1.2.2
  have c3 := hc.1.2.2
  have d3 := hd.1.2.2
  have a6 := ha.2.2.2
  have b6 := hb.2.2.2
  have c6 := hc.2.2.2
  have d6 := hd.2.2.2
  simp only [V3.sub_z] at a3 b3 c3 d3
  simp only [edgeAt, V3.smul, V3.add_z, V3.sub_z] at h7 ⊢
  have zs : ∀ {p q p' q' x y : ℝ}, |p' - p| ≤ M / 2 ^ 38 → |q' - q| ≤ M / 2 ^ 38 → |p| ≤ 3 * M → |q| ≤ 3 * M → |x| ≤ 3 / 2 → |x - y| ≤ 1 / 2 ^ 17 →
      |(p' + (q' - p') * x) - (p + (q - p) * y)| ≤ M / 2 ^ 14 := by
    intro p q p' q' x y hp hq wp wq hx hxy
    have h1 := diff_shift hp hq
    have h2 := diff_size wp wq
    rw [show (p' + (q' - p') * x) - (p + (q - p) * y) = (p' - p) + ((q' - p') - (q - p)) * x + (q - p) * (x - y) by ring]
    refine (abs_add_three _ _ _).trans ?_
    rw [abs_mul, abs_mul]
    have m1 := mul_le_mul h1 hx (abs_nonneg _) (by positivity)
    have m2 := mul_le_mul h2 hxy (abs_nonneg _) (by linarith)
    norm_num at *
    linarith
  have z1 := abs_le.1 (zs a3 b3 a6 b6 hus k2)
  have z2 := abs_le.1 (zs c3 d3 c6 d6 hwt k3)
  norm_num at *
  linarith

theorem BehindBy.shift {M : ℝ} (hM : 1 ≤ M) {t t' : Tri ℝ} {p p' : V3 ℝ} (ha : Shifted M t.a t'.a) (hb : Shifted M t.b t'.b) (hc : Shifted M t.c t'.c)
    (hp : Shifted M p p') (hn : (t'.n - t.n).Within (1 / 2 ^ 20)) (hn6 : t.n.Within 6) (hr : |t'.r - t.r| ≤ M / 2 ^ 18)
    (h : BehindBy (M ^ 2 / 2 ^ 30) (M / 2 ^ 12) t p) : BehindBy (M ^ 2 / 2 ^ 31) (M / 2 ^ 13) t' p' := by
  have hQ : 1 ≤ M ^ 2 := by nlinarith
  obtain ⟨h1, h2, h3, h4⟩ := h
  refine ⟨?_, ?_, ?_, ?_⟩
  · obtain ⟨⟨p1, p2, p3⟩, ⟨p4, p5, p6⟩⟩ := hp
    obtain ⟨n1, n2, n3⟩ := hn
    obtain ⟨n4, n5, n6⟩ := hn6
    simp only [V3.sub_x, V3.sub_y, V3.sub_z] at p1 p2 p3 n1 n2 n3
    have go : ∀ {x n x' n' : ℝ}, |x' - x| ≤ M / 2 ^ 38 → |x| ≤ 3 * M → |n' - n| ≤ 1 / 2 ^ 20 → |n| ≤ 6 → |x' * n' - x * n| ≤ M / 2 ^ 18 := by
      intro x n x' n' h1 h2 h3 h4
      rw [show x' * n' - x * n = x * (n' - n) + n * (x' - x) + (x' - x) * (n' - n) by ring]
      refine (abs_add_three _ _ _).trans ?_
      rw [abs_mul, abs_mul, abs_mul]
      have a1 := mul_le_mul h2 h3 (abs_nonneg _) (by linarith)
      have a2 := mul_le_mul h4 h1 (abs_nonneg _) (by linarith)
      have a3 := mul_le_mul h1 h3 (abs_nonneg _) (by positivity)
      norm_num at *
      linarith
    have g1 := abs_le.1 (go p1 p4 n1 n4)
    have g2 := abs_le.1 (go p2 p5 n2 n5)
    have g3 := abs_le.1 (go p3 p6 n3 n6)
    unfold V3.dot at *
    rw [abs_le] at hr
    norm_num at *
    linarith
  · have := abs_le.1 (leftOf_shift hM ha hb hp)
    generalize M ^ 2 = Q at *
    norm_num at *; linarith
  · have := abs_le.1 (leftOf_shift hM hb hc hp)
    generalize M ^ 2 = Q at *
    norm_num at *; linarith
  · have := abs_le.1 (leftOf_shift hM hc ha hp)
    generalize M ^ 2 = Q at *
    norm_num at *; linarith

/-! ## Exchanging the ends -/

theorem edgeAt_swap (a b : V3 ℝ) (s : ℝ) : edgeAt (b, a) s = edgeAt (a, b) (1 - s) := by ext <;> simp [edgeAt, V3.smul] <;> ring

theorem PassesUnder.swap {κ ζ ρ : ℝ} {a b c d : V3 ℝ} {s : ℝ} (h : PassesUnder κ ζ ρ a b c d s) : PassesUnder κ ζ ρ b a c d (1 - s) := by
  obtain ⟨h1, h2, h3, t, h4, h5, h6, h7⟩ := h
  refine ⟨by rw [slant_swap, abs_neg]; exact h1, by linarith, by linarith, t, h4, h5, ?_, ?_⟩
  · rw [edgeAt_swap, sub_sub_cancel]; exact h6
  · rw [edgeAt_swap, sub_sub_cancel]; exact h7

theorem HidesPart.swap {μ κ ζ ρ : ℝ} {a b : V3 ℝ} {t : Tri ℝ} {s s' : ℝ} (h : HidesPart μ κ ζ ρ a b t s s') : HidesPart μ κ ζ ρ b a t (1 - s') (1 - s) := by
  refine ⟨by linarith [h.long], ?_, ?_, ?_, ?_, ?_⟩
  · rcases h.last with ⟨e, h⟩ | ⟨c, d, h1, h2⟩
    · exact Or.inl ⟨by linarith, h⟩
    · exact Or.inr ⟨c, d, h1, h2.swap⟩
  · rcases h.first with ⟨e, h⟩ | ⟨c, d, h1, h2⟩
    · exact Or.inl ⟨by linarith, h⟩
    · exact Or.inr ⟨c, d, h1, h2.swap⟩
  · exact h.far.imp id (fun h => by linarith)
  · exact h.near.imp id (fun h => by linarith)
  · intro c d hcd
    rcases h.sides c d hcd with h | h | h | ⟨u, h1, h2, h3⟩
    · exact Or.inl h.swap
    · exact Or.inr (Or.inl ⟨h.2.1, h.1, h.2.2.2, h.2.2.1⟩)
    · exact Or.inr (Or.inr (Or.inl h.swap))
    · exact Or.inr (Or.inr (Or.inr ⟨1 - u, by linarith, by linarith, h3.swap⟩))

section
variable {R : Rounding}

/-- a triangle that hides a part of an edge: the facet turned by the program does so -/
theorem part_turned {M : ℝ} (hM : 1 ≤ M) {Rel : V3 (Fl R) → V3 ℝ → Prop} {δ : ℝ} (hδ : δ ≤ 1 / 2 ^ 20)
    {rot : M3 (Fl R)} {r : M3 ℝ} {f : Facet (Fl R)} {t : Tri ℝ} (hf : Turned Rel δ M rot r f t) {p q : V3 (Fl R) × V3 ℝ}
    (sp : Shifted M (p.2.mulM r) (p.1.mulM rot).val) (sq : Shifted M (q.2.mulM r) (q.1.mulM rot).val) {s s' : ℝ}
    (h : HidesPart (M ^ 2 / 2 ^ 30) (M ^ 2 / 2 ^ 14) (M / 2 ^ 12) (1 / 2 ^ 15) (p.2.mulM r) (q.2.mulM r) (t.seenIn r) s s') :
    PartBy M ((p.1.mulM rot).val, (q.1.mulM rot).val) (rotFacet rot f).val s s' := by
  have hn := (near_val3 hf.normal.1).2
  have hn' : (f.norm.mulM rot).val - t.n.mulM r |>.Within (1 / 2 ^ 20) := ⟨hn.1.trans hδ, hn.2.1.trans hδ, hn.2.2.trans hδ⟩
  have h0 := hf.shift (f.e0, t.a) (by simp [pairs])
  have h1 := hf.shift (f.e1, t.b) (by simp [pairs])
  have h2 := hf.shift (f.e2, t.c) (by simp [pairs])
  have nb : ∀ {z : V3 (Fl R) × V3 ℝ}, Shifted M (z.2.mulM r) (z.1.mulM rot).val → NotBehind (M ^ 2 / 2 ^ 30) (M / 2 ^ 12) (t.seenIn r) (z.2.mulM r) →
      NotBehind (M ^ 2 / 2 ^ 31) (M / 2 ^ 13) (rotFacet rot f).val (z.1.mulM rot).val := fun hz h =>
    NotBehind.shift (t := t.seenIn r) (t' := (rotFacet rot f).val) hM h0 h1 h2 hz hn' hf.normal.2 (near_val hf.dist).2 h
  have bb : ∀ {z : V3 (Fl R) × V3 ℝ}, Shifted M (z.2.mulM r) (z.1.mulM rot).val → BehindBy (M ^ 2 / 2 ^ 30) (M / 2 ^ 12) (t.seenIn r) (z.2.mulM r) →
      BehindBy (M ^ 2 / 2 ^ 31) (M / 2 ^ 13) (rotFacet rot f).val (z.1.mulM rot).val := fun hz h =>
    BehindBy.shift (t := t.seenIn r) (t' := (rotFacet rot f).val) hM h0 h1 h2 hz hn' hf.normal.2 (near_val hf.dist).2 h
  have un : ∀ {c d : V3 ℝ} {x : ℝ}, (t.seenIn r).HasSide (c, d) → PassesUnder (M ^ 2 / 2 ^ 14) (M / 2 ^ 12) (1 / 2 ^ 15) (p.2.mulM r) (q.2.mulM r) c d x →
      ∃ c d u, (rotFacet rot f).val.HasSide (c, d) ∧ |u - x| ≤ 1 / 2 ^ 17 ∧
        PassesUnder (M ^ 2 / 2 ^ 15) (M / 2 ^ 13) (1 / 2 ^ 16) (p.1.mulM rot).val (q.1.mulM rot).val c d u := by
    intro c d x hcd hpu
    obtain ⟨k, hk, l, hl, rfl, rfl, hs⟩ := side_turned rot f hcd
    obtain ⟨u, u1, u2⟩ := hpu.shift hM sp sq (hf.shift k hk) (hf.shift l hl)
    exact ⟨_, _, u, hs, u1, u2⟩
  refine ⟨h.long, ?_, ?_, h.near.imp (nb sp) id, h.far.imp (nb sq) id, ?_⟩
  · rcases h.first with ⟨e, h⟩ | ⟨c, d, h1, h2⟩
    · exact Or.inl ⟨e, bb sp h⟩
    · exact Or.inr (un h1 h2)
  · rcases h.last with ⟨e, h⟩ | ⟨c, d, h1, h2⟩
    · exact Or.inl ⟨e, bb sq h⟩
    · exact Or.inr (un h1 h2)
  · intro c d hcd
    obtain ⟨x, hx, y, hy, rfl, rfl, hxy⟩ := turned_side (r := r) (t := t) hcd
    have sx := hf.shift x hx
    have sy := hf.shift y hy
    rcases h.sides _ _ hxy with h | h | h | ⟨u, g1, g2, h⟩
    · exact Or.inl (h.shift hM sp sq sx sy)
    · exact Or.inr (Or.inl (h.shift hM sp sq sx sy))
    · exact Or.inr (Or.inr (Or.inl (h.shift hM sp sq sx sy)))
    · obtain ⟨u', u1, u2⟩ := h.shift hM sp sq sx sy
      rw [abs_le] at u1
      exact Or.inr (Or.inr (Or.inr ⟨u', by linarith, by linarith, u2⟩))

end
end S2P
