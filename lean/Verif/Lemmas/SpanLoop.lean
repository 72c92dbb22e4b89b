import Verif.Lemmas.SpanPair

set_option linter.unusedSectionVars false
set_option linter.unusedVariables false
set_option linter.unusedSimpArgs false

/-! # Edges partly hidden, in rounded arithmetic: the parts left over -/

namespace S2P

section
variable {R : Rounding}

/-- the point is found at `σ` along the edge -/
def At (M : ℝ) (E : Edge ℝ) (x : V3 (Fl R)) (σ : ℝ) : Prop := 0 ≤ σ ∧ σ ≤ 1 ∧ V3.NearTo x (edgeAt E σ) (M / 2 ^ 44)

theorem at_first {M : ℝ} (hM : 1 ≤ M) {E : Edge ℝ} {x : V3 (Fl R)} (h : Exact x E.1 M) : At M E x 0 := by
  refine ⟨le_rfl, zero_le_one, ?_⟩
  have e : edgeAt E 0 = E.1 := by ext <;> simp [edgeAt, V3.smul]
  rw [e]
  have l : (0 : ℝ) ≤ M / 2 ^ 44 := by positivity
  exact ⟨h.1.1.mono l, h.1.2.1.mono l, h.1.2.2.mono l⟩

theorem at_last {M : ℝ} (hM : 1 ≤ M) {E : Edge ℝ} {x : V3 (Fl R)} (h : Exact x E.2 M) : At M E x 1 := by
  refine ⟨zero_le_one, le_rfl, ?_⟩
  have e : edgeAt E 1 = E.2 := by ext <;> simp [edgeAt, V3.smul]
  rw [e]
  have l : (0 : ℝ) ≤ M / 2 ^ 44 := by positivity
  exact ⟨h.1.1.mono l, h.1.2.1.mono l, h.1.2.2.mono l⟩

/-- the edge is not too short, and not large -/
structure Edgy (M : ℝ) (E : Edge ℝ) (L : ℝ) : Prop where
  first : E.1.Within (4 * M)
  last : E.2.Within (4 * M)
  low : M / 2 ^ 11 ≤ L
  high : L ≤ 2 ^ 4 * M
  x : |E.2.x - E.1.x| ≤ L
  y : |E.2.y - E.1.y| ≤ L
  z : |E.2.z - E.1.z| ≤ L
  sq : (E.2.x - E.1.x) ^ 2 + (E.2.y - E.1.y) ^ 2 + (E.2.z - E.1.z) ^ 2 = L ^ 2

theorem edgy_of {M : ℝ} (hM : 1 ≤ M) {E : Edge ℝ} (w1 : E.1.Within (4 * M)) (w2 : E.2.Within (4 * M)) (hf : FarApart (M / 2 ^ 11) E.1 E.2) : ∃ L, Edgy M E L := by
  have hs : ∀ {u w : ℝ}, |u| ≤ 4 * M → |w| ≤ 4 * M → |w - u| ≤ 8 * M := fun h1 h2 => (abs_sub _ _).trans (by linarith)
  have b1 := hs w1.1 w2.1
  have b2 := hs w1.2.1 w2.2.1
  have b3 := hs w1.2.2 w2.2.2
  have q1 := sq_nonneg (E.2.x - E.1.x)
  have q2 := sq_nonneg (E.2.y - E.1.y)
  have q3 := sq_nonneg (E.2.z - E.1.z)
  have sq8 : ∀ {u : ℝ}, |u| ≤ 8 * M → u ^ 2 ≤ 64 * M ^ 2 := by
    intro u hu
    rw [← sq_abs]
    have := pow_le_pow_left₀ (abs_nonneg u) hu 2
    nlinarith
  have e1 := sq8 b1
  have e2 := sq8 b2
  have e3 := sq8 b3
  refine ⟨Real.sqrt ((E.2.x - E.1.x) ^ 2 + (E.2.y - E.1.y) ^ 2 + (E.2.z - E.1.z) ^ 2), w1, w2, ?_, ?_, ?_, ?_, ?_, ?_⟩
  · apply Real.le_sqrt_of_sq_le
    have go : ∀ {u : ℝ}, M / 2 ^ 11 ≤ |u| → (M / 2 ^ 11) ^ 2 ≤ u ^ 2 := by
      intro u hu
      rw [← sq_abs u]
      exact pow_le_pow_left₀ (by positivity) hu 2
    rcases hf with h | h | h
    · have := go h; linarith
    · have := go h; linarith
    · have := go h; linarith
  · rw [Real.sqrt_le_left (by positivity)]
    nlinarith
  · rw [← Real.sqrt_sq_eq_abs]; apply Real.sqrt_le_sqrt; linarith
  · rw [← Real.sqrt_sq_eq_abs]; apply Real.sqrt_le_sqrt; linarith
  · rw [← Real.sqrt_sq_eq_abs]; apply Real.sqrt_le_sqrt; linarith
  · rw [Real.sq_sqrt (by linarith)]

variable (hR : R.Accurate)
include hR

/-- the distance of two points found, squared -/
theorem dist_at {M L : ℝ} (hM : Small M) {E : Edge ℝ} (hE : Edgy M E L) {x y : V3 (Fl R)} {σ τ : ℝ} (hx : At M E x σ) (hy : At M E y τ) :
    Fl.Near (x - y).sqNorm ((σ - τ) ^ 2 * L ^ 2) (L ^ 2 / 2 ^ 28) := by
  have h1 := hM.one
  have h2 := hM.top
  obtain ⟨x0, x1, nx, ny, nz⟩ := hx
  obtain ⟨y0, y1, mx, my, mz⟩ := hy
  have hL := hE.low
  have hLp : 0 < L := lt_of_lt_of_le (by positivity) hL
  have hL2 : 1 / 2 ^ 22 ≤ L ^ 2 := by
    have := pow_le_pow_left₀ (by positivity) hL 2
    refine le_trans ?_ this
    rw [div_pow, ← pow_mul]
    norm_num
    nlinarith
  have hL3 : L ^ 2 ≤ 2 ^ 88 := by
    have := pow_le_pow_left₀ hLp.le (hE.high.trans (mul_le_mul_of_nonneg_left h2 (by norm_num))) 2
    norm_num at this ⊢
    linarith
  have hd : |σ - τ| ≤ 1 := by rw [abs_le]; constructor <;> linarith
  have pr : ∀ {p q : Fl R} {a b : ℝ}, |a| ≤ 4 * M → |b| ≤ 4 * M → |b - a| ≤ L → Fl.Near p (a + (b - a) * σ) (M / 2 ^ 44) → Fl.Near q (a + (b - a) * τ) (M / 2 ^ 44) →
      Fl.Near ((p - q) * (p - q)) ((σ - τ) ^ 2 * (b - a) ^ 2) (9 * L ^ 2 / 2 ^ 33) ∧ |(σ - τ) ^ 2 * (b - a) ^ 2| ≤ L ^ 2 := by
    intro p q a b ha hb hab hp hq
    have t := abs_sub b a
    have hg : |a + (b - a) * σ - (a + (b - a) * τ)| ≤ 8 * M ∧ |a + (b - a) * σ - (a + (b - a) * τ)| ≤ L := by
      rw [show a + (b - a) * σ - (a + (b - a) * τ) = (b - a) * (σ - τ) by ring, abs_mul]
      constructor <;> nlinarith [abs_nonneg (b - a), abs_nonneg (σ - τ)]
    have d := hp.sub hR hq (S := 9 * M) (by have := hg.1; norm_num at this ⊢; linarith) (by norm_num; linarith) (top_of (by norm_num at h2 ⊢; linarith))
    have d' := d.mono (δ := L / 2 ^ 31) (by norm_num at *; linarith)
    have m := d'.mul hR d' hg.2 hg.2 (S := 2 * L ^ 2) (by norm_num; nlinarith) (by norm_num at *; linarith) (top_of (by norm_num at hL3 ⊢; linarith))
    have e : (a + (b - a) * σ - (a + (b - a) * τ)) * (a + (b - a) * σ - (a + (b - a) * τ)) = (σ - τ) ^ 2 * (b - a) ^ 2 := by ring
    rw [e] at m
    refine ⟨m.mono ?_, ?_⟩
    · have : 0 ≤ L ^ 2 := by positivity
      have e1 : L * (L / 2 ^ 31) = L ^ 2 / 2 ^ 31 := by ring
      have e2 : L / 2 ^ 31 * (L / 2 ^ 31) = L ^ 2 / 2 ^ 62 := by ring
      norm_num at *
      nlinarith
    · rw [← e, abs_mul]
      have := mul_le_mul hg.2 hg.2 (abs_nonneg _) hLp.le
      nlinarith
  obtain ⟨p1, q1⟩ := pr hE.first.1 hE.last.1 hE.x nx mx
  obtain ⟨p2, q2⟩ := pr hE.first.2.1 hE.last.2.1 hE.y ny my
  obtain ⟨p3, q3⟩ := pr hE.first.2.2 hE.last.2.2 hE.z nz mz
  have hsum : (σ - τ) ^ 2 * L ^ 2 = (σ - τ) ^ 2 * (E.2.x - E.1.x) ^ 2 + (σ - τ) ^ 2 * (E.2.y - E.1.y) ^ 2 + (σ - τ) ^ 2 * (E.2.z - E.1.z) ^ 2 := by
    rw [← hE.sq]; ring
  rw [hsum]
  show Fl.Near ((x - y).x * (x - y).x + (x - y).y * (x - y).y + (x - y).z * (x - y).z) _ _
  generalize (σ - τ) ^ 2 * (E.2.x - E.1.x) ^ 2 = u1 at *
  generalize (σ - τ) ^ 2 * (E.2.y - E.1.y) ^ 2 = u2 at *
  generalize (σ - τ) ^ 2 * (E.2.z - E.1.z) ^ 2 = u3 at *
  generalize L ^ 2 = Q at *
  have t1 := abs_add_le u1 u2
  have a1 := p1.add hR p2 (S := 3 * Q) (by norm_num; linarith) (by norm_num at *; linarith) (top_of (by norm_num at hL3 ⊢; linarith))
  have t2 := abs_add_le (u1 + u2) u3
  refine (a1.add hR p3 (S := 4 * Q) (by norm_num; linarith) (by norm_num at *; linarith) (top_of (by norm_num at hL3 ⊢; linarith))).mono ?_
  norm_num at *; linarith

omit hR in
/-- a number that is the distance of the point at `σ` from the edge's first end, squared and with an error -/
def Away (L : ℝ) (d : Fl R) (z σ : ℝ) : Prop := d = (Ext.fin z : Ext ℝ) ∧ 0 ≤ σ ∧ |z - σ ^ 2 * L ^ 2| ≤ L ^ 2 / 2 ^ 28

theorem away_at {M L : ℝ} (hM : Small M) {E : Edge ℝ} (hE : Edgy M E L) {p0 : V3 (Fl R)} (h0 : At M E p0 0) {x : V3 (Fl R)} {σ : ℝ} (hx : At M E x σ) :
    ∃ z, Away L (p0 - x).sqNorm z σ := by
  obtain ⟨z, h1, h2⟩ := dist_at hR hM hE h0 hx
  rw [zero_sub, neg_sq] at h2
  exact ⟨z, h1, hx.1, h2⟩

omit hR in
theorem away_le {L : ℝ} (hL : 0 < L) {c d : Fl R} {y z σ τ : ℝ} (h1 : Away L c y σ) (h2 : Away L d z τ) (h : y ≤ z) : σ ≤ τ + 1 / 2 ^ 13 := by
  obtain ⟨-, s0, k1⟩ := h1
  obtain ⟨-, t0, k2⟩ := h2
  have hQ : 0 < L ^ 2 := by positivity
  by_contra hcon
  push Not at hcon
  have : (τ + 1 / 2 ^ 13) ^ 2 ≤ σ ^ 2 := pow_le_pow_left₀ (by positivity) hcon.le 2
  have e : τ ^ 2 + 1 / 2 ^ 26 ≤ σ ^ 2 := by
    refine le_trans ?_ this
    norm_num; nlinarith
  have := mul_le_mul_of_nonneg_right e hQ.le
  rw [abs_le] at k1 k2
  generalize L ^ 2 = Q at *
  norm_num at *
  nlinarith

omit hR in
theorem away_lt {L : ℝ} (hL : 0 < L) {c d : Fl R} {y z σ τ : ℝ} (h1 : Away L c y σ) (h2 : Away L d z τ) (h : σ + 1 / 2 ^ 13 ≤ τ) : FP.lt c d = true := by
  obtain ⟨rfl, s0, k1⟩ := h1
  obtain ⟨rfl, t0, k2⟩ := h2
  have hQ : 0 < L ^ 2 := by positivity
  have : (σ + 1 / 2 ^ 13) ^ 2 ≤ τ ^ 2 := pow_le_pow_left₀ (by positivity) h 2
  have e : σ ^ 2 + 1 / 2 ^ 26 ≤ τ ^ 2 := by
    refine le_trans ?_ this
    norm_num; nlinarith
  have := mul_le_mul_of_nonneg_right e hQ.le
  rw [abs_le] at k1 k2
  apply lt_fin
  generalize L ^ 2 = Q at *
  norm_num at *
  nlinarith

omit hR in
theorem away_fl {L : ℝ} {c d : Fl R} {y z σ τ : ℝ} (h1 : Away L c y σ) (h2 : Away L d z τ) : (FP.lt c d = true ↔ y < z) := by
  rw [h1.1, h2.1]
  show Ext.lt (.fin y) (.fin z) = true ↔ _
  simp [Ext.lt]

omit hR in
/-- the line is part of the edge, from `x` to `y` -/
def PartLine (M : ℝ) (E : Edge ℝ) (l : Line (Fl R)) (x y : ℝ) : Prop := ∃ p q : V3 (Fl R), l = Line.of3 p q ∧ At M E p x ∧ At M E q y

omit hR in
/-- nothing between `x` and `y` belongs to the span -/
def Misses (M : ℝ) (E : Edge ℝ) (x y : ℝ) (h : Edge (Fl R)) : Prop :=
  ∀ u w, At M E h.1 u → At M E h.2 w → w ≤ x + 1 / 2 ^ 13 ∨ y ≤ u + 1 / 2 ^ 13

theorem spanLoop_hidden {M L : ℝ} (hM : Small M) {E : Edge ℝ} (hE : Edgy M E L) {p0 : V3 (Fl R)} (h0 : At M E p0 0) :
    ∀ (hs pre : List (Edge (Fl R))) (frm : V3 (Fl R)) (d : Fl R) (acc : List (Line (Fl R))) (r) (σ zd : ℝ),
    spanLoop p0 hs frm d acc = .ok r → hs.Pairwise (fun a b => FP.lt (p0 - b.1).sqNorm (p0 - a.1).sqNorm = false) →
    (∀ h ∈ hs, ∃ u w, At M E h.1 u ∧ At M E h.2 w) → At M E frm σ → Away L d zd σ →
    (∀ h ∈ pre, ∀ w z, At M E h.2 w → Away L (p0 - h.2).sqNorm z w → z ≤ zd) →
    (∀ l ∈ r.2, l ∈ acc ∨ ∃ x y, PartLine M E l x y ∧ x ≤ y + 1 / 2 ^ 13 ∧ ∀ h ∈ pre ++ hs, Misses M E x y h) ∧
    ∃ x, At M E r.1 x ∧ ∀ h ∈ pre ++ hs, ∀ w, At M E h.2 w → w ≤ x + 1 / 2 ^ 13
  | [], pre, frm, d, acc, r, σ, zd, h, _, _, hf, hd, hpre => by
    have hLp : 0 < L := lt_of_lt_of_le (by have := hM.one; positivity) hE.low
    unfold spanLoop at h; injection h with h; subst h
    refine ⟨fun l hl => Or.inl hl, σ, hf, fun h hh w hw => ?_⟩
    rw [List.append_nil] at hh
    obtain ⟨z, hz⟩ := away_at hR hM hE h0 hw
    exact away_le hLp hz hd (hpre h hh w z hw hz)
  | h :: hs, pre, frm, d, acc, r, σ, zd, hr, hsort, hat, hf, hd, hpre => by
    have hLp : 0 < L := lt_of_lt_of_le (by have := hM.one; positivity) hE.low
    unfold spanLoop at hr
    dsimp only at hr
    obtain ⟨u, w, hu, hw⟩ := hat h (by simp)
    obtain ⟨zu, hzu⟩ := away_at hR hM hE h0 hu
    obtain ⟨zw, hzw⟩ := away_at hR hM hE h0 hw
    rw [List.pairwise_cons] at hsort
    have hline : FP.lt d (p0 - h.1).sqNorm = true → ∃ x y, PartLine M E (Line.of3 frm h.1) x y ∧ x ≤ y + 1 / 2 ^ 13 ∧ ∀ k ∈ pre ++ h :: hs, Misses M E x y k := by
      intro hlt
      refine ⟨σ, u, ⟨frm, h.1, rfl, hf, hu⟩, away_le hLp hd hzu ((away_fl hd hzu).1 hlt).le, ?_⟩
      intro k hk u' w' hu' hw'
      obtain ⟨zu', hzu'⟩ := away_at hR hM hE h0 hu'
      obtain ⟨zw', hzw'⟩ := away_at hR hM hE h0 hw'
      rcases List.mem_append.1 hk with hk | hk
      · left
        exact away_le hLp hzw' hd (hpre k hk w' zw' hw' hzw')
      · right
        refine away_le hLp hzu hzu' ?_
        rcases List.mem_cons.1 hk with rfl | hk
        · have := hzu.1.symm.trans hzu'.1
          injection this with this
          exact this.le
        · by_contra hcon
          push Not at hcon
          have := (away_fl hzu' hzu).2 hcon
          rw [hsort.1 k hk] at this
          cases this
    have split : pre ++ h :: hs = (pre ++ [h]) ++ hs := by simp
    have hpre' : ∀ z', zd ≤ z' → zw ≤ z' → ∀ k ∈ pre ++ [h], ∀ w z, At M E k.2 w → Away L (p0 - k.2).sqNorm z w → z ≤ z' := by
      intro z' h1 h2 k hk w' z hw' hz
      rcases List.mem_append.1 hk with hk | hk
      · exact (hpre k hk w' z hw' hz).trans h1
      · rw [List.mem_singleton] at hk
        subst hk
        have := hzw.1.symm.trans hz.1
        injection this with this
        rw [← this]; exact h2
    have fin : ∀ acc' : List (Line (Fl R)), (∀ l ∈ acc', l ∈ acc ∨ (FP.lt d (p0 - h.1).sqNorm = true ∧ l = Line.of3 frm h.1)) →
        ((∀ l ∈ r.2, l ∈ acc' ∨ ∃ x y, PartLine M E l x y ∧ x ≤ y + 1 / 2 ^ 13 ∧ ∀ k ∈ (pre ++ [h]) ++ hs, Misses M E x y k) ∧
          ∃ x, At M E r.1 x ∧ ∀ k ∈ (pre ++ [h]) ++ hs, ∀ w, At M E k.2 w → w ≤ x + 1 / 2 ^ 13) →
        ((∀ l ∈ r.2, l ∈ acc ∨ ∃ x y, PartLine M E l x y ∧ x ≤ y + 1 / 2 ^ 13 ∧ ∀ k ∈ pre ++ h :: hs, Misses M E x y k) ∧
          ∃ x, At M E r.1 x ∧ ∀ k ∈ pre ++ h :: hs, ∀ w, At M E k.2 w → w ≤ x + 1 / 2 ^ 13) := by
      intro acc' ha ⟨k1, k2⟩
      rw [← split] at k1 k2
      refine ⟨fun l hl => ?_, k2⟩
      rcases k1 l hl with k | k
      · rcases ha l k with k | ⟨k3, rfl⟩
        · exact Or.inl k
        · exact Or.inr (hline k3)
      · exact Or.inr k
    by_cases c1 : FP.lt d (p0 - h.1).sqNorm = true <;> by_cases c2 : FP.lt d (p0 - h.2).sqNorm = true <;>
      simp only [c1, c2, if_true, Bool.false_eq_true, if_false] at hr <;> split_ifs at hr with c3
    · have hlt := (away_fl hd hzw).1 c2
      exact fin _ (by intro l hl; rcases List.mem_append.1 hl with hl | hl; exact Or.inl hl; exact Or.inr ⟨c1, List.mem_singleton.1 hl⟩)
        (spanLoop_hidden hM hE h0 hs (pre ++ [h]) _ _ _ r w zw hr hsort.2 (fun k hk => hat k (by simp [hk])) hw hzw (hpre' zw hlt.le le_rfl))
    · have hlt := mt (away_fl hd hzw).2 c2
      push Not at hlt
      exact fin _ (by intro l hl; rcases List.mem_append.1 hl with hl | hl; exact Or.inl hl; exact Or.inr ⟨c1, List.mem_singleton.1 hl⟩)
        (spanLoop_hidden hM hE h0 hs (pre ++ [h]) _ _ _ r σ zd hr hsort.2 (fun k hk => hat k (by simp [hk])) hf hd (hpre' zd le_rfl hlt))
    · have hlt := (away_fl hd hzw).1 c2
      exact fin _ (fun l hl => Or.inl hl)
        (spanLoop_hidden hM hE h0 hs (pre ++ [h]) _ _ _ r w zw hr hsort.2 (fun k hk => hat k (by simp [hk])) hw hzw (hpre' zw hlt.le le_rfl))
    · have hlt := mt (away_fl hd hzw).2 c2
      push Not at hlt
      exact fin _ (fun l hl => Or.inl hl)
        (spanLoop_hidden hM hE h0 hs (pre ++ [h]) _ _ _ r σ zd hr hsort.2 (fun k hk => hat k (by simp [hk])) hf hd (hpre' zd le_rfl hlt))

theorem spanLoop_visible {M L : ℝ} (hM : Small M) {E : Edge ℝ} (hE : Edgy M E L) {p0 : V3 (Fl R)} (h0 : At M E p0 0) {s : ℝ} :
    ∀ (hs : List (Edge (Fl R))) (frm : V3 (Fl R)) (d : Fl R) (acc : List (Line (Fl R))) (r) (σ zd : ℝ),
    spanLoop p0 hs frm d acc = .ok r →
    (∀ h ∈ hs, ∃ u w, At M E h.1 u ∧ At M E h.2 w ∧ (s + 1 / 2 ^ 13 ≤ u ∨ w + 1 / 2 ^ 13 ≤ s)) → At M E frm σ → Away L d zd σ → σ + 1 / 2 ^ 13 ≤ s →
    (∃ l ∈ r.2, ∃ x y, PartLine M E l x y ∧ x ≤ s ∧ s ≤ y) ∨ ∃ x, At M E r.1 x ∧ x + 1 / 2 ^ 13 ≤ s
  | [], frm, d, acc, r, σ, zd, h, _, hf, hd, hs => by
    unfold spanLoop at h; injection h with h; subst h
    exact Or.inr ⟨σ, hf, hs⟩
  | h :: hs, frm, d, acc, r, σ, zd, hr, hat, hf, hd, hσ => by
    have hLp : 0 < L := lt_of_lt_of_le (by have := hM.one; positivity) hE.low
    unfold spanLoop at hr
    dsimp only at hr
    obtain ⟨u, w, hu, hw, huw⟩ := hat h (by simp)
    obtain ⟨zu, hzu⟩ := away_at hR hM hE h0 hu
    obtain ⟨zw, hzw⟩ := away_at hR hM hE h0 hw
    have e13 : (0 : ℝ) < 1 / 2 ^ 13 := by positivity
    rcases huw with huw | huw
    · left
      have hlt := away_lt hLp hd hzu (by linarith)
      rw [if_pos hlt] at hr
      split_ifs at hr
      all_goals
        exact ⟨Line.of3 frm h.1, spanLoop_keeps p0 hs _ _ _ r hr _ (by simp), σ, u, ⟨frm, h.1, rfl, hf, hu⟩, by linarith, by linarith⟩
    · by_cases c2 : FP.lt d (p0 - h.2).sqNorm = true <;> simp only [c2, if_true, Bool.false_eq_true, if_false] at hr <;> split_ifs at hr
      · exact spanLoop_visible hM hE h0 hs _ _ _ r w zw hr (fun k hk => hat k (by simp [hk])) hw hzw huw
      · exact spanLoop_visible hM hE h0 hs _ _ _ r w zw hr (fun k hk => hat k (by simp [hk])) hw hzw huw
      · exact spanLoop_visible hM hE h0 hs _ _ _ r σ zd hr (fun k hk => hat k (by simp [hk])) hf hd hσ
      · exact spanLoop_visible hM hE h0 hs _ _ _ r σ zd hr (fun k hk => hat k (by simp [hk])) hf hd hσ

/-- the lines drawn for one edge -/
theorem edgeLines_parts {M L : ℝ} (hM : Small M) {E : Edge ℝ} (hE : Edgy M E L) {p : Edge (Fl R)} (h0 : At M E p.1 0) (h1 : At M E p.2 1) (hs : List (Edge (Fl R)))
    (hsort : hs.Pairwise (fun a b => FP.lt (p.1 - b.1).sqNorm (p.1 - a.1).sqNorm = false)) (hat : ∀ h ∈ hs, ∃ u w, At M E h.1 u ∧ At M E h.2 w) (r)
    (h : edgeLines (FP.lit 0) p hs = .ok r) :
    (∀ l ∈ r, ∃ x y, PartLine M E l x y ∧ x ≤ y + 1 / 2 ^ 13 ∧ ∀ h ∈ hs, Misses M E x y h) ∧
    ∀ s, 1 / 2 ^ 13 ≤ s → s ≤ 1 - 1 / 2 ^ 13 → (∀ h ∈ hs, ∃ u w, At M E h.1 u ∧ At M E h.2 w ∧ (s + 1 / 2 ^ 13 ≤ u ∨ w + 1 / 2 ^ 13 ≤ s)) →
      ∃ l ∈ r, ∃ x y, PartLine M E l x y ∧ x ≤ s ∧ s ≤ y := by
  have hLp : 0 < L := lt_of_lt_of_le (by have := hM.one; positivity) hE.low
  unfold edgeLines at h
  cases hl : spanLoop p.1 hs p.1 (FP.lit 0) [] with
  | error a => rw [hl] at h; cases h
  | ok x =>
    rw [hl] at h
    have hd0 : Away L (FP.lit 0 : Fl R) 0 0 := ⟨lit_zero R, le_rfl, by simp; positivity⟩
    dsimp only [bind, Except.bind, pure, Except.pure] at h
    constructor
    · obtain ⟨k1, y, ky, k2⟩ := spanLoop_hidden hR hM hE h0 hs [] _ _ _ x 0 0 hl hsort hat h0 hd0 (by simp)
      rw [List.nil_append] at k1 k2
      have k1' : ∀ l ∈ x.2, ∃ x y, PartLine M E l x y ∧ x ≤ y + 1 / 2 ^ 13 ∧ ∀ h ∈ hs, Misses M E x y h := by
        intro l hl
        rcases k1 l hl with k | k
        · simp at k
        · exact k
      split_ifs at h
      · injection h with h; subst h
        intro l hl
        rcases List.mem_append.1 hl with hl | hl
        · exact k1' l hl
        · rw [List.mem_singleton] at hl
          refine ⟨y, 1, ⟨_, _, hl, ky, h1⟩, by have := ky.2.1; norm_num; linarith, fun k hk u w hu hw => Or.inl (k2 k hk w hw)⟩
      · injection h with h; subst h
        exact k1'
    · intro s s0 s1 hclear
      rcases spanLoop_visible hR hM hE h0 hs _ _ _ x 0 0 hl hclear h0 hd0 (by linarith) with ⟨l, hl, k⟩ | ⟨y, ky, hy⟩
      · split_ifs at h
        · injection h with h; subst h; exact ⟨l, by simp [hl], k⟩
        · injection h with h; subst h; exact ⟨l, hl, k⟩
      · obtain ⟨n, e, hn2⟩ := dist_at hR hM hE ky h1
        have hn : 0 < n := by
          have hQ : 0 < L ^ 2 := by positivity
          have : (1 / 2 ^ 12) ^ 2 ≤ (1 - y) ^ 2 := pow_le_pow_left₀ (by positivity) (by norm_num at *; linarith) 2
          have := mul_le_mul_of_nonneg_right this hQ.le
          rw [abs_le] at hn2
          rw [show (y - 1) ^ 2 = (1 - y) ^ 2 by ring] at hn2
          generalize L ^ 2 = Q at *
          generalize (1 - y) ^ 2 * Q = T at *
          norm_num at *
          linarith
        have hz : (FP.lit 0 * FP.lit 0 : Fl R) = (Ext.fin 0 : Ext ℝ) := by
          rw [lit_zero]
          show R.fix (Ext.mul (.fin 0) (.fin 0)) = _
          simp only [Ext.mul, mul_zero, fix_zero]
        have hlt : FP.lt (FP.lit 0 * FP.lit 0 : Fl R) (x.1 - p.2).sqNorm = true := by
          rw [e, hz]; exact lt_fin hn
        rw [if_pos hlt] at h
        injection h with h; subst h
        refine ⟨Line.of3 x.1 p.2, by simp, y, 1, ⟨_, _, rfl, ky, h1⟩, by norm_num at *; linarith, by norm_num at *; linarith⟩

end
end S2P
