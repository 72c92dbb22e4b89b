import Verif.Lemmas.ClearFace
import Verif.Spec.Span

set_option linter.unusedSectionVars false
set_option linter.unusedVariables false
set_option linter.unusedSimpArgs false

/-! # Edges partly hidden, in rounded arithmetic: crossings that are found, ends that are behind -/

namespace S2P

section
variable {R : Rounding} (hR : R.Accurate)
include hR

/-- a quotient that lies well between 0 and 1 is found to lie between 0 and 1 -/
theorem quot_in {M : ℝ} (hM : Small M) {n d : Fl R} {N D : ℝ} (hn : Fl.Near n N (M ^ 2 / 2 ^ 40)) (hd : Fl.Near d D (M ^ 2 / 2 ^ 40))
    (hD1 : |D| ≤ 128 * M ^ 2) (hκ : M ^ 2 / 2 ^ 15 ≤ |D|) (h0 : 1 / 2 ^ 20 ≤ N / D) (h1 : N / D ≤ 1 - 1 / 2 ^ 20) :
    ∃ t : ℝ, n * (FP.lit 1 / d) = (Ext.fin t : Ext ℝ) ∧ 0 ≤ t ∧ t ≤ 1 := by
  obtain ⟨s1, s2, s3⟩ := hM.sq
  generalize M ^ 2 = Q at *
  obtain ⟨N', rfl, hN'⟩ := hn
  obtain ⟨D', rfl, hD'⟩ := hd
  have hDD : |D| - Q / 2 ^ 40 ≤ |D'| := by
    have := abs_add_le (D - D') D'
    rw [sub_add_cancel, abs_sub_comm] at this
    linarith
  have hDu : |D'| ≤ |D| + Q / 2 ^ 40 := by
    have := abs_add_le (D' - D) D
    rw [sub_add_cancel] at this
    linarith
  have hD0 : D' ≠ 0 := by rintro rfl; simp at hDD; norm_num at hDD hκ s1; linarith
  have hDz : D ≠ 0 := by rintro rfl; simp at hκ; norm_num at hκ s1; linarith
  have hD'p := abs_pos.2 hD0
  have herr := recip_err hR hD0 (by norm_num at *; linarith)
  have e1 : (Ext.div (.fin 1) (.fin D') : Ext ℝ) = .fin (1 / D') := by simp [Ext.div, hD0]
  have hfin : ∃ q, R.fix (.fin (1 / D')) = .fin q := by
    have : |1 / D'| ≤ 2 ^ 16 := by
      rw [abs_div, abs_one, div_le_iff₀ hD'p]
      norm_num at hDD hκ s1 ⊢; linarith
    obtain ⟨a, ha, -⟩ := fix_bd R (n := 16) (by norm_num) this
    exact ⟨a, ha⟩
  obtain ⟨q, hq⟩ := hfin
  obtain ⟨rfl, -⟩ := overflow_of_fin (a := q) (t := 2 ^ 1024) hq
  set q := R.rnd (1 / D') with hqd
  have b3 : |N' / D' - N / D| ≤ 1 / 2 ^ 22 := by
    have e : N' / D' - N / D = ((N' - N) - N / D * (D' - D)) / D' := by field_simp; ring
    rw [e, abs_div, div_le_iff₀ hD'p]
    refine (abs_sub _ _).trans ?_
    rw [abs_mul]
    have hb : |N / D| ≤ 1 := by rw [abs_le]; norm_num at *; constructor <;> linarith
    have := mul_le_mul hb hD' (abs_nonneg _) (by norm_num)
    norm_num at *
    linarith
  have hqN : |N' * q - N' / D'| ≤ |N' / D'| / 2 ^ 51 := by
    rw [show N' * q - N' / D' = N' * (q - 1 / D') by ring, abs_mul, show N' / D' = N' * (1 / D') by ring, abs_mul, mul_div_assoc]
    exact mul_le_mul_of_nonneg_left herr (abs_nonneg _)
  have b3' := abs_le.1 b3
  have p1 : 0 < N' / D' := by norm_num at *; linarith
  rw [abs_of_pos p1] at hqN
  have hqN' := abs_le.1 hqN
  have p2 : 0 < N' * q := by norm_num at *; linarith
  have p3 : N' * q ≤ 1 := by norm_num at *; linarith
  obtain ⟨t, ht, -⟩ := fix_bd R (n := 0) (x := N' * q) (by norm_num) (by rw [abs_of_pos p2]; simpa using p3)
  refine ⟨t, ?_, ?_⟩
  · rw [lit_one_fl]
    change R.fix (Ext.mul (.fin N') (R.fix (Ext.div (.fin 1) (.fin D')))) = .fin t
    rw [e1, hq]
    exact ht
  obtain ⟨rfl, -⟩ := overflow_of_fin (a := t) (t := 2 ^ 1024) ht
  have hrr := hR.err (N' * q)
  rw [abs_of_pos p2, abs_le] at hrr
  norm_num at *
  constructor <;> linarith

omit hR in
theorem le_fin {x y : ℝ} (h : x ≤ y) : FP.le (show Fl R from (Ext.fin x : Ext ℝ)) (show Fl R from (Ext.fin y : Ext ℝ)) = true := by
  show Ext.le (.fin x) (.fin y) = true
  simp [Ext.le, h]

omit hR in
theorem lt_fin {x y : ℝ} (h : x < y) : FP.lt (show Fl R from (Ext.fin x : Ext ℝ)) (show Fl R from (Ext.fin y : Ext ℝ)) = true := by
  show Ext.lt (.fin x) (.fin y) = true
  simp [Ext.lt, h]

omit hR in
theorem le_of_near {p q : Fl R} {a b ε δ : ℝ} (hp : Fl.Near p a ε) (hq : Fl.Near q b δ) (h : a + ε ≤ b - δ) : FP.le p q = true := by
  obtain ⟨x, rfl, hx⟩ := hp
  obtain ⟨y, rfl, hy⟩ := hq
  rw [abs_le] at hx hy
  exact le_fin (by linarith)

omit hR in
theorem cramer {E F : Edge ℝ} {s t : ℝ} (h : (edgeAt E s).xy = (edgeAt F t).xy) :
    s * slant E.1 E.2 F.1 F.2 = (F.1.x - E.1.x) * (F.2.y - F.1.y) - (F.1.y - E.1.y) * (F.2.x - F.1.x) ∧
    t * slant E.1 E.2 F.1 F.2 = (F.1.x - E.1.x) * (E.2.y - E.1.y) - (F.1.y - E.1.y) * (E.2.x - E.1.x) := by
  simp only [edgeAt, V3.smul, V3.xy, V2.mk.injEq, V3.add_x, V3.add_y, V3.sub_x, V3.sub_y] at h
  unfold slant
  constructor
  · linear_combination (F.2.y - F.1.y) * h.1 - (F.2.x - F.1.x) * h.2
  · linear_combination (E.2.y - E.1.y) * h.1 - (E.2.x - E.1.x) * h.2

/-- edges that cross on the page, one well above the other, are found to cross -/
theorem crossPair_hit {M : ℝ} (hM : Small M) {v u : Nat} {ev eu : Edge (Fl R)} {E F : Edge ℝ} (a1 : Exact ev.1 E.1 M) (a2 : Exact ev.2 E.2 M)
    (a3 : Exact eu.1 F.1 M) (a4 : Exact eu.2 F.2 M) {s t : ℝ} (hκ : M ^ 2 / 2 ^ 15 ≤ |slant E.1 E.2 F.1 F.2|) (s0 : 1 / 2 ^ 20 ≤ s) (s1 : s ≤ 1 - 1 / 2 ^ 20)
    (t0 : 1 / 2 ^ 20 ≤ t) (t1 : t ≤ 1 - 1 / 2 ^ 20) (hst : (edgeAt E s).xy = (edgeAt F t).xy) :
    ((edgeAt E s).z + M / 2 ^ 13 ≤ (edgeAt F t).z → ∃ p, (v, u, p) ∈ crossPair v u ev eu) ∧
    ((edgeAt F t).z + M / 2 ^ 13 ≤ (edgeAt E s).z → ∃ p, (u, v, p) ∈ crossPair v u ev eu) := by
  have h1M := hM.one
  obtain ⟨⟨x1, y1, z1⟩, ⟨wx1, wy1, wz1⟩⟩ := a1
  obtain ⟨⟨x2, y2, z2⟩, ⟨wx2, wy2, wz2⟩⟩ := a2
  obtain ⟨⟨x3, y3, z3⟩, ⟨wx3, wy3, wz3⟩⟩ := a3
  obtain ⟨⟨x4, y4, z4⟩, ⟨wx4, wy4, wz4⟩⟩ := a4
  obtain ⟨dvx, bvx⟩ := diff_near hR hM x2 x1 wx2 wx1
  obtain ⟨dvy, bvy⟩ := diff_near hR hM y2 y1 wy2 wy1
  obtain ⟨dux, bux⟩ := diff_near hR hM x4 x3 wx4 wx3
  obtain ⟨duy, buy⟩ := diff_near hR hM y4 y3 wy4 wy3
  obtain ⟨dx, bx⟩ := diff_near hR hM x3 x1 wx3 wx1
  obtain ⟨dy, by'⟩ := diff_near hR hM y3 y1 wy3 wy1
  obtain ⟨⟨hD, -⟩, bD, -⟩ := cross_near hR hM dux dvy dvx duy bux bvy bvx buy
  obtain ⟨⟨-, hJ⟩, -, bJ⟩ := cross_near hR hM duy dx dux dy buy bx bux by'
  obtain ⟨⟨-, hI⟩, -, bI⟩ := cross_near hR hM dvy dx dvx dy bvy bx bvx by'
  have e : (F.2.x - F.1.x) * (E.2.y - E.1.y) - (E.2.x - E.1.x) * (F.2.y - F.1.y) = - slant E.1 E.2 F.1 F.2 := by unfold slant; ring
  have hD0 : slant E.1 E.2 F.1 F.2 ≠ 0 := by
    intro h0
    rw [h0, abs_zero] at hκ
    have := hM.sq.1
    norm_num at hκ
    nlinarith [hM.one]
  obtain ⟨c1, c2⟩ := cramer hst
  have hκ' : M ^ 2 / 2 ^ 15 ≤ |(F.2.x - F.1.x) * (E.2.y - E.1.y) - (E.2.x - E.1.x) * (F.2.y - F.1.y)| := by rw [e, abs_neg]; exact hκ
  have qj : (-(F.2.y - F.1.y) * (F.1.x - E.1.x) + (F.2.x - F.1.x) * (F.1.y - E.1.y)) / ((F.2.x - F.1.x) * (E.2.y - E.1.y) - (E.2.x - E.1.x) * (F.2.y - F.1.y)) = s := by
    rw [e, div_eq_iff (neg_ne_zero.2 hD0)]
    linarith
  have qi : (-(E.2.y - E.1.y) * (F.1.x - E.1.x) + (E.2.x - E.1.x) * (F.1.y - E.1.y)) / ((F.2.x - F.1.x) * (E.2.y - E.1.y) - (E.2.x - E.1.x) * (F.2.y - F.1.y)) = t := by
    rw [e, div_eq_iff (neg_ne_zero.2 hD0)]
    linarith
  obtain ⟨j, hj, hj0, hj1⟩ := quot_in hR hM hJ hD bD hκ' (by rw [qj]; exact s0) (by rw [qj]; exact s1)
  obtain ⟨i, hi, hi0, hi1⟩ := quot_in hR hM hI hD bD hκ' (by rw [qi]; exact t0) (by rw [qi]; exact t1)
  have nj := quot_near hR hM hJ hD bD bJ hκ' hj hj0 hj1
  have ni := quot_near hR hM hI hD bD bI hκ' hi hi0 hi1
  rw [qj] at nj
  rw [qi] at ni
  have zv := point_near hR hM z1 z2 hj wz1 wz2 hj0 hj1
  have zu := point_near hR hM z3 z4 hi wz3 wz4 hi0 hi1
  have go : ∀ {a b u u0 : ℝ}, |a| ≤ 4 * M → |b| ≤ 4 * M → |u - u0| ≤ 1 / 2 ^ 22 → |(b - a) * u - (b - a) * u0| ≤ M / 2 ^ 19 := by
    intro a b u u0 ha hb hu
    have hd : |b - a| ≤ 8 * M := (abs_sub b a).trans (by linarith)
    rw [← mul_sub, abs_mul]
    have := mul_le_mul hd hu (abs_nonneg _) (by linarith)
    norm_num at *
    linarith
  have g1 := abs_le.1 (go wz1 wz2 nj)
  have g2 := abs_le.1 (go wz3 wz4 ni)
  have hin : (FP.le (FP.lit 0) ((-(ev.2 - ev.1).y * (eu.1.x - ev.1.x) + (ev.2 - ev.1).x * (eu.1.y - ev.1.y)) *
        (FP.lit 1 / ((eu.2 - eu.1).x * (ev.2 - ev.1).y - (ev.2 - ev.1).x * (eu.2 - eu.1).y))) &&
      FP.le ((-(ev.2 - ev.1).y * (eu.1.x - ev.1.x) + (ev.2 - ev.1).x * (eu.1.y - ev.1.y)) *
        (FP.lit 1 / ((eu.2 - eu.1).x * (ev.2 - ev.1).y - (ev.2 - ev.1).x * (eu.2 - eu.1).y))) (FP.lit 1) &&
      FP.le (FP.lit 0) ((-(eu.2 - eu.1).y * (eu.1.x - ev.1.x) + (eu.2 - eu.1).x * (eu.1.y - ev.1.y)) *
        (FP.lit 1 / ((eu.2 - eu.1).x * (ev.2 - ev.1).y - (ev.2 - ev.1).x * (eu.2 - eu.1).y))) &&
      FP.le ((-(eu.2 - eu.1).y * (eu.1.x - ev.1.x) + (eu.2 - eu.1).x * (eu.1.y - ev.1.y)) *
        (FP.lit 1 / ((eu.2 - eu.1).x * (ev.2 - ev.1).y - (ev.2 - ev.1).x * (eu.2 - eu.1).y))) (FP.lit 1)) = true := by
    have hj' : (-(eu.2 - eu.1).y * (eu.1.x - ev.1.x) + (eu.2 - eu.1).x * (eu.1.y - ev.1.y)) *
        (FP.lit 1 / ((eu.2 - eu.1).x * (ev.2 - ev.1).y - (ev.2 - ev.1).x * (eu.2 - eu.1).y)) = (Ext.fin j : Ext ℝ) := hj
    have hi' : (-(ev.2 - ev.1).y * (eu.1.x - ev.1.x) + (ev.2 - ev.1).x * (eu.1.y - ev.1.y)) *
        (FP.lit 1 / ((eu.2 - eu.1).x * (ev.2 - ev.1).y - (ev.2 - ev.1).x * (eu.2 - eu.1).y)) = (Ext.fin i : Ext ℝ) := hi
    rw [hj', hi', lit_zero, lit_one_fl]
    simp only [Bool.and_eq_true]
    exact ⟨⟨⟨le_fin hi0, le_fin hi1⟩, le_fin hj0⟩, le_fin hj1⟩
  simp only [edgeAt, V3.smul, V3.add_z, V3.sub_z]
  constructor
  · intro hz
    unfold crossPair
    dsimp only
    rw [if_pos hin]
    have hle : FP.le (ev.1 + (ev.2 - ev.1).smul ((-(eu.2 - eu.1).y * (eu.1.x - ev.1.x) + (eu.2 - eu.1).x * (eu.1.y - ev.1.y)) *
        (FP.lit 1 / ((eu.2 - eu.1).x * (ev.2 - ev.1).y - (ev.2 - ev.1).x * (eu.2 - eu.1).y)))).z
        (eu.1 + (eu.2 - eu.1).smul ((-(ev.2 - ev.1).y * (eu.1.x - ev.1.x) + (ev.2 - ev.1).x * (eu.1.y - ev.1.y)) *
        (FP.lit 1 / ((eu.2 - eu.1).x * (ev.2 - ev.1).y - (ev.2 - ev.1).x * (eu.2 - eu.1).y)))).z = true := by
      exact le_of_near zv zu (by norm_num at *; linarith)
    rw [if_pos hle]
    exact ⟨_, List.mem_append_right _ (List.mem_singleton.2 rfl)⟩
  · intro hz
    unfold crossPair
    dsimp only
    rw [if_pos hin]
    have hle : FP.le (eu.1 + (eu.2 - eu.1).smul ((-(ev.2 - ev.1).y * (eu.1.x - ev.1.x) + (ev.2 - ev.1).x * (eu.1.y - ev.1.y)) *
        (FP.lit 1 / ((eu.2 - eu.1).x * (ev.2 - ev.1).y - (ev.2 - ev.1).x * (eu.2 - eu.1).y)))).z
        (ev.1 + (ev.2 - ev.1).smul ((-(eu.2 - eu.1).y * (eu.1.x - ev.1.x) + (eu.2 - eu.1).x * (eu.1.y - ev.1.y)) *
        (FP.lit 1 / ((eu.2 - eu.1).x * (ev.2 - ev.1).y - (ev.2 - ev.1).x * (eu.2 - eu.1).y)))).z = true := by
      exact le_of_near zu zv (by norm_num at *; linarith)
    rw [if_pos hle]
    exact ⟨_, List.mem_append_left _ (List.mem_singleton.2 rfl)⟩

/-! ## Ends behind a face -/

theorem inside_near {M : ℝ} (hM : Small M) {a b p : V3 (Fl R)} {A B P : V3 ℝ} (ha : Exact a A M) (hb : Exact b B M) (hp : Exact p P M)
    (h : M ^ 2 / 2 ^ 31 ≤ leftOf A B P) : FP.le (FP.lit 0) ((b - a).x * (p - a).y - (b - a).y * (p - a).x : Fl R) = true := by
  obtain ⟨d1, c1⟩ := diff_near hR hM hb.1.1 ha.1.1 hb.2.1 ha.2.1
  obtain ⟨d2, c2⟩ := diff_near hR hM hb.1.2.1 ha.1.2.1 hb.2.2.1 ha.2.2.1
  obtain ⟨d3, c3⟩ := diff_near hR hM hp.1.1 ha.1.1 hp.2.1 ha.2.1
  obtain ⟨d4, c4⟩ := diff_near hR hM hp.1.2.1 ha.1.2.1 hp.2.2.1 ha.2.2.1
  obtain ⟨⟨⟨x, hx, hx2⟩, -⟩, -⟩ := cross_near hR hM d1 d4 d2 d3 c1 c4 c2 c3
  change (b - a).x * (p - a).y - (b - a).y * (p - a).x = _ at hx
  rw [hx, lit_zero]
  have h1 := hM.sq.1
  unfold leftOf at h
  generalize M ^ 2 = Q at *
  rw [abs_le] at hx2
  apply le_fin
  norm_num at *; linarith

theorem behind_true {M : ℝ} (hM : Small M) {f : Facet (Fl R)} (hf : FacetExact M f) {p : V3 (Fl R)} {P : V3 ℝ} (hp : Exact p P M)
    (h : BehindBy (M ^ 2 / 2 ^ 31) (M / 2 ^ 13) f.val P) : behind f p = true := by
  have h1 := hM.one
  obtain ⟨k1, k2, k3, k4⟩ := h
  unfold behind
  simp only [Bool.and_eq_true]
  refine ⟨⟨⟨?_, inside_near hR hM hf.a hf.b hp k2⟩, inside_near hR hM hf.b hf.c hp k3⟩, inside_near hR hM hf.c hf.a hp k4⟩
  obtain ⟨x, hx, hx2⟩ := dot_near hR hM hp hf.n
  obtain ⟨r, hr, hr2⟩ := hf.r
  rw [hx, hr]
  rw [abs_le] at hx2 hr2
  apply lt_fin
  norm_num at *; linarith

end
end S2P
