import Verif.Spec.DimLines
import Verif.Lemmas.Numbers
import Verif.Props.Labels

set_option linter.unusedSectionVars false
set_option linter.unusedVariables false
set_option linter.unusedSimpArgs false

/-! # The strokes of a linear dimension -/

namespace S2P

theorem leaves_exists (w h : ℝ) (hw : 0 < w) (hh : 0 < h) (e : V2 ℝ) (he : e.x ^ 2 + e.y ^ 2 = 1) : ∃ g, Leaves w h e g := by
  by_cases hx : e.x = 0
  · have hy : e.y ≠ 0 := by intro h; rw [hx, h] at he; norm_num at he
    have : 0 < |e.y| := abs_pos.mpr hy
    refine ⟨h / |e.y|, by positivity, by rw [hx]; simp [hw.le], le_of_eq (by field_simp), Or.inr (by field_simp)⟩
  · have px : 0 < |e.x| := abs_pos.mpr hx
    by_cases hy : e.y = 0
    · refine ⟨w / |e.x|, by positivity, le_of_eq (by field_simp), by rw [hy]; simp [hh.le], Or.inl (by field_simp)⟩
    · have py : 0 < |e.y| := abs_pos.mpr hy
      rcases le_total (w / |e.x|) (h / |e.y|) with hc | hc
      · refine ⟨w / |e.x|, by positivity, le_of_eq (by field_simp), ?_, Or.inl (by field_simp)⟩
        have := mul_le_mul_of_nonneg_left hc py.le
        rwa [mul_div_cancel₀ _ py.ne'] at this
      · refine ⟨h / |e.y|, by positivity, ?_, le_of_eq (by field_simp), Or.inr (by field_simp)⟩
        have := mul_le_mul_of_nonneg_left hc px.le
        rwa [mul_div_cancel₀ _ px.ne'] at this

theorem gap_real (w h : ℝ) (hw : 0 < w) (hh : 0 < h) (e : V2 ℝ) (s g : ℝ) (hs : 0 < s) (hg : Leaves w h e g) :
    (FP.min (FP.abs (Ext.fin w / Ext.fin (e.x / s))) (FP.abs (Ext.fin h / Ext.fin (e.y / s))) / Ext.fin s : Ext ℝ) = .fin g := by
  obtain ⟨g0, g1, g2, g3⟩ := hg
  have hq : ∀ q : ℝ, q / s = g ↔ q = g * s := fun q => div_eq_iff hs.ne'
  have ha : ∀ w x : ℝ, 0 < w → x ≠ 0 → |w / (x / s)| = w / |x| * s := by
    intro w x hw hx
    rw [abs_div, abs_div, abs_of_pos hw, abs_of_pos hs]
    have := abs_pos.mpr hx
    field_simp
  have hi : ∀ w : ℝ, 0 < w → FP.abs (Ext.fin w / Ext.fin (0 / s)) = (Ext.pinf : Ext ℝ) := by
    intro w hw
    rw [zero_div, Ext.fin_div_zero]; simp [Ext.infSign, hw, hw.ne', FP.abs, FP.lt, Ext.lt]
  by_cases hx : e.x = 0
  · have hy : e.y ≠ 0 := by
      intro h; rw [hx, h] at g3; simp at g3; rcases g3 with g3 | g3 <;> linarith
    have py := abs_pos.mpr hy
    have g3' : |e.y| * g = h := by
      rcases g3 with g3 | g3
      · rw [hx] at g3; simp at g3; linarith
      · exact g3
    rw [hx, hi w hw, Ext.fin_div _ _ (div_ne_zero hy hs.ne'), fin_abs, ha h _ hh hy]
    simp only [FP.min, FP.lt, Ext.lt, if_true]
    rw [Ext.fin_div _ _ hs.ne', Ext.fin_inj, ← g3']
    field_simp
  · have px := abs_pos.mpr hx
    rw [Ext.fin_div _ _ (div_ne_zero hx hs.ne'), fin_abs, ha w _ hw hx]
    by_cases hy : e.y = 0
    · have g3' : |e.x| * g = w := by
        rcases g3 with g3 | g3
        · exact g3
        · rw [hy] at g3; simp at g3; linarith
      rw [hy, hi h hh]
      simp only [FP.min, FP.lt, Ext.lt, Bool.false_eq_true, if_false]
      rw [Ext.fin_div _ _ hs.ne', Ext.fin_inj, ← g3']
      field_simp
    · have py := abs_pos.mpr hy
      rw [Ext.fin_div _ _ (div_ne_zero hy hs.ne'), fin_abs, ha h _ hh hy, Ext.fin_min, Ext.fin_div _ _ hs.ne', Ext.fin_inj]
      have k1 : g ≤ w / |e.x| := by rw [le_div_iff₀ px]; linarith
      have k2 : g ≤ h / |e.y| := by rw [le_div_iff₀ py]; linarith
      have m1 := mul_le_mul_of_nonneg_right k1 hs.le
      have m2 := mul_le_mul_of_nonneg_right k2 hs.le
      rw [div_eq_iff hs.ne']
      rcases g3 with g3 | g3
      · have : w / |e.x| * s = g * s := by rw [← g3]; field_simp
        rw [this] at m1 ⊢
        exact min_eq_left m2
      · have : h / |e.y| * s = g * s := by rw [← g3]; field_simp
        rw [this] at m2 ⊢
        exact min_eq_right m1

/-- everything in the view's coordinates -/
theorem dimItems_strokes (gm : Ext ℝ → Str) (s : ℝ) (hs : 0 < s) (d : V2 ℝ) (a n f t f' t' : V3 ℝ) (e : V2 ℝ) (D g : ℝ)
    (hf : a + n.smul (n.dot (f - a)) = f') (ht : a + n.smul (n.dot (t - a)) = t') (he : e.x ^ 2 + e.y ^ 2 = 1) (hD : 0 < D)
    (hx : (t'.x - f'.x) * s = e.x * D) (hy : (t'.y - f'.y) * s = e.y * D)
    (hg : Leaves (labelW (gm (.fin (len3 (t' - f')))).length) labelH e g) :
    (((dimItems gm (.fin s) a.fin n.fin f.fin t.fin).moved (.fin s) d.fin).lines) =
      (dimStrokes (g * 2 < len3 (t' - f') * s) g ⟨a.x * s + d.x, a.y * s + d.y⟩ ⟨f.x * s + d.x, f.y * s + d.y⟩ ⟨t.x * s + d.x, t.y * s + d.y⟩
        ⟨f'.x * s + d.x, f'.y * s + d.y⟩ ⟨t'.x * s + d.x, t'.y * s + d.y⟩ e).map (fun l => (⟨l.o.fin, l.t.fin⟩ : Line (Ext ℝ))) := by
  have hs0 := hs.ne'
  have eF : (a.fin + n.fin.smul (n.fin.dot (f.fin - a.fin)) : V3 (Ext ℝ)) = f'.fin := by
    rw [V3.fin_sub, V3.fin_dot, V3.fin_smul, V3.fin_add, hf]
  have eT : (a.fin + n.fin.smul (n.fin.dot (t.fin - a.fin)) : V3 (Ext ℝ)) = t'.fin := by
    rw [V3.fin_sub, V3.fin_dot, V3.fin_smul, V3.fin_add, ht]
  have ha : ((⟨(t'.fin - f'.fin).x, (t'.fin - f'.fin).y, FP.lit 0⟩ : V3 (Ext ℝ)).normalized.sdiv (.fin s)) = V3.fin ⟨e.x / s, e.y / s, 0⟩ := by
    have hne : (⟨t'.x - f'.x, t'.y - f'.y, 0⟩ : V3 ℝ) ≠ ⟨0, 0, 0⟩ := by
      intro h
      injection h with h1 h2 _
      rw [h1, zero_mul] at hx; rw [h2, zero_mul] at hy
      have e1 : e.x = 0 := by rcases mul_eq_zero.mp hx.symm with h | h; exact h; exact absurd h hD.ne'
      have e2 : e.y = 0 := by rcases mul_eq_zero.mp hy.symm with h | h; exact h; exact absurd h hD.ne'
      rw [e1, e2] at he; norm_num at he
    have hx' : t'.x - f'.x = e.x * (D / s) := by field_simp; linarith
    have hy' : t'.y - f'.y = e.y * (D / s) := by field_simp; linarith
    have hl : len3 ⟨t'.x - f'.x, t'.y - f'.y, 0⟩ = D / s := by
      unfold len3
      rw [hx', hy']
      rw [show (e.x * (D / s)) ^ 2 + (e.y * (D / s)) ^ 2 + (0:ℝ) ^ 2 = (D / s) ^ 2 by linear_combination (D / s) ^ 2 * he]
      exact Real.sqrt_sq (by positivity)
    have h1 : ((⟨(t'.fin - f'.fin).x, (t'.fin - f'.fin).y, FP.lit 0⟩ : V3 (Ext ℝ))) = V3.fin ⟨t'.x - f'.x, t'.y - f'.y, 0⟩ := by
      rw [V3.fin_sub]; simp [V3.map]
    rw [h1, normalized_real hne, hl, V3.fin_sdiv _ _ hs0]
    congr 1
    ext
    · simp only [V3.sdiv]; rw [hx']; field_simp
    · simp only [V3.sdiv]; rw [hy']; field_simp
    · simp [V3.sdiv]
  have hn : ((t'.fin - f'.fin).norm : Ext ℝ) = .fin (len3 (t' - f')) := by rw [V3.fin_sub, norm_real]
  have hgap : (FP.min (FP.abs ((FP.lit kFontSize * FP.lit (3 / 10) * FP.lit ((gm (.fin (len3 (t' - f')))).length) + FP.lit 1) / Ext.fin (e.x / s)))
      (FP.abs ((FP.lit kFontSize * FP.lit (333 / 1000) + FP.lit 1) / Ext.fin (e.y / s))) / Ext.fin s : Ext ℝ) = .fin g := by
    have := gap_real _ _ (by unfold labelW; positivity) (by unfold labelH; norm_num) e s g hs hg
    rw [← this]
    simp only [labelW, labelH, kFontSize, Ext.lit_eq, Ext.fin_mul, Ext.fin_add]
    norm_num
  have hsf : ∀ p : V3 ℝ, (if FP.lt (FP.lit 0 : Ext ℝ) ((p.fin - a.fin).dot ⟨-(Ext.fin (e.y / s)), Ext.fin (e.x / s), FP.lit 0⟩) then (FP.lit 1 : Ext ℝ) else FP.lit (-1)) =
      .fin (sideOf ⟨a.x * s + d.x, a.y * s + d.y⟩ e ⟨p.x * s + d.x, p.y * s + d.y⟩) := by
    intro p
    have h1 : ((p.fin - a.fin).dot ⟨-(Ext.fin (e.y / s)), Ext.fin (e.x / s), FP.lit 0⟩ : Ext ℝ) = .fin ((p - a).dot ⟨-(e.y / s), e.x / s, 0⟩) := by
      rw [V3.fin_sub, ← V3.fin_dot]
      simp [V3.map]
    have h2 : (0 < (p - a).dot ⟨-(e.y / s), e.x / s, 0⟩) ↔ 0 < ((⟨p.x * s + d.x, p.y * s + d.y⟩ : V2 ℝ) - ⟨a.x * s + d.x, a.y * s + d.y⟩).dot e.left := by
      have : ((⟨p.x * s + d.x, p.y * s + d.y⟩ : V2 ℝ) - ⟨a.x * s + d.x, a.y * s + d.y⟩).dot e.left = (p - a).dot ⟨-(e.y / s), e.x / s, 0⟩ * (s * s) := by
        simp [V2.dot, V3.dot, V2.left]; field_simp
      rw [this]
      exact (mul_pos_iff_of_pos_right (by positivity)).symm
    rw [h1, Ext.lit_eq, Ext.fin_lt]
    unfold sideOf
    by_cases h : 0 < (p - a).dot ⟨-(e.y / s), e.x / s, 0⟩
    · rw [if_pos (by simpa using h), if_pos (h2.mp h)]; simp
    · rw [if_neg (by simpa using h), if_neg (fun hc => h (h2.mpr hc))]; simp
  unfold dimItems
  dsimp only
  rw [eF, eT, hn, ha]
  have hb : (⟨-Ext.fin (e.y / s), Ext.fin (e.x / s), FP.lit 0⟩ : V3 (Ext ℝ)) = V3.fin ⟨-(e.y / s), e.x / s, 0⟩ := by simp [V3.map]
  have hc : FP.lt (Ext.fin g * FP.lit 2 : Ext ℝ) (Ext.fin (len3 (t' - f')) * Ext.fin s) = decide (g * 2 < len3 (t' - f') * s) := by
    rw [Ext.lit_eq, Ext.fin_mul, Ext.fin_mul, Ext.fin_lt]; norm_num
  have hp : ∀ p : V3 ℝ, V2.moved p.fin.xy (Ext.fin s) d.fin = V2.fin ⟨p.x * s + d.x, p.y * s + d.y⟩ := by
    intro p; simp [V2.moved, V3.xy, V2.map, V3.map]
  have hsf' : ∀ p : V3 ℝ, (if FP.lt (FP.lit 0 : Ext ℝ) ((p.fin - a.fin).dot (V3.fin ⟨-(e.y / s), e.x / s, 0⟩)) = true then (FP.lit 1 : Ext ℝ) else FP.lit (-1)) =
      .fin (sideOf ⟨a.x * s + d.x, a.y * s + d.y⟩ e ⟨p.x * s + d.x, p.y * s + d.y⟩) := by
    intro p; rw [← hsf p]; simp only [hb]
  simp only [V3.fin_x, V3.fin_y, hgap, hb]
  simp only [hsf', hc]
  unfold dimStrokes
  dsimp only
  generalize sideOf ⟨a.x * s + d.x, a.y * s + d.y⟩ e ⟨f.x * s + d.x, f.y * s + d.y⟩ = σ at *
  generalize sideOf ⟨a.x * s + d.x, a.y * s + d.y⟩ e ⟨t.x * s + d.x, t.y * s + d.y⟩ = τ at *
  have key : ∀ (p : V3 ℝ) (q : V2 ℝ), p.x * s + d.x = q.x → p.y * s + d.y = q.y → V2.moved p.fin.xy (Ext.fin s) d.fin = q.fin := by
    intro p q h1 h2; rw [hp]; congr 1; ext <;> assumption
  by_cases hfit : g * 2 < len3 (t' - f') * s
  · simp only [hfit, decide_true, if_true, OutPage.moved, List.map_cons, List.map_append, List.map_nil, List.cons_append, List.nil_append, Line.of3,
      V3.fin_smul, V3.fin_add, V3.fin_sub, Ext.lit_eq]
    simp only [List.cons.injEq, Line.mk.injEq, and_true, true_and]
    refine ⟨⟨?_, ?_⟩, ⟨?_, ?_⟩, ⟨?_, ?_⟩, ⟨?_, ?_⟩, ⟨?_, ?_⟩, ⟨?_, ?_⟩, ⟨?_, ?_⟩, ?_, ?_⟩ <;> apply key <;>
      simp [V3.smul, V2.smul, V2.left] <;> field_simp <;> ring
  · simp only [hfit, decide_false, Bool.false_eq_true, if_false, OutPage.moved, List.map_cons, List.map_append, List.map_nil, List.cons_append, List.nil_append, Line.of3,
      V3.fin_smul, V3.fin_add, V3.fin_sub, V3.fin_neg, Ext.lit_eq]
    simp only [List.cons.injEq, Line.mk.injEq, and_true, true_and]
    refine ⟨⟨?_, ?_⟩, ⟨?_, ?_⟩, ⟨?_, ?_⟩, ⟨?_, ?_⟩, ⟨?_, ?_⟩, ⟨?_, ?_⟩, ⟨?_, ?_⟩, ?_, ?_⟩ <;> apply key <;>
      simp [V3.smul, V2.smul, V2.left] <;> field_simp <;> ring

end S2P
