import Verif.Lemmas.Similar
import Verif.Props.FacetOrder
import Verif.Lemmas.Numbers
import Verif.Lemmas.Accept

set_option linter.unusedSectionVars false
set_option linter.unusedVariables false
set_option linter.unusedSimpArgs false

/-! # The view of a resized and moved model -/

namespace S2P

variable {k : ℝ} (t : V3 ℝ)

/-- every facet read is a finite triangle -/
theorem made_tri {f : Facet (Ext ℝ)} (h : f.Made) : ∃ T : Tri ℝ, f = T.fin := by
  obtain ⟨n, a, b, c, hmk⟩ := h
  by_cases hdeg : (b - a).cross (c - a) = ⟨0, 0, 0⟩
  · rw [C16_degenerate n a b c hdeg] at hmk
    injection hmk with hmk
    exact ⟨⟨⟨0, 0, 0⟩, a, b, c, 0⟩, hmk.symm⟩
  · obtain ⟨N, e0, e2, r, m1, -⟩ := C16_facet n a b c hdeg
    rw [m1] at hmk
    injection hmk with hmk
    exact ⟨⟨N, e0, b, e2, r⟩, hmk.symm⟩

theorem cross_resized (a b c : V3 ℝ) : (b.resized k t - a.resized k t).cross (c.resized k t - a.resized k t) = ((b - a).cross (c - a)).smul (k * k) := by
  ext <;> simp [V3.cross, V3.resized, V3.smul] <;> ring

theorem dot_resized (n p : V3 ℝ) : n.dot (p.resized k t) = n.dot p * k + n.dot t := by
  simp [V3.dot, V3.resized, V3.smul]; ring

theorem normalized_smul {C : V3 ℝ} {c : ℝ} (hc : 0 < c) : (C.smul c).fin.normalized = (C.fin.normalized : V3 (Ext ℝ)) := by
  by_cases h : C = ⟨0, 0, 0⟩
  · subst h; congr 1; ext <;> simp [V3.smul]
  have h' : C.smul c ≠ ⟨0, 0, 0⟩ := by
    intro hz
    apply h
    have hx := congrArg V3.x hz; have hy := congrArg V3.y hz; have hz := congrArg V3.z hz
    simp only [V3.smul, mul_eq_zero, hc.ne', or_false] at hx hy hz
    ext <;> assumption
  rw [normalized_real h, normalized_real h']
  congr 1
  have : len3 (C.smul c) = c * len3 C := by
    unfold len3
    rw [show (C.smul c).x ^ 2 + (C.smul c).y ^ 2 + (C.smul c).z ^ 2 = c ^ 2 * (C.x ^ 2 + C.y ^ 2 + C.z ^ 2) by simp [V3.smul]; ring,
      Real.sqrt_mul (sq_nonneg _), Real.sqrt_sq hc.le]
  rw [this]
  have hl := (len3_pos h).ne'
  ext <;> simp only [V3.smul, V3.sdiv] <;> field_simp

/-- the facet read from the resized vertices is the resized facet -/
theorem resized_eq (hk : 0 < k) {f g : Facet (Ext ℝ)} (h : f.Resized k t g) : g = affF (k := k) t f := by
  obtain ⟨n, a, b, c, h1, h2⟩ := h
  obtain ⟨N, hN⟩ : ∃ N : V3 ℝ, ((b - a).cross (c - a)).fin.normalized = N.fin := V3.okFin_normalized ⟨_, rfl⟩
  have hN' : ((b.resized k t - a.resized k t).cross (c.resized k t - a.resized k t)).fin.normalized = N.fin := by
    rw [cross_resized, normalized_smul (mul_pos hk hk), hN]
  simp only [mkFacet, V3.fin_sub, V3.fin_cross, hN, V3.fin_dot, Ext.lit_eq, Ext.fin_lt, Rat.cast_zero] at h1
  simp only [mkFacet, V3.fin_sub, V3.fin_cross, hN', V3.fin_dot, Ext.lit_eq, Ext.fin_lt, Rat.cast_zero] at h2
  by_cases hf : n.dot N < 0
  · simp only [hf, decide_true, if_true] at h1 h2
    simp only [V3.fin_smul, V3.fin_dot, Ext.fin_add, Rat.cast_neg, Rat.cast_one] at h1 h2
    rw [Ext.fin_div _ _ (by norm_num)] at h1 h2
    injection h1 with h1; injection h2 with h2
    subst h1 h2
    simp only [affF, aff_fin, V3.fin_dot, Ext.fin_mul, Ext.fin_add, dot_resized, Facet.mk.injEq, true_and]
    congr 1; push_cast; ring
  · simp only [hf, decide_false, if_false, Bool.false_eq_true] at h1 h2
    simp only [V3.fin_smul, V3.fin_dot, Ext.fin_add, Rat.cast_neg, Rat.cast_one] at h1 h2
    rw [Ext.fin_div _ _ (by norm_num)] at h1 h2
    injection h1 with h1; injection h2 with h2
    subst h1 h2
    simp only [affF, aff_fin, V3.fin_dot, Ext.fin_mul, Ext.fin_add, dot_resized, Facet.mk.injEq, true_and]
    congr 1; push_cast; ring

theorem resized_mulM (p : V3 ℝ) (m : M3 ℝ) : (p.resized k t).mulM m = (p.mulM m).resized k (t.mulM m) := by
  ext <;> simp [V3.mulM, V3.resized, V3.smul] <;> ring

/-- resizing commutes with the view -/
theorem rot_affF {m : M3 ℝ} (hm : IsRotation m) (T : Tri ℝ) : rotFacet m.fin (affF (k := k) t T.fin) = affF (k := k) (t.mulM m) (rotFacet m.fin T.fin) := by
  have hr : rotFacet m.fin T.fin = (⟨T.n.mulM m, T.a.mulM m, T.b.mulM m, T.c.mulM m, T.r⟩ : Tri ℝ).fin := by
    simp [rotFacet, Tri.fin, V3.fin_mulM]
  rw [hr, affF_fin, affF_fin]
  simp only [rotFacet, Tri.fin, Tri.resized, V3.fin_mulM, resized_mulM]
  rw [hm.1]

theorem limits_map (hk : 0 < k) (s : STLFile (Ext ℝ)) (hs : s.facets ≠ []) :
    (mapStl (aff k t) (affF (k := k) t) s).limits = affL (k := k) t s.limits := by
  have hmin : ∀ (x y : Ext ℝ) c, FP.min (affX k x c) (affX k y c) = affX k (FP.min x y) c := by
    intro x y c; unfold FP.min; rw [affX_lt hk]; split <;> rfl
  have hmax : ∀ (x y : Ext ℝ) c, FP.max (affX k x c) (affX k y c) = affX k (FP.max x y) c := by
    intro x y c; unfold FP.max; rw [affX_lt hk]; split <;> rfl
  unfold STLFile.limits
  cases hf : s.facets with
  | nil => exact absurd hf hs
  | cons f fs =>
    simp only [mapStl, hf, List.map_cons]
    rw [← List.map_cons (f := affF (k := k) t)]
    have : ∀ (fs : List (Facet (Ext ℝ))), (fs.map (affF (k := k) t)).flatMap Facet.corners = (fs.flatMap Facet.corners).map (aff k t) := by
      intro fs
      induction fs with
      | nil => rfl
      | cons f fs ih => simp only [List.map_cons, List.flatMap_cons, ih, List.map_append]; rfl
    rw [this, List.foldl_map]
    generalize hL : (f :: fs).flatMap Facet.corners = L
    clear hL this
    have gen : ∀ (L : List (V3 (Ext ℝ))) (b : Line (Ext ℝ)),
        L.foldl (fun b e => (⟨⟨FP.min b.o.x (aff k t e).x, FP.min b.o.y (aff k t e).y⟩, ⟨FP.max b.t.x (aff k t e).x, FP.max b.t.y (aff k t e).y⟩⟩ : Line (Ext ℝ))) (affL (k := k) t b) =
        affL (k := k) t (L.foldl (fun b e => (⟨⟨FP.min b.o.x e.x, FP.min b.o.y e.y⟩, ⟨FP.max b.t.x e.x, FP.max b.t.y e.y⟩⟩ : Line (Ext ℝ))) b) := by
      intro L
      induction L with
      | nil => intro b; rfl
      | cons e L ih =>
        intro b
        simp only [List.foldl_cons]
        rw [← ih]
        congr 1
        simp only [affL, aff, hmin, hmax]
    exact gen L ⟨f.e0.xy, f.e0.xy⟩

theorem resizedAll_eq {fs gs : List (Facet (Ext ℝ))} (hk : 0 < k) (h : List.Forall₂ (Facet.Resized k t) fs gs) : gs = fs.map (affF (k := k) t) := by
  induction h with
  | nil => rfl
  | cons h1 _ ih => rw [List.map_cons, ← ih, resized_eq t hk h1]

/-- turning a resized model is resizing the turned model -/
theorem rotate_resized (s u : STLFile (Ext ℝ)) (m : M3 ℝ) (hm : IsRotation m) (hk : 0 < k) (h : List.Forall₂ (Facet.Resized k t) s.facets u.facets) :
    u.rotate m.fin = (s.rotate m.fin).map (mapStl (aff k (t.mulM m)) (affF (k := k) (t.mulM m))) := by
  have hs : ∀ f ∈ s.facets, f.Made := by
    intro f hf
    obtain ⟨g, -, n, a, b, c, e, -⟩ := forall₂_mem h hf
    exact ⟨n, a, b, c, e⟩
  have hmap := resizedAll_eq t hk h
  unfold STLFile.rotate
  have : u.facets.map (rotFacet m.fin) = (s.facets.map (rotFacet m.fin)).map (affF (k := k) (t.mulM m)) := by
    rw [hmap, List.map_map, List.map_map]
    apply List.map_congr_left
    intro f hf
    obtain ⟨T, rfl⟩ := made_tri (hs f hf)
    exact rot_affF t hm T
  rw [this, cullFacets_map (aff k (t.mulM m)) (affF (k := k) (t.mulM m)) (fun f => ⟨rfl, rfl, rfl, rfl⟩),
    index_map (aff k (t.mulM m)) (aff_order _ hk) (affF (k := k) (t.mulM m)) (fun f => ⟨rfl, rfl, rfl, rfl⟩)]

/-- The view of a resized model is the resized view. -/
theorem view_resized (S : Sorter) (hS : SortOK S) (s u : STLFile (Ext ℝ)) (m : M3 ℝ) (hm : IsRotation m) (hk : 0 < k)
    (h : List.Forall₂ (Facet.Resized k t) s.facets u.facets) :
    ∃ p q ls, s.rotate m.fin = .ok p ∧ u.rotate m.fin = .ok q ∧ p.cull.toLines S = .ok ls ∧ q.cull.toLines S = .ok (ls.map (affL (k := k) (t.mulM m))) ∧
      ((p.cull.facets = [] ∧ ls = []) ∨ q.cull.limits = affL (k := k) (t.mulM m) p.cull.limits) ∧ ∀ l ∈ ls, ∃ a b : V2 ℝ, l = ⟨a.fin, b.fin⟩ := by
  have hs : ∀ f ∈ s.facets, f.Made := by
    intro f hf
    obtain ⟨g, -, n, a, b, c, e, -⟩ := forall₂_mem h hf
    exact ⟨n, a, b, c, e⟩
  have hu : ∀ f ∈ u.facets, f.Made := by
    intro f hf
    obtain ⟨g, -, n, a, b, c, -, e⟩ := forall₂_mem h.flip hf
    exact ⟨n, _, _, _, e⟩
  have hrot := rotate_resized t s u m hm hk h
  obtain ⟨p, ts, es, r1, r2, r3, r4, r5, r6⟩ := C26_after_view s m hm hs
  obtain ⟨q, us, es', t1, t2, t3, t4, t5, t6⟩ := C26_after_view u m hm hu
  rw [t1, r1] at hrot
  injection hrot with hrot
  subst hrot
  obtain ⟨ls, l1, l2⟩ := toLines_resized (k := k) (t.mulM m) S hS p ts es r3 r4 r5 r6 hk t6
  refine ⟨p, _, ls, r1, t1, by rw [r2]; exact l1, by rw [t2]; exact l2, ?_, ?_⟩
  · by_cases he : p.facets = []
    · left
      rw [r2]
      refine ⟨he, ?_⟩
      have hes : es = [] := by
        cases es with
        | nil => rfl
        | cons e es =>
          obtain ⟨f, hf, -⟩ := r6.edgeOk e.fin (by rw [r4]; simp)
          rw [he] at hf; cases hf
      rw [toLines_eps S hS p ts es r3 r4 r5 r6, hes] at l1
      injection l1 with l1
      rw [← l1]; simp
    · right
      rw [r2, t2]
      exact limits_map _ hk p he
  · rw [toLines_eps S hS p ts es r3 r4 r5 r6] at l1
    injection l1 with l1
    intro l hl
    rw [← l1] at hl
    simp only [List.mem_flatten, List.mem_map] at hl
    obtain ⟨L, ⟨e, -, rfl⟩, hl⟩ := hl
    simp only [segLines, List.mem_map] at hl
    obtain ⟨g, -, rfl⟩ := hl
    exact ⟨_, _, rfl⟩

end S2P
