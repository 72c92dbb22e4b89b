import Verif.Lemmas.AccuracyInk
import Verif.Props.Drawing
import Verif.Lemmas.Ink

set_option linter.unusedSectionVars false
set_option linter.unusedVariables false
set_option linter.unusedSimpArgs false

/-! # Lemmas for C73 -/

namespace S2P

section
variable {R : Rounding}

theorem near_le {x y : Fl R} {a b : ℝ} (h : FP.le x y = true) (hx : x = (Ext.fin a : Ext ℝ)) (hy : y = (Ext.fin b : Ext ℝ)) : a ≤ b := by
  subst hx hy
  change Ext.le (.fin a) (.fin b) = true at h
  simpa [Ext.le] using h

/-- the least of numbers near the given ones is near the least of these -/
theorem near_min {ι : Type} {Q : ι → Prop} {comp : ι → Fl R} {ex : ι → ℝ} {η lo : ℝ} {L : Fl R} (hn : ∀ q, Q q → Fl.Near (comp q) (ex q) η)
    (hL : ∃ q, Q q ∧ L = comp q) (hle : ∀ q, Q q → FP.le L (comp q) = true) (hlo : ∃ q, Q q ∧ ex q = lo) (hlb : ∀ q, Q q → lo ≤ ex q) :
    Fl.Near L lo η := by
  obtain ⟨q, hq, rfl⟩ := hL
  obtain ⟨a, ha, hae⟩ := hn q hq
  refine ⟨a, ha, ?_⟩
  obtain ⟨q2, hq2, rfl⟩ := hlo
  obtain ⟨b, hb, hbe⟩ := hn q2 hq2
  have := near_le (hle q2 hq2) ha hb
  have := hlb q hq
  rw [abs_le] at *
  constructor <;> linarith

theorem near_max {ι : Type} {Q : ι → Prop} {comp : ι → Fl R} {ex : ι → ℝ} {η hi : ℝ} {L : Fl R} (hn : ∀ q, Q q → Fl.Near (comp q) (ex q) η)
    (hL : ∃ q, Q q ∧ L = comp q) (hle : ∀ q, Q q → FP.le (comp q) L = true) (hlo : ∃ q, Q q ∧ ex q = hi) (hlb : ∀ q, Q q → ex q ≤ hi) :
    Fl.Near L hi η := by
  obtain ⟨q, hq, rfl⟩ := hL
  obtain ⟨a, ha, hae⟩ := hn q hq
  refine ⟨a, ha, ?_⟩
  obtain ⟨q2, hq2, rfl⟩ := hlo
  obtain ⟨b, hb, hbe⟩ := hn q2 hq2
  have := near_le (hle q2 hq2) hb ha
  have := hlb q hq
  rw [abs_le] at *
  constructor <;> linarith

theorem exists_box (ps : List (V2 ℝ)) (h : ps ≠ []) : ∃ lo hi : V2 ℝ, IsBox ps lo hi := by
  classical
  have hne : ps.toFinset.Nonempty := by
    obtain ⟨p, hp⟩ := List.exists_mem_of_ne_nil ps h
    exact ⟨p, by simpa using hp⟩
  obtain ⟨a, ha, ha2⟩ := ps.toFinset.exists_min_image (fun p : V2 ℝ => p.x) hne
  obtain ⟨b, hb, hb2⟩ := ps.toFinset.exists_max_image (fun p : V2 ℝ => p.x) hne
  obtain ⟨c, hc, hc2⟩ := ps.toFinset.exists_min_image (fun p : V2 ℝ => p.y) hne
  obtain ⟨d, hd, hd2⟩ := ps.toFinset.exists_max_image (fun p : V2 ℝ => p.y) hne
  simp only [List.mem_toFinset] at *
  exact ⟨⟨a.x, c.y⟩, ⟨b.x, d.y⟩, fun p hp => ⟨ha2 p hp, hb2 p hp, hc2 p hp, hd2 p hp⟩, ⟨a, ha, rfl⟩, ⟨b, hb, rfl⟩, ⟨c, hc, rfl⟩, ⟨d, hd, rfl⟩⟩

theorem val_fin (a : ℝ) : Fl.val (R := R) (Ext.fin a : Ext ℝ) = a := rfl

theorem bd_val {n : ℕ} (hn : n ≤ 1023) {v : V3 (Fl R)} (h : V3.Bd n v) : V3.NearTo v v.val 0 ∧ v.val.Within (2 ^ n) := by
  have : ∀ x : Fl R, FP.Bd n x → Fl.Near x (Fl.val x) 0 ∧ |Fl.val x| ≤ 2 ^ n := by
    intro x hx
    obtain ⟨a, rfl, ha⟩ := (bd_iff R hn x).mp hx
    exact ⟨Fl.near_fin a, ha⟩
  obtain ⟨h1, h2, h3⟩ := h
  exact ⟨⟨(this _ h1).1, (this _ h2).1, (this _ h3).1⟩, (this _ h1).2, (this _ h2).2, (this _ h3).2⟩

end

section
variable {R : Rounding} (hR : R.Accurate)
include hR

/-- where to draw -/
theorem locOf_near (ms : List (Meta (Fl R))) (hf : ∀ m ∈ ms, m.val.LocBd) (loc : V2 (Fl R)) (h : locOf (look ms c!"@") = .ok loc) :
    ∃ p : V2 ℝ, AskedAt ms p ∧ V2.NearTo loc p ((|p.x| + |p.y| + 1) / 2 ^ 40) ∧ |p.x| + |p.y| ≤ 2 ^ 140 := by
  unfold locOf at h
  cases hl : look ms c!"@" with
  | none =>
    rw [hl] at h; cases h
    refine ⟨⟨0, 0⟩, Or.inl ⟨hl, rfl⟩, ?_, by norm_num⟩
    rw [lit_zero]
    exact ⟨(Fl.near_fin 0).mono (by norm_num), (Fl.near_fin 0).mono (by norm_num)⟩
  | some m =>
    rw [hl] at h
    have hm := hf m (look_mem hl)
    obtain ⟨nm, v, ln⟩ := m
    cases v with
    | loc l =>
      cases h
      obtain ⟨b1, b2⟩ := hm
      obtain ⟨x, hx, hx2⟩ := (bd_iff R (by norm_num) l.x).mp b1
      obtain ⟨y, hy, hy2⟩ := (bd_iff R (by norm_num) l.y).mp b2
      obtain ⟨lx, ly⟩ := l
      simp only at hx hy
      subst hx hy
      refine ⟨⟨72 * x + 396, 72 * y + 306⟩, Or.inr ⟨_, x, y, hl, rfl, rfl⟩, ⟨?_, ?_⟩, ?_⟩
      · refine (loc_near hR 396 (c := 396) (by norm_num) (by norm_num) (by norm_num) hx2).mono ?_
        have := abs_nonneg (72 * y + 306)
        norm_num; linarith
      · refine (loc_near hR 306 (c := 306) (by norm_num) (by norm_num) (by norm_num) hy2).mono ?_
        have := abs_nonneg (72 * x + 396)
        norm_num; linarith
      · simp only
        have t1 := abs_add_le (72 * x) 396
        have t2 := abs_add_le (72 * y) 306
        rw [abs_mul] at t1 t2
        norm_num at t1 t2 hx2 hy2 ⊢
        linarith
    | pt p => cases h
    | num p => cases h
    | scale a b => cases h
    | str a => cases h

/-- the facets of a model turned, and its edges -/
theorem turned_near {n : ℕ} (hn : n ≤ 500) (file proj : STLFile (Fl R)) (hs : file.Bd n) (rot : M3 (Fl R)) (hv : rot.ViewBd) (r : M3 ℝ) (hr : IsRotation r)
    (hm : M3.NearTo rot r (1 / 2 ^ 40)) (h : file.rotate rot = .ok proj) :
    ∃ kept : List (Facet (Fl R)), (∀ f ∈ kept, f ∈ file.facets) ∧
      (∀ f ∈ file.facets, (FP.Bd 1 f.norm.x ∧ FP.Bd 1 f.norm.y ∧ FP.Bd 1 f.norm.z) →
        (1 / 2 ^ 37 < (f.norm.val.mulM r).z → f ∈ kept) ∧ (f ∈ kept → -(1 / 2 ^ 37) < (f.norm.val.mulM r).z)) ∧
      proj.cull = proj ∧ proj.facets.Perm (kept.map (rotFacet rot)) ∧
      (∀ f ∈ kept, ∀ p ∈ f.corners, V3.NearTo (p.mulM rot) (p.val.mulM r) (2 ^ n / 2 ^ 38) ∧ (p.val.mulM r).Within (3 * 2 ^ n)) ∧
      ∀ e ∈ proj.edges, ∃ f ∈ kept, ∃ E : Edge ℝ, (f.val.seenIn r).HasSide E ∧ V3.NearTo e.1 E.1 (2 ^ n / 2 ^ 38) ∧ V3.NearTo e.2 E.2 (2 ^ n / 2 ^ 38) ∧
        E.1.Within (3 * 2 ^ n) ∧ E.2.Within (3 * 2 ^ n) := by
  have hMid : Mid ((2 : ℝ) ^ n) := ⟨one_le_pow₀ (by norm_num), pow_le_pow_right₀ (by norm_num) (by omega)⟩
  have hMid2 : Mid (2 : ℝ) := ⟨by norm_num, by
    have : (2 : ℝ) ^ 1 ≤ 2 ^ 600 := pow_le_pow_right₀ (by norm_num) (by norm_num)
    simpa using this⟩
  have near : ∀ f ∈ file.facets, ∀ p ∈ f.corners, V3.NearTo (p.mulM rot) (p.val.mulM r) (2 ^ n / 2 ^ 38) ∧ (p.val.mulM r).Within (3 * 2 ^ n) := by
    intro f hf p hp
    obtain ⟨k1, k2⟩ := bd_val (by omega) (hs f hf p hp)
    exact mulM_near hR hMid k1 k2 hm hr
  have hok : ∀ f ∈ file.facets, ∀ p ∈ (rotFacet rot f).corners, V3.Bd (n + 2) p := by
    intro f hf p hp
    rw [corners_rot] at hp
    obtain ⟨q, hq, rfl⟩ := List.mem_map.mp hp
    exact (hs f hf q hq).mulM (by omega) hv.1 hv.2.1 hv.2.2.1
  obtain ⟨s', h1, h2, h3⟩ := C21_rotate file rot (by
    intro f hf
    have := hok f hf
    exact ⟨(this _ (by simp [Facet.corners])).ok, (this _ (by simp [Facet.corners])).ok, (this _ (by simp [Facet.corners])).ok⟩)
  rw [h] at h1; injection h1 with h1; subst h1
  rw [List.filter_map] at h3
  set kept := file.facets.filter ((fun f : Facet (Fl R) => !FP.le f.norm.z (FP.lit 0)) ∘ rotFacet rot) with hk
  have hmem : ∀ f, f ∈ kept ↔ f ∈ file.facets ∧ FP.le (f.norm.mulM rot).z (FP.lit 0) = false := by
    intro f
    rw [hk, List.mem_filter]
    simp [rotFacet]
  refine ⟨kept, fun f hf => ((hmem f).1 hf).1, ?_, ?_, h3, fun f hf => near f ((hmem f).1 hf).1, ?_⟩
  · intro f hf hb
    obtain ⟨k1, k2⟩ := bd_val (R := R) (n := 1) (by norm_num) hb
    rw [pow_one] at k2
    obtain ⟨⟨-, -, z, hz, hz2⟩, -⟩ := mulM_near hR hMid2 k1 k2 hm hr
    have hle : FP.le (f.norm.mulM rot).z (FP.lit 0) = decide (z ≤ 0) := by
      rw [hz, lit_zero]; rfl
    rw [hmem, hle]
    rw [abs_le] at hz2
    norm_num at hz2
    constructor
    · intro h
      refine ⟨hf, ?_⟩
      norm_num at h ⊢
      linarith
    · rintro ⟨-, h⟩
      norm_num at h ⊢
      linarith
  · apply C19_cull_front_only
    intro f hf
    obtain ⟨g, hg, rfl⟩ := List.mem_map.1 (h3.subset hf)
    exact ((hmem g).1 hg).2
  · intro e he
    obtain ⟨f, hf, sd, hsd, hor⟩ := h2.edgeOk e he
    obtain ⟨g, hg, rfl⟩ := List.mem_map.1 (h3.subset hf)
    have c := near g ((hmem g).1 hg).1
    obtain ⟨a1, a2⟩ := c g.e0 (by simp [Facet.corners])
    obtain ⟨b1, b2⟩ := c g.e1 (by simp [Facet.corners])
    obtain ⟨c1, c2⟩ := c g.e2 (by simp [Facet.corners])
    refine ⟨g, hg, ?_⟩
    simp only [sidesOf, List.mem_cons, List.not_mem_nil, or_false] at hsd
    rcases hsd with rfl | rfl | rfl <;> rcases hor with rfl | rfl
    · exact ⟨(g.e0.val.mulM r, g.e1.val.mulM r), by simp [Tri.HasSide, Facet.val, Tri.seenIn], a1, b1, a2, b2⟩
    · exact ⟨(g.e1.val.mulM r, g.e0.val.mulM r), by simp [Tri.HasSide, Facet.val, Tri.seenIn], b1, a1, b2, a2⟩
    · exact ⟨(g.e1.val.mulM r, g.e2.val.mulM r), by simp [Tri.HasSide, Facet.val, Tri.seenIn], b1, c1, b2, c2⟩
    · exact ⟨(g.e2.val.mulM r, g.e1.val.mulM r), by simp [Tri.HasSide, Facet.val, Tri.seenIn], c1, b1, c2, b2⟩
    · exact ⟨(g.e2.val.mulM r, g.e0.val.mulM r), by simp [Tri.HasSide, Facet.val, Tri.seenIn], c1, a1, c2, a2⟩
    · exact ⟨(g.e0.val.mulM r, g.e2.val.mulM r), by simp [Tri.HasSide, Facet.val, Tri.seenIn], a1, c1, a2, c2⟩

end
end S2P
