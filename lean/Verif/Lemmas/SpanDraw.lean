import Verif.Lemmas.SpanTurn

set_option linter.unusedSectionVars false
set_option linter.unusedVariables false
set_option linter.unusedSimpArgs false

/-! # Edges partly hidden, in rounded arithmetic: from the table of edges to the page -/

namespace S2P

theorem VisibleAt.swap {δ M : ℝ} {r : M3 ℝ} {ts : List (Tri ℝ)} {a b : V3 ℝ} {σ : ℝ} (h : VisibleAt δ M r ts a b σ) : VisibleAt δ M r ts b a (1 - σ) := by
  refine ⟨?_, ?_, ?_, h.far.swap, by linarith [h.high], by linarith [h.low]⟩
  · obtain ⟨f, h1, h2, h3⟩ := h.side
    exact ⟨f, h1, h2, h3.swap⟩
  · exact h.crease.imp (fun h a b c d => h a b c.swap d.swap)
  · intro t ht hm
    rcases h.clear t ht hm with h | ⟨s, s', h1, h2⟩
    · exact Or.inl h.swap
    · exact Or.inr ⟨_, _, h1.swap, h2.symm.imp (fun h => by linarith) (fun h => by linarith)⟩

section
variable {R : Rounding}

/-- an edge that is no crease between facets that are all but parallel is among those that are drawn -/
theorem crease_unseen (hR : R.Accurate) {n : ℕ} (hn : n ≤ 40) {file proj : STLFile (Fl R)} (hs : file.Bd n)
    {Rel : V3 (Fl R) → V3 ℝ → Prop} {δ : ℝ} (hδ : δ ≤ 1 / 2 ^ 20) {rot : M3 (Fl R)} (hvb : rot.ViewBd) {r : M3 ℝ} (hr : IsRotation r)
    {ts : List (Tri ℝ)} (hT : List.Forall₂ (Turned Rel δ (2 ^ n) rot r) file.facets ts) (h : file.rotate rot = .ok proj)
    (hw : WellIndexed proj) (hx : ∀ f ∈ proj.facets, FacetExact (2 ^ n) f)
    (h3 : proj.facets.Perm ((file.facets.map (rotFacet rot)).filter (fun f => !FP.le f.norm.z (FP.lit 0))))
    {a b : V3 ℝ} {p q : V3 (Fl R)} {v : Nat} {ev : Edge (Fl R)} (hv : proj.edges[v]? = some ev) (e1 : ev.1.val = (p.mulM rot).val) (e2 : ev.2.val = (q.mulM rot).val)
    (hback : ∀ g t, t ∈ ts → Turned Rel δ (2 ^ n) rot r g t → -δ < (t.n.mulM r).z →
      (rotFacet rot g).val.HasSide ((p.mulM rot).val, (q.mulM rot).val) → (t.seenIn r).HasSide (a, b))
    (hcr : ts.Pairwise (fun t u => -δ < (t.n.mulM r).z → -δ < (u.n.mulM r).z → (t.seenIn r).HasSide (a, b) → (u.seenIn r).HasSide (a, b) →
      t.n.dot u.n ≤ 97 / 100)) : v < proj.unseen := by
  have hcrease : proj.facets.Pairwise (fun f g => f.val.HasSide ((p.mulM rot).val, (q.mulM rot).val) → g.val.HasSide ((p.mulM rot).val, (q.mulM rot).val) →
      FP.lt (f.norm.dot g.norm) (FP.lit (98 / 100)) = true ∧ FP.lt (g.norm.dot f.norm) (FP.lit (98 / 100)) = true) := by
    refine (List.Perm.pairwise_iff (fun {x y} hxy h1 h2 => (hxy h2 h1).symm) h3).2 ?_
    rw [List.filter_map, List.pairwise_map]
    have hsub : List.Sublist (file.facets.filter ((fun f : Facet (Fl R) => !FP.le f.norm.z (FP.lit 0)) ∘ rotFacet rot)) file.facets := List.filter_sublist
    refine List.Pairwise.imp_of_mem ?_ ((forall₂_pairwise hT hcr).sublist hsub)
    rintro f g hf hg ⟨t, u, tf, tg, ht, hu, hfg⟩ s1 s2
    obtain ⟨hf1, hf2⟩ := List.mem_filter.1 hf
    obtain ⟨hg1, hg2⟩ := List.mem_filter.1 hg
    have mf := front_may tf hf2
    have mg := front_may tg hg2
    have hd := hfg mf mg (hback f t ht tf mf s1) (hback g u hu tg mg s2)
    have hd1 : (t.n.mulM r).dot (u.n.mulM r) ≤ 97 / 100 := by rw [hr.1]; exact hd
    have hd2 : (u.n.mulM r).dot (t.n.mulM r) ≤ 97 / 100 := by
      have : (u.n.mulM r).dot (t.n.mulM r) = (t.n.mulM r).dot (u.n.mulM r) := by unfold V3.dot; ring
      rw [this]; exact hd1
    have nf : V3.NearTo (f.norm.mulM rot) (t.n.mulM r) (1 / 2 ^ 20) := ⟨tf.normal.1.1.mono hδ, tf.normal.1.2.1.mono hδ, tf.normal.1.2.2.mono hδ⟩
    have ng : V3.NearTo (g.norm.mulM rot) (u.n.mulM r) (1 / 2 ^ 20) := ⟨tg.normal.1.1.mono hδ, tg.normal.1.2.1.mono hδ, tg.normal.1.2.2.mono hδ⟩
    exact ⟨dot_normals hR nf ng tf.normal.2 tg.normal.2 hd1, dot_normals hR ng nf tg.normal.2 tf.normal.2 hd2⟩
  have hfok : ∀ f ∈ proj.facets, Facet.Ok f := by
    intro f hf
    obtain ⟨g, hg, rfl⟩ := List.mem_map.1 (List.mem_filter.1 (h3.subset hf)).1
    have : ∀ p ∈ g.corners, V3.Ok (p.mulM rot) := fun q hq => ((hs g hg q hq).mulM (by omega) hvb.1 hvb.2.1 hvb.2.2.1).ok
    exact ⟨this g.e0 (by simp [Facet.corners]), this g.e1 (by simp [Facet.corners]), this g.e2 (by simp [Facet.corners])⟩
  have hidx : index proj.facets = .ok proj := by
    unfold STLFile.rotate at h
    obtain ⟨s', k1, k2, -⟩ := C21_index (cullFacets (file.facets.map (rotFacet rot))) (by
      intro f hf
      have := (cullFacets_perm _).subset hf
      obtain ⟨g, hg, rfl⟩ := List.mem_map.1 (List.mem_filter.1 this).1
      have : ∀ p ∈ g.corners, V3.Ok (p.mulM rot) := fun q hq => ((hs g hg q hq).mulM (by omega) hvb.1 hvb.2.1 hvb.2.2.1).ok
      exact ⟨this g.e0 (by simp [Facet.corners]), this g.e1 (by simp [Facet.corners]), this g.e2 (by simp [Facet.corners])⟩)
    rw [k1] at h
    injection h with h
    subst h
    rw [k2]; exact k1
  obtain ⟨i, j, f, g, hi, hj, si, sj, hmin, hiff⟩ := C22_drawn_edges proj.facets hfok proj hidx v ev hv
  rw [hiff]
  by_cases hij : i = j
  · exact Or.inl hij
  right
  have hside : ∀ f ∈ proj.facets, HasSide f ev → f.val.HasSide ((p.mulM rot).val, (q.mulM rot).val) := by
    rintro f hf ⟨sd, hsd, hse⟩
    obtain ⟨x1, x2, x3, x4⟩ := side_exact (hx f hf) hsd
    obtain ⟨y1, y2⟩ := edge_exact hw hx (List.mem_of_getElem? hv)
    rw [← e1, ← e2]
    rcases hse with ⟨q1, q2⟩ | ⟨q1, q2⟩
    · rw [exact_eq y1 x1 q1, exact_eq y2 x2 q2]; exact x3
    · rw [exact_eq y1 x2 q1, exact_eq y2 x1 q2]; exact x4
  have hlt : i < j := by
    have := (hmin j g hj sj).1
    omega
  obtain ⟨hi1, rfl⟩ := List.getElem?_eq_some_iff.1 hi
  obtain ⟨hj1, rfl⟩ := List.getElem?_eq_some_iff.1 hj
  exact (List.pairwise_iff_getElem.1 hcrease i j hi1 hj1 hlt (hside _ (List.getElem_mem _) si) (hside _ (List.getElem_mem _) sj)).1

/-- the line is drawn from near the point at `x` to near the point at `y` of `ab` -/
def SpanNear (M : ℝ) (a b : V3 ℝ) (l : Line (Fl R)) (x y : ℝ) : Prop :=
  ∃ u w : V3 (Fl R), l = Line.of3 u w ∧ V3.NearTo u (edgeAt (a, b) x) (M / 2 ^ 17) ∧ V3.NearTo w (edgeAt (a, b) y) (M / 2 ^ 17)

theorem at_near {M : ℝ} (hM : 1 ≤ M) {a b a' b' : V3 ℝ} (ha : Shifted M a a') (hb : Shifted M b b') {u : V3 (Fl R)} {x : ℝ} (h : At M (a', b') u x) :
    V3.NearTo u (edgeAt (a, b) x) (M / 2 ^ 17) := by
  obtain ⟨h0, h1, k1, k2, k3⟩ := h
  have go : ∀ {z : Fl R} {s t s' t' : ℝ}, Fl.Near z (s' + (t' - s') * x) (M / 2 ^ 44) → |s' - s| ≤ M / 2 ^ 38 → |t' - t| ≤ M / 2 ^ 38 →
      Fl.Near z (s + (t - s) * x) (M / 2 ^ 17) := by
    rintro z s t s' t' ⟨y, rfl, hy⟩ hs ht
    refine ⟨y, rfl, ?_⟩
    have m1 : |(s' - s) * (1 - x)| ≤ M / 2 ^ 38 * 1 := by
      rw [abs_mul]; exact mul_le_mul hs (by rw [abs_le]; constructor <;> linarith) (abs_nonneg _) (by positivity)
    have m2 : |(t' - t) * x| ≤ M / 2 ^ 38 * 1 := by
      rw [abs_mul]; exact mul_le_mul ht (by rw [abs_le]; constructor <;> linarith) (abs_nonneg _) (by positivity)
    rw [show y - (s + (t - s) * x) = (y - (s' + (t' - s') * x)) + (s' - s) * (1 - x) + (t' - t) * x by ring]
    refine (abs_add_three _ _ _).trans ?_
    norm_num at *
    linarith
  exact ⟨go k1 ha.1.1 hb.1.1, go k2 ha.1.2.1 hb.1.2.1, go k3 ha.1.2.2 hb.1.2.2⟩

theorem part_near {M : ℝ} (hM : 1 ≤ M) {a b a' b' : V3 ℝ} (ha : Shifted M a a') (hb : Shifted M b b') {l : Line (Fl R)} {x y : ℝ} (h : PartLine M (a', b') l x y) :
    0 ≤ x ∧ x ≤ 1 ∧ 0 ≤ y ∧ y ≤ 1 ∧ SpanNear M a b l x y := by
  obtain ⟨u, w, rfl, hu, hw⟩ := h
  exact ⟨hu.1, hu.2.1, hw.1, hw.2.1, u, w, rfl, at_near hM ha hb hu, at_near hM ha hb hw⟩

/-- a point in view, the edge taken as the table has it -/
theorem visible_at (hR : R.Accurate) (S : Sorter) (hS : SortOK S) {n : ℕ} (hn : n ≤ 40) {file proj : STLFile (Fl R)} (hs : file.Bd n)
    {Rel : V3 (Fl R) → V3 ℝ → Prop} (ho : OneToOne Rel) {δ : ℝ} (hδ : δ ≤ 1 / 2 ^ 20) {rot : M3 (Fl R)} (hvb : rot.ViewBd) {r : M3 ℝ} (hr : IsRotation r)
    {ts : List (Tri ℝ)} (hT : List.Forall₂ (Turned Rel δ (2 ^ n) rot r) file.facets ts) (h : file.rotate rot = .ok proj)
    (hw : WellIndexed proj) (hx : ∀ f ∈ proj.facets, FacetExact (2 ^ n) f)
    (h3 : proj.facets.Perm ((file.facets.map (rotFacet rot)).filter (fun f => !FP.le f.norm.z (FP.lit 0))))
    {ls} (hl : proj.toLines S = .ok ls) {p q : V3 (Fl R) × V3 ℝ} (hp : Rel p.1 p.2) (hq : Rel q.1 q.2)
    (sp : Shifted (2 ^ n) (p.2.mulM r) (p.1.mulM rot).val) (sq : Shifted (2 ^ n) (q.2.mulM r) (q.1.mulM rot).val)
    {v : Nat} {ev : Edge (Fl R)} (hv : proj.edges[v]? = some ev) (e1 : ev.1.val = (p.1.mulM rot).val) (e2 : ev.2.val = (q.1.mulM rot).val)
    {σ : ℝ} (hvis : VisibleAt δ (2 ^ n) r ts (p.2.mulM r) (q.2.mulM r) σ) :
    ∃ l ∈ ls, ∃ x y, 0 ≤ x ∧ x ≤ σ ∧ σ ≤ y ∧ y ≤ 1 ∧ SpanNear (2 ^ n) (p.2.mulM r) (q.2.mulM r) l x y := by
  have h1M : (1 : ℝ) ≤ 2 ^ n := one_le_pow₀ (by norm_num)
  have hSm : Small ((2 : ℝ) ^ n) := ⟨h1M, pow_le_pow_right₀ (by norm_num) (by omega)⟩
  have hne : p.2.mulM r ≠ q.2.mulM r := by
    intro e
    have := hvis.far
    unfold FarApart at this
    rw [e] at this
    norm_num at this
    have := pow_pos (show (0 : ℝ) < 2 by norm_num) n
    linarith
  have hcl : ∀ g t, t ∈ ts → Turned Rel δ (2 ^ n) rot r g t → -δ < (t.n.mulM r).z →
      (((t.seenIn r).HasSide (p.2.mulM r, q.2.mulM r) ∧ (rotFacet rot g).val.HasSide ((p.1.mulM rot).val, (q.1.mulM rot).val)) ∨
      ∃ P, (P = (p.1.mulM rot).val ∨ P = (q.1.mulM rot).val) ∧ ClearBut (2 ^ n) ((p.1.mulM rot).val, (q.1.mulM rot).val) (rotFacet rot g).val P) ∨
      ∃ s s', PartBy (2 ^ n) ((p.1.mulM rot).val, (q.1.mulM rot).val) (rotFacet rot g).val s s' ∧ (σ + 1 / 2 ^ 11 ≤ s ∨ s' + 1 / 2 ^ 11 ≤ σ) := by
    intro g t ht htu hmay
    rcases hvis.clear t ht hmay with h | ⟨s, s', h1, h2⟩
    · exact Or.inl (clear_turned h1M ho hδ hr htu hp hq sp sq hne h)
    · exact Or.inr ⟨s, s', part_turned h1M hδ htu sp sq h1, h2⟩
  have hback : ∀ g t, t ∈ ts → Turned Rel δ (2 ^ n) rot r g t → -δ < (t.n.mulM r).z →
      (rotFacet rot g).val.HasSide ((p.1.mulM rot).val, (q.1.mulM rot).val) → (t.seenIn r).HasSide (p.2.mulM r, q.2.mulM r) := by
    intro g t ht htu hmay hsd
    rcases hcl g t ht htu hmay with (h | ⟨P, -, h⟩) | ⟨s, s', h, -⟩
    · exact h.1
    · exact absurd hsd (h.not_side h1M)
    · exact absurd hsd (h.not_side h1M)
  have hvu := crease_unseen hR hn hs hδ hvb hr hT h hw hx h3 hv e1 e2 hback hvis.crease
  have hfar := hvis.far.shift h1M sp sq
  obtain ⟨l, hl', x, y, k1, k2, k3⟩ := toLines_visible hR hSm S hS hw hx ls hl hv hvu (by rw [e1, e2]; exact hfar) hvis.low hvis.high (by
    intro i f' t hf' ht
    obtain ⟨h4, h5⟩ := List.mem_filter.1 (h3.subset (List.mem_of_getElem? hf'))
    obtain ⟨g, hg, rfl⟩ := List.mem_map.1 h4
    obtain ⟨u, hu, htu⟩ := forall₂_mem_left hT hg
    rcases hcl g u hu htu (front_may htu h5) with (h | ⟨P, hP, h⟩) | ⟨s, s', h, h'⟩
    · left
      obtain ⟨k, e, hk, hkt, hvals⟩ := side_entry hw hx hf' ht h.2
      have : k = v := entry_unique hw hx hk hv (by rw [e1, e2]; exact hvals)
      subst this
      exact hkt
    · right; left
      rw [e1, e2]
      exact ⟨P, hP, h⟩
    · right; right
      rw [e1, e2]
      exact ⟨s, s', h, h'⟩)
  rw [e1, e2] at k1
  obtain ⟨g1, g2, g3, g4, g5⟩ := part_near h1M sp sq k1
  exact ⟨l, hl', x, y, g1, k2, k3, g4, g5⟩

/-- **Visible.** A point in view is in a line of the drawing in the plane. -/
theorem view_visible (hR : R.Accurate) (S : Sorter) (hS : SortOK S) {n : ℕ} (hn : n ≤ 40) {file proj : STLFile (Fl R)} (hs : file.Bd n)
    {Rel : V3 (Fl R) → V3 ℝ → Prop} (ho : OneToOne Rel) {δ : ℝ} (hδ : δ ≤ 1 / 2 ^ 20) {rot : M3 (Fl R)} (hvb : rot.ViewBd) {r : M3 ℝ} (hr : IsRotation r)
    {ts : List (Tri ℝ)} (hT : List.Forall₂ (Turned Rel δ (2 ^ n) rot r) file.facets ts) (h : file.rotate rot = .ok proj)
    {ls} (hl : proj.toLines S = .ok ls) {a b : V3 ℝ} {σ : ℝ} (hvis : VisibleAt δ (2 ^ n) r ts a b σ) :
    proj.facets ≠ [] ∧ a.Within (3 * 2 ^ n) ∧ b.Within (3 * 2 ^ n) ∧ ∃ l ∈ ls, ∃ x y, 0 ≤ x ∧ x ≤ σ ∧ σ ≤ y ∧ y ≤ 1 ∧
      (SpanNear (2 ^ n) a b l x y ∨ SpanNear (2 ^ n) a b l y x) := by
  have h1M : (1 : ℝ) ≤ 2 ^ n := one_le_pow₀ (by norm_num)
  obtain ⟨s', h1, hw, h3⟩ := C21_rotate file rot (by
    intro f hf
    have : ∀ p ∈ f.corners, V3.Ok (p.mulM rot) := fun q hq => ((hs f hf q hq).mulM (by omega) hvb.1 hvb.2.1 hvb.2.2.1).ok
    exact ⟨this f.e0 (by simp [Facet.corners]), this f.e1 (by simp [Facet.corners]), this f.e2 (by simp [Facet.corners])⟩)
  rw [h] at h1; injection h1 with h1; subst h1
  have hx : ∀ f ∈ proj.facets, FacetExact (2 ^ n) f := by
    intro f hf
    obtain ⟨g, hg, rfl⟩ := List.mem_map.1 (List.mem_filter.1 (h3.subset hf)).1
    obtain ⟨t, -, htu⟩ := forall₂_mem_left hT hg
    exact htu.facetExact hδ
  obtain ⟨t0, ht0, hz0, hs0⟩ := hvis.side
  obtain ⟨f0, hf0, htu⟩ := forall₂_right hT t0 ht0
  obtain ⟨p, hp, q, hq, rfl, rfl, hsd⟩ := side_turned rot f0 hs0
  have hmem : rotFacet rot f0 ∈ proj.facets :=
    h3.symm.subset (List.mem_filter.2 ⟨List.mem_map_of_mem hf0, faces_front htu hz0⟩)
  obtain ⟨i, hi⟩ := List.getElem?_of_mem hmem
  have hi1 := (List.getElem?_eq_some_iff.1 hi).1
  have ht : proj.faceEdge[i]? = some (proj.faceEdge[i]'(by rw [hw.faceLen]; exact hi1)) := List.getElem?_eq_getElem _
  obtain ⟨v, ev, hv, -, hor⟩ := side_entry hw hx hi ht hsd
  have pf := htu.rel p hp
  have qf := htu.rel q hq
  have ps := htu.shift p hp
  have qs := htu.shift q hq
  refine ⟨List.ne_nil_of_mem hmem, ps.2, qs.2, ?_⟩
  rcases hor with ⟨e1, e2⟩ | ⟨e1, e2⟩
  · obtain ⟨l, hl, x, y, k1, k2, k3, k4, k5⟩ := visible_at hR S hS hn hs ho hδ hvb hr hT h hw hx h3 hl pf qf ps qs hv e1 e2 hvis
    exact ⟨l, hl, x, y, k1, k2, k3, k4, Or.inl k5⟩
  · obtain ⟨l, hl, x, y, k1, k2, k3, k4, u, w, rfl, k5, k6⟩ := visible_at hR S hS hn hs ho hδ hvb hr hT h hw hx h3 hl qf pf qs ps hv e1 e2 hvis.swap
    refine ⟨_, hl, 1 - y, 1 - x, by linarith, by linarith, by linarith, by linarith, Or.inr ⟨u, w, rfl, ?_, ?_⟩⟩
    · rw [edgeAt_swap] at k5; exact k5
    · rw [edgeAt_swap] at k6; exact k6

/-- **Hidden.** Lines of the drawing in the plane are parts of edges that no triangle hides. -/
theorem view_hidden (hR : R.Accurate) (S : Sorter) (hS : SortOK S) {n : ℕ} (hn : n ≤ 40) {file proj : STLFile (Fl R)} (hs : file.Bd n)
    {Rel : V3 (Fl R) → V3 ℝ → Prop} {δ : ℝ} (hδ : δ ≤ 1 / 2 ^ 20) {rot : M3 (Fl R)} (hvb : rot.ViewBd) {r : M3 ℝ} (hr : IsRotation r)
    {ts : List (Tri ℝ)} (hT : List.Forall₂ (Turned Rel δ (2 ^ n) rot r) file.facets ts) (h : file.rotate rot = .ok proj)
    {ls} (hl : proj.toLines S = .ok ls) {l : Line (Fl R)} (hlm : l ∈ ls) :
    proj.facets ≠ [] ∧ ∃ a b x y, a.Within (3 * 2 ^ n) ∧ b.Within (3 * 2 ^ n) ∧ 0 ≤ x ∧ x ≤ y ∧ y ≤ 1 ∧ Unhidden δ (2 ^ n) r ts a b x y ∧
      (SpanNear (2 ^ n) a b l x y ∨ SpanNear (2 ^ n) a b l y x) := by
  have h1M : (1 : ℝ) ≤ 2 ^ n := one_le_pow₀ (by norm_num)
  have hSm : Small ((2 : ℝ) ^ n) := ⟨h1M, pow_le_pow_right₀ (by norm_num) (by omega)⟩
  obtain ⟨s', h1, hw, h3⟩ := C21_rotate file rot (by
    intro f hf
    have : ∀ p ∈ f.corners, V3.Ok (p.mulM rot) := fun q hq => ((hs f hf q hq).mulM (by omega) hvb.1 hvb.2.1 hvb.2.2.1).ok
    exact ⟨this f.e0 (by simp [Facet.corners]), this f.e1 (by simp [Facet.corners]), this f.e2 (by simp [Facet.corners])⟩)
  rw [h] at h1; injection h1 with h1; subst h1
  have hx : ∀ f ∈ proj.facets, FacetExact (2 ^ n) f := by
    intro f hf
    obtain ⟨g, hg, rfl⟩ := List.mem_map.1 (List.mem_filter.1 (h3.subset hf)).1
    obtain ⟨t, -, htu⟩ := forall₂_mem_left hT hg
    exact htu.facetExact hδ
  obtain ⟨v, ev, hv, hvu, x, y, hpl, hfar⟩ := toLines_hidden hR hSm S hS hw hx ls hl l hlm
  obtain ⟨f, hf, sd, hsd, hes⟩ := hw.edgeOk ev (List.mem_of_getElem? hv)
  obtain ⟨-, -, x3, x4⟩ := side_exact (hx f hf) hsd
  have hside : f.val.HasSide (ev.1.val, ev.2.val) := by
    rcases hes with rfl | rfl
    · exact x3
    · exact x4
  refine ⟨List.ne_nil_of_mem hf, ?_⟩
  obtain ⟨h4, h5⟩ := List.mem_filter.1 (h3.subset hf)
  obtain ⟨g, hg, rfl⟩ := List.mem_map.1 h4
  obtain ⟨t, ht, htu⟩ := forall₂_mem_left hT hg
  obtain ⟨p, hp, q, hq, e1, e2, hpq⟩ := turned_side (r := r) (t := t) hside
  have ps := htu.shift p hp
  have qs := htu.shift q hq
  have hpl' := hpl
  rw [e1, e2] at hpl'
  obtain ⟨g1, g2, g3, g4, g5⟩ := part_near h1M ps qs hpl'
  have key : FarApart (2 ^ n / 2 ^ 10) (p.2.mulM r) (q.2.mulM r) → x ≤ y + 1 / 2 ^ 13 ∧ ∀ t ∈ ts, δ < (t.n.mulM r).z →
      ∀ s s', HidesPart ((2 ^ n) ^ 2 / 2 ^ 30) ((2 ^ n) ^ 2 / 2 ^ 14) (2 ^ n / 2 ^ 12) (1 / 2 ^ 15) (p.2.mulM r) (q.2.mulM r) (t.seenIn r) s s' →
        s' ≤ x + 1 / 2 ^ 11 ∨ y ≤ s + 1 / 2 ^ 11 := by
    intro hf
    have hf' := hf.shift h1M ps qs
    rw [e1, e2] at hfar
    obtain ⟨k1, k2⟩ := hfar hf'
    refine ⟨k1, ?_⟩
    intro u hu hz s s' hh
    obtain ⟨g', hg', htu'⟩ := forall₂_right hT u hu
    have hmem : rotFacet rot g' ∈ proj.facets :=
      h3.symm.subset (List.mem_filter.2 ⟨List.mem_map_of_mem hg', faces_front htu' hz⟩)
    exact k2 _ hmem s s' (part_turned h1M hδ htu' ps qs hh)
  rcases le_total x y with hxy | hxy
  · refine ⟨_, _, x, y, ps.2, qs.2, g1, hxy, g4, ⟨⟨t, ht, front_may htu h5, hpq⟩, ?_⟩, Or.inl g5⟩
    intro hf u hu hz s s' hh
    rcases (key hf).2 u hu hz s s' hh with h | h
    · left; norm_num at *; linarith
    · right; norm_num at *; linarith
  · refine ⟨_, _, y, x, ps.2, qs.2, g3, hxy, g2, ⟨⟨t, ht, front_may htu h5, hpq⟩, ?_⟩, Or.inr g5⟩
    intro hf u hu hz s s' hh
    have k1 := (key hf).1
    rcases (key hf).2 u hu hz s s' hh with h | h
    · left; norm_num at *; linarith
    · right; norm_num at *; linarith

/-- the lines of the body in a drawing -/
theorem framed_spans (hR : R.Accurate) {E : Env (Fl R)} (hS : SortOK E.sorter) {stl : Models (Fl R)} {n : ℕ} (hn : n ≤ 40) {name : Str} {ms : List (Meta (Fl R))}
    {sc rot loc file proj ls r kept k p off} (F : Framed E stl n name ms sc rot loc file proj ls r kept k p off) (Rel : V3 (Fl R) → V3 ℝ → Prop) (δ : ℝ)
    (ts : List (Tri ℝ)) (ho : OneToOne Rel) (hδ : δ ≤ 1 / 2 ^ 20)
    (hT : ∀ rot : M3 (Fl R), M3.NearTo rot r (1 / 2 ^ 40) → List.Forall₂ (Turned Rel δ (2 ^ n) rot r) file.facets ts) :
    (∀ a b σ, VisibleAt δ (2 ^ n) r ts a b σ → ∃ l ∈ ((OutPage.ofLines ls).moved (projScale sc) (projOffset loc proj.limits (projScale sc))).lines, ∃ x y,
      0 ≤ x ∧ x ≤ σ ∧ σ ≤ y ∧ y ≤ 1 ∧
      LineJoins ((2 ^ n * |k| + (|p.x| + |p.y|) + 1) / 2 ^ 16) ((edgeAt (a, b) x).xy.moved k off) ((edgeAt (a, b) y).xy.moved k off) l) ∧
    ∀ l ∈ ((OutPage.ofLines ls).moved (projScale sc) (projOffset loc proj.limits (projScale sc))).lines, ∃ a b x y, 0 ≤ x ∧ x ≤ y ∧ y ≤ 1 ∧
      Unhidden δ (2 ^ n) r ts a b x y ∧
      LineJoins ((2 ^ n * |k| + (|p.x| + |p.y|) + 1) / 2 ^ 16) ((edgeAt (a, b) x).xy.moved k off) ((edgeAt (a, b) y).xy.moved k off) l := by
  have hd := F.drawn
  have hto := hd.lines
  rw [F.culled] at hto
  have page : ∀ {a b : V3 ℝ} {l : Line (Fl R)} {x y : ℝ}, proj.facets ≠ [] → a.Within (3 * 2 ^ n) → b.Within (3 * 2 ^ n) → 0 ≤ x → x ≤ y → y ≤ 1 →
      (SpanNear (2 ^ n) a b l x y ∨ SpanNear (2 ^ n) a b l y x) →
      LineJoins ((2 ^ n * |k| + (|p.x| + |p.y|) + 1) / 2 ^ 16) ((edgeAt (a, b) x).xy.moved k off) ((edgeAt (a, b) y).xy.moved k off)
        ⟨l.o.moved (projScale sc) (projOffset loc proj.limits (projScale sc)), l.t.moved (projScale sc) (projOffset loc proj.limits (projScale sc))⟩ := by
    intro a b l x y hne wa wb x0 xy y1 hor
    have hkept : kept ≠ [] := by
      rintro rfl
      have := F.perm
      simp at this
      exact hne this
    obtain ⟨hoff, o1, o2⟩ := F.offset hkept
    have hpos : (0 : ℝ) ≤ 2 ^ n := by positivity
    have conv : ∀ {s t z : ℝ}, |s| ≤ 3 * 2 ^ n → |t| ≤ 3 * 2 ^ n → 0 ≤ z → z ≤ 1 → |s + (t - s) * z| ≤ 9 * 2 ^ n := by
      intro s t z hs ht z0 z1
      have m : |(t - s) * z| ≤ 6 * 2 ^ n * 1 := by
        rw [abs_mul]
        exact mul_le_mul ((abs_sub _ _).trans (by linarith)) (by rw [abs_le]; constructor <;> linarith) (abs_nonneg _) (by positivity)
      exact (abs_add_le _ _).trans (by linarith)
    have pt : ∀ {u : V3 (Fl R)} {z : ℝ}, 0 ≤ z → z ≤ 1 → V3.NearTo u (edgeAt (a, b) z) (2 ^ n / 2 ^ 17) →
        V2.NearTo (u.xy.moved (projScale sc) (projOffset loc proj.limits (projScale sc))) ((edgeAt (a, b) z).xy.moved k off) ((2 ^ n * |k| + (|p.x| + |p.y|) + 1) / 2 ^ 16) := by
      intro u z z0 z1 hu
      rw [hoff, F.scale]
      exact ⟨page_coarse hR F.mid o1 hu.1 (conv wa.1 wb.1 z0 z1), page_coarse hR F.mid o2 hu.2.1 (conv wa.2.1 wb.2.1 z0 z1)⟩
    rcases hor with ⟨u, w, rfl, k1, k2⟩ | ⟨u, w, rfl, k1, k2⟩
    · exact Or.inl ⟨pt x0 (by linarith) k1, pt (by linarith) y1 k2⟩
    · exact Or.inr ⟨pt (by linarith) y1 k1, pt x0 (by linarith) k2⟩
  constructor
  · intro a b σ hvis
    obtain ⟨hne, wa, wb, l, hl, x, y, k1, k2, k3, k4, k5⟩ := view_visible hR E.sorter hS hn F.bd ho hδ F.viewBd F.rotation (hT rot F.near) hd.turned hto hvis
    exact ⟨_, List.mem_map.2 ⟨l, hl, rfl⟩, x, y, k1, k2, k3, k4, page hne wa wb k1 (by linarith) k4 k5⟩
  · intro l' hl'
    obtain ⟨l, hl, rfl⟩ := List.mem_map.1 hl'
    obtain ⟨hne, a, b, x, y, wa, wb, k1, k2, k3, k4, k5⟩ := view_hidden hR E.sorter hS hn F.bd hδ F.viewBd F.rotation (hT rot F.near) hd.turned hto hl
    exact ⟨a, b, x, y, k1, k2, k3, k4, page hne wa wb k1 k2 k3 k5⟩


/-- **The drawing**: hidden lines and visible ones, at the scale and the place asked for; `ts` is what the facets of the file stand for. -/
theorem draw_spans (hR : R.Accurate) (E : Env (Fl R)) (hS : SortOK E.sorter) (hJ : E.junkM = ⟨V3.zero, V3.zero, V3.zero⟩)
    (stl : Models (Fl R)) {n : ℕ} (hn : n ≤ 40) (hM : stl.Bd n) (name : Str) (ms : List (Meta (Fl R))) (hf : ∀ m ∈ ms, m.val.LocBd) (hv : TameView ms)
    (hs : TameScale ms) (dims : List (DimN (Fl R))) (line : Nat) (c) (h : content E stl (.draw name ms dims line) = .ok c) (hc : c.1 = true) :
    ∃ file r kept k p off own rest, (∃ e, stl.find? (fun e => decide (e.1 = name)) = some e ∧ e.2 = some file) ∧ AskedView ms r ∧ IsRotation r ∧
      NearlySeen r file kept (1 / 2 ^ 37) ∧ NearlyProjects file ms kept k p off (inkError (2 ^ n) k p) ∧ file.Bd n ∧
      c.2.1.lines = own ++ rest ∧ (dims = [] → rest = []) ∧
      (∀ (Rel : V3 (Fl R) → V3 ℝ → Prop) (δ : ℝ) (ts : List (Tri ℝ)), OneToOne Rel → δ ≤ 1 / 2 ^ 20 →
        (∀ rot : M3 (Fl R), M3.NearTo rot r (1 / 2 ^ 40) → List.Forall₂ (Turned Rel δ (2 ^ n) rot r) file.facets ts) →
        (∀ a b σ, VisibleAt δ (2 ^ n) r ts a b σ → ∃ l ∈ own, ∃ x y, 0 ≤ x ∧ x ≤ σ ∧ σ ≤ y ∧ y ≤ 1 ∧
          LineJoins ((2 ^ n * |k| + (|p.x| + |p.y|) + 1) / 2 ^ 16) ((edgeAt (a, b) x).xy.moved k off) ((edgeAt (a, b) y).xy.moved k off) l) ∧
        ∀ l ∈ own, ∃ a b x y, 0 ≤ x ∧ x ≤ y ∧ y ≤ 1 ∧ Unhidden δ (2 ^ n) r ts a b x y ∧
          LineJoins ((2 ^ n * |k| + (|p.x| + |p.y|) + 1) / 2 ^ 16) ((edgeAt (a, b) x).xy.moved k off) ((edgeAt (a, b) y).xy.moved k off) l) := by
  obtain ⟨sc, rot, loc, file, proj, ls, r, kept, k, p, off, F⟩ := draw_frame hR E hS hJ stl (by omega) hM name ms hf hv hs dims line c h hc
  have hd := F.drawn
  obtain ⟨Ps, hPs, e⟩ := C38_drawing E stl name ms dims line c h _ _ _ _ _ _ hd (by rw [hJ]; exact F.viewBd.2.2.2)
  refine ⟨file, r, _, k, p, off, ((OutPage.ofLines ls).moved (projScale sc) (projOffset loc proj.limits (projScale sc))).lines,
    ((OutPage.sum Ps).moved (projScale sc) (projOffset loc proj.limits (projScale sc))).lines, hd.model, F.asked, F.rotation,
    ⟨kept, rfl, F.keptIn, F.keptIff⟩, F.placed, F.bd, ?_, ?_, ?_⟩
  · rw [e, F.culled]; simp [OutPage.sum, OutPage.moved, OutPage.app, OutPage.ofLines]
  · rintro rfl
    cases hPs
    simp [OutPage.sum, OutPage.moved, OutPage.empty]
  exact fun Rel δ ts ho hδ hT => framed_spans hR hS hn F Rel δ ts ho hδ hT

end
end S2P
