import Verif.Lemmas.FacetOrder
import Verif.Lemmas.Finite
import Verif.Lemmas.DimSum
import Verif.Props.Labels

set_option linter.unusedSectionVars false
set_option linter.unusedVariables false
set_option linter.unusedSimpArgs false

/-! # Views of two lists of facets describing the same surface -/

namespace S2P

theorem SameShape.refl {α : Type} (fs : List (Facet α)) : SameShape fs fs := by
  refine ⟨fs, .refl _, ?_⟩
  induction fs with
  | nil => exact .nil
  | cons f fs ih => exact .cons ⟨rfl, rfl, Or.inl rfl⟩ ih

theorem SameShape.perm_left {α : Type} {fs fs' gs : List (Facet α)} (h : SameShape fs gs) (hp : fs.Perm fs') : SameShape fs' gs := by
  obtain ⟨mid, h1, h2⟩ := h
  exact ⟨mid, hp.symm.trans h1, h2⟩

theorem SameShape.perm_right {α : Type} {fs gs gs' : List (Facet α)} (h : SameShape fs gs) (hp : gs.Perm gs') : SameShape fs gs' := by
  obtain ⟨mid, h1, h2⟩ := h
  have hc : Relation.Comp (List.Forall₂ Facet.Turned) List.Perm mid gs' := ⟨gs, h2, hp⟩
  rw [List.forall₂_comp_perm_eq_perm_comp_forall₂] at hc
  obtain ⟨mid', k1, k2⟩ := hc
  exact ⟨mid', h1.trans k1, k2⟩

theorem SameShape.map {α β : Type} {fs gs : List (Facet α)} (h : SameShape fs gs) (t : Facet α → Facet β)
    (ht : ∀ f g, f.Turned g → (t f).Turned (t g)) : SameShape (fs.map t) (gs.map t) := by
  obtain ⟨mid, h1, h2⟩ := h
  refine ⟨mid.map t, h1.map t, ?_⟩
  clear h1
  induction h2 with
  | nil => exact .nil
  | cons a _ ih => exact .cons (ht _ _ a) ih

theorem rotFacet_turned {α : Type} [FP α] (m : M3 α) (f g : Facet α) (h : f.Turned g) : (rotFacet m f).Turned (rotFacet m g) := by
  obtain ⟨h1, h2, h3⟩ := h
  simp only [Prod.mk.injEq] at h3
  refine ⟨by simp [rotFacet, h1], by simp [rotFacet, h2], ?_⟩
  simp only [rotFacet, Prod.mk.injEq]
  rcases h3 with ⟨a, b, c⟩ | ⟨a, b, c⟩ | ⟨a, b, c⟩ <;> rw [a, b, c] <;> simp

section
variable {K : Type} [Field K] [LinearOrder K] [IsStrictOrderedRing K] [FloorRing K] [Trans K]

theorem corners_same {s u : STLFile (Ext K)} (h : SameShape s.facets u.facets) (p : V3 (Ext K)) : p ∈ s.corners ↔ p ∈ u.corners := by
  obtain ⟨h1, h2⟩ := h.mem
  unfold STLFile.corners
  simp only [List.mem_flatMap]
  constructor
  · rintro ⟨f, hf, hp⟩
    obtain ⟨g, hg, ht⟩ := h1 f hf
    exact ⟨g, hg, ht.corners.subset hp⟩
  · rintro ⟨g, hg, hp⟩
    obtain ⟨f, hf, ht⟩ := h2 g hg
    exact ⟨f, hf, ht.corners.symm.subset hp⟩

theorem mem_corners {α : Type} (s : STLFile α) (p : V3 α) : p ∈ s.corners ↔ ∃ f ∈ s.facets, p = f.e0 ∨ p = f.e1 ∨ p = f.e2 := by
  unfold STLFile.corners
  simp [Facet.corners]

theorem points_same {s u : STLFile (Ext K)} (h : SameShape s.facets u.facets) (hs : ∀ f ∈ s.facets, f.CornersFin)
    (hu : ∀ f ∈ u.facets, f.CornersFin) : s.points = u.points := by
  have fin : ∀ (s : STLFile (Ext K)), (∀ f ∈ s.facets, f.CornersFin) → ∀ p, p ∈ s.points ↔ p ∈ s.corners := by
    intro s hs p
    obtain ⟨i1, -, -⟩ := C18_points s (fun f hf => (hs f hf).ok)
    rw [mem_corners]
    refine ⟨i1 p, ?_⟩
    rintro ⟨f, hf, hp⟩
    obtain ⟨q, rfl⟩ : ∃ q : V3 K, p = q.fin := by
      obtain ⟨a, b, c, h0, h1, h2⟩ := hs f hf
      rcases hp with h | h | h
      · exact ⟨a, h.trans h0⟩
      · exact ⟨b, h.trans h1⟩
      · exact ⟨c, h.trans h2⟩
    exact (C18_points_finite s hs q).1.2 ⟨f, hf, hp⟩
  have ok : ∀ (s : STLFile (Ext K)), (∀ f ∈ s.facets, f.CornersFin) → ∀ p ∈ s.corners, V3.Ok p := by
    intro s hs p hp
    obtain ⟨f, hf, hp⟩ := (mem_corners s p).1 hp
    obtain ⟨a, b, c⟩ := (hs f hf).ok
    rcases hp with rfl | rfl | rfl <;> assumption
  have e : s.points.Perm u.points := by
    refine (List.perm_ext_iff_of_nodup (C18_points_finite s hs ⟨0, 0, 0⟩).2 (C18_points_finite u hu ⟨0, 0, 0⟩).2).2 fun p => ?_
    rw [fin s hs, fin u hu, corners_same h]
  have anti := order_strictWeak (α := Ext K)
  refine List.Perm.eq_of_pairwise (le := fun a b => order a b = true) ?_ (C18_points s (fun f hf => (hs f hf).ok)).2.2
    (C18_points u (fun f hf => (hu f hf).ok)).2.2 e
  intro a b ha hb hab hba
  have oa := ok s hs a ((fin s hs a).1 ha)
  have ob := ok u hu b ((fin u hu b).1 hb)
  have := anti.trans a b a oa ob oa hab hba
  rw [anti.irrefl a oa] at this
  cases this

theorem limits_same {s u : STLFile (Ext K)} (h : SameShape s.facets u.facets) (hs : ∀ f ∈ s.facets, f.CornersFin)
    (hu : ∀ f ∈ u.facets, f.CornersFin) : s.limits = u.limits := by
  by_cases he : s.facets = []
  · have hu' : u.facets = [] := by
      have := h.length
      rw [he] at this
      exact List.eq_nil_of_length_eq_zero this.symm
    rw [C20_limits_empty s he, C20_limits_empty u hu']
  · have hu' : u.facets ≠ [] := by
      intro hc
      have := h.length
      rw [hc] at this
      exact he (List.eq_nil_of_length_eq_zero this)
    obtain ⟨a0, ⟨p1, m1, q1⟩, ⟨p2, m2, q2⟩, ⟨p3, m3, q3⟩, ⟨p4, m4, q4⟩⟩ := C20_limits s he (fun f hf => (hs f hf).ok)
    obtain ⟨b0, ⟨r1, n1, t1⟩, ⟨r2, n2, t2⟩, ⟨r3, n3, t3⟩, ⟨r4, n4, t4⟩⟩ := C20_limits u hu' (fun f hf => (hu f hf).ok)
    have fin : ∀ (p : V3 (Ext K)), p ∈ s.corners → ∃ q : V3 K, p = q.fin := by
      intro p hp
      obtain ⟨f, hf, hp⟩ := (mem_corners s p).1 hp
      obtain ⟨a, b, c, h0, h1, h2⟩ := hs f hf
      rcases hp with h | h | h
      · exact ⟨a, h.trans h0⟩
      · exact ⟨b, h.trans h1⟩
      · exact ⟨c, h.trans h2⟩
    have a0' : ∀ p ∈ s.corners, FP.le s.limits.o.x p.x = true ∧ FP.le s.limits.o.y p.y = true ∧
      FP.le p.x s.limits.t.x = true ∧ FP.le p.y s.limits.t.y = true := by
      intro p hp
      obtain ⟨f, hf, hp⟩ := (mem_corners s p).1 hp
      exact a0 f hf p hp
    have b0' : ∀ p ∈ s.corners, FP.le u.limits.o.x p.x = true ∧ FP.le u.limits.o.y p.y = true ∧
      FP.le p.x u.limits.t.x = true ∧ FP.le p.y u.limits.t.y = true := by
      intro p hp
      obtain ⟨f, hf, hp⟩ := (mem_corners u p).1 ((corners_same h p).1 hp)
      exact b0 f hf p hp
    rw [← corners_same h] at n1 n2 n3 n4
    have k1 := (a0' r1 n1).1; have k2 := (a0' r2 n2).2.1; have k3 := (a0' r3 n3).2.2.1; have k4 := (a0' r4 n4).2.2.2
    have l1 := (b0' p1 m1).1; have l2 := (b0' p2 m2).2.1; have l3 := (b0' p3 m3).2.2.1; have l4 := (b0' p4 m4).2.2.2
    rw [q1] at k1; rw [q2] at k2; rw [q3] at k3; rw [q4] at k4
    rw [t1] at l1; rw [t2] at l2; rw [t3] at l3; rw [t4] at l4
    obtain ⟨p1, rfl⟩ := fin p1 m1; obtain ⟨p2, rfl⟩ := fin p2 m2; obtain ⟨p3, rfl⟩ := fin p3 m3; obtain ⟨p4, rfl⟩ := fin p4 m4
    obtain ⟨r1, rfl⟩ := fin r1 n1; obtain ⟨r2, rfl⟩ := fin r2 n2; obtain ⟨r3, rfl⟩ := fin r3 n3; obtain ⟨r4, rfl⟩ := fin r4 n4
    simp only [V3.fin, V3.map, Ext.fin_le, decide_eq_true_eq] at k1 k2 k3 k4 l1 l2 l3 l4
    have e1 := le_antisymm k1 l1; have e2 := le_antisymm k2 l2; have e3 := le_antisymm k3 l3; have e4 := le_antisymm k4 l4
    generalize s.limits = L at *
    generalize u.limits = M at *
    obtain ⟨⟨_, _⟩, ⟨_, _⟩⟩ := L
    obtain ⟨⟨_, _⟩, ⟨_, _⟩⟩ := M
    simp only [V3.fin, V3.map] at q1 q2 q3 q4 t1 t2 t3 t4
    subst q1 q2 q3 q4 t1 t2 t3 t4
    rw [e1, e2, e3, e4]

end

theorem rot_inj {r : M3 ℝ} (hr : IsRotation r) {u w : V3 ℝ} (h : u.mulM r = w.mulM r) : u = w := by
  by_contra hne
  have hs : (u - w).mulM r = u.mulM r - w.mulM r := by ext <;> simp [V3.mulM] <;> ring
  refine rot_ne hr (u := u - w) ?_ ?_
  · intro hc
    apply hne
    have hx := congrArg V3.x hc; have hy := congrArg V3.y hc; have hz := congrArg V3.z hc
    simp only [V3.sub_x, V3.sub_y, V3.sub_z] at hx hy hz
    ext
    · linarith
    · linarith
    · linarith
  · rw [hs, h]; ext <;> simp

theorem made_corners {f : Facet (Ext ℝ)} (h : f.Made) : f.CornersFin := by
  obtain ⟨n, a, b, c, hmk⟩ := h
  unfold mkFacet at hmk
  injection hmk with hmk
  subst hmk
  by_cases hf : FP.lt (n.fin.dot (((b.fin - a.fin).cross (c.fin - a.fin)).normalized)) (FP.lit 0 : Ext ℝ) = true
  · simp only [hf, if_true]; exact ⟨c, b, a, rfl, rfl, rfl⟩
  · simp only [hf]; exact ⟨a, b, c, rfl, rfl, rfl⟩

theorem rot_corners {f : Facet (Ext ℝ)} (h : f.CornersFin) (m : M3 ℝ) : (rotFacet m.fin f).CornersFin := by
  obtain ⟨a, b, c, h0, h1, h2⟩ := h
  exact ⟨a.mulM m, b.mulM m, c.mulM m, by simp [rotFacet, h0, V3.fin_mulM], by simp [rotFacet, h1, V3.fin_mulM], by simp [rotFacet, h2, V3.fin_mulM]⟩

/-- the sides of a rotated facet are the rotated sides -/
theorem rot_side {m : M3 ℝ} (hm : IsRotation m) {f : Facet (Ext ℝ)} (h : f.CornersFin) (p q : V3 ℝ)
    (hs : HasSide (rotFacet m.fin f) ((p.mulM m).fin, (q.mulM m).fin)) : HasSide f (p.fin, q.fin) := by
  obtain ⟨a, b, c, h0, h1, h2⟩ := h
  unfold HasSide sidesOf at hs ⊢
  simp only [rotFacet, h0, h1, h2, V3.fin_mulM, List.mem_cons, List.not_mem_nil, or_false] at hs
  simp only [h0, h1, h2, List.mem_cons, List.not_mem_nil, or_false]
  have key : ∀ a b : V3 ℝ, SameEdge ((p.mulM m).fin, (q.mulM m).fin) (a.mulM m).fin (b.mulM m).fin → SameEdge (p.fin, q.fin) a.fin b.fin := by
    intro a b h
    unfold SameEdge at h ⊢
    simp only [samePt_fin] at h ⊢
    rcases h with ⟨h, h'⟩ | ⟨h, h'⟩
    · exact Or.inl ⟨rot_inj hm h, rot_inj hm h'⟩
    · exact Or.inr ⟨rot_inj hm h, rot_inj hm h'⟩
  obtain ⟨sd, hsd, hs⟩ := hs
  rcases hsd with rfl | rfl | rfl
  · exact ⟨_, Or.inl rfl, key a b hs⟩
  · exact ⟨_, Or.inr (Or.inl rfl), key b c hs⟩
  · exact ⟨_, Or.inr (Or.inr rfl), key c a hs⟩

theorem Ext.eq_fin_right {x : Ext ℝ} {b : ℝ} (h : FP.eq x (Ext.fin b) = true) : x = Ext.fin b := by
  cases x with
  | fin a => simpa using h
  | _ => exact absurd h (by simp [FP.eq, Ext.eq])

theorem samePt_fin_right {u : V3 (Ext ℝ)} {w : V3 ℝ} (h : SamePt u w.fin) : u = w.fin := by
  obtain ⟨x, y, z⟩ := u
  obtain ⟨hx, hy, hz⟩ := h
  have hx := Ext.eq_fin_right hx; have hy := Ext.eq_fin_right hy; have hz := Ext.eq_fin_right hz
  simp only at hx hy hz
  rw [hx, hy, hz]; rfl

/-- an edge of the view borders at most two facets, if that is so for the file -/
theorem bordering_le (fs V : List (Facet (Ext ℝ))) (m : M3 ℝ) (hm : IsRotation m) (hf : ∀ f ∈ fs, f.CornersFin) (h2 : TwoSided fs)
    (hV : V.Subperm (fs.map (rotFacet m.fin))) (e : Edge (Ext ℝ)) : (bordering V e).length ≤ 2 := by
  classical
  by_contra hlt
  have hsub : ((bordering V e).take 3).Subperm (fs.map (rotFacet m.fin)) :=
    (((List.take_sublist 3 _).trans List.filter_sublist).subperm).trans hV
  obtain ⟨l, hl, hsl⟩ := hsub
  obtain ⟨l', hl', rfl⟩ := List.sublist_map_iff.1 hsl
  have hside : ∀ x ∈ l', HasSide (rotFacet m.fin x) e := by
    intro x hx
    have := hl.subset (List.mem_map_of_mem hx)
    have := List.mem_of_mem_take this
    unfold bordering at this
    simpa using (List.mem_filter.1 this).2
  have hlen : l'.length = 3 := by
    have := hl.length_eq
    rw [List.length_map, List.length_take] at this
    omega
  obtain ⟨x, y, z, rfl⟩ := List.length_eq_three.1 hlen
  have hx := hf x (hl'.subset (by simp)); have hy := hf y (hl'.subset (by simp)); have hz := hf z (hl'.subset (by simp))
  have sx := hside x (by simp); have sy := hside y (by simp); have sz := hside z (by simp)
  obtain ⟨p, q, rfl⟩ : ∃ p q : V3 ℝ, e = ((p.mulM m).fin, (q.mulM m).fin) := by
    obtain ⟨a, b, c, h0, h1, h2⟩ := hx
    obtain ⟨sd, hsd, he⟩ := sx
    simp only [sidesOf, rotFacet, h0, h1, h2, V3.fin_mulM, List.mem_cons, List.not_mem_nil, or_false] at hsd
    have key : ∀ a b : V3 ℝ, SameEdge e (a.mulM m).fin (b.mulM m).fin → ∃ p q : V3 ℝ, e = ((p.mulM m).fin, (q.mulM m).fin) := by
      intro a b h
      rcases h with ⟨h, h'⟩ | ⟨h, h'⟩
      · exact ⟨a, b, Prod.ext (samePt_fin_right h) (samePt_fin_right h')⟩
      · exact ⟨b, a, Prod.ext (samePt_fin_right h) (samePt_fin_right h')⟩
    rcases hsd with rfl | rfl | rfl
    · exact key a b he
    · exact key b c he
    · exact key c a he
  exact h2 x y z hl'.subperm (p.fin, q.fin) ⟨rot_side hm hx p q sx, rot_side hm hy p q sy, rot_side hm hz p q sz⟩

theorem made_norm {f : Facet (Ext ℝ)} (h : f.Made) : ∃ n : V3 ℝ, f.norm = n.fin := by
  obtain ⟨n, a, b, c, hmk⟩ := h
  by_cases hdeg : (b - a).cross (c - a) = ⟨0, 0, 0⟩
  · rw [C16_degenerate n a b c hdeg] at hmk
    injection hmk with hmk
    exact ⟨_, by rw [← hmk]⟩
  · obtain ⟨N, e0, e2, r, m1, -⟩ := C16_facet n a b c hdeg
    rw [m1] at hmk
    injection hmk with hmk
    exact ⟨N, by rw [← hmk]⟩

/-- the facets kept are those facing the viewer -/
theorem kept_facing (m : M3 ℝ) : ∀ (fs : List (Facet (Ext ℝ))), (∀ f ∈ fs, f.Made) →
    (fs.map (rotFacet m.fin)).filter (fun f => !FP.le f.norm.z (FP.lit 0)) = (facing m.fin fs).map (rotFacet m.fin) := by
  intro fs h
  unfold facing
  rw [List.filter_map]
  congr 1
  apply List.filter_congr
  intro f hf
  obtain ⟨n, hn⟩ := made_norm (h f hf)
  simp only [Function.comp, rotFacet, hn, V3.fin_mulM, V3.fin_z, Ext.lit_eq, Rat.cast_zero, Ext.fin_le, Ext.fin_lt]
  by_cases hz : (n.mulM m).z ≤ 0
  · simp [hz]
  · simp [hz, not_le.1 hz]

/-- The views of two files of which the parts facing the viewer describe the same surface, none of whose edges borders three such facets. -/
theorem view_sameFront (S : Sorter) (hS : SortOK S) (s u : STLFile (Ext ℝ)) (m : M3 ℝ) (hm : IsRotation m)
    (hs : ∀ f ∈ s.facets, f.Made) (hu : ∀ f ∈ u.facets, f.Made) (h2 : TwoSided (facing m.fin s.facets))
    (h : SameShape (facing m.fin s.facets) (facing m.fin u.facets)) :
    ∃ p q ls ls', s.rotate m.fin = .ok p ∧ u.rotate m.fin = .ok q ∧ p.cull.limits = q.cull.limits ∧ p.cull.points = q.cull.points ∧
      p.cull.toLines S = .ok ls ∧ q.cull.toLines S = .ok ls' ∧ ls.Perm ls' := by
  obtain ⟨p, ts, es, r1, r2, r3, r4, r5, r6⟩ := C26_after_view s m hm hs
  obtain ⟨q, us, es', t1, t2, t3, t4, t5, t6⟩ := C26_after_view u m hm hu
  have hcs : ∀ f ∈ s.facets, f.CornersFin := fun f hf => made_corners (hs f hf)
  have hcu : ∀ f ∈ u.facets, f.CornersFin := fun f hf => made_corners (hu f hf)
  obtain ⟨p', k1, -, kp⟩ := C21_rotate s m.fin (fun f hf => (rot_corners (hcs f hf) m).ok)
  obtain ⟨q', l1, -, lp⟩ := C21_rotate u m.fin (fun f hf => (rot_corners (hcu f hf) m).ok)
  rw [r1] at k1; injection k1 with k1; subst k1
  rw [t1] at l1; injection l1 with l1; subst l1
  have hsame : SameShape p.facets q.facets := by
    refine SameShape.perm_right (SameShape.perm_left ?_ kp.symm) lp.symm
    rw [kept_facing m s.facets hs, kept_facing m u.facets hu]
    exact h.map _ (rotFacet_turned m.fin)
  have cf : ∀ (w : STLFile (Ext ℝ)) (ts : List (Tri ℝ)), w.facets = ts.map Tri.fin → ∀ f ∈ w.facets, f.CornersFin := by
    intro w ts hw f hf
    rw [hw] at hf
    obtain ⟨t, -, rfl⟩ := List.mem_map.1 hf
    exact ⟨t.a, t.b, t.c, rfl, rfl, rfl⟩
  have idx : ∀ (w z : STLFile (Ext ℝ)), w.rotate m.fin = .ok z → (∀ f ∈ w.facets, f.CornersFin) → index z.facets = .ok z := by
    intro w z hw hc
    unfold STLFile.rotate at hw
    obtain ⟨z', e1, e2, -⟩ := C21_index (cullFacets (w.facets.map (rotFacet m.fin))) (by
      intro f hf
      obtain ⟨g, hg, rfl⟩ := List.mem_map.1 (List.mem_filter.1 ((cullFacets_perm _).subset hf)).1
      exact (rot_corners (hc g hg) m).ok)
    rw [hw] at e1; injection e1 with e1; subst e1
    rw [e2]; exact hw
  obtain ⟨ls, ls', g1, g2, g3⟩ := toLines_sameShape S hS p q ts us (by rw [← r3]; exact idx s p r1 hcs) (by rw [← t3]; exact idx u q t1 hcu) r5 t5
    (by
      intro e
      rw [← r3]
      refine bordering_le (facing m.fin s.facets) p.facets m hm (fun f hf => hcs f (List.mem_filter.1 hf).1) h2 ?_ e
      rw [← kept_facing m s.facets hs]
      exact kp.subperm)
    (by rw [← r3, ← t3]; exact hsame)
  exact ⟨p, q, ls, ls', r1, t1, by rw [r2, t2]; exact limits_same hsame (cf p ts r3) (cf q us t3),
    by rw [r2, t2]; exact points_same hsame (cf p ts r3) (cf q us t3), by rw [r2]; exact g1, by rw [t2]; exact g2, g3⟩

/-- The views of two files describing the same surface, none of whose edges borders three facets. -/
theorem view_sameShape (S : Sorter) (hS : SortOK S) (s u : STLFile (Ext ℝ)) (m : M3 ℝ) (hm : IsRotation m)
    (hs : ∀ f ∈ s.facets, f.Made) (hu : ∀ f ∈ u.facets, f.Made) (h2 : TwoSided s.facets) (h : SameShape s.facets u.facets) :
    ∃ p q ls ls', s.rotate m.fin = .ok p ∧ u.rotate m.fin = .ok q ∧ p.cull.limits = q.cull.limits ∧ p.cull.points = q.cull.points ∧
      p.cull.toLines S = .ok ls ∧ q.cull.toLines S = .ok ls' ∧ ls.Perm ls' := by
  refine view_sameFront S hS s u m hm hs hu ?_ ?_
  · intro f g k hsub e
    exact h2 f g k (hsub.trans List.filter_sublist.subperm) e
  · refine h.filter _ ?_
    intro f g hfg
    rw [hfg.1]

end S2P
