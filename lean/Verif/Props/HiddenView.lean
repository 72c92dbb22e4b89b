import Verif.Props.Hidden

set_option linter.unusedSectionVars false
set_option linter.unusedVariables false
set_option linter.unusedSimpArgs false

/-! # C28: only edges of facets that face the viewer are drawn, from the model as loaded -/

namespace S2P

/-- C28, from the model as loaded: every line of a view of it is the page projection of a part (of positive length) of a side of one of its facets, and this facet faces the
viewer. -/
theorem C28_viewed (S : Sorter) (hS : SortOK S) (s : STLFile (Ext ℝ)) (m : M3 ℝ) (hm : IsRotation m)
    (hf : ∀ f ∈ s.facets, ∃ n a b c : V3 ℝ, mkFacet n.fin [a.fin, b.fin, c.fin] = .ok f)
    (s' : STLFile (Ext ℝ)) (hs : s.rotate m.fin = .ok s') (ls : List (Line (Ext ℝ))) (hls : s'.toLines S = .ok ls) (l : Line (Ext ℝ)) (hl : l ∈ ls) :
    ∃ f ∈ s.facets, ∃ t : Tri ℝ, f = t.fin ∧ 0 < (t.n.mulM m).z ∧ ∃ (e : Edge ℝ) (a b : ℝ), t.HasSide e ∧ 0 ≤ a ∧ a < b ∧ b ≤ 1 ∧
      l = ⟨((edgeAt e a).mulM m).xy.fin, ((edgeAt e b).mulM m).xy.fin⟩ := by
  obtain ⟨s1, ts, es, h1, -, h3, h4, h5, h6⟩ := C26_after_view s m hm hf
  rw [hs] at h1
  cases h1
  have h0 : ∀ f ∈ s.facets, ∃ t : Tri ℝ, f = t.fin := by
    intro f hff
    obtain ⟨n, a, b, c, hmk⟩ := hf f hff
    by_cases hdeg : (b - a).cross (c - a) = ⟨0, 0, 0⟩
    · rw [C16_degenerate n a b c hdeg] at hmk
      injection hmk with hmk
      exact ⟨⟨⟨0, 0, 0⟩, a, b, c, 0⟩, hmk.symm⟩
    · obtain ⟨N, e0, e2, r, q1, -⟩ := C16_facet n a b c hdeg
      rw [q1] at hmk
      injection hmk with hmk
      exact ⟨⟨N, e0, b, e2, r⟩, hmk.symm⟩
  obtain ⟨s2, r1, -, r3⟩ := C21_rotate s m.fin (by
    intro f hff
    obtain ⟨t, rfl⟩ := h0 f hff
    simp only [rotFacet, V3.fin_mulM]
    exact ⟨V3.ok_fin _, V3.ok_fin _, V3.ok_fin _⟩)
  rw [hs] at r1
  cases r1
  obtain ⟨v, e, a, b, -, -, ⟨g, hg, hside⟩, a0, ab, b1, rfl⟩ := C28_only_real_edges S hS s' ts es h3 h4 h5 h6 ls hls l hl
  have hg' : Tri.fin g ∈ s'.facets := by rw [h3]; exact List.mem_map.2 ⟨g, hg, rfl⟩
  obtain ⟨f, hff, he⟩ := List.mem_map.1 (List.mem_filter.1 (r3.subset hg')).1
  obtain ⟨t, rfl⟩ := h0 f hff
  have hgt : g = ⟨t.n.mulM m, t.a.mulM m, t.b.mulM m, t.c.mulM m, t.r⟩ := by
    simp only [rotFacet, V3.fin_mulM, Facet.mk.injEq, V3.fin_injective, Ext.fin_inj] at he
    obtain ⟨n, a', b', c', r'⟩ := g
    simp only at he
    obtain ⟨rfl, rfl, rfl, rfl, rfl⟩ := he
    rfl
  subst hgt
  refine ⟨_, hff, t, rfl, (h5 _ hg).facing, ?_⟩
  have hat : ∀ (p q : V3 ℝ) (x : ℝ), edgeAt (p.mulM m, q.mulM m) x = (edgeAt (p, q) x).mulM m := by
    intro p q x
    ext <;> simp [edgeAt, V3.mulM, V3.smul] <;> ring
  have side : ∃ e' : Edge ℝ, t.HasSide e' ∧ e = (e'.1.mulM m, e'.2.mulM m) := by
    rcases hside with h | h | h | h | h | h
    · exact ⟨(t.a, t.b), Or.inl rfl, h⟩
    · exact ⟨(t.b, t.c), Or.inr (Or.inl rfl), h⟩
    · exact ⟨(t.c, t.a), Or.inr (Or.inr (Or.inl rfl)), h⟩
    · exact ⟨(t.b, t.a), Or.inr (Or.inr (Or.inr (Or.inl rfl))), h⟩
    · exact ⟨(t.c, t.b), Or.inr (Or.inr (Or.inr (Or.inr (Or.inl rfl)))), h⟩
    · exact ⟨(t.a, t.c), Or.inr (Or.inr (Or.inr (Or.inr (Or.inr rfl)))), h⟩
  obtain ⟨e', hs', rfl⟩ := side
  exact ⟨e', a, b, hs', a0, ab, b1, by rw [hat, hat]⟩

/-- A triangle in the plane z = 0, seen from above, meets these hypotheses. -/
example : ∃ (s s' : STLFile (Ext ℝ)) (ls : List (Line (Ext ℝ))), s.facets.length = 1 ∧ IsRotation (⟨⟨1, 0, 0⟩, ⟨0, 1, 0⟩, ⟨0, 0, 1⟩⟩ : M3 ℝ) ∧
    (∀ f ∈ s.facets, ∃ n a b c : V3 ℝ, mkFacet n.fin [a.fin, b.fin, c.fin] = .ok f) ∧
    s.rotate (⟨⟨1, 0, 0⟩, ⟨0, 1, 0⟩, ⟨0, 0, 1⟩⟩ : M3 ℝ).fin = .ok s' ∧ s'.toLines insSorter = .ok ls := by
  obtain ⟨N, e0, e2, r, q1, -⟩ := C16_facet ⟨0, 0, 1⟩ ⟨0, 0, 0⟩ ⟨1, 0, 0⟩ ⟨0, 1, 0⟩ (by
    intro h
    have := congrArg V3.z h
    simp [V3.cross] at this)
  have hm : IsRotation (⟨⟨1, 0, 0⟩, ⟨0, 1, 0⟩, ⟨0, 0, 1⟩⟩ : M3 ℝ) := ⟨by intro u v; simp [V3.mulM, V3.dot], by simp [M3.det, V3.cross, V3.dot]⟩
  have hf : ∀ f ∈ (⟨[⟨N.fin, e0.fin, (⟨1, 0, 0⟩ : V3 ℝ).fin, e2.fin, Ext.fin r⟩], [], [], 0⟩ : STLFile (Ext ℝ)).facets, ∃ n a b c : V3 ℝ, mkFacet n.fin [a.fin, b.fin, c.fin] = .ok f := by
    intro f hf
    rw [List.mem_singleton.1 hf]
    exact ⟨_, _, _, _, q1⟩
  obtain ⟨s', ts, es, h1, -, h3, h4, h5, h6⟩ := C26_after_view _ _ hm hf
  obtain ⟨L, -, h, -⟩ := C26_hidden_exact insSorter insSorter_ok s' ts es h3 h4 h5 h6
  exact ⟨_, s', _, rfl, hm, hf, h1, h⟩

end S2P
