import Verif.Spec.Ink
import Verif.Lemmas.FacetView
import Verif.Lemmas.SimilarView
import Verif.Props.Drawing

set_option linter.unusedSectionVars false
set_option linter.unusedVariables false
set_option linter.unusedSimpArgs false

/-! # A view, in terms of the facets seen -/

namespace S2P
open PS

theorem tri_fin_inj : Function.Injective (Tri.fin : Tri ℝ → Facet (Ext ℝ)) := by
  rintro ⟨⟨_, _, _⟩, ⟨_, _, _⟩, ⟨_, _, _⟩, ⟨_, _, _⟩, _⟩ ⟨⟨_, _, _⟩, ⟨_, _, _⟩, ⟨_, _, _⟩, ⟨_, _, _⟩, _⟩ h
  simpa [Tri.fin, V3.map] using h

theorem made_tris : ∀ fs : List (Facet (Ext ℝ)), (∀ f ∈ fs, f.Made) → ∃ all : List (Tri ℝ), fs = all.map Tri.fin
  | [], _ => ⟨[], rfl⟩
  | f :: fs, h => by
    obtain ⟨T, rfl⟩ := made_tri (h f (by simp))
    obtain ⟨all, rfl⟩ := made_tris fs (fun f hf => h f (by simp [hf]))
    exact ⟨T :: all, rfl⟩

theorem index_rotated (m : M3 ℝ) (w z : STLFile (Ext ℝ)) (hw : w.rotate m.fin = .ok z) (hc : ∀ f ∈ w.facets, f.CornersFin) :
    index z.facets = .ok z := by
  unfold STLFile.rotate at hw
  obtain ⟨z', e1, e2, -⟩ := C21_index (cullFacets (w.facets.map (rotFacet m.fin))) (by
    intro f hf
    obtain ⟨g, hg, rfl⟩ := List.mem_map.1 (List.mem_filter.1 ((cullFacets_perm _).subset hf)).1
    exact (rot_corners (hc g hg) m).ok)
  rw [hw] at e1; injection e1 with e1; subst e1
  rw [e2]; exact hw

theorem hasSide_fin (f : Tri ℝ) (e : Edge ℝ) : HasSide f.fin e.fin ↔ f.HasSide e := by
  unfold HasSide sidesOf Tri.HasSide
  simp only [List.mem_cons, List.not_mem_nil, or_false, exists_eq_or_imp, exists_eq_left, sameEdge_fin, IsSide]
  tauto

theorem hasSide_flip (f : Tri ℝ) (e : Edge ℝ) : f.HasSide (e.2, e.1) ↔ f.HasSide e := by
  obtain ⟨p, q⟩ := e
  unfold Tri.HasSide
  simp only [Prod.mk.injEq]
  tauto

theorem edgeAt_flip (e : Edge ℝ) (t : ℝ) : edgeAt (e.2, e.1) t = edgeAt e (1 - t) := by
  ext <;> simp [edgeAt, V3.smul] <;> ring

theorem pair_subperm {A : Type} {l : List A} {i j : Nat} {a b : A} (h : i < j) (hi : l[i]? = some a) (hj : l[j]? = some b) : [a, b].Subperm l := by
  refine List.Sublist.subperm ?_
  induction l generalizing i j with
  | nil => simp at hi
  | cons x l ih =>
    cases j with
    | zero => omega
    | succ j =>
      cases i with
      | zero =>
        simp at hi hj; subst hi
        exact (List.singleton_sublist.2 (List.mem_of_getElem? hj)).cons_cons _
      | succ i =>
        simp at hi hj
        exact (ih (by omega) hi hj).cons _

/-- a sharp edge is in the table of edges to draw, in one direction or the other -/
theorem sharp_drawable (s : STLFile (Ext ℝ)) (ts : List (Tri ℝ)) (es : List (Edge ℝ)) (hts : s.facets = ts.map Tri.fin) (hes : s.edges = es.map Edge.fin)
    (hw : WellIndexed s) (hi : index s.facets = .ok s) (e : Edge ℝ) (he : Sharp ts e) :
    ∃ v < s.unseen, es[v]? = some e ∨ es[v]? = some (e.2, e.1) := by
  obtain ⟨⟨f, hf, hside⟩, hsharp⟩ := he
  obtain ⟨i, hif⟩ := List.getElem?_of_mem hf
  have hif' : s.facets[i]? = some f.fin := by rw [hts, List.getElem?_map, hif]; rfl
  obtain ⟨t, ht⟩ : ∃ t, s.faceEdge[i]? = some t := by
    have : i < s.faceEdge.length := by rw [hw.faceLen]; exact (List.getElem?_eq_some_iff.1 hif').1
    exact ⟨_, List.getElem?_eq_getElem this⟩
  have key : ∃ v : Nat, es[v]? = some e ∨ es[v]? = some (e.2, e.1) := by
    obtain ⟨h1, h2, h3⟩ := hw.faceOk i f.fin t hif' ht
    have conv : ∀ (n : Nat) (a b : V3 ℝ), (∃ e', s.edges[n]? = some e' ∧ SameEdge e' a.fin b.fin) → e = (a, b) ∨ e = (b, a) →
        ∃ v : Nat, es[v]? = some e ∨ es[v]? = some (e.2, e.1) := by
      rintro n a b ⟨e', h1, h2⟩ h3
      rw [hes, List.getElem?_map] at h1
      obtain ⟨g, hg, rfl⟩ := Option.map_eq_some_iff.1 h1
      rw [sameEdge_fin] at h2
      refine ⟨n, ?_⟩
      rw [hg]
      rcases h2 with rfl | rfl <;> rcases h3 with rfl | rfl <;> simp
    rcases hside with h | h | h | h | h | h
    · exact conv _ _ _ h1 (Or.inl h)
    · exact conv _ _ _ h2 (Or.inl h)
    · exact conv _ _ _ h3 (Or.inl h)
    · exact conv _ _ _ h1 (Or.inr h)
    · exact conv _ _ _ h2 (Or.inr h)
    · exact conv _ _ _ h3 (Or.inr h)
  obtain ⟨v, hv⟩ := key
  obtain ⟨g, hg, hge⟩ : ∃ g, es[v]? = some g ∧ ∀ f : Tri ℝ, f.HasSide g ↔ f.HasSide e := by
    rcases hv with h | h
    · exact ⟨_, h, fun f => Iff.rfl⟩
    · exact ⟨_, h, fun f => hasSide_flip f e⟩
  refine ⟨v, ?_, hv⟩
  have hok : ∀ f ∈ s.facets, Facet.Ok f := by
    intro f hf
    rw [hts] at hf
    obtain ⟨T, -, rfl⟩ := List.mem_map.1 hf
    exact ⟨V3.ok_fin _, V3.ok_fin _, V3.ok_fin _⟩
  obtain ⟨i, j, F, G, hF, hG, sF, sG, hb, hiff⟩ := C22_drawn_edges s.facets hok s hi v g.fin (by rw [hes, List.getElem?_map, hg]; rfl)
  rw [hiff]
  by_cases hij : i = j
  · exact Or.inl hij
  right
  rw [hts, List.getElem?_map] at hF hG
  obtain ⟨T, hT, rfl⟩ := Option.map_eq_some_iff.1 hF
  obtain ⟨U, hU, rfl⟩ := Option.map_eq_some_iff.1 hG
  have hlt : i < j := by
    have := hb i T.fin (by rw [hts, List.getElem?_map, hT]; rfl) sF
    omega
  rw [hasSide_fin, hge] at sF sG
  have := hsharp T U (pair_subperm hlt hT hU) sF sG
  simp only [V3.fin_dot, Ext.lit_eq, Ext.fin_lt, decide_eq_true_eq]
  push_cast
  exact this

/-- A view and its lines, in terms of the facets seen. -/
theorem view_ink (S : Sorter) (hS : SortOK S) (file proj : STLFile (Ext ℝ)) (hmade : ∀ f ∈ file.facets, f.Made) (r : M3 ℝ) (hr : IsRotation r)
    (ht : file.rotate r.fin = .ok proj) (ls : List (Line (Ext ℝ))) (hls : proj.cull.toLines S = .ok ls) :
    ∃ ts, SeenFacets r file ts ∧ proj.cull.facets = ts.map Tri.fin ∧
      (∀ e, Sharp ts e → ∀ t, 0 ≤ t → t ≤ 1 → (∃ t0 t1, t0 ≤ t ∧ t ≤ t1 ∧
        ((⟨(edgeAt e t0).xy.fin, (edgeAt e t1).xy.fin⟩ : Line (Ext ℝ)) ∈ ls ∨ (⟨(edgeAt e t1).xy.fin, (edgeAt e t0).xy.fin⟩ : Line (Ext ℝ)) ∈ ls)) ∨
        ∃ f ∈ ts, CoversPt f e (edgeAt e t)) ∧
      (∀ l ∈ ls, ∃ e t u, (∃ f ∈ ts, f.HasSide e) ∧ 0 ≤ t ∧ t < u ∧ u ≤ 1 ∧ l = ⟨(edgeAt e t).xy.fin, (edgeAt e u).xy.fin⟩ ∧
        ∀ f ∈ ts, Under f e → ∀ s, t < s → s < u → ¬ InsideTri f (edgeAt e s)) := by
  classical
  obtain ⟨p, ts, es, r1, r2, r3, r4, r5, r6⟩ := C26_after_view file r hr hmade
  rw [ht] at r1; injection r1 with r1; subst r1
  rw [r2] at hls ⊢
  have hc : ∀ f ∈ file.facets, f.CornersFin := fun f hf => made_corners (hmade f hf)
  obtain ⟨all, hall⟩ := made_tris file.facets hmade
  obtain ⟨p', k1, -, kp⟩ := C21_rotate file r.fin (fun f hf => (rot_corners (hc f hf) r).ok)
  rw [ht] at k1; injection k1 with k1; subst k1
  have hseen : SeenFacets r file ts := by
    refine ⟨all, hall, ?_⟩
    rw [← List.map_perm_map_iff tri_fin_inj, ← r3]
    refine kp.trans (List.Perm.of_eq ?_)
    rw [hall, List.map_map, List.filter_map, List.filter_map, List.map_map]
    have e1 : (rotFacet r.fin ∘ Tri.fin : Tri ℝ → Facet (Ext ℝ)) = Tri.fin ∘ (fun t => t.seenIn r) := by
      funext T
      simp [rotFacet, Tri.fin, Tri.seenIn, V3.fin_mulM]
    rw [e1]
    congr 1
    apply List.filter_congr
    intro T _
    have : ¬ (T.n.mulM r).z ≤ 0 ↔ 0 < (T.n.mulM r).z := not_le
    simp only [Function.comp, Tri.seenIn, V3.fin_z, Ext.lit_eq, Rat.cast_zero, Ext.fin_le]
    by_cases h : (T.n.mulM r).z ≤ 0
    · simp [h, not_lt.2 h]
    · simp [h, not_le.1 h]
  obtain ⟨L, l1, l2, l3⟩ := C26_hidden_exact S hS proj ts es r3 r4 r5 r6
  rw [hls] at l2; injection l2 with l2
  have hun : proj.unseen ≤ es.length := by have := r6.unseenLe; rwa [r4, List.length_map] at this
  have hmem : ∀ (v : Nat) (e : Edge ℝ) (segs : List (ℝ × ℝ)), es[v]? = some e → L[v]? = some segs → ∀ g ∈ segs, (⟨(edgeAt e g.1).xy.fin, (edgeAt e g.2).xy.fin⟩ : Line (Ext ℝ)) ∈ ls := by
    intro v e segs he hs g hg
    rw [l2]
    refine List.mem_flatten.2 ⟨segLines e segs, ?_, List.mem_map.2 ⟨g, hg, rfl⟩⟩
    apply List.mem_of_getElem? (i := v)
    rw [List.getElem?_zipWith, he, hs]
  refine ⟨ts, hseen, r3, ?_, ?_⟩
  · intro e he t t0 t1
    obtain ⟨v, hv, hor⟩ := sharp_drawable proj ts es r3 r4 r6 (index_rotated r file proj ht hc) e he
    have hL : L[v]? = some L[v] := List.getElem?_eq_getElem (by omega)
    rcases hor with h | h
    · obtain ⟨sh, -⟩ := l3 v e _ h hL
      rcases sh.sound t t0 t1 with ⟨g, hg, h1, h2⟩ | ⟨f, hf, h1, h2, h3⟩
      · exact Or.inl ⟨g.1, g.2, h1, h2, Or.inl (hmem v e _ h hL g hg)⟩
      · exact Or.inr ⟨f, hf, h1, h2, h3⟩
    · obtain ⟨sh, -⟩ := l3 v _ _ h hL
      rcases sh.sound (1 - t) (by linarith) (by linarith) with ⟨g, hg, h1, h2⟩ | ⟨f, hf, h1, h2, h3⟩
      · refine Or.inl ⟨1 - g.2, 1 - g.1, by linarith, by linarith, Or.inr ?_⟩
        have := hmem v _ _ h hL g hg
        rwa [edgeAt_flip, edgeAt_flip] at this
      · rw [edgeAt_flip, sub_sub_cancel] at h2 h3
        exact Or.inr ⟨f, hf, by rwa [hasSide_flip] at h1, h2, h3⟩
  · intro l hl
    rw [l2] at hl
    obtain ⟨q, hq, hlq⟩ := List.mem_flatten.1 hl
    obtain ⟨v, hv⟩ := List.getElem?_of_mem hq
    rw [List.getElem?_zipWith] at hv
    cases he : es[v]? with
    | none => rw [he] at hv; cases hv
    | some e =>
      cases hL : L[v]? with
      | none => rw [he, hL] at hv; cases hv
      | some segs =>
        rw [he, hL] at hv
        cases hv
        obtain ⟨g, hg, rfl⟩ := List.mem_map.1 hlq
        obtain ⟨sh, hside⟩ := l3 v e segs he hL
        obtain ⟨w1, w2, w3⟩ := sh.within g hg
        refine ⟨e, g.1, g.2, hside, w1, w2, w3, rfl, ?_⟩
        intro f hf hu s s1 s2 hin
        exact sh.complete f hf hu.1 hu.2.1 hu.2.2 s (by linarith) (by linarith) hin g hg ⟨s1, s2⟩

/-- the limits of a view are the box around what is seen -/
theorem limits_box (s : STLFile (Ext ℝ)) (ts : List (Tri ℝ)) (h : s.facets = ts.map Tri.fin) :
    ∃ lo hi : V2 ℝ, s.limits = ⟨lo.fin, hi.fin⟩ ∧ (ts ≠ [] → IsBox ((ts.flatMap Tri.corners).map V3.xy) lo hi) := by
  have hcor : s.corners = (ts.flatMap Tri.corners).map V3.fin := by
    unfold STLFile.corners
    rw [h, List.flatMap_map, List.map_flatMap]
    rfl
  obtain ⟨lo, hi, hl⟩ := limits_fin s (by
    intro p hp
    rw [hcor] at hp
    obtain ⟨q, -, rfl⟩ := List.mem_map.1 hp
    exact ⟨q, rfl⟩)
  refine ⟨lo, hi, hl, ?_⟩
  intro hne
  obtain ⟨i1, i2, i3, i4, i5⟩ := C20_limits s (by rw [h]; simpa using hne) (by
      intro f hf
      rw [h] at hf
      obtain ⟨t, -, rfl⟩ := List.mem_map.1 hf
      exact ⟨V3.ok_fin _, V3.ok_fin _, V3.ok_fin _⟩)
  rw [hl] at i1 i2 i3 i4 i5
  rw [hcor] at i2 i3 i4 i5
  have at_ : ∀ (P : V3 ℝ → Prop), (∃ p ∈ (ts.flatMap Tri.corners).map V3.fin, ∃ q : V3 ℝ, p = q.fin ∧ P q) → ∃ q ∈ ts.flatMap Tri.corners, P q := by
    rintro P ⟨p, hp, q, rfl, hq⟩
    obtain ⟨q', hq', e⟩ := List.mem_map.1 hp
    have : q' = q := by
      obtain ⟨_, _, _⟩ := q; obtain ⟨_, _, _⟩ := q'
      simpa [V3.map] using e
    exact ⟨q, this ▸ hq', hq⟩
  refine ⟨?_, ?_, ?_, ?_, ?_⟩
  · intro p hp
    obtain ⟨q, hq, rfl⟩ := List.mem_map.1 hp
    obtain ⟨f, hf, hq⟩ := List.mem_flatMap.1 hq
    have := i1 f.fin (by rw [h]; exact List.mem_map.2 ⟨f, hf, rfl⟩) q.fin (by
      simp only [Tri.corners, List.mem_cons, List.not_mem_nil, or_false] at hq
      rcases hq with rfl | rfl | rfl <;> simp)
    simp [V3.map, V2.map] at this
    obtain ⟨j1, j2, j3, j4⟩ := this
    exact ⟨j1, j3, j2, j4⟩
  · obtain ⟨p, hp, e⟩ := i2
    obtain ⟨q, hq, rfl⟩ := List.mem_map.1 hp
    exact ⟨q.xy, List.mem_map.2 ⟨q, hq, rfl⟩, by simpa [V3.map, V2.map, V3.xy] using e.symm⟩
  · obtain ⟨p, hp, e⟩ := i4
    obtain ⟨q, hq, rfl⟩ := List.mem_map.1 hp
    exact ⟨q.xy, List.mem_map.2 ⟨q, hq, rfl⟩, by simpa [V3.map, V2.map, V3.xy] using e.symm⟩
  · obtain ⟨p, hp, e⟩ := i3
    obtain ⟨q, hq, rfl⟩ := List.mem_map.1 hp
    exact ⟨q.xy, List.mem_map.2 ⟨q, hq, rfl⟩, by simpa [V3.map, V2.map, V3.xy] using e.symm⟩
  · obtain ⟨p, hp, e⟩ := i5
    obtain ⟨q, hq, rfl⟩ := List.mem_map.1 hp
    exact ⟨q.xy, List.mem_map.2 ⟨q, hq, rfl⟩, by simpa [V3.map, V2.map, V3.xy] using e.symm⟩

end S2P
