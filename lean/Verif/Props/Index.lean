import Verif.Lemmas.Index
import Verif.Lemmas.Ext

/-! # C21, C22: the edge table -/

namespace S2P
variable {α : Type} [FP α] [FPOrd α]

/-- C21: indexing any list of facets with NaN-free corners succeeds (the 'edge not found' CHECK does not fire)
and gives a sound and complete edge table. -/
theorem C21_index (fs : List (Facet α)) (h : ∀ f ∈ fs, Facet.Ok f) :
    ∃ s, index fs = .ok s ∧ s.facets = fs ∧ WellIndexed s := by
  have inv := addFacets_inv fs (sidesFrom_ok fs h)
  have sok := sidesFrom_ok fs h
  obtain ⟨s, ef, h1, h2, h3, h4, h5, h6, h7, h8, h9⟩ := index_spec fs h
  have src : ∀ e ∈ s.edges, ∃ f ∈ fs, ∃ sd ∈ sidesOf f, e = edgeKey sd.1 sd.2 ∧ sd.1.Ok ∧ sd.2.Ok := by
    intro e he
    obtain ⟨d, hd, hk⟩ := inv.src e (h3.mem_iff.1 he)
    obtain ⟨i, f, hf, hsd, _⟩ := (mem_sidesFrom fs 0 d).1 hd
    exact ⟨f, List.mem_of_getElem? hf, (d.1, d.2.1), hsd, hk, sok d hd⟩
  have eok : ∀ e ∈ s.edges, EOk e ∧ order e.2 e.1 = false := by
    intro e he
    obtain ⟨f, _, sd, _, hk, o1, o2⟩ := src e he
    rw [hk]; exact ⟨edgeKey_ok _ _ o1 o2, edgeKey_norm _ _ o1 o2⟩
  refine ⟨s, h1, h2, ?_, ?_, ?_, ?_, h4⟩
  · rw [h2]; exact h8
  · intro i f t hf ht
    rw [h2] at hf
    have fok := h f (List.mem_of_getElem? hf)
    obtain ⟨⟨a, a1, a2⟩, ⟨b, b1, b2⟩, ⟨c, c1, c2⟩⟩ := h9 i f t hf ht
    have oa := eok a (List.mem_of_getElem? a1)
    have ob := eok b (List.mem_of_getElem? b1)
    have oc := eok c (List.mem_of_getElem? c1)
    exact ⟨⟨a, a1, (eTie_key_iff a _ _ oa.1 oa.2 fok.1 fok.2.1).1 a2⟩,
      ⟨b, b1, (eTie_key_iff b _ _ ob.1 ob.2 fok.2.1 fok.2.2).1 b2⟩,
      ⟨c, c1, (eTie_key_iff c _ _ oc.1 oc.2 fok.2.2 fok.1).1 c2⟩⟩
  · intro e he
    obtain ⟨f, hf, sd, hsd, hk, _⟩ := src e he
    refine ⟨f, by rw [h2]; exact hf, sd, hsd, ?_⟩
    rw [hk]; unfold edgeKey; split_ifs
    · left; rfl
    · right; rfl
  · have hpw : s.edges.Pairwise (fun a b => eTie a b = false) :=
      pairwise_perm (fun a b hab => by rw [show eTie b a = eTie a b from tie_symm _ _ _]; exact hab) h3.symm inv.pw
    refine List.Pairwise.imp_of_mem ?_ hpw
    intro a b ha hb hab hse
    have oa := eok a ha
    have ob := eok b hb
    have hkb : edgeKey b.1 b.2 = b ∨ tie order b.1 b.2 = true := by
      unfold edgeKey
      split_ifs with hc
      · left; rfl
      · right; rw [tie_iff]; exact ⟨by simpa using hc, ob.2⟩
    have ht := (eTie_key_iff a b.1 b.2 oa.1 oa.2 ob.1.1 ob.1.2).2 hse
    rcases hkb with hkb | hkb
    · rw [hkb] at ht; exact absurd (ht.symm.trans hab) (by simp)
    · have SW := order_strictWeak (α := α)
      have : eTie a b = true := by
        rw [eTie_iff _ _ oa.1 ob.1]
        rw [eTie_iff _ _ oa.1 (edgeKey_ok _ _ ob.1.1 ob.1.2)] at ht
        unfold edgeKey at ht
        split_ifs at ht
        · exact ht
        · exact ⟨tie_trans SW oa.1.1 ob.1.2 ob.1.1 ht.1 (by rw [tie_symm]; exact hkb),
            tie_trans SW oa.1.2 ob.1.1 ob.1.2 ht.2 hkb⟩
      exact absurd (this.symm.trans hab) (by simp)

/-- C21 after viewing: rotating a model whose rotated corners are NaN-free never aborts and gives a sound and complete table
of the front facets. -/
theorem C21_rotate (s : STLFile α) (m : M3 α) (h : ∀ f ∈ s.facets, Facet.Ok (rotFacet m f)) :
    ∃ s', s.rotate m = .ok s' ∧ WellIndexed s' ∧
      s'.facets.Perm ((s.facets.map (rotFacet m)).filter (fun f => !FP.le f.norm.z (FP.lit 0))) := by
  have hp := cullFacets_perm (s.facets.map (rotFacet m))
  obtain ⟨s', h1, h2, h3⟩ := C21_index (cullFacets (s.facets.map (rotFacet m))) (by
    intro f hf
    have := hp.subset hf
    obtain ⟨g, hg, rfl⟩ := List.mem_map.1 (List.mem_filter.1 this).1
    exact h g hg)
  exact ⟨s', h1, h3, by rw [h2]; exact hp⟩

/-- C22: an entry of the edge table is offered for drawing (stands before `unseen`) exactly if only one facet has it as a side, or
the dot product of the normals of the first and the last facet having it is below 0.98. -/
theorem C22_drawn_edges (fs : List (Facet α)) (h : ∀ f ∈ fs, Facet.Ok f) (s : STLFile α) (hs : index fs = .ok s)
    (k : Nat) (e : Edge α) (he : s.edges[k]? = some e) :
    ∃ (i j : Nat) (f g : Facet α), fs[i]? = some f ∧ fs[j]? = some g ∧ HasSide f e ∧ HasSide g e ∧
      (∀ (m : Nat) (f' : Facet α), fs[m]? = some f' → HasSide f' e → i ≤ m ∧ m ≤ j) ∧
      (k < s.unseen ↔ i = j ∨ FP.lt (f.norm.dot g.norm) (FP.lit (98 / 100)) = true) := by
  have inv := addFacets_inv fs (sidesFrom_ok fs h)
  have sok := sidesFrom_ok fs h
  obtain ⟨s', ef, h1, h2, h3, h4, h5, h6, h7, h8, h9⟩ := index_spec fs h
  rw [hs] at h1; injection h1 with h1; subst h1
  have hk : k < ef.length := by rw [h5]; exact (List.getElem?_eq_some_iff.1 he).1
  have hp : ef[k]? = some ef[k] := List.getElem?_eq_getElem hk
  generalize ef[k] = p at hp
  have hmem : (e, p) ∈ s.edges.zip ef := by
    apply List.mem_of_getElem? (i := k)
    simp [List.zip, List.getElem?_zipWith, he, hp]
  have hmem' := h6.mem_iff.1 hmem
  obtain ⟨k', hk'⟩ := List.getElem?_of_mem hmem'
  have he' : (addFacets fs).edges[k']? = some e ∧ (addFacets fs).edgeFace[k']? = some p := by
    simp only [List.zip, List.getElem?_zipWith] at hk'
    cases ha : (addFacets fs).edges[k']? <;> cases hb : (addFacets fs).edgeFace[k']? <;> rw [ha, hb] at hk' <;> simp at hk'
    simp [hk']
  obtain ⟨f1, f2⟩ := inv.faces k' e p he'.1 he'.2
  obtain ⟨d0, hd0, hek⟩ := inv.src e (List.mem_of_getElem? he'.1)
  have eok : EOk e := by rw [hek]; exact edgeKey_ok _ _ (sok d0 hd0).1 (sok d0 hd0).2
  have enorm : order e.2 e.1 = false := by rw [hek]; exact edgeKey_norm _ _ (sok d0 hd0).1 (sok d0 hd0).2
  have tieSide : ∀ d ∈ sidesFrom fs 0, (eTie e (Side.key d) = true ↔ SameEdge e d.1 d.2.1) := fun d hd =>
    eTie_key_iff e d.1 d.2.1 eok enorm (sok d hd).1 (sok d hd).2
  -- the list of facets having the edge
  generalize hL : (sidesFrom fs 0).filter (fun d => eTie e (Side.key d)) = L at f1 f2
  have hLmem : ∀ d ∈ L, ∃ f, fs[d.2.2]? = some f ∧ HasSide f e := by
    intro d hd
    rw [← hL, List.mem_filter] at hd
    obtain ⟨i, f, hf, hsd, hi⟩ := (mem_sidesFrom fs 0 d).1 hd.1
    refine ⟨f, by rw [hi, Nat.zero_add]; exact hf, (d.1, d.2.1), hsd, (tieSide d hd.1).1 hd.2⟩
  have hLall : ∀ (m : Nat) (f' : Facet α), fs[m]? = some f' → HasSide f' e → ∃ d ∈ L, d.2.2 = m := by
    rintro m f' hf' ⟨sd, hsd, hse⟩
    have hd := (mem_sidesFrom fs 0 (sd.1, sd.2, 0 + m)).2 ⟨m, f', hf', hsd, rfl⟩
    refine ⟨(sd.1, sd.2, 0 + m), ?_, by simp⟩
    rw [← hL, List.mem_filter]
    exact ⟨hd, (tieSide _ hd).2 hse⟩
  have hLs : (L.map (·.2.2)).Pairwise (· ≤ ·) := by
    rw [List.pairwise_map, ← hL]
    exact (sidesFrom_sorted fs 0).sublist List.filter_sublist
  have hmin : ∀ x ∈ L.map (·.2.2), p.1 ≤ x ∧ x ≤ p.2 := by
    intro x hx
    obtain ⟨i, hi⟩ := List.getElem?_of_mem hx
    have hi' := (List.getElem?_eq_some_iff.1 hi)
    have h0 : (L.map (·.2.2))[0]? = some p.1 := by rw [← List.head?_eq_getElem?]; exact f1
    have hl : (L.map (·.2.2))[(L.map (·.2.2)).length - 1]? = some p.2 := by rw [← List.getLast?_eq_getElem?]; exact f2
    rw [List.pairwise_iff_getElem] at hLs
    obtain ⟨a0, b0⟩ := List.getElem?_eq_some_iff.1 h0
    obtain ⟨al, bl⟩ := List.getElem?_eq_some_iff.1 hl
    obtain ⟨ai, bi⟩ := hi'
    constructor
    · rcases Nat.eq_zero_or_pos i with rfl | hpos
      · rw [← b0, ← bi]
      · have := hLs 0 i a0 ai hpos; rw [b0, bi] at this; exact this
    · rcases Nat.lt_or_ge i ((L.map (·.2.2)).length - 1) with hlt | hge
      · have := hLs i _ ai al hlt; rw [bl, bi] at this; exact this
      · have : i = (L.map (·.2.2)).length - 1 := by omega
        subst this; rw [← bl, ← bi]
  obtain ⟨d1, hd1, e1⟩ := List.mem_map.1 (List.mem_of_mem_head? f1)
  obtain ⟨d2, hd2, e2⟩ := List.mem_map.1 (List.mem_of_mem_getLast? f2)
  obtain ⟨f, hf, hfs⟩ := hLmem d1 hd1
  obtain ⟨g, hg, hgs⟩ := hLmem d2 hd2
  rw [e1] at hf
  rw [e2] at hg
  refine ⟨p.1, p.2, f, g, hf, hg, hfs, hgs, ?_, ?_⟩
  · intro m f' hf' hs'
    obtain ⟨d, hd, hdm⟩ := hLall m f' hf' hs'
    exact hmin m (by rw [← hdm]; exact List.mem_map_of_mem hd)
  · rw [h7 k p hp]
    unfold smooth
    by_cases hpp : p.1 = p.2
    · simp [hpp]
    · simp [hpp, hf, hg, minAng]

/-- two facets in one plane sharing a side: that side is the only edge not offered for drawing -/
def exFlat : List (Facet (Ext ℚ)) :=
  [⟨V3.fin ⟨0, 0, 1⟩, V3.fin ⟨0, 0, 0⟩, V3.fin ⟨1, 0, 0⟩, V3.fin ⟨0, 1, 0⟩, Ext.fin 0⟩,
   ⟨V3.fin ⟨0, 0, 1⟩, V3.fin ⟨1, 0, 0⟩, V3.fin ⟨1, 1, 0⟩, V3.fin ⟨0, 1, 0⟩, Ext.fin 0⟩]

example : ∀ f ∈ exFlat, Facet.Ok f := by
  simp only [exFlat, List.mem_cons, List.not_mem_nil, or_false]
  rintro f (rfl | rfl) <;> exact ⟨V3.ok_fin _, V3.ok_fin _, V3.ok_fin _⟩
example : (index exFlat).map (fun s => (s.edges.length, s.unseen)) = .ok (5, 4) := by decide +kernel

end S2P
