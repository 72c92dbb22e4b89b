import Verif.Lemmas.Cull
import Verif.Lemmas.Ext

/-! # C19: back-face culling -/

namespace S2P
variable {α : Type} [FP α]

/-- C19: after culling, the facets are, as a multiset, exactly those whose normal does not satisfy `z <= 0`;
nothing else of the model changes.  Any arithmetic (so also NaN normals: kept). -/
theorem C19_cull_keeps_front (s : STLFile α) :
    (s.cull.facets).Perm (s.facets.filter (fun f => !FP.le f.norm.z (FP.lit 0))) ∧
    s.cull.edges = s.edges ∧ s.cull.faceEdge = s.faceEdge ∧ s.cull.unseen = s.unseen :=
  ⟨cullFacets_perm s.facets, rfl, rfl, rfl⟩

/-- C19: culling a culled model changes nothing. -/
theorem C19_cull_idempotent (s : STLFile α) : s.cull.cull = s.cull := by
  unfold STLFile.cull
  simp only [STLFile.mk.injEq, and_true]
  exact cullFacets_all_front _ (cullFacets_front _)

/-- C19: a model with only front faces is left exactly as it is (order included). -/
theorem C19_cull_front_only (s : STLFile α) (h : ∀ f ∈ s.facets, FP.le f.norm.z (FP.lit 0) = false) : s.cull = s := by
  unfold STLFile.cull
  rw [cullFacets_all_front _ (fun f hf => by simp [frontTest, h f hf])]

/-- with finite numbers: a facet survives iff its normal has a positive depth component -/
theorem C19_cull_finite {K : Type} [Field K] [LinearOrder K] [IsStrictOrderedRing K] [FloorRing K] [Trans K]
    (s : STLFile (Ext K)) (f : Facet (Ext K)) (n : V3 K) (hn : f.norm = n.fin) :
    f ∈ s.cull.facets ↔ f ∈ s.facets ∧ 0 < n.z := by
  rw [(C19_cull_keeps_front s).1.mem_iff, List.mem_filter]
  simp [hn]

/-- a facet seen from the front, and one seen from behind -/
example : let f : Facet (Ext ℚ) := ⟨V3.fin ⟨0, 0, 1⟩, V3.fin ⟨0, 0, 0⟩, V3.fin ⟨1, 0, 0⟩, V3.fin ⟨0, 1, 0⟩, Ext.fin 0⟩
    let g : Facet (Ext ℚ) := ⟨V3.fin ⟨0, 0, -1⟩, V3.fin ⟨0, 0, 0⟩, V3.fin ⟨0, 1, 0⟩, V3.fin ⟨1, 0, 0⟩, Ext.fin 0⟩
    FP.le f.norm.z (FP.lit 0) = false ∧ FP.le g.norm.z (FP.lit 0) = true ∧
    (STLFile.cull ⟨[g, f, g], [], [], 0⟩).facets = [f] := by
  intro f g
  refine ⟨by simp [f, V3.map], by simp [g, V3.map], ?_⟩
  have h1 : FP.le f.norm.z (FP.lit 0) = false := by simp [f, V3.map]
  have h2 : FP.le g.norm.z (FP.lit 0) = true := by simp [g, V3.map]
  simp only [Ext.lit_eq, Rat.cast_zero] at h1 h2
  simp [STLFile.cull, cullFacets, cullLoop, swapAt, h1, h2]

end S2P
