import Verif.Lemmas.Stl
import Verif.Lemmas.Ext

/-! # C18, C20: vertex set and bounding box -/

namespace S2P
variable {α : Type} [FP α] [FPOrd α]

/-- C18: for a model with NaN-free corners, the vertex set consists of corners of facets, has for every corner an element with
equal coordinates, and is strictly increasing in the point order (so there are no duplicates). -/
theorem C18_points (s : STLFile α) (h : ∀ f ∈ s.facets, f.e0.Ok ∧ f.e1.Ok ∧ f.e2.Ok) :
    (∀ p ∈ s.points, ∃ f ∈ s.facets, p = f.e0 ∨ p = f.e1 ∨ p = f.e2) ∧
    (∀ f ∈ s.facets, ∀ p, (p = f.e0 ∨ p = f.e1 ∨ p = f.e2) →
      ∃ q ∈ s.points, FP.eq q.x p.x = true ∧ FP.eq q.y p.y = true ∧ FP.eq q.z p.z = true) ∧
    s.points.Pairwise (fun a b => order a b = true) := by
  have hc : ∀ p ∈ s.corners, V3.Ok p := by
    intro p hp
    obtain ⟨f, hf, hp⟩ := List.mem_flatMap.1 hp
    simp only [Facet.corners, List.mem_cons, List.not_mem_nil, or_false] at hp
    rcases hp with rfl | rfl | rfl
    · exact (h f hf).1
    · exact (h f hf).2.1
    · exact (h f hf).2.2
  obtain ⟨i1, _, i3, i4⟩ := foldl_setInsert (order_strictWeak (α := α)) s.corners [] hc (by simp) (by simp)
  refine ⟨?_, ?_, i4⟩
  · intro p hp
    rcases i1 p hp with hp | hp
    · obtain ⟨f, hf, hp⟩ := List.mem_flatMap.1 hp
      exact ⟨f, hf, by simpa [Facet.corners] using hp⟩
    · simp at hp
  · intro f hf p hp
    have hpc : p ∈ s.corners := List.mem_flatMap.2 ⟨f, hf, by simpa [Facet.corners] using hp⟩
    obtain ⟨q, hq, h1, h2⟩ := i3 p hpc
    have hq' : V3.Ok q := by
      rcases i1 q hq with hq | hq
      · exact hc q hq
      · simp at hq
    have := (order_tie q p hq' (hc p hpc)).1 ⟨h1, h2⟩
    exact ⟨q, hq, by simpa [V3.eqv, and_assoc] using this⟩

/-- C18 with finite coordinates: membership is exact, and no vertex is listed twice. -/
theorem C18_points_finite {K : Type} [Field K] [LinearOrder K] [IsStrictOrderedRing K] [FloorRing K] [Trans K]
    (s : STLFile (Ext K)) (h : ∀ f ∈ s.facets, ∃ a b c : V3 K, f.e0 = a.fin ∧ f.e1 = b.fin ∧ f.e2 = c.fin) (p : V3 K) :
    (p.fin ∈ s.points ↔ ∃ f ∈ s.facets, p.fin = f.e0 ∨ p.fin = f.e1 ∨ p.fin = f.e2) ∧ s.points.Nodup := by
  have hok : ∀ f ∈ s.facets, f.e0.Ok ∧ f.e1.Ok ∧ f.e2.Ok := by
    intro f hf
    obtain ⟨a, b, c, h0, h1, h2⟩ := h f hf
    rw [h0, h1, h2]
    exact ⟨V3.ok_fin a, V3.ok_fin b, V3.ok_fin c⟩
  obtain ⟨i1, i2, i3⟩ := C18_points s hok
  refine ⟨⟨i1 p.fin, ?_⟩, ?_⟩
  · rintro ⟨f, hf, hp⟩
    obtain ⟨q, hq, hx, hy, hz⟩ := i2 f hf p.fin hp
    obtain ⟨g, hg, hqc⟩ := i1 q hq
    obtain ⟨a, b, c, h0, h1, h2⟩ := h g hg
    obtain ⟨w, rfl⟩ : ∃ w : V3 K, q = w.fin := by
      rcases hqc with h | h | h
      · exact ⟨a, h.trans h0⟩
      · exact ⟨b, h.trans h1⟩
      · exact ⟨c, h.trans h2⟩
    have : w = p := by
      simp only [V3.fin_x, V3.fin_y, V3.fin_z, Ext.fin_eq, decide_eq_true_eq] at hx hy hz
      ext <;> assumption
    rw [← this]; exact hq
  · refine List.Pairwise.imp_of_mem ?_ i3
    intro a b ha hb hab heq
    subst heq
    have : V3.Ok a := by
      obtain ⟨g, hg, hqc⟩ := i1 a ha
      rcases hqc with h | h | h <;> rw [h]
      · exact (hok g hg).1
      · exact (hok g hg).2.1
      · exact (hok g hg).2.2
    rw [order_strictWeak.irrefl a this] at hab; simp at hab

/-- C20: for a non-empty model with NaN-free corners the limits enclose every corner and each bound is the coordinate of some corner. -/
theorem C20_limits (s : STLFile α) (hne : s.facets ≠ []) (h : ∀ f ∈ s.facets, f.e0.Ok ∧ f.e1.Ok ∧ f.e2.Ok) :
    (∀ f ∈ s.facets, ∀ p, (p = f.e0 ∨ p = f.e1 ∨ p = f.e2) →
      FP.le s.limits.o.x p.x = true ∧ FP.le s.limits.o.y p.y = true ∧
      FP.le p.x s.limits.t.x = true ∧ FP.le p.y s.limits.t.y = true) ∧
    (∃ p ∈ s.corners, s.limits.o.x = p.x) ∧ (∃ p ∈ s.corners, s.limits.o.y = p.y) ∧
    (∃ p ∈ s.corners, s.limits.t.x = p.x) ∧ (∃ p ∈ s.corners, s.limits.t.y = p.y) := by
  have hc : ∀ p ∈ s.corners, V3.Ok p := by
    intro p hp
    obtain ⟨f, hf, hp⟩ := List.mem_flatMap.1 hp
    simp only [Facet.corners, List.mem_cons, List.not_mem_nil, or_false] at hp
    rcases hp with rfl | rfl | rfl
    · exact (h f hf).1
    · exact (h f hf).2.1
    · exact (h f hf).2.2
  obtain ⟨f0, fs, hfs⟩ : ∃ f0 fs, s.facets = f0 :: fs := by
    cases hs : s.facets with
    | nil => exact absurd hs hne
    | cons a l => exact ⟨a, l, rfl⟩
  have h0 : f0.e0 ∈ s.corners := by simp [STLFile.corners, hfs, Facet.corners]
  have hlim : s.limits = ⟨⟨(s.corners.map V3.x).foldl FP.min f0.e0.x, (s.corners.map V3.y).foldl FP.min f0.e0.y⟩,
     ⟨(s.corners.map V3.x).foldl FP.max f0.e0.x, (s.corners.map V3.y).foldl FP.max f0.e0.y⟩⟩ := by
    have := limits_fold s.corners ⟨f0.e0.xy, f0.e0.xy⟩
    unfold STLFile.limits
    rw [hfs]
    simp only [← hfs]
    exact this
  have okx : ∀ x ∈ s.corners.map V3.x, FP.Ok x := by
    intro x hx; obtain ⟨p, hp, rfl⟩ := List.mem_map.1 hx; exact (hc p hp).1
  have oky : ∀ x ∈ s.corners.map V3.y, FP.Ok x := by
    intro x hx; obtain ⟨p, hp, rfl⟩ := List.mem_map.1 hx; exact (hc p hp).2.1
  have mx := foldl_min _ _ (hc _ h0).1 okx
  have my := foldl_min _ _ (hc _ h0).2.1 oky
  have Mx := foldl_max _ _ (hc _ h0).1 okx
  have My := foldl_max _ _ (hc _ h0).2.1 oky
  have pick : ∀ (g : V3 α → α) (y : α), y ∈ g f0.e0 :: s.corners.map g → ∃ p ∈ s.corners, y = g p := by
    intro g y hy
    rcases List.mem_cons.1 hy with h | h
    · exact ⟨_, h0, h⟩
    · obtain ⟨p, hp, rfl⟩ := List.mem_map.1 h; exact ⟨p, hp, rfl⟩
  rw [hlim]
  refine ⟨?_, pick V3.x _ mx.2.2, pick V3.y _ my.2.2, pick V3.x _ Mx.2.2, pick V3.y _ My.2.2⟩
  intro f hf p hp
  have hpc : p ∈ s.corners := List.mem_flatMap.2 ⟨f, hf, by simpa [Facet.corners] using hp⟩
  exact ⟨mx.2.1 _ (List.mem_cons_of_mem _ (List.mem_map_of_mem hpc)), my.2.1 _ (List.mem_cons_of_mem _ (List.mem_map_of_mem hpc)),
    Mx.2.1 _ (List.mem_cons_of_mem _ (List.mem_map_of_mem hpc)), My.2.1 _ (List.mem_cons_of_mem _ (List.mem_map_of_mem hpc))⟩

/-- C20: an empty model has the zero box. -/
theorem C20_limits_empty (s : STLFile α) (h : s.facets = []) :
    s.limits = ⟨⟨FP.lit 0, FP.lit 0⟩, ⟨FP.lit 0, FP.lit 0⟩⟩ := by
  unfold STLFile.limits; rw [h]

/-- a model with two facets sharing an edge, NaN-free; four distinct vertices -/
def exSquare : STLFile (Ext ℚ) :=
  ⟨[⟨V3.fin ⟨0, 0, 1⟩, V3.fin ⟨0, 0, 0⟩, V3.fin ⟨1, 0, 0⟩, V3.fin ⟨0, 1, 0⟩, Ext.fin 0⟩,
    ⟨V3.fin ⟨0, 0, 1⟩, V3.fin ⟨1, 0, 0⟩, V3.fin ⟨1, 1, 0⟩, V3.fin ⟨0, 1, 0⟩, Ext.fin 0⟩], [], [], 0⟩

example : (∀ f ∈ exSquare.facets, ∃ a b c : V3 ℚ, f.e0 = a.fin ∧ f.e1 = b.fin ∧ f.e2 = c.fin) := by
  simp only [exSquare, List.mem_cons, List.not_mem_nil, or_false]
  rintro f (rfl | rfl) <;> exact ⟨_, _, _, rfl, rfl, rfl⟩
example : exSquare.facets ≠ [] := by simp [exSquare]
example : exSquare.points = [V3.fin ⟨0, 0, 0⟩, V3.fin ⟨0, 1, 0⟩, V3.fin ⟨1, 0, 0⟩, V3.fin ⟨1, 1, 0⟩] := by
  decide +kernel
example : exSquare.limits = ⟨V2.fin ⟨0, 0⟩, V2.fin ⟨1, 1⟩⟩ := by decide +kernel

end S2P
