import Verif.Props.FacetOrder
import Verif.Lemmas.RealSample

set_option linter.unusedSectionVars false
set_option linter.unusedVariables false
set_option linter.unusedSimpArgs false

/-! # C71: facets that face away from the viewer do not show -/

namespace S2P

/-- C71, view: two files of which the parts facing the viewer are the same — whatever else they hold — and no edge of which borders three such
facets, give the same lines, the same limits and the same vertices. -/
theorem C71_view_partial (S : Sorter) (hS : SortOK S) (s u : STLFile (Ext ℝ)) (m : M3 ℝ) (hm : IsRotation m) (hs : ∀ f ∈ s.facets, f.Made)
    (hu : ∀ f ∈ u.facets, f.Made) (h2 : TwoSided (facing m.fin s.facets)) (h : SameShape (facing m.fin s.facets) (facing m.fin u.facets)) :
    ∃ p q ls ls', s.rotate m.fin = .ok p ∧ u.rotate m.fin = .ok q ∧ p.cull.toLines S = .ok ls ∧ q.cull.toLines S = .ok ls' ∧ ls.Perm ls' ∧
      p.cull.limits = q.cull.limits ∧ p.cull.points = q.cull.points := by
  obtain ⟨p, q, ls, ls', h1, h2, h3, h4, h5, h6, h7⟩ := view_sameFront S hS s u m hm hs hu h2 h
  exact ⟨p, q, ls, ls', h1, h2, h5, h6, h7, h3, h4⟩

/-- C71, drawing: leaving out of a file what faces away from the viewer changes neither verdict nor diagnostics of a drawing, with its dimensions,
and it puts the same strokes, arcs and texts on the page. -/
theorem C71_drawing_partial (E : Env (Ext ℝ)) (hS : SortOK E.sorter) (stl stl' : Models (Ext ℝ)) (name : Str) (ms : List (Meta (Ext ℝ)))
    (dims : List (DimN (Ext ℝ))) (line : Nat) (hf : ∀ m ∈ ms, m.val.IsFin) (r : M3 ℝ) (hr : viewOf (look ms c!"view") = .ok r.fin)
    (file file' : STLFile (Ext ℝ)) (hm : stl.find? (fun e => e.1 = name) = some (name, some file))
    (hm' : stl'.find? (fun e => e.1 = name) = some (name, some file')) (hs : ∀ f ∈ file.facets, f.Made) (h2 : TwoSided (facing r.fin file.facets))
    (h : file'.facets = facing r.fin file.facets) :
    (∀ a, content E stl (.draw name ms dims line) = .error a ↔ content E stl' (.draw name ms dims line) = .error a) ∧
    ∀ c, content E stl (.draw name ms dims line) = .ok c → ∃ c', content E stl' (.draw name ms dims line) = .ok c' ∧ c'.1 = c.1 ∧ c'.2.2 = c.2.2 ∧
      c.2.1.Like c'.2.1 := by
  have key : ResLike OutPage.Like (content E stl (.draw name ms dims line)) (content E stl' (.draw name ms dims line)) := by
    refine content_viewsLike name ms dims line hf (Or.inr ⟨_, _, file, file', hm, hm', rfl, rfl, fun r' hr' hv => ?_⟩)
    rw [hr] at hv
    injection hv with hv
    rw [ViewsLike, ← hv]
    obtain ⟨r'', e, hrot⟩ := viewOf_rotation _ (look_fin hf _) _ hr
    have hrot : IsRotation r := by
      have : r = r'' := by
        obtain ⟨⟨_, _, _⟩, ⟨_, _, _⟩, ⟨_, _, _⟩⟩ := r
        obtain ⟨⟨_, _, _⟩, ⟨_, _, _⟩, ⟨_, _, _⟩⟩ := r''
        simpa [M3.map, V3.map] using e
      rw [this]; exact hrot
    refine view_sameFront E.sorter hS file file' r hrot hs ?_ h2 ?_
    · intro f hf
      rw [h] at hf
      exact hs f (List.mem_filter.1 hf).1
    · rw [h]
      have : facing r.fin (facing r.fin file.facets) = facing r.fin file.facets := by
        unfold facing; rw [List.filter_filter]; simp
      rw [this]
      exact SameShape.refl _
  cases h1 : content E stl (.draw name ms dims line) with
  | error a =>
    cases h2 : content E stl' (.draw name ms dims line) with
    | error b =>
      rw [h1, h2] at key
      cases key
      exact ⟨fun a => Iff.rfl, fun c hc => by cases hc⟩
    | ok y => rw [h1, h2] at key; exact key.elim
  | ok x =>
    cases h2 : content E stl' (.draw name ms dims line) with
    | error b => rw [h1, h2] at key; exact key.elim
    | ok y =>
      rw [h1, h2] at key
      refine ⟨fun a => by simp, fun c hc => ?_⟩
      cases hc
      exact ⟨y, rfl, key.1.symm, key.2.2.symm, key.2.1⟩

/-! ## A concrete case: a triangle facing the viewer and one behind it facing away -/

example : ∃ (stl stl' : Models (Ext ℝ)) (file file' : STLFile (Ext ℝ)) (r : M3 ℝ) (c : Bool × OutPage (Ext ℝ) × List Diag), IsRotation r ∧
    viewOf (look rMetas c!"view") = .ok r.fin ∧ stl.find? (fun e => e.1 = c!"m") = some (c!"m", some file) ∧
    stl'.find? (fun e => e.1 = c!"m") = some (c!"m", some file') ∧ (∀ f ∈ file.facets, f.Made) ∧ TwoSided (facing r.fin file.facets) ∧
    file'.facets = facing r.fin file.facets ∧ file.facets.length = 2 ∧ file'.facets.length = 1 ∧
    content rEnv stl (.draw c!"m" rMetas [] 1) = .ok c := by
  obtain ⟨N, e0, e2, r, m1, m2, -, -, -, ⟨k, hk, m3⟩, m4, -, -, -, m8⟩ := C16_facet ⟨0, 0, 1⟩ ⟨0, 0, 0⟩ ⟨4, 0, 0⟩ ⟨0, 3, 0⟩ (by
    intro h; have := congrArg V3.z h; simp [V3.cross] at this)
  obtain ⟨N', e0', e2', r', n1, n2, -, -, -, ⟨k', hk', n3⟩, n4, -, -, -, n8⟩ := C16_facet ⟨0, 0, -1⟩ ⟨0, 0, -1⟩ ⟨4, 0, -1⟩ ⟨0, 3, -1⟩ (by
    intro h; have := congrArg V3.z h; simp [V3.cross] at this)
  have hN : 0 < N.z := by
    have h0 : 0 ≤ N.z := by simpa [V3.dot] using m4
    refine lt_of_le_of_ne h0 ?_
    intro hz
    have := congrArg V3.z m3
    simp only [V3.smul, ← hz, zero_mul] at this
    rcases m8 with ⟨rfl, rfl⟩ | ⟨rfl, rfl⟩ <;> simp [V3.cross] at this
  have hN' : ¬ 0 < N'.z := by
    have h0 : N'.z ≤ 0 := by simpa [V3.dot] using n4
    exact not_lt.2 h0
  generalize hF : (⟨N.fin, e0.fin, V3.fin ⟨4, 0, 0⟩, e2.fin, Ext.fin r⟩ : Facet (Ext ℝ)) = F at *
  generalize hB : (⟨N'.fin, e0'.fin, V3.fin ⟨4, 0, -1⟩, e2'.fin, Ext.fin r'⟩ : Facet (Ext ℝ)) = B at *
  have hFz : F.norm = N.fin := by rw [← hF]
  have hBz : B.norm = N'.fin := by rw [← hB]
  have M1 : ∀ f ∈ [F, B], f.Made := by simp; exact ⟨⟨_, _, _, _, m1⟩, ⟨_, _, _, _, n1⟩⟩
  have hM : Models.Made (K := ℝ) [(c!"m", some ⟨[F, B], [], [], 0⟩)] := by
    intro e he
    simp only [List.mem_singleton] at he
    subst he
    exact ⟨_, rfl, M1⟩
  obtain ⟨m', ax, e, hr, -⟩ := C30_named_views (K := ℝ) c!"Z+" matZP rfl
  have hface : facing m'.fin [F, B] = [F] := by
    rw [← e]
    unfold facing
    rw [List.filter_cons_of_pos, List.filter_cons_of_neg]
    · rfl
    · simp [hBz, V3.mulM, matZP, ptX, ptY, ptZ, V3.map]; exact not_lt.1 hN'
    · simp [hFz, V3.mulM, matZP, ptX, ptY, ptZ, V3.map, hN]
  obtain ⟨c, hc⟩ := content_ok rEnv insSorter_ok rEnv_notAView _ hM (.draw c!"m" rMetas [] 1) ⟨rMetas_fin, by simp⟩ (by
      intro m hm hn
      simp only [rMetas, List.mem_cons, List.not_mem_nil, or_false] at hm
      rcases hm with rfl | rfl
      · exact ⟨_, rfl⟩
      · simp at hn)
  refine ⟨[(c!"m", some ⟨[F, B], [], [], 0⟩)], [(c!"m", some ⟨[F], [], [], 0⟩)], _, _, m', c, hr, ?_, rfl, rfl, M1, ?_, hface.symm, rfl, rfl, hc⟩
  · rw [← e]; simp [rMetas, look, viewOf]
  · rw [hface]
    intro f g h hsub
    have := hsub.length_le
    simp at this

/-! ## The claim is false where three facets meet -/

/-- `fan`, and a facet elsewhere that faces away -/
def fanBack : List (V3 ℚ × V3 ℚ × V3 ℚ × V3 ℚ) := fan ++ [(⟨0, 0, -1⟩, ⟨10, 0, 0⟩, ⟨10, 1, 0⟩, ⟨11, 0, 0⟩)]

def fanBackFile (ix : List Nat) : STLFile (Ext ℚ) :=
  ⟨ix.filterMap fun i => fanBack[i]?.bind fun t => (mkFacet t.1.fin [t.2.1.fin, t.2.2.1.fin, t.2.2.2.fin]).toOption, [], [], 0⟩

def fanBackLines (ix : List Nat) : List (Line (Ext ℚ)) :=
  (((fanBackFile ix).rotate matZP).toOption.bind fun p => (p.cull.toLines insSorter).toOption).getD []

/-- C71 without the hypothesis on edges is false: leaving out a facet that faces away changes the order of the others, and with it whether the edge
that three of them share is drawn. -/
theorem C71_false : (fanBackFile [0, 2, 1]).facets = facing matZP (fanBackFile [0, 3, 2, 1]).facets ∧
    ⟨V2.fin ⟨0, 0⟩, V2.fin ⟨0, 1⟩⟩ ∈ fanBackLines [0, 3, 2, 1] ∧ ⟨V2.fin ⟨0, 0⟩, V2.fin ⟨0, 1⟩⟩ ∉ fanBackLines [0, 2, 1] := by
  refine ⟨by decide +kernel, by decide +kernel, by decide +kernel⟩

end S2P
