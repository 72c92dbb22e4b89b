import Verif.Lemmas.Finite
import Verif.Spec.Drawing
import Verif.Props.Index

set_option linter.unusedSectionVars false
set_option linter.unusedVariables false
set_option linter.unusedSimpArgs false

/-! # A drawing over the reals, used only in examples -/

namespace S2P

/-- whatever is asked for with finite numbers, and a loaded model, can be drawn -/
theorem drawn_exists (E : Env (Ext ℝ)) (hS : SortOK E.sorter) (stl : Models (Ext ℝ)) (name : Str) (ms : List (Meta (Ext ℝ)))
    (hf : ∀ m ∈ ms, m.val.IsFin) (once : (ms.map (fun m => m.name)).Nodup) (sc) (hsc : scaleOf (look ms c!"scale") = .ok sc)
    (rot) (hv : viewOf (look ms c!"view") = .ok rot) (loc) (hl : locOf (look ms c!"@") = .ok loc) (file : STLFile (Ext ℝ))
    (hm : ∃ e, stl.find? (fun e => decide (e.1 = name)) = some e ∧ e.2 = some file) (hmade : ∀ f ∈ file.facets, f.Made) :
    ∃ proj ls, Drawn E stl name ms sc rot loc file proj ls := by
  obtain ⟨r, rfl, hr⟩ := viewOf_rotation _ (look_fin hf _) _ hv
  obtain ⟨s', ts, es, g1, g2, g3, g4, g5, g6⟩ := C26_after_view file r hr (fun f hf => hmade f hf)
  obtain ⟨ls, hls⟩ := C24_toLines E.sorter hS s' es g4 g6.unseenLe
  exact ⟨s', ls, once, hsc, hv, hl, hm, g1, by rw [g2]; exact hls⟩

/-- a triangle facing the viewer -/
theorem real_file : ∃ file : STLFile (Ext ℝ), (∀ f ∈ file.facets, f.Made) ∧
    ∀ proj, file.rotate matZP = .ok proj → proj.cull.facets ≠ [] := by
  obtain ⟨N, e0, e2, r, h1, -, -, -, -, ⟨k, hk, hN⟩, hpos, -, -, -, hor⟩ := C16_facet ⟨0, 0, 1⟩ ⟨0, 0, 0⟩ ⟨4, 0, 0⟩ ⟨0, 3, 0⟩ (by
    simp [V3.cross])
  have hz : 0 < N.z := by
    have hpos' : 0 ≤ N.z := by simpa [V3.dot] using hpos
    rcases hor with ⟨rfl, rfl⟩ | ⟨rfl, rfl⟩
    · have := congrArg V3.z hN
      simp [V3.cross, V3.smul] at this
      nlinarith
    · have := congrArg V3.z hN
      simp [V3.cross, V3.smul] at this
      nlinarith
  refine ⟨⟨[⟨N.fin, e0.fin, V3.fin ⟨4, 0, 0⟩, e2.fin, Ext.fin r⟩], [], [], 0⟩, ?_, ?_⟩
  · intro f hf
    simp only [List.mem_singleton] at hf
    subst hf
    exact ⟨_, _, _, _, h1⟩
  · intro proj hp hnil
    obtain ⟨m', ax, e, hr, -⟩ := C30_named_views (K := ℝ) c!"Z+" matZP rfl
    obtain ⟨s', ts, es, g1, g2, -⟩ := C26_after_view ⟨[⟨N.fin, e0.fin, V3.fin ⟨4, 0, 0⟩, e2.fin, Ext.fin r⟩], [], [], 0⟩ m' hr (by
      intro f hf
      simp only [List.mem_singleton] at hf
      subst hf
      exact ⟨_, _, _, _, h1⟩)
    rw [← e, hp] at g1
    injection g1 with g1; subst g1
    rw [g2] at hnil
    obtain ⟨s', k1, k2, k3⟩ := C21_rotate (⟨[⟨N.fin, e0.fin, V3.fin ⟨4, 0, 0⟩, e2.fin, Ext.fin r⟩], [], [], 0⟩ : STLFile (Ext ℝ)) matZP (by
      intro f hf
      simp only [List.mem_singleton] at hf
      subst hf
      rw [e]
      exact ⟨by simp only [rotFacet, V3.fin_mulM]; exact V3.ok_fin _, by simp only [rotFacet, V3.fin_mulM]; exact V3.ok_fin _,
        by simp only [rotFacet, V3.fin_mulM]; exact V3.ok_fin _⟩)
    rw [hp] at k1
    injection k1 with k1; subst k1
    rw [hnil] at k3
    have := k3.symm.subset (a := rotFacet matZP ⟨N.fin, e0.fin, V3.fin ⟨4, 0, 0⟩, e2.fin, Ext.fin r⟩) (by
      simp only [List.map_cons, List.map_nil, List.mem_filter, List.mem_singleton, true_and]
      simp [rotFacet, V3.mulM, matZP, ptX, ptY, ptZ, hz, V3.map])
    simp at this

noncomputable def rEnv : Env (Ext ℝ) where
  junk _ := V3.zero
  junkM := ⟨V3.zero, V3.zero, V3.zero⟩
  fmtF s := if s = c!"%.1f" ∨ s = c!"%.3f" then some FP.g6 else none
  sorter := insSorter
  name := c!"demo"
  timestamp := false
  numberPages := false
  now := c!"now"
  loadPath := []

theorem rEnv_notAView : rEnv.NotAView := fun r hr => rotation_ne_zero r hr

noncomputable def rMetas : List (Meta (Ext ℝ)) := [⟨c!"@", .loc (V2.fin ⟨1, 2⟩), 1⟩, ⟨c!"scale", .scale 1 2, 1⟩]

theorem rMetas_fin : ∀ m ∈ rMetas, m.val.IsFin := by
  simp only [rMetas, List.mem_cons, List.not_mem_nil, or_false]
  rintro m (rfl | rfl)
  · exact ⟨_, rfl⟩
  · trivial

/-- everything the theorems about drawings assume holds for a triangle drawn at 1:2 -/
theorem real_drawn (dims : List (DimN (Ext ℝ))) (hfin : ∀ d ∈ dims, d.IsFin) : ∃ (stl : Models (Ext ℝ)) (loc : V2 (Ext ℝ)) (file proj : STLFile (Ext ℝ))
    (ls : List (Line (Ext ℝ))) (c : Bool × OutPage (Ext ℝ) × List Diag), stl.Made ∧ Drawn rEnv stl c!"m" rMetas (1, 2) matZP loc file proj ls ∧
      content rEnv stl (.draw c!"m" rMetas dims 1) = .ok c ∧ proj.cull.facets ≠ [] := by
  obtain ⟨file, h1, h2⟩ := real_file
  have hM : Models.Made (K := ℝ) [(c!"m", some file)] := by
    intro e he
    simp only [List.mem_singleton] at he
    subst he
    exact ⟨file, rfl, h1⟩
  obtain ⟨proj, ls, hd⟩ := drawn_exists rEnv insSorter_ok [(c!"m", some file)] c!"m" rMetas rMetas_fin (by simp [rMetas]) (1, 2)
    (by simp [rMetas, look, scaleOf]) matZP (by simp [rMetas, look, viewOf]) _ (by simp [rMetas, look, locOf]; rfl) file ⟨_, rfl, rfl⟩ h1
  obtain ⟨c, hc⟩ := content_ok rEnv insSorter_ok rEnv_notAView [(c!"m", some file)] hM (.draw c!"m" rMetas dims 1)
    ⟨rMetas_fin, hfin⟩ (by
      intro m hm hn
      simp only [rMetas, List.mem_cons, List.not_mem_nil, or_false] at hm
      rcases hm with rfl | rfl
      · exact ⟨_, rfl⟩
      · simp at hn)
  exact ⟨_, _, file, proj, ls, c, hM, hd, hc, h2 proj hd.turned⟩

end S2P
