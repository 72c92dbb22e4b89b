import Verif.Props.Resized

set_option linter.unusedSectionVars false
set_option linter.unusedVariables false
set_option linter.unusedSimpArgs false

/-! # C69: turning a model and turning the view -/

namespace S2P

variable {r : M3 ℝ}

theorem normalized_rot (hr : IsRotation r) (C N : V3 ℝ) (h : (C.fin.normalized : V3 (Ext ℝ)) = N.fin) : (C.mulM r).fin.normalized = (N.mulM r).fin := by
  by_cases hC : C = ⟨0, 0, 0⟩
  · subst hC
    rw [normalized_zero] at h
    have hN : N = ⟨0, 0, 0⟩ := by
      have := congrArg V3.x h; have := congrArg V3.y h; have := congrArg V3.z h
      simp only [V3.fin, V3.map, Ext.fin.injEq] at *
      ext <;> simp_all
    subst hN
    have : (⟨0, 0, 0⟩ : V3 ℝ).mulM r = ⟨0, 0, 0⟩ := by ext <;> simp [V3.mulM]
    rw [this, normalized_zero]
  · rw [normalized_real hC] at h
    have hN : N = C.sdiv (len3 C) := by
      have hx := congrArg V3.x h; have hy := congrArg V3.y h; have hz := congrArg V3.z h
      simp only [V3.fin, V3.map, Ext.fin.injEq] at hx hy hz
      ext
      · exact hx.symm
      · exact hy.symm
      · exact hz.symm
    subst hN
    rw [normalized_real (rot_ne hr hC), rot_len hr]
    congr 1
    ext <;> simp [V3.mulM, V3.sdiv] <;> ring

/-- C69, facets: reading the turned facet gives the facet, turned. -/
theorem C69_facet (hr : IsRotation r) {f g : Facet (Ext ℝ)} (h : f.TurnedBy r g) : g = rotFacet r.fin f := by
  obtain ⟨n, a, b, c, h1, h2⟩ := h
  obtain ⟨N, hN⟩ : ∃ N : V3 ℝ, ((b - a).cross (c - a)).fin.normalized = N.fin := V3.okFin_normalized ⟨_, rfl⟩
  have hN' : ((b.mulM r - a.mulM r).cross (c.mulM r - a.mulM r)).fin.normalized = (N.mulM r).fin := by
    rw [← rot_sub, ← rot_sub, rotation_cross r hr, normalized_rot hr _ _ hN]
  have hneg : ∀ v : V3 ℝ, (v.mulM r).smul (-1) = (v.smul (-1)).mulM r := by intro v; ext <;> simp [V3.mulM, V3.smul] <;> ring
  simp only [mkFacet, V3.fin_sub, V3.fin_cross, hN, V3.fin_dot, Ext.lit_eq, Ext.fin_lt, Rat.cast_zero] at h1
  simp only [mkFacet, V3.fin_sub, V3.fin_cross, hN', V3.fin_dot, Ext.lit_eq, Ext.fin_lt, Rat.cast_zero, hr.1 n N] at h2
  by_cases hf : n.dot N < 0
  · simp only [hf, decide_true, if_true] at h1 h2
    simp only [V3.fin_smul, V3.fin_dot, Ext.fin_add, Rat.cast_neg, Rat.cast_one, hneg, hr.1 _ _] at h1 h2
    injection h1 with h1; injection h2 with h2
    subst h1 h2
    simp only [rotFacet, V3.fin_mulM]
  · simp only [hf, decide_false, if_false, Bool.false_eq_true] at h1 h2
    simp only [V3.fin_smul, V3.fin_dot, Ext.fin_add, Rat.cast_neg, Rat.cast_one, hr.1 _ _] at h1 h2
    injection h1 with h1; injection h2 with h2
    subst h1 h2
    simp only [rotFacet, V3.fin_mulM]

theorem turnedBy_all (hr : IsRotation r) (m : M3 ℝ) {fs gs : List (Facet (Ext ℝ))} (h : List.Forall₂ (Facet.TurnedBy r) fs gs) :
    gs.map (rotFacet m.fin) = fs.map (rotFacet (r.comp m).fin) := by
  induction h with
  | nil => rfl
  | cons h1 _ ih =>
    rw [List.map_cons, List.map_cons, ih, C69_facet hr h1]
    congr 1
    obtain ⟨n, a, b, c, h1, -⟩ := h1
    obtain ⟨T, rfl⟩ := made_tri ⟨n, a, b, c, h1⟩
    simp only [rotFacet, Tri.fin, V3.fin_mulM, M3.comp_spec]

/-- C69, view: the turned model, seen in the view `m`, is the model seen in the view "first `r`, then `m`" — not merely equal lines, but the same
view in every respect. -/
theorem C69_view (hr : IsRotation r) (m : M3 ℝ) (s u : STLFile (Ext ℝ)) (h : List.Forall₂ (Facet.TurnedBy r) s.facets u.facets) :
    u.rotate m.fin = s.rotate (r.comp m).fin := by
  unfold STLFile.rotate
  rw [turnedBy_all hr m h]

/-- C69, drawing: a model turned by `r` and drawn in the view `m`, and the model drawn in the view "first `r`, then `m`": same outline, at the same
place of the page. -/
theorem C69_drawing (E : Env (Ext ℝ)) (hJ : E.NotAView) (stl stl' : Models (Ext ℝ)) (name name' : Str) (ms ms' : List (Meta (Ext ℝ)))
    (hf : ∀ m ∈ ms, m.val.IsFin) (hf' : ∀ m ∈ ms', m.val.IsFin) (line line' : Nat) (sc : Int × Int) (hr : IsRotation r) (m : M3 ℝ)
    (loc : V2 (Ext ℝ)) (file file' proj : STLFile (Ext ℝ)) (ls : List (Line (Ext ℝ)))
    (hd : Drawn E stl name ms sc (r.comp m).fin loc file proj ls) (h : List.Forall₂ (Facet.TurnedBy r) file.facets file'.facets)
    (once' : (ms'.map (fun m => m.name)).Nodup) (scale' : scaleOf (look ms' c!"scale") = .ok sc) (view' : viewOf (look ms' c!"view") = .ok m.fin)
    (loc' : locOf (look ms' c!"@") = .ok loc) (model' : ∃ e, stl'.find? (fun e => decide (e.1 = name')) = some e ∧ e.2 = some file') :
    Drawn E stl' name' ms' sc m.fin loc file' proj ls ∧
    ∀ c c', content E stl (.draw name ms [] line) = .ok c → content E stl' (.draw name' ms' [] line') = .ok c' → c'.2.1 = c.2.1 := by
  have hd' : Drawn E stl' name' ms' sc m.fin loc file' proj ls :=
    ⟨once', scale', view', loc', model', by rw [C69_view hr m file file' h]; exact hd.turned, hd.lines⟩
  refine ⟨hd', ?_⟩
  intro c c' hc hc'
  have rotOf : ∀ (ms : List (Meta (Ext ℝ))), (∀ m ∈ ms, m.val.IsFin) → ∀ x, viewOf (look ms c!"view") = .ok x → x.eqv E.junkM = false := by
    intro ms hf x hx
    obtain ⟨r, rfl, hr⟩ := viewOf_rotation _ (look_fin hf _) _ hx
    exact hJ r hr
  obtain ⟨Ps, f, e⟩ := C38_drawing E stl name ms [] line c hc _ _ _ _ _ _ hd (rotOf ms hf _ hd.view)
  obtain ⟨Ps', f', e'⟩ := C38_drawing E stl' name' ms' [] line' c' hc' _ _ _ _ _ _ hd' (rotOf ms' hf' _ view')
  cases f; cases f'
  rw [e, e']

theorem turn_rotation (a : ℝ) : IsRotation (turn (rad a)) := by
  have h1 := Real.sin_sq_add_cos_sq (rad a)
  refine ⟨isOrtho_of_rows _ ?_ ?_ ?_ ?_ ?_ ?_, ?_⟩ <;> simp [turn, V3.dot, M3.det, V3.cross]
  · linear_combination h1
  · linear_combination h1
  · ring
  · linear_combination h1

/-- C69, angles: a model turned by `a` degrees, drawn in the view (a', b), is the model drawn in the view (a + a', b). -/
theorem C69_angles (s u : STLFile (Ext ℝ)) (a a' b : ℝ) (h : List.Forall₂ (Facet.TurnedBy (turn (rad a))) s.facets u.facets) :
    u.rotate (getMatrixByAng (V2.fin ⟨a', b⟩)) = s.rotate (getMatrixByAng (V2.fin ⟨a + a', b⟩)) := by
  have hr := turn_rotation a
  rw [C56_turn_then_tilt, C56_turn_then_tilt, C69_view hr _ s u h, ← (C56_turns_add a a' 0 0).1]
  congr 2
  ext <;> simp [M3.comp, V3.mulM] <;> ring

/-! ## A concrete case: a triangle turned by a quarter, drawn in the view that turns it back -/

noncomputable def rMetasBack : List (Meta (Ext ℝ)) := [⟨c!"@", .loc (V2.fin ⟨1, 2⟩), 1⟩, ⟨c!"scale", .scale 1 2, 1⟩, ⟨c!"view", .loc (V2.fin ⟨-90, 0⟩), 1⟩]

theorem quarter_back : ((turn (rad 90)).comp ((turn (rad (-90))).comp (tilt (rad 0)))).fin = (matZP : M3 (Ext ℝ)) := by
  have : (turn (rad 90)).comp ((turn (rad (-90))).comp (tilt (rad 0))) = turn (rad (90 + -90)) := by
    rw [← (C56_turns_add 90 (-90) 0 0).1]
    congr 1
    ext <;> simp [turn, tilt, rad, M3.comp, V3.mulM]
  rw [this]
  ext <;> simp [turn, rad, matZP, ptX, ptY, ptZ, M3.map, V3.map]

example : ∃ (stl stl' : Models (Ext ℝ)) (loc : V2 (Ext ℝ)) (file file' proj : STLFile (Ext ℝ)) (ls : List (Line (Ext ℝ))) (m : M3 ℝ),
    Drawn rEnv stl c!"m" rMetas (1, 2) ((turn (rad 90)).comp m).fin loc file proj ls ∧ proj.cull.facets ≠ [] ∧
    List.Forall₂ (Facet.TurnedBy (turn (rad 90))) file.facets file'.facets ∧ IsRotation (turn (rad 90)) ∧
    (rMetasBack.map (fun m => m.name)).Nodup ∧ scaleOf (look rMetasBack c!"scale") = .ok (1, 2) ∧ viewOf (look rMetasBack c!"view") = .ok m.fin ∧
    locOf (look rMetasBack c!"@") = .ok loc ∧ (∃ e, stl'.find? (fun e => decide (e.1 = c!"m")) = some e ∧ e.2 = some file') := by
  obtain ⟨stl, loc, file, proj, ls, c, hM, hd, hc, hne⟩ := real_drawn [] (by simp)
  obtain ⟨e, he, hfile⟩ := hd.model
  obtain ⟨file0, hf0, hmade⟩ := hM e (List.mem_of_find?_eq_some he)
  rw [hfile] at hf0; injection hf0 with hf0; subst hf0
  obtain ⟨gs, hgs⟩ : ∃ gs, List.Forall₂ (Facet.TurnedBy (turn (rad 90))) file.facets gs := by
    generalize file.facets = fs at hmade
    induction fs with
    | nil => exact ⟨[], .nil⟩
    | cons f fs ih =>
      obtain ⟨gs, hgs⟩ := ih (fun f hf => hmade f (by simp [hf]))
      obtain ⟨n, a, b, c, e⟩ := hmade f (by simp)
      exact ⟨_ :: gs, .cons ⟨n, a, b, c, e, rfl⟩ hgs⟩
  refine ⟨stl, [(c!"m", some ⟨gs, [], [], 0⟩)], loc, file, ⟨gs, [], [], 0⟩, proj, ls, (turn (rad (-90))).comp (tilt (rad 0)), by rw [quarter_back]; exact hd, hne, hgs,
    turn_rotation 90, by simp [rMetasBack], by simp [rMetasBack, look, scaleOf], ?_, ?_, ⟨_, rfl, rfl⟩⟩
  · rw [← C56_turn_then_tilt]
    simp [rMetasBack, look, viewOf]
  · rw [← hd.loc]
    simp [rMetasBack, rMetas, look]

end S2P
