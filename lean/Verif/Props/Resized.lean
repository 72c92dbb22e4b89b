import Verif.Lemmas.SimilarView
import Verif.Props.Drawing

set_option linter.unusedSectionVars false
set_option linter.unusedVariables false
set_option linter.unusedSimpArgs false

/-! # C68: a model moved in its own coordinates, or resized with the scale adapted, gives the same outline on the page -/

namespace S2P

variable {k : ℝ} (t : V3 ℝ)

theorem affL_moved (a b : V2 ℝ) : affL (k := k) t ⟨a.fin, b.fin⟩ = ⟨a.fin.moved (Ext.fin k) t.xy.fin, b.fin.moved (Ext.fin k) t.xy.fin⟩ := by
  simp [affL, affX, V2.moved, V2.map, V3.xy]

/-- C68, view: the lines of the resized model are the resized lines, in the same order; what is visible does not change. -/
theorem C68_view (S : Sorter) (hS : SortOK S) (s u : STLFile (Ext ℝ)) (m : M3 ℝ) (hm : IsRotation m) (hk : 0 < k)
    (h : List.Forall₂ (Facet.Resized k t) s.facets u.facets) :
    ∃ p q ls, s.rotate m.fin = .ok p ∧ u.rotate m.fin = .ok q ∧ p.cull.toLines S = .ok ls ∧
      q.cull.toLines S = .ok (ls.map fun l => ⟨l.o.moved (Ext.fin k) (t.mulM m).xy.fin, l.t.moved (Ext.fin k) (t.mulM m).xy.fin⟩) := by
  obtain ⟨p, q, ls, h1, h2, h3, h4, -, h6⟩ := view_resized t S hS s u m hm hk h
  refine ⟨p, q, ls, h1, h2, h3, ?_⟩
  rw [h4]
  congr 1
  apply List.map_congr_left
  intro l hl
  obtain ⟨a, b, rfl⟩ := h6 l hl
  exact affL_moved _ a b

/-- C68, drawing: the vertices of a model have been multiplied by `k` and moved by `t`, the scale 1:k-fold reduced; same view, same place on the
page.  The outline on the page is the same. -/
theorem C68_drawing (E : Env (Ext ℝ)) (hS : SortOK E.sorter) (hJ : E.NotAView) (stl stl' : Models (Ext ℝ)) (name name' : Str)
    (ms ms' : List (Meta (Ext ℝ))) (hf : ∀ m ∈ ms, m.val.IsFin) (line line' : Nat) (a b a' b' : Int) (hb : b ≠ 0) (hb' : b' ≠ 0)
    (hk : 0 < k) (hsc : (a : ℝ) / b = k * (a' / b')) (rot : M3 (Ext ℝ)) (loc : V2 (Ext ℝ)) (file file' proj : STLFile (Ext ℝ)) (ls : List (Line (Ext ℝ)))
    (hd : Drawn E stl name ms (a, b) rot loc file proj ls) (h : List.Forall₂ (Facet.Resized k t) file.facets file'.facets)
    (once' : (ms'.map (fun m => m.name)).Nodup) (scale' : scaleOf (look ms' c!"scale") = .ok (a', b')) (view' : viewOf (look ms' c!"view") = .ok rot)
    (loc' : locOf (look ms' c!"@") = .ok loc) (model' : ∃ e, stl'.find? (fun e => decide (e.1 = name')) = some e ∧ e.2 = some file') :
    (∃ proj' ls', Drawn E stl' name' ms' (a', b') rot loc file' proj' ls') ∧
    ∀ c c', content E stl (.draw name ms [] line) = .ok c → content E stl' (.draw name' ms' [] line') = .ok c' → c'.2.1 = c.2.1 := by
  obtain ⟨r, rfl, hr⟩ := viewOf_rotation _ (look_fin hf _) _ hd.view
  obtain ⟨l, rfl⟩ := locOf_fin _ (look_fin hf _) _ hd.loc
  obtain ⟨p, q, ls0, h1, h2, h3, h4, h5, h6⟩ := view_resized t E.sorter hS file file' r hr hk h
  rw [hd.turned] at h1; injection h1 with h1; subst h1
  rw [hd.lines] at h3; injection h3 with h3; subst h3
  have hd' : Drawn E stl' name' ms' (a', b') r.fin l.fin file' q _ := ⟨once', scale', view', loc', model', h2, h4⟩
  refine ⟨⟨_, _, hd'⟩, ?_⟩
  intro c c' hc hc'
  obtain ⟨Ps, f, e⟩ := C38_drawing E stl name ms [] line c hc _ _ _ _ _ _ hd (hJ r hr)
  obtain ⟨Ps', f', e'⟩ := C38_drawing E stl' name' ms' [] line' c' hc' _ _ _ _ _ _ hd' (hJ r hr)
  cases f; cases f'
  rw [e, e']
  rcases h5 with ⟨-, rfl⟩ | h5
  · rfl
  have hmade : ∀ f ∈ file.facets, f.Made := by
    intro f hf
    obtain ⟨g, -, n, a, b, c, e, -⟩ := forall₂_mem h hf
    exact ⟨n, a, b, c, e⟩
  obtain ⟨lo, hi, hl⟩ := limits_fin proj.cull (viewed_fin file proj hmade r hr hd.turned)
  rw [h5, hl, affL_moved, fin_moved, fin_moved, projScale_fin a b hb, projScale_fin a' b' hb', projOffset_fin, projOffset_fin]
  simp only [OutPage.sum, OutPage.ofLines, OutPage.app, OutPage.moved, List.foldr, List.map_append, List.map_nil, List.append_nil, List.map_map,
    OutPage.empty]
  congr 1
  apply List.map_congr_left
  intro x hx
  obtain ⟨u, w, rfl⟩ := h6 x hx
  simp only [Function.comp, affL_moved, fin_moved, hsc]
  congr 1
  · congr 1; ext <;> simp [V2.moved] <;> ring
  · congr 1; ext <;> simp [V2.moved] <;> ring

/-! ## Pages of moved models -/

theorem find_moved {stl stl' : Models (Ext ℝ)} (h : MovedModels stl stl') (n : Str) :
    (stl.find? (fun e => decide (e.1 = n)) = none ∧ stl'.find? (fun e => decide (e.1 = n)) = none) ∨
    ∃ e e' f f' t, stl.find? (fun e => decide (e.1 = n)) = some e ∧ stl'.find? (fun e => decide (e.1 = n)) = some e' ∧ e.2 = some f ∧ e'.2 = some f' ∧
      List.Forall₂ (Facet.Resized 1 t) f.facets f'.facets := by
  induction h with
  | nil => exact Or.inl ⟨rfl, rfl⟩
  | @cons a b l l' hab _ ih =>
    obtain ⟨h1, f, f', t, h2, h3, h4⟩ := hab
    by_cases hn : a.1 = n
    · refine Or.inr ⟨a, b, f, f', t, ?_, ?_, h2, h3, h4⟩
      · rw [List.find?_cons_of_pos (by simpa using hn)]
      · rw [List.find?_cons_of_pos (by simpa [← h1] using hn)]
    · rw [List.find?_cons_of_neg (by simpa using hn), List.find?_cons_of_neg (by simpa [← h1] using hn)]
      exact ih

theorem content_moved (E : Env (Ext ℝ)) (hS : SortOK E.sorter) (hJ : E.NotAView) {stl stl' : Models (Ext ℝ)} (h : MovedModels stl stl')
    (d : Drawable (Ext ℝ)) (hf : d.IsFin) (hp : d.Plain) : content E stl' d = content E stl d := by
  cases d with
  | text s ms l => rfl
  | draw n ms dims l =>
    obtain ⟨rfl, hb⟩ := hp
    have hpage : ∀ c c', content E stl (.draw n ms [] l) = .ok c → content E stl' (.draw n ms [] l) = .ok c' → 
        ∀ sc rot loc file file' proj ls t, Drawn E stl n ms sc rot loc file proj ls → List.Forall₂ (Facet.Resized 1 t) file.facets file'.facets → 
        (∃ e, stl'.find? (fun e => decide (e.1 = n)) = some e ∧ e.2 = some file') → sc.2 ≠ 0 → c'.2.1 = c.2.1 := by
      intro c c' hc hc' sc rot loc file file' proj ls t hd hr hm hsc
      exact (C68_drawing (k := 1) t E hS hJ stl stl' n n ms ms hf.1 l l sc.1 sc.2 sc.1 sc.2 hsc hsc one_pos (by ring) rot loc file file' proj ls hd hr
        hd.once hd.scale hd.view hd.loc hm).2 c c' hc hc'
    obtain ⟨ds, extra, hds, -, h3⟩ := visitDraw_outs E n ms l
    have o1 := h3 stl (initVis E) []
    have o2 := h3 stl' (initVis E) []
    have e1 : ∀ stl, content E stl (.draw n ms [] l) = (visitDraw E stl (initVis E) n ms [] l).map (fun r => (r.1, r.2.2.page, r.2.2.log)) := by
      intro stl
      unfold content
      simp only [visitDrawable, bind, Except.bind]
      cases visitDraw E stl (initVis E) n ms [] l <;> rfl
    have hin := hpage
    rw [e1 stl, e1 stl', o1, o2] at hin ⊢
    unfold drawOut at hin ⊢
    by_cases hd : ds ≠ []
    · rw [if_pos hd, if_pos hd]
    rw [if_neg hd, if_neg hd] at hin ⊢
    have once := hds.1 (not_not.1 hd)
    cases k1 : scaleOf (look ms c!"scale") with
    | error d => rfl
    | ok sc =>
      rw [k1] at hin
      dsimp only at hin ⊢
      have hsc : sc.2 ≠ 0 := by
        unfold scaleOf at k1
        cases hl : look ms c!"scale" with
        | none => rw [hl] at k1; cases k1; decide
        | some m =>
          rw [hl] at k1
          dsimp only at k1
          have hmem := look_mem hl
          cases hv : m.val with
          | scale a b => rw [hv] at k1; cases k1; exact hb m hmem a b hv
          | _ => rw [hv] at k1; cases k1
      rcases find_moved h n with ⟨g1, g2⟩ | ⟨e, e', f, f', t, g1, g2, g3, g4, g5⟩
      · rw [g1, g2]
      rw [g1, g2] at hin ⊢
      dsimp only at hin ⊢
      cases k2 : viewOf (look ms c!"view") with
      | error d => rfl
      | ok rot =>
        rw [k2] at hin
        dsimp only at hin ⊢
        cases k3 : locOf (look ms c!"@") with
        | error a => rfl
        | ok loc =>
          obtain ⟨r, rfl, hr⟩ := viewOf_rotation _ (look_fin hf.1 _) _ k2
          rw [k3, g3, g4] at hin
          rw [g3, g4]
          dsimp only at hin ⊢
          obtain ⟨p, q, ls, m1, m2, m3, m4⟩ := C68_view t E.sorter hS f f' r hr one_pos g5
          have hdr : Drawn E stl n ms sc r.fin loc f p ls := ⟨once, k1, k2, k3, ⟨e, g1, g3⟩, m1, m3⟩
          rw [m1, m2] at hin ⊢
          dsimp only at hin ⊢
          rw [m3, m4] at hin ⊢
          dsimp only [visitDims] at hin ⊢
          by_cases hextra : extra ≠ []
          · simp only [if_pos hextra] at hin ⊢
            simp only [Except.map, pure, Except.pure] at hin ⊢
            have := hin _ _ rfl rfl sc r.fin loc f f' p ls t hdr g5 ⟨e', rfl, g4⟩ hsc
            exact congrArg Except.ok (Prod.ext rfl (Prod.ext this rfl))
          · simp only [if_neg hextra] at hin ⊢
            simp only [Except.map, pure, Except.pure] at hin ⊢
            have := hin _ _ rfl rfl sc r.fin loc f f' p ls t hdr g5 ⟨e', rfl, g4⟩ hsc
            exact congrArg Except.ok (Prod.ext rfl (Prod.ext this rfl))

/-- C68, pages: models moved in their own coordinates, a document of drawings without dimensions: same verdict, same diagnostics, same pages. -/
theorem C68_pages (E : Env (Ext ℝ)) (hS : SortOK E.sorter) (hJ : E.NotAView) (stl stl' : Models (Ext ℝ)) (h : MovedModels stl stl') (s : Str)
    (doc : Doc (Ext ℝ)) (hp : parse s = .ok (some doc)) (hd : ∀ pg ∈ doc.pages, ∀ d ∈ pg.draws, d.Plain) :
    (∀ a, generatePages E stl doc [] = .error a ↔ generatePages E stl' doc [] = .error a) ∧
    ∀ g, generatePages E stl doc [] = .ok g → ∃ g', generatePages E stl' doc [] = .ok g' ∧ g'.ok = g.ok ∧ g'.log = g.log ∧ g'.pages = g.pages := by
  have hf := parse_isFin s doc hp
  obtain ⟨k1, k2⟩ := genPages_like pageRel_eq (E := E) (stl := stl) (stl' := stl') doc.pages
    (fun pg hpg d hd' => by rw [content_moved E hS hJ h d (hf pg hpg d hd') (hd pg hpg d hd')]; exact ResLike.refl (fun _ => rfl) _) 0 (initVis E) (initVis E) rfl
  unfold generatePages
  simp only [bind, Except.bind, List.length_nil]
  cases hx : genPages E stl doc.pages 0 (initVis E) with
  | error a =>
    rw [(k1 a).1 hx]
    exact ⟨fun a => Iff.rfl, fun g hg => by cases hg⟩
  | ok x =>
    obtain ⟨y, l1, l2, l3, l4⟩ := k2 x hx
    rw [l1]
    refine ⟨fun a => by simp [pure, Except.pure], fun g hg => ?_⟩
    cases hg
    exact ⟨_, rfl, l2, l4, by simpa using (List.forall₂_eq_eq_eq ▸ l3 : _ = _).symm⟩

/-! ## A concrete case: a triangle, at 1:2, and the same triangle doubled and moved, at 1:4 -/

theorem resized_exists (fs : List (Facet (Ext ℝ))) (h : ∀ f ∈ fs, f.Made) (k : ℝ) (t : V3 ℝ) : ∃ gs, List.Forall₂ (Facet.Resized k t) fs gs := by
  induction fs with
  | nil => exact ⟨[], .nil⟩
  | cons f fs ih =>
    obtain ⟨gs, hgs⟩ := ih (fun f hf => h f (by simp [hf]))
    obtain ⟨n, a, b, c, e⟩ := h f (by simp)
    exact ⟨_ :: gs, .cons ⟨n, a, b, c, e, rfl⟩ hgs⟩

noncomputable def rMetas4 : List (Meta (Ext ℝ)) := [⟨c!"@", .loc (V2.fin ⟨1, 2⟩), 1⟩, ⟨c!"scale", .scale 1 4, 1⟩]

example : ∃ (stl stl' : Models (Ext ℝ)) (loc : V2 (Ext ℝ)) (file file' proj : STLFile (Ext ℝ)) (ls : List (Line (Ext ℝ))),
    Drawn rEnv stl c!"m" rMetas (1, 2) matZP loc file proj ls ∧ proj.cull.facets ≠ [] ∧
    List.Forall₂ (Facet.Resized 2 ⟨5, -7, 2⟩) file.facets file'.facets ∧ ((1 : Int) : ℝ) / (2 : Int) = 2 * ((1 : Int) / (4 : Int)) ∧
    (rMetas4.map (fun m => m.name)).Nodup ∧ scaleOf (look rMetas4 c!"scale") = .ok (1, 4) ∧ viewOf (look rMetas4 c!"view") = .ok matZP ∧
    locOf (look rMetas4 c!"@") = .ok loc ∧ (∃ e, stl'.find? (fun e => decide (e.1 = c!"m")) = some e ∧ e.2 = some file') := by
  obtain ⟨stl, loc, file, proj, ls, c, hM, hd, hc, hne⟩ := real_drawn [] (by simp)
  obtain ⟨e, he, hfile⟩ := hd.model
  obtain ⟨file0, hf0, hmade⟩ := hM e (List.mem_of_find?_eq_some he)
  rw [hfile] at hf0; injection hf0 with hf0; subst hf0
  obtain ⟨gs, hgs⟩ := resized_exists file.facets hmade 2 ⟨5, -7, 2⟩
  refine ⟨stl, [(c!"m", some ⟨gs, [], [], 0⟩)], loc, file, ⟨gs, [], [], 0⟩, proj, ls, hd, hne, hgs, by norm_num, by simp [rMetas4],
    by simp [rMetas4, look, scaleOf], by simp [rMetas4, look, viewOf], ?_, ⟨_, rfl, rfl⟩⟩
  rw [← hd.loc]
  simp [rMetas4, rMetas, look]

/-- moved models -/
example : ∃ (stl stl' : Models (Ext ℝ)), stl ≠ [] ∧ MovedModels stl stl' := by
  obtain ⟨file, hmade, -⟩ := real_file
  obtain ⟨gs, hgs⟩ := resized_exists file.facets hmade 1 ⟨5, -7, 2⟩
  exact ⟨[(c!"m", some file)], [(c!"m", some ⟨gs, [], [], 0⟩)], by simp, .cons ⟨rfl, _, _, _, rfl, rfl, hgs⟩ .nil⟩
example : Drawable.Plain (.draw c!"m" rMetas [] 1) := by
  refine ⟨rfl, ?_⟩
  simp only [rMetas, List.mem_cons, List.not_mem_nil, or_false]
  rintro m (rfl | rfl) a b h
  · cases h
  · cases h; decide

end S2P
