import Verif.Lemmas.Carried
import Verif.Props.Turned
import Verif.Props.Snap
import Verif.Props.Swap
import Verif.Lemmas.Sample

set_option linter.unusedSectionVars false
set_option linter.unusedVariables false
set_option linter.unusedSimpArgs false

/-! # C81: a model moved or turned together with its dimensions -/

namespace S2P

theorem eq_of_all {α : Type} {l l' : List α} (h : List.Forall₂ (fun P Q => Q = P) l l') : l' = l := by
  induction h with
  | nil => rfl
  | cons a _ ih => rw [a, ih]

theorem m3_fin_inj {a b : M3 ℝ} (h : a.fin = b.fin) : a = b := by
  have h0 := (V3.fin_injective _ _).1 (congrArg M3.r0 h)
  have h1 := (V3.fin_injective _ _).1 (congrArg M3.r1 h)
  have h2 := (V3.fin_injective _ _).1 (congrArg M3.r2 h)
  cases a; cases b; simp_all

theorem start_page (E : Env (Ext ℝ)) (sc : Int × Int) (rot : M3 (Ext ℝ)) (loc : V2 (Ext ℝ)) (proj : STLFile (Ext ℝ)) (ls : List (Line (Ext ℝ))) :
    (drawStart (initVis E) sc rot loc proj ls).page = (OutPage.ofLines ls).moved (projScale sc) (projOffset loc proj.limits (projScale sc)) := rfl

/-- C81, moved: a model and the points of its dimensions have been moved by `t`, the directions left; view, scale and place on the page are the same.  The
drawing is accepted or rejected as before, and what is on the page is the same: outline, dimension lines, arrows, circles and labels. -/
theorem C81_moved_partial (E : Env (Ext ℝ)) (hS : SortOK E.sorter) (hJ : E.NotAView) {stl stl' : Models (Ext ℝ)} {d d' : Drawable (Ext ℝ)} (h : d.MovedAlong stl stl' d')
    (hf : d.IsFin) {c c'} (hc : content E stl d = .ok c) (hc' : content E stl' d' = .ok c') : c'.1 = c.1 ∧ c'.2.1 = c.2.1 := by
  cases h with
  | text s ms line => rw [show content E stl' (.text s ms line) = content E stl (.text s ms line) from rfl, hc] at hc'; cases hc'; exact ⟨rfl, rfl⟩
  | draw name ms dims dims' line e e' f f' r t h1 h2 h3 h4 h5 h6 h7 h8 h9 h10 =>
    obtain ⟨r0, hr0, hr⟩ := viewOf_rotation _ (look_fin hf.1 _) _ h6
    have : r = r0 := m3_fin_inj hr0
    subst this
    obtain ⟨p, q, ls, v1, v2, v3, v4, v5, v6⟩ := view_resized t E.sorter hS f f' r hr one_pos h5
    have hmade : ∀ x ∈ f.facets, x.Made := by
      intro x hx
      obtain ⟨g, -, n, a, b, c, e, -⟩ := forall₂_mem h5 hx
      exact ⟨n, a, b, c, e⟩
    obtain ⟨qs, hqs, hseen⟩ := points_seen E.sorter hS f p hmade r hr v1 ls v3
    have hne : p.cull.facets ≠ [] := by
      intro h0
      obtain ⟨v, hv⟩ := h8
      have : v.mulM r ∈ qs := (hseen _).2 ⟨v, hv, rfl⟩
      have hq : qs = [] := by
        have : p.cull.points = [] := by unfold STLFile.points; rw [h0]; rfl
        rw [hqs] at this; simpa using this
      rw [hq] at this; cases this
    have hlim := v5.resolve_left (fun h => hne h.1)
    have hnone : ∀ sc rot loc file proj ls, Drawn E stl' name ms sc rot loc file proj ls → ∃ proj ls, Drawn E stl name ms sc r.fin loc f proj ls :=
      fun sc rot loc file proj _ D => ⟨p, ls, ⟨D.once, D.scale, h6, D.loc, ⟨e, h1, h3⟩, v1, v3⟩⟩
    rcases draw_sum E stl name ms dims line c hc with ⟨n1, n2, -, n3⟩ | ⟨sc, rot, loc, file, proj, ls', cs, hD, -⟩
    · rcases draw_sum E stl' name ms dims' line c' hc' with ⟨m1, m2, -, -⟩ | ⟨sc, rot, loc, file, proj, ls', cs, hD, -⟩
      · rw [n1, n2, m1, m2]; exact ⟨rfl, rfl⟩
      · obtain ⟨_, _, D⟩ := hnone _ _ _ _ _ _ hD
        exact absurd ⟨_, _, _, _, _, _, D⟩ n3
    have hsc := scale_ne h7 hD.scale
    obtain ⟨l, rfl⟩ := locOf_fin _ (look_fin hf.1 _) _ hD.loc
    have hD0 : Drawn E stl name ms sc r.fin l.fin f p ls := ⟨hD.once, hD.scale, h6, hD.loc, ⟨e, h1, h3⟩, v1, v3⟩
    have hD' : Drawn E stl' name ms sc r.fin l.fin f' q _ := ⟨hD.once, hD.scale, h6, hD.loc, ⟨e', h2, h4⟩, v2, v4⟩
    obtain ⟨lo, hi, hl⟩ := limits_fin p.cull (viewed_fin f p hmade r hr v1)
    have hps : (projScale sc : Ext ℝ) = .fin (72 * (sc.1 / sc.2)) := projScale_fin sc.1 sc.2 hsc
    have ho : projOffset l.fin p.cull.limits (projScale sc) =
        V2.fin ⟨l.x - (lo.x + hi.x) / 2 * (72 * (sc.1 / sc.2)), l.y - (lo.y + hi.y) / 2 * (72 * (sc.1 / sc.2))⟩ := by
      rw [hl, hps, projOffset_fin]
    have ho' : projOffset l.fin q.cull.limits (projScale sc) =
        V2.fin ⟨(l.x - (lo.x + hi.x) / 2 * (72 * (sc.1 / sc.2))) - (t.mulM r).xy.x * (72 * (sc.1 / sc.2)),
          (l.y - (lo.y + hi.y) / 2 * (72 * (sc.1 / sc.2))) - (t.mulM r).xy.y * (72 * (sc.1 / sc.2))⟩ := by
      rw [hlim, hl, affL_moved, fin_moved, fin_moved, hps, projOffset_fin]
      congr 1
      ext <;> simp [V2.moved] <;> ring
    refine draw_carried hD0 hD' (hJ r hr) (hJ r hr) Iff.rfl ?_ ?_ hc hc'
    · rw [start_page, start_page, ho, ho', hps]
      have hls : OutPage.ofLines (ls.map (affL (k := 1) (t.mulM r))) = (OutPage.ofLines ls).mv (t.mulM r).xy := by
        simp only [OutPage.ofLines, OutPage.mv, List.map_nil]
        congr 1
        apply List.map_congr_left
        intro x hx
        obtain ⟨u, w, rfl⟩ := v6 x hx
        simp only [affL_moved, fin_moved]
        congr 1
        · ext <;> simp [V2.moved]
        · ext <;> simp [V2.moved]
      rw [hls]
      exact moved_mv _ _ ⟨_, _⟩ _
    · refine ((List.forall₂_and_left _ _).2 ⟨h10, h9⟩).imp ?_
      rintro d d' ⟨hM, hmv⟩
      refine ⟨by rw [hmv.1]; exact goodDim_names_iff (names_rel hmv.2), ?_⟩
      rw [drawnItems_mv hmv hM E (v := drawStart (initVis E) sc r.fin l.fin p.cull ls)
        (v' := drawStart (initVis E) sc r.fin l.fin q.cull (ls.map (affL (k := 1) (t.mulM r)))) rfl rfl hqs (points_moved t f f' r hr h5 v1 v2 hqs) rfl, Option.map_map]
      congr 1
      funext P
      simp only [Function.comp]
      rw [ho, ho', hps]
      exact moved_mv _ _ ⟨_, _⟩ _

theorem look_filter {α : Type} (ms : List (Meta α)) (n : Str) (hn : n ≠ c!"view") : look (ms.filter (fun m => decide (m.name ≠ c!"view"))) n = look ms n := by
  unfold look
  induction ms with
  | nil => rfl
  | cons m ms ih =>
    by_cases h1 : m.name = c!"view"
    · rw [List.filter_cons_of_neg (by simpa using h1), ih, List.find?_cons_of_neg (by rw [h1]; simpa using hn.symm)]
    · rw [List.filter_cons_of_pos (by simpa using h1)]
      by_cases h2 : m.name = n
      · rw [List.find?_cons_of_pos (by simpa using h2), List.find?_cons_of_pos (by simpa using h2)]
      · rw [List.find?_cons_of_neg (by simpa using h2), List.find?_cons_of_neg (by simpa using h2), ih]

theorem names_filter {α : Type} (ms : List (Meta α)) : (∀ m ∈ ms, m.name ∈ [c!"scale", c!"view", c!"@"]) ↔
    ∀ m ∈ ms.filter (fun m => decide (m.name ≠ c!"view")), m.name ∈ [c!"scale", c!"view", c!"@"] := by
  constructor
  · exact fun h m hm => h m (List.mem_of_mem_filter hm)
  · intro h m hm
    by_cases h1 : m.name = c!"view"
    · rw [h1]; simp
    · exact h m (List.mem_filter.2 ⟨hm, by simpa using h1⟩)

/-- C81, turned: a model and its dimensions, points and directions, have been turned by `r`, and the drawing's view turns them back.  The drawing is accepted or
rejected as before, and what is on the page is the same. -/
theorem C81_turned (E : Env (Ext ℝ)) (hS : SortOK E.sorter) (hJ : E.NotAView) {stl stl' : Models (Ext ℝ)} {d d' : Drawable (Ext ℝ)} (h : d.TurnedAlong stl stl' d')
    (hf : d.IsFin) (hf' : d'.IsFin) {c c'} (hc : content E stl d = .ok c) (hc' : content E stl' d' = .ok c') : c'.1 = c.1 ∧ c'.2.1 = c.2.1 := by
  cases h with
  | text s ms line => rw [show content E stl' (.text s ms line) = content E stl (.text s ms line) from rfl, hc] at hc'; cases hc'; exact ⟨rfl, rfl⟩
  | draw name ms ms' dims dims' line e e' f f' r m h1 h2 h3 h4 hr h5 h6 h7 h8 once once' h9 =>
    have hscale : look ms' c!"scale" = look ms c!"scale" := by rw [← look_filter ms' _ (by decide), h8, look_filter ms _ (by decide)]
    have hloc : look ms' c!"@" = look ms c!"@" := by rw [← look_filter ms' _ (by decide), h8, look_filter ms _ (by decide)]
    have hview := C69_view hr m f f' h5
    have hj : (r.comp m).fin.eqv E.junkM = false := by
      obtain ⟨r0, e0, hr0⟩ := viewOf_rotation _ (look_fin hf.1 _) _ h6
      rw [e0]; exact hJ r0 hr0
    have hj' : m.fin.eqv E.junkM = false := by
      obtain ⟨r0, e0, hr0⟩ := viewOf_rotation _ (look_fin hf'.1 _) _ h7
      rw [e0]; exact hJ r0 hr0
    rcases draw_sum E stl name ms dims line c hc with ⟨n1, n2, -, n3⟩ | ⟨sc, rot, loc, file, proj, ls, cs, hD, -⟩
    · rcases draw_sum E stl' name ms' dims' line c' hc' with ⟨m1, m2, -, -⟩ | ⟨sc, rot, loc, file, proj, ls, cs, hD, -⟩
      · rw [n1, n2, m1, m2]; exact ⟨rfl, rfl⟩
      · have hrot : rot = m.fin := by have := hD.view; rw [h7] at this; cases this; rfl
        have hfile : file = f' := by
          obtain ⟨x, hx, hx2⟩ := hD.model
          rw [h2] at hx; cases hx; rw [h4] at hx2; cases hx2; rfl
        subst hrot; subst hfile
        exact absurd ⟨sc, (r.comp m).fin, loc, f, proj, ls, once, by rw [← hscale]; exact hD.scale, h6, by rw [← hloc]; exact hD.loc, ⟨e, h1, h3⟩,
          by rw [← hview]; exact hD.turned, hD.lines⟩ n3
    have hrot : rot = (r.comp m).fin := by have := hD.view; rw [h6] at this; cases this; rfl
    have hfile : file = f := by
      obtain ⟨x, hx, hx2⟩ := hD.model
      rw [h1] at hx; cases hx; rw [h3] at hx2; cases hx2; rfl
    subst hrot; subst hfile
    have hD' : Drawn E stl' name ms' sc m.fin loc f' proj ls :=
      ⟨once', by rw [hscale]; exact hD.scale, h7, by rw [hloc]; exact hD.loc, ⟨e', h2, h4⟩, by rw [hview]; exact hD.turned, hD.lines⟩
    refine draw_carried hD hD' hj hj' (by rw [names_filter ms, names_filter ms', h8]) (by rw [start_page, start_page]) ?_ hc hc'
    refine h9.imp ?_
    intro d d' hd
    refine ⟨by rw [hd.1]; exact goodDim_names_iff (names_rel hd.2), ?_⟩
    rw [drawnItems_turned hd E (v := drawStart (initVis E) sc (r.comp m).fin loc proj.cull ls) (v' := drawStart (initVis E) sc m.fin loc proj.cull ls) rfl rfl rfl rfl]

/-! ## Pages and runs -/

theorem carried_content (E : Env (Ext ℝ)) (hS : SortOK E.sorter) (hJ : E.NotAView) {stl stl' : Models (Ext ℝ)} (hM' : stl'.Made) {d d' : Drawable (Ext ℝ)}
    (h : d.CarriedAlong stl stl' d') (hf : d.IsFin) (hf' : d'.IsFin) (ha' : d'.AtLoc) {c} (hc : content E stl d = .ok c) :
    ∃ c', content E stl' d' = .ok c' ∧ c'.1 = c.1 ∧ c'.2.1 = c.2.1 := by
  obtain ⟨c', hc'⟩ := content_ok E hS hJ stl' hM' d' hf' ha'
  rcases h with h | h
  · exact ⟨c', hc', C81_moved_partial E hS hJ h hf hc hc'⟩
  · exact ⟨c', hc', C81_turned E hS hJ h hf hf' hc hc'⟩

theorem carried_pages {E : Env (Ext ℝ)} (hS : SortOK E.sorter) (hJ : E.NotAView) {stl stl' : Models (Ext ℝ)} (hM' : stl'.Made)
    {pgs pgs' : List (PageN (Ext ℝ))} (hf : ∀ p ∈ pgs, ∀ d ∈ p.draws, d.IsFin) (hf' : ∀ p ∈ pgs', ∀ d ∈ p.draws, d.IsFin) (ha' : ∀ p ∈ pgs', ∀ d ∈ p.draws, d.AtLoc)
    (hp : List.Forall₂ (fun p p' => p'.metas = p.metas ∧ List.Forall₂ (Drawable.CarriedAlong stl stl') p.draws p'.draws) pgs pgs') :
    List.Forall₂ (fun p p' => p'.metas = p.metas ∧ List.Forall₂ (fun d d' => ∀ c, content E stl d = .ok c → c.1 = true →
      ∃ c', content E stl' d' = .ok c' ∧ c'.1 = true ∧ c'.2.1 = c.2.1) p.draws p'.draws) pgs pgs' := by
  induction hp with
  | nil => exact .nil
  | @cons p p' ps ps' h1 _ ih =>
    refine .cons ⟨h1.1, ?_⟩ (ih (fun p hp => hf p (List.mem_cons_of_mem _ hp)) (fun p hp => hf' p (List.mem_cons_of_mem _ hp)) fun p hp => ha' p (List.mem_cons_of_mem _ hp))
    have k1 := hf p List.mem_cons_self
    have k2 := hf' p' List.mem_cons_self
    have k3 := ha' p' List.mem_cons_self
    have h2 := h1.2
    clear * - h2 k1 k2 k3 hS hJ hM'
    generalize p.draws = ds at *
    generalize p'.draws = ds' at *
    induction h2 with
    | nil => exact .nil
    | @cons d d' ds ds' hd _ ih =>
      refine .cons ?_ (ih (fun p hp => k1 p (List.mem_cons_of_mem _ hp)) (fun p hp => k2 p (List.mem_cons_of_mem _ hp)) fun p hp => k3 p (List.mem_cons_of_mem _ hp))
      intro c hc hck
      obtain ⟨c', q1, q2, q3⟩ := carried_content E hS hJ hM' hd (k1 d List.mem_cons_self) (k2 d' List.mem_cons_self) (k3 d' List.mem_cons_self) hc
      exact ⟨c', q1, by rw [q2, hck], q3⟩

/-- C81, pages: of a document that is accepted, some models have been moved or turned, each with the dimensions of its drawings: still accepted, and the same pages. -/
theorem C81_pages_partial (E : Env (Ext ℝ)) (hS : SortOK E.sorter) (hJ : E.NotAView) (stl stl' : Models (Ext ℝ)) (hM' : stl'.Made) (models models' : List ModelN)
    (pgs pgs' : List (PageN (Ext ℝ))) (hf : ∀ p ∈ pgs, ∀ d ∈ p.draws, d.IsFin) (hf' : ∀ p ∈ pgs', ∀ d ∈ p.draws, d.IsFin) (ha' : ∀ p ∈ pgs', ∀ d ∈ p.draws, d.AtLoc)
    (hp : List.Forall₂ (fun p p' => p'.metas = p.metas ∧ List.Forall₂ (Drawable.CarriedAlong stl stl') p.draws p'.draws) pgs pgs')
    (g) (h : generatePages E stl ⟨models, pgs⟩ [] = .ok g) (hok : g.ok = true) :
    ∃ g', generatePages E stl' ⟨models', pgs'⟩ [] = .ok g' ∧ g'.ok = true ∧ g'.pages = g.pages := by
  obtain ⟨g', h1, h2, h3⟩ := pages_rel (R := fun P Q => Q = P) piecewise_eq E stl stl' models models' pgs pgs' g h hok (carried_pages hS hJ hM' hf hf' ha' hp)
  exact ⟨g', h1, h2, eq_of_all h3⟩

/-- when every model's file is found and is a model, loading succeeds -/
theorem loads_all (E : Env (Ext ℝ)) (w : World) (ms : List ModelN) (hn : (ms.map (fun m => m.name)).Nodup) (fs : List (STLFile (Ext ℝ)))
    (h : List.Forall₂ (Loads E.loadPath w) ms fs) : ∃ l, loadFiles E w ms = .ok l ∧ l.ok = true ∧ l.stl = loadedAs ms fs := by
  cases hl : loadFiles E w ms with
  | error a =>
    obtain ⟨m, hm, ps, x, h1, h2, h3⟩ := C47_abort E w ms a hl
    obtain ⟨f, -, qs, y, k1, k2, k3⟩ := forall₂_left_mem h hm
    have hp := places_unique h1 k1
    subst hp
    have hx := foundAt_unique h2 k2
    subst hx
    rw [h3] at k3; cases k3
  | ok l =>
    obtain ⟨h1, h2⟩ := C47_load E w ms l hl
    have hk := h1.2 ⟨hn, fun m hm => by obtain ⟨f, -, hf⟩ := forall₂_left_mem h hm; exact ⟨f, hf⟩⟩
    refine ⟨l, rfl, hk, ?_⟩
    obtain ⟨gs, hg, e⟩ := h2 hk
    have : gs = fs := by
      clear * - hg h
      induction h generalizing gs with
      | nil => cases hg; rfl
      | cons a _ ih =>
        cases hg with
        | cons b c => rw [C47_unique _ _ _ _ _ a b, ih _ c]
    rw [e, this]; rfl

/-- C81, whole run: a script's models have been moved or turned on disk, and the script changed accordingly: the output is the same, byte for byte. -/
theorem C81_run_partial (E : Env (Ext ℝ)) (hS : SortOK E.sorter) (hJ : E.NotAView) (w w' : World) (src script script' : Str) (doc doc' : Doc (Ext ℝ))
    (hd : parse script = .ok (some doc)) (hd' : parse script' = .ok (some doc')) (hn' : (doc'.models.map (fun m => m.name)).Nodup)
    (fs fs' : List (STLFile (Ext ℝ))) (hl : List.Forall₂ (Loads E.loadPath w) doc.models fs) (hl' : List.Forall₂ (Loads E.loadPath w') doc'.models fs')
    (hp : List.Forall₂ (fun p p' => p'.metas = p.metas ∧
      List.Forall₂ (Drawable.CarriedAlong (loadedAs doc.models fs) (loadedAs doc'.models fs')) p.draws p'.draws) doc.pages doc'.pages)
    (r : RunRes) (h : scriptToPS E w src script = .ok r) (hok : r.ok = true) :
    ∃ r', scriptToPS E w' src script' = .ok r' ∧ r'.ok = true ∧ r'.out = r.out := by
  rw [scriptToPS_some E w src script doc hd] at h
  rw [scriptToPS_some E w' src script' doc' hd']
  obtain ⟨l', k1, k2, k3⟩ := loads_all E w' doc'.models hn' fs' hl'
  have hM' : l'.stl.Made := loaded_made E w' doc'.models l' k1 k2
  obtain ⟨r', os, os', h1, h2, h3, h4, h5⟩ := run_rel2 (R := fun P Q => Q = P) piecewise_eq E w w' src doc.models doc'.models doc.pages doc'.pages r h hok l' k1 k2 (by
    intro l hl2 hk
    have hn := ((C47_load E w doc.models l hl2).1.1 hk).1
    obtain ⟨l2, j1, j2, j3⟩ := loads_all E w doc.models hn fs hl
    rw [hl2] at j1; cases j1
    exact carried_pages hS hJ hM' (parse_isFin script doc hd) (parse_isFin script' doc' hd') (parse_atLoc script' doc' hd') (by rw [k3, j3]; exact hp))
  exact ⟨r', h1, h2, by rw [h3, h4, eq_of_all h5]⟩

/-! ## The premises occur -/

/-- the triangle of `paperTri`, at another place -/
def triAt (x y z : Nat) : TriText where
  n := ⟨num 0, num 0, num 1⟩
  a := ⟨num x, num y, num z⟩
  b := ⟨num (x + 4), num y, num z⟩
  c := ⟨num x, num (y + 3), num z⟩
  ind _ := 0
  gap := 0

def ptAt (x y z : Nat) : V3 ℝ := ⟨x, y, z⟩

theorem tri_file (x y z : Nat) : ∃ (f : STLFile (Ext ℝ)) (T : Tri ℝ), make (stlText c!"p" [triAt x y z]) = .ok (some f) ∧ f.facets = [T.fin] ∧ 0 < T.n.z ∧
    mkFacet (ptAt 0 0 1).fin [(ptAt x y z).fin, (ptAt (x + 4) y z).fin, (ptAt x (y + 3) z).fin] = .ok T.fin := by
  obtain ⟨N, e0, e2, r, h1, -, -, -, -, ⟨k, hk, hN⟩, hpos, -, -, -, hor⟩ := C16_facet (ptAt 0 0 1) (ptAt x y z) (ptAt (x + 4) y z) (ptAt x (y + 3) z)
    (by simp [V3.cross, ptAt])
  have hz : 0 < N.z := by
    have hpos' : 0 ≤ N.z := by simpa [V3.dot, ptAt] using hpos
    rcases hor with ⟨rfl, rfl⟩ | ⟨rfl, rfl⟩
    · have := congrArg V3.z hN
      simp [V3.cross, V3.smul, ptAt] at this
      nlinarith
    · have := congrArg V3.z hN
      simp [V3.cross, V3.smul, ptAt] at this
      nlinarith
  obtain ⟨f, hf, hv⟩ := C17_round_trip (α := Ext ℝ) convOk_ext c!"p" (by decide) [triAt x y z]
    [((ptAt 0 0 1).fin, (ptAt x y z).fin, (ptAt (x + 4) y z).fin, (ptAt x (y + 3) z).fin)]
    (.cons ⟨(num_denotes 0 0 1).1, (num_denotes _ _ _).1, (num_denotes _ _ _).1, (num_denotes _ _ _).1, (num_denotes 0 0 1).2, (num_denotes _ _ _).2,
      (num_denotes _ _ _).2, (num_denotes _ _ _).2⟩ .nil) (by simp [V3.eqv, V3.fin, V3.map, V3.zero, ptAt])
  refine ⟨f, ⟨N, e0, ptAt (x + 4) y z, e2, r⟩, hf, ?_, hz, h1⟩
  generalize f.facets = fs at hv
  cases hv with
  | cons h t =>
    cases t
    rw [h1] at h
    injection h with h
    rw [← h]

/-- the model of `paperDisk`, moved -/
def movedDisk : World where
  ident p := if p = c!"/x" then 3 else 0
  data i := if i = 3 then some (stlText c!"p" [triAt 2 1 5]) else none
  canWrite _ := false

/-- the script, with the points of its dimension moved -/
def movedScript : Str := c!"load m=\"/x\";page{draw m{dim(at=[3,6,5],dir=[1,0,0],from=near([3,2,5]),to=near(near([7,2,5])));}}"

open Lean Meta Elab Tactic in
theorem moved_doc_lit : parse movedScript = .ok (some ⟨[⟨c!"m", c!"/x", 1⟩], [⟨[], [.draw c!"m" [] [⟨.dim, [⟨c!"at", .pt (litPt 3 6 5), 1⟩,
    ⟨c!"dir", .pt (litPt 1 0 0), 1⟩, ⟨c!"from", .pt (.func c!"near" (litPt 3 2 5) 1), 1⟩,
    ⟨c!"to", .pt (.func c!"near" (.func c!"near" (litPt 7 2 5) 1) 1), 1⟩], 1⟩] 1], 1⟩]⟩) := by
  run_tac do
    let g ← getMainGoal
    let some (_, a, _) := (← g.getType).eq? | throwError "not an equation"
    g.assign (← mkEqRefl a)

/-- the dimension, moved -/
noncomputable def snapDim2 : DimN (Ext ℝ) := ⟨.dim, [⟨c!"at", .pt (.val (V3.fin ⟨3, 6, 5⟩) 1), 1⟩, ⟨c!"dir", .pt (.val (V3.fin ⟨1, 0, 0⟩) 1), 1⟩,
  ⟨c!"from", .pt (.func c!"near" (.val (V3.fin ⟨3, 2, 5⟩) 1) 1), 1⟩, ⟨c!"to", .pt (.func c!"near" (.func c!"near" (.val (V3.fin ⟨7, 2, 5⟩) 1) 1) 1), 1⟩], 1⟩

theorem moved_doc : parse movedScript = .ok (some ⟨[⟨c!"m", c!"/x", 1⟩], [⟨[], [.draw c!"m" [] [snapDim2] 1], 1⟩]⟩) := by
  have lit : ∀ x y z : Rat, litPt x y z = .val (V3.fin ⟨(x : ℝ), (y : ℝ), (z : ℝ)⟩) 1 := fun _ _ _ => rfl
  rw [moved_doc_lit]
  simp only [snapDim2, lit]
  norm_num

theorem snapDim_moved : snapDim.MovedBy ⟨2, 1, 5⟩ snapDim2 := by
  have pt : ∀ (p t q : V3 ℝ), q = p + t → (Pt.val p.fin 1).Carried (· + t) (.val q.fin 1) := by rintro p t q rfl; exact .val p 1
  refine ⟨rfl, ?_⟩
  simp only [snapDim, snapDim2]
  refine .cons ⟨rfl, _, rfl, ?_⟩ (.cons ⟨rfl, _, rfl, ?_⟩ (.cons ⟨rfl, _, rfl, ?_⟩ (.cons ⟨rfl, _, rfl, ?_⟩ .nil)))
  · simp only [show c!"at" ∉ directions by decide, if_false]
    exact pt _ _ _ (by ext <;> norm_num)
  · simp only [show c!"dir" ∈ directions by decide, if_true]
    exact .val _ 1
  · simp only [show c!"from" ∉ directions by decide, if_false]
    exact .func _ _ _ _ (pt _ _ _ (by ext <;> norm_num))
  · simp only [show c!"to" ∉ directions by decide, if_false]
    exact .func _ _ _ _ (.func _ _ _ _ (pt _ _ _ (by ext <;> norm_num)))

/-- two runs, on two disks, that meet all that C81 asks, with a dimension at near points; the model is moved in depth as well -/
example : SortOK rEnv.sorter ∧ rEnv.NotAView ∧ ∃ (doc doc' : Doc (Ext ℝ)) (f f' : STLFile (Ext ℝ)) (r : RunRes), parse snapScript = .ok (some doc) ∧
    parse movedScript = .ok (some doc') ∧ (doc'.models.map (fun m => m.name)).Nodup ∧
    List.Forall₂ (Loads rEnv.loadPath paperDisk) doc.models [f] ∧ List.Forall₂ (Loads rEnv.loadPath movedDisk) doc'.models [f'] ∧
    List.Forall₂ (fun p p' => p'.metas = p.metas ∧
      List.Forall₂ (Drawable.CarriedAlong (loadedAs doc.models [f]) (loadedAs doc'.models [f'])) p.draws p'.draws) doc.pages doc'.pages ∧
    scriptToPS rEnv paperDisk c!"s" snapScript = .ok r ∧ r.ok = true := by
  obtain ⟨f, T, hf, hT, hz, hmk⟩ := tri_file 0 0 0
  obtain ⟨f', T', hf', hT', hz', hmk'⟩ := tri_file 2 1 5
  obtain ⟨doc, r, h1, -, h2, h3⟩ := snap_run
  rw [snap_doc] at h1; cases h1
  refine ⟨insSorter_ok, rEnv_notAView, _, _, f, f', r, snap_doc, moved_doc, by simp, ?_, ?_, ?_, h2, h3⟩
  · exact .cons (paper_loads paperDisk rfl _ rfl f hf) .nil
  · exact .cons ⟨[c!"/x"], _, Or.inl ⟨rfl, rfl⟩, ⟨[], c!"/x", [], rfl, by simp, rfl⟩, hf'⟩ .nil
  · refine .cons ⟨rfl, .cons (Or.inl ?_) .nil⟩ .nil
    obtain ⟨m, e, hm⟩ := viewOf_rotation none (by simp) matZP rfl
    have hz0 : m.r0.z = 0 ∧ m.r1.z = 0 ∧ m.r2.z = 1 := by
      refine ⟨?_, ?_, ?_⟩
      · simpa [M3.fin, M3.map, V3.fin, V3.map, matZP, ptX, ptY, ptZ, Ext.fin] using (congrArg (fun m => m.r0.z) e).symm
      · simpa [M3.fin, M3.map, V3.fin, V3.map, matZP, ptX, ptY, ptZ, Ext.fin] using (congrArg (fun m => m.r1.z) e).symm
      · simpa [M3.fin, M3.map, V3.fin, V3.map, matZP, ptX, ptY, ptZ, Ext.fin] using (congrArg (fun m => m.r2.z) e).symm
    refine .draw c!"m" [] [snapDim] [snapDim2] 1 (c!"m", some f) (c!"m", some f') f f' m ⟨2, 1, 5⟩ rfl rfl rfl rfl ?_ ?_ (by simp) ?_ (.cons snapDim_moved .nil) ?_
    · rw [hT, hT']
      refine .cons ⟨_, _, _, _, hmk, ?_⟩ .nil
      rw [← hmk']
      congr 1
      simp only [List.cons.injEq, and_true, V3.fin_injective, ptAt, V3.resized]
      refine ⟨?_, ?_, ?_⟩ <;> ext <;> simp [V3.smul] <;> norm_num
    · rw [← e]; simp [look, viewOf]
    · exact ⟨T.a, T, by rw [hT]; simp, by simp [V3.mulM, hz0, hz], by simp [Tri.corners]⟩
    · intro d hd
      simp only [List.mem_singleton] at hd
      subst hd
      refine ⟨?_, fun _ => Or.inr (Or.inr ⟨rfl, ?_⟩)⟩
      · intro x hx hxn y hy
        simp only [snapDim, List.mem_cons, List.not_mem_nil, or_false] at hx
        rcases hx with rfl | rfl | rfl | rfl
        · exact absurd hxn (by decide)
        · cases hy; exact ⟨_, _, rfl⟩
        · exact absurd hxn (by decide)
        · exact absurd hxn (by decide)
      · intro x hx hxn
        simp only [snapDim, List.mem_cons, List.not_mem_nil, or_false] at hx
        rcases hx with rfl | rfl | rfl | rfl
        · exact absurd hxn (by decide)
        · exact ⟨_, _, rfl, by simp [V3.mulM, hz0]⟩
        · exact absurd hxn (by decide)
        · exact absurd hxn (by decide)

/-- `snapDim`, turned by `r` -/
noncomputable def turnedPt (r : M3 ℝ) (x y z : ℝ) : Pt (Ext ℝ) := .val (V3.fin ((⟨x, y, z⟩ : V3 ℝ).mulM r)) 1
noncomputable def snapDimTurned (r : M3 ℝ) : DimN (Ext ℝ) := ⟨.dim, [⟨c!"at", .pt (turnedPt r 1 5 0), 1⟩, ⟨c!"dir", .pt (turnedPt r 1 0 0), 1⟩,
  ⟨c!"from", .pt (.func c!"near" (turnedPt r 1 1 0) 1), 1⟩, ⟨c!"to", .pt (.func c!"near" (.func c!"near" (turnedPt r 5 1 0) 1) 1), 1⟩], 1⟩

/-- a drawing and the same of the model turned by 90 degrees, seen in the view turned back -/
example : ∃ (stl stl' : Models (Ext ℝ)) (c c' : Bool × OutPage (Ext ℝ) × List Diag), stl'.Made ∧
    (Drawable.draw c!"m" rMetas [snapDim] 1).TurnedAlong stl stl' (.draw c!"m" rMetasBack [snapDimTurned (turn (rad 90))] 1) ∧
    (Drawable.draw c!"m" rMetas [snapDim] 1).IsFin ∧ (Drawable.draw c!"m" rMetasBack [snapDimTurned (turn (rad 90))] 1).IsFin ∧
    content rEnv stl (.draw c!"m" rMetas [snapDim] 1) = .ok c ∧ c.1 = true ∧
    content rEnv stl' (.draw c!"m" rMetasBack [snapDimTurned (turn (rad 90))] 1) = .ok c' := by
  obtain ⟨stl, loc, file, proj, ls, c, hM, hD, hc, hne⟩ := real_drawn [snapDim] (by
    intro d hd
    simp only [List.mem_singleton] at hd
    subst hd; exact snapDim_fin)
  obtain ⟨e, he, hfile⟩ := hD.model
  obtain ⟨file0, hf0, hmade⟩ := hM e (List.mem_of_find?_eq_some he)
  rw [hfile] at hf0; injection hf0 with hf0; subst hf0
  obtain ⟨gs, hgs, hgm⟩ : ∃ gs, List.Forall₂ (Facet.TurnedBy (turn (rad 90))) file.facets gs ∧ ∀ g ∈ gs, g.Made := by
    generalize file.facets = fs at hmade
    induction fs with
    | nil => exact ⟨[], .nil, by simp⟩
    | cons f fs ih =>
      obtain ⟨gs, hgs, hgm⟩ := ih (fun f hf => hmade f (by simp [hf]))
      obtain ⟨n, a, b, c, e⟩ := hmade f (by simp)
      refine ⟨_ :: gs, .cons ⟨n, a, b, c, e, rfl⟩ hgs, ?_⟩
      intro g hg
      rcases List.mem_cons.1 hg with rfl | hg
      · exact ⟨_, _, _, _, rfl⟩
      · exact hgm g hg
  have hM' : Models.Made (K := ℝ) [(c!"m", some ⟨gs, [], [], 0⟩)] := by
    intro e he
    simp only [List.mem_singleton] at he
    subst he
    exact ⟨_, rfl, hgm⟩
  have hfin : (Drawable.draw c!"m" rMetas [snapDim] 1).IsFin := ⟨rMetas_fin, by intro d hd; simp only [List.mem_singleton] at hd; subst hd; exact snapDim_fin⟩
  have hfin' : (Drawable.draw c!"m" rMetasBack [snapDimTurned (turn (rad 90))] 1).IsFin := by
    refine ⟨?_, ?_⟩
    · simp only [rMetasBack, List.mem_cons, List.not_mem_nil, or_false]
      rintro m (rfl | rfl | rfl)
      · exact ⟨_, rfl⟩
      · trivial
      · exact ⟨_, rfl⟩
    · intro d hd
      simp only [List.mem_singleton] at hd
      subst hd
      intro m hm
      simp only [snapDimTurned, List.mem_cons, List.not_mem_nil, or_false] at hm
      rcases hm with rfl | rfl | rfl | rfl <;> exact ⟨_, rfl⟩
  obtain ⟨c', hc'⟩ := content_ok rEnv insSorter_ok rEnv_notAView _ hM' _ hfin' (by
    intro m hm hn
    simp only [rMetasBack, List.mem_cons, List.not_mem_nil, or_false] at hm
    rcases hm with rfl | rfl | rfl
    · exact ⟨_, rfl⟩
    · simp at hn
    · exact ⟨_, rfl⟩)
  refine ⟨stl, _, c, c', hM', ?_, hfin, hfin', hc, ?_, hc'⟩
  · refine .draw c!"m" rMetas rMetasBack [snapDim] [snapDimTurned (turn (rad 90))] 1 e (c!"m", some ⟨gs, [], [], 0⟩) file ⟨gs, [], [], 0⟩ (turn (rad 90))
      ((turn (rad (-90))).comp (tilt (rad 0))) he rfl hfile rfl (turn_rotation 90) hgs (by rw [quarter_back]; exact hD.view) ?_ (by simp [rMetas, rMetasBack])
      (by simp [rMetas]) (by simp [rMetasBack]) (.cons ⟨rfl, ?_⟩ .nil)
    · rw [← C56_turn_then_tilt]
      simp [rMetasBack, look, viewOf]
    · simp only [snapDim, snapDimTurned, turnedPt]
      exact .cons ⟨rfl, _, rfl, .val _ _⟩ (.cons ⟨rfl, _, rfl, .val _ _⟩ (.cons ⟨rfl, _, rfl, .func _ _ _ _ (.val _ _)⟩
        (.cons ⟨rfl, _, rfl, .func _ _ _ _ (.func _ _ _ _ (.val _ _))⟩ .nil)))
  · exact snap_accepts stl hM c!"m" rMetas rMetas_fin 1 (by
      intro m hm; simp only [rMetas, List.mem_cons, List.not_mem_nil, or_false] at hm; rcases hm with rfl | rfl <;> simp) _ _ _ _ _ hD hne c hc

/-! ## Where it fails -/

def deepFile : STLFile (Ext ℚ) := ((index [⟨V3.fin ⟨0, 0, 1⟩, V3.fin ⟨0, 0, 5⟩, V3.fin ⟨4, 0, 5⟩, V3.fin ⟨0, 3, 5⟩, .fin 5⟩]).toOption).getD .empty
/-- along the line of sight, from a corner to a point written out -/
def depthDim (z : ℚ) : DimN (Ext ℚ) :=
  ⟨.dim, [⟨c!"at", pt 2 (-1) z, 2⟩, ⟨c!"dir", pt 0 0 1, 2⟩, ⟨c!"from", .pt (.func c!"near" (.val (V3.fin ⟨1/10, 0, z⟩) 1) 1), 3⟩, ⟨c!"to", pt 4 0 z, 3⟩], 2⟩

/-- C81 does not hold without restriction: a model and the points of its dimension are moved by 5 along the line of sight; both drawings are accepted, and the label
says 0 for the one and 5 for the other. -/
theorem C81_false : List.Forall₂ (Facet.Resized 1 (⟨0, 0, 5⟩ : V3 ℚ)) exFile.facets deepFile.facets ∧ (depthDim 0).MovedBy ⟨0, 0, 5⟩ (depthDim 5) ∧
    ∃ c c' : Bool × OutPage (Ext ℚ) × List Diag, content exEnv exModels (.draw c!"m" [] [depthDim 0] 1) = .ok c ∧
      content exEnv [(c!"m", some deepFile)] (.draw c!"m" [] [depthDim 5] 1) = .ok c' ∧ c.1 = true ∧ c'.1 = true ∧
      c.2.1.text.map (fun t => t.str) = [c!"0"] ∧ c'.2.1.text.map (fun t => t.str) = [c!"5"] := by
  refine ⟨?_, ⟨rfl, ?_⟩, ?_⟩
  · have e1 : exFile.facets = [⟨V3.fin ⟨0, 0, 1⟩, V3.fin ⟨0, 0, 0⟩, V3.fin ⟨4, 0, 0⟩, V3.fin ⟨0, 3, 0⟩, .fin 0⟩] := by decide +kernel
    have e2 : deepFile.facets = [⟨V3.fin ⟨0, 0, 1⟩, V3.fin ⟨0, 0, 5⟩, V3.fin ⟨4, 0, 5⟩, V3.fin ⟨0, 3, 5⟩, .fin 5⟩] := by decide +kernel
    rw [e1, e2]
    exact .cons ⟨⟨0, 0, 1⟩, ⟨0, 0, 0⟩, ⟨4, 0, 0⟩, ⟨0, 3, 0⟩, by decide +kernel, by decide +kernel⟩ .nil
  · have pt' : ∀ (p t q : V3 ℚ), q = p + t → (Pt.val p.fin 1).Carried (· + t) (.val q.fin 1) := by rintro p t q rfl; exact .val p 1
    refine .cons ⟨rfl, _, rfl, ?_⟩ (.cons ⟨rfl, _, rfl, ?_⟩ (.cons ⟨rfl, _, rfl, ?_⟩ (.cons ⟨rfl, _, rfl, ?_⟩ .nil)))
    · simp only [show c!"at" ∉ directions by decide, if_false]
      exact pt' _ _ _ (by decide +kernel)
    · simp only [show c!"dir" ∈ directions by decide, if_true]
      exact .val _ 1
    · simp only [show c!"from" ∉ directions by decide, if_false]
      exact .func _ _ _ _ (pt' _ _ _ (by decide +kernel))
    · simp only [show c!"to" ∉ directions by decide, if_false]
      exact pt' _ _ _ (by decide +kernel)
  · have h1 : ((content exEnv exModels (.draw c!"m" [] [depthDim 0] 1)).toOption.map (fun c => (c.1, c.2.1.text.map (fun t => t.str)))) = some (true, [c!"0"]) := by decide +kernel
    have h2 : ((content exEnv [(c!"m", some deepFile)] (.draw c!"m" [] [depthDim 5] 1)).toOption.map (fun c => (c.1, c.2.1.text.map (fun t => t.str)))) = some (true, [c!"5"]) := by
      decide +kernel
    cases hc : content exEnv exModels (.draw c!"m" [] [depthDim 0] 1) with
    | error a => rw [hc] at h1; cases h1
    | ok c =>
      cases hc' : content exEnv [(c!"m", some deepFile)] (.draw c!"m" [] [depthDim 5] 1) with
      | error a => rw [hc'] at h2; cases h2
      | ok c' =>
        rw [hc] at h1; rw [hc'] at h2
        simp only [Except.toOption, Option.map_some, Option.some.injEq, Prod.mk.injEq] at h1 h2
        exact ⟨c, c', rfl, rfl, h1.1, h2.1, h1.2, h2.2⟩

end S2P
