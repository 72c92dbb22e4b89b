import Verif.Lemmas.Swap
import Verif.Lemmas.SnapAngle

set_option linter.unusedSectionVars false
set_option linter.unusedVariables false
set_option linter.unusedSimpArgs false

/-! # C80: which end of a dimension is called from, and which to

[exact arithmetic] -/

namespace S2P

theorem swapped_fin {Q : List (Meta (Ext ℝ)) → DimN (Ext ℝ) → Prop} {ms : List (Meta (Ext ℝ))} {ds ds' : List (DimN (Ext ℝ))}
    (h : List.Forall₂ (fun d d' => d' = d ∨ d' = d.swapEnds ∧ Q ms d) ds ds') (hf : ∀ d ∈ ds, d.IsFin) : ∀ d ∈ ds', d.IsFin := by
  intro d' hd'
  obtain ⟨d, hd, h1⟩ := forall₂_right h d' hd'
  rcases h1 with rfl | ⟨rfl, -⟩
  · exact hf _ hd
  · exact swap_isFin (hf _ hd)

/-- what is drawn for a dimension other than a linear one does not change at all -/
theorem notLinear_swap {E : Env (Ext ℝ)} {v : Vis (Ext ℝ)} (hp : ∃ qs : List (V3 ℝ), v.points = qs.map V3.fin) {r : M3 ℝ} (hv : v.rotation = r.fin)
    (hvj : v.rotation.eqv E.junkM = false) {d : DimN (Ext ℝ)} (hf : d.IsFin) (hk : d.kind ≠ .dim) (hg : GoodDim d.kind d.metas) {P L}
    (h : dimContent E v d = .ok (true, P, L)) : ∃ L', dimContent E v d.swapEnds = .ok (true, P, L') := by
  have e : drawnItems E v d.swapEnds.kind d.swapEnds.metas = drawnItems E v d.kind d.metas := by
    have hk' : d.swapEnds.kind = d.kind := rfl
    rw [hk']
    cases hd : d.kind with
    | dim => exact absurd hd hk
    | dia => have := circ_swap E v d (Or.inl hd); rwa [hd] at this
    | rad => have := circ_swap E v d (Or.inr hd); rwa [hd] at this
    | angle => exact angle_swap E v hp ⟨r, hv⟩ d hf hd
  obtain ⟨a1, a2⟩ := dimContent_items E v d hvj
  cases hi : drawnItems E v d.kind d.metas with
  | none => obtain ⟨L', e'⟩ := a2 (Or.inr hi); rw [h] at e'; cases e'
  | some Q =>
    obtain ⟨L1, e1⟩ := a1 Q hg hi
    rw [h] at e1; cases e1
    exact (dimContent_items E v d.swapEnds hvj).1 Q (goodDim_swap hg) (e.trans hi)

/-- **C80**, of angles: in an accepted drawing from and to of any angles can be exchanged, and it looks exactly the same (whatever the points are, also `near`). -/
theorem C80_angles (E : Env (Ext ℝ)) (hS : SortOK E.sorter) (hJ : E.NotAView) (stl : Models (Ext ℝ)) (hM : stl.Made) (d d' : Drawable (Ext ℝ))
    (hf : d.IsFin) (hat : d.AtLoc) (hd : Drawable.Swapped NotLinear d d') (c) (h : content E stl d = .ok c) (hc : c.1 = true) :
    ∃ c', content E stl d' = .ok c' ∧ c'.1 = true ∧ c'.2.1 = c.2.1 := by
  cases hd with
  | text s ms l => exact ⟨c, h, hc, rfl⟩
  | draw name ms ds ds' l hds =>
    refine draw_alike hS hJ hM (dims' := ds') ⟨hf.1, swapped_fin hds hf.2⟩ hat h hc piecewise_eq ?_
    intro sc r loc file proj ls hD hr hq
    have gen : ∀ (xs xs' : List (DimN (Ext ℝ))), List.Forall₂ (fun d d' => d' = d ∨ d' = d.swapEnds ∧ NotLinear ms d) xs xs' → (∀ d ∈ xs, d.IsFin) →
        List.Forall₂ (fun d d' => ∀ P L, GoodDim d.kind d.metas → dimContent E (drawStart (initVis E) sc r.fin loc proj.cull ls) d = .ok (true, P, L) →
          ∃ P' L', dimContent E (drawStart (initVis E) sc r.fin loc proj.cull ls) d' = .ok (true, P', L') ∧ P' = P) xs xs' := by
      intro xs xs' hx
      induction hx with
      | nil => intro _; exact .nil
      | @cons x x' xs xs' h1 _ ih =>
        intro hfx
        refine .cons ?_ (ih fun d hd => hfx d (List.mem_cons_of_mem _ hd))
        intro P L hg hP
        rcases h1 with rfl | ⟨rfl, hn⟩
        · exact ⟨P, L, hP, rfl⟩
        · obtain ⟨L', e⟩ := notLinear_swap (v := drawStart (initVis E) sc r.fin loc proj.cull ls) hq rfl (hJ r hr) (hfx _ List.mem_cons_self) hn hg hP
          exact ⟨P, L', e, rfl⟩
    exact gen ds ds' hds hf.2

/-- **C80** of a drawing: in an accepted drawing from and to can be exchanged in angles, and in linear dimensions with literal points of which the dimension
line, as seen, passes by both points measured; the same strokes, arcs and texts are drawn.  Missing: linear dimensions of which the line meets a point measured;
there it is false (`C80_false`). -/
theorem C80_drawing_partial (E : Env (Ext ℝ)) (hS : SortOK E.sorter) (hJ : E.NotAView) (stl : Models (Ext ℝ)) (hM : stl.Made) (d d' : Drawable (Ext ℝ))
    (hf : d.IsFin) (hat : d.AtLoc) (hd : Drawable.Swapped ClearOfEnds d d') (c) (h : content E stl d = .ok c) (hc : c.1 = true) :
    ∃ c', content E stl d' = .ok c' ∧ c'.1 = true ∧ SamePicture c.2.1 c'.2.1 := by
  cases hd with
  | text s ms l => exact ⟨c, h, hc, piecewise_same.refl _⟩
  | draw name ms ds ds' l hds =>
    refine draw_alike hS hJ hM (dims' := ds') ⟨hf.1, swapped_fin hds hf.2⟩ hat h hc piecewise_same ?_
    intro sc r loc file proj ls hD hr hq
    have gen : ∀ (xs xs' : List (DimN (Ext ℝ))), List.Forall₂ (fun d d' => d' = d ∨ d' = d.swapEnds ∧ ClearOfEnds ms d) xs xs' → (∀ d ∈ xs, d.IsFin) →
        List.Forall₂ (fun d d' => ∀ P L, GoodDim d.kind d.metas → dimContent E (drawStart (initVis E) sc r.fin loc proj.cull ls) d = .ok (true, P, L) →
          ∃ P' L', dimContent E (drawStart (initVis E) sc r.fin loc proj.cull ls) d' = .ok (true, P', L') ∧ SamePicture P P') xs xs' := by
      intro xs xs' hx
      induction hx with
      | nil => intro _; exact .nil
      | @cons x x' xs xs' h1 _ ih =>
        intro hfx
        refine .cons ?_ (ih fun d hd => hfx d (List.mem_cons_of_mem _ hd))
        intro P L hg hP
        rcases h1 with rfl | ⟨rfl, hn⟩
        · exact ⟨P, L, hP, piecewise_same.refl _⟩
        · by_cases hk : x.kind = .dim
          · obtain ⟨h2, h3⟩ := hn hk
            obtain ⟨a0, b0⟩ := h2 sc.1 sc.2 hD.scale
            have a1 : (0 : ℝ) < sc.1 := by exact_mod_cast a0
            have b1 : (0 : ℝ) < sc.2 := by exact_mod_cast b0
            exact dim_swap' hJ hr (v := drawStart (initVis E) sc r.fin loc proj.cull ls) rfl (s := 72 * ((sc.1 : ℝ) / sc.2)) (by positivity)
              (projScale_fin sc.1 sc.2 (by omega)) hk hg (h3 r hD.view) P L hP
          · obtain ⟨L', e⟩ := notLinear_swap (v := drawStart (initVis E) sc r.fin loc proj.cull ls) hq rfl (hJ r hr) (hfx _ List.mem_cons_self) hk hg hP
            exact ⟨P, L', e, piecewise_same.refl _⟩
    exact gen ds ds' hds hf.2

/-- **C80**, of a run: with from and to of any angles exchanged the output stays the same byte for byte. -/
theorem C80_angles_run (E : Env (Ext ℝ)) (hS : SortOK E.sorter) (hJ : E.NotAView) (w : World) (src script : Str) (doc : Doc (Ext ℝ))
    (hp : parse script = .ok (some doc)) (pgs' : List (PageN (Ext ℝ))) (hs : List.Forall₂ (PageN.Swapped NotLinear) doc.pages pgs') (r : RunRes)
    (h : scriptToPS E w src script = .ok r) (hok : r.ok = true) :
    ∃ r', docToPS E w src ⟨doc.models, pgs'⟩ = .ok r' ∧ r'.ok = true ∧ r'.out = r.out := by
  rw [scriptToPS_some E w src script doc hp] at h
  have hf := parse_isFin script doc hp
  have ha := parse_atLoc script doc hp
  obtain ⟨r', os, os', h1, h2, h3, h4, h5⟩ := run_rel (R := fun P Q => Q = P) piecewise_eq E w src doc.models doc.pages pgs' r h hok (by
    intro l hl hk
    have hM := loaded_made E w _ l hl hk
    have gen : ∀ ps ps', List.Forall₂ (PageN.Swapped NotLinear) ps ps' → (∀ p ∈ ps, p ∈ doc.pages) →
      List.Forall₂ (fun (p p' : PageN (Ext ℝ)) => p'.metas = p.metas ∧ List.Forall₂ (fun d d' => ∀ c, content E l.stl d = .ok c → c.1 = true →
        ∃ c', content E l.stl d' = .ok c' ∧ c'.1 = true ∧ c'.2.1 = c.2.1) p.draws p'.draws) ps ps' := by
      intro ps ps' hps
      induction hps with
      | nil => intro _; exact .nil
      | @cons p p' ps ps' h1 _ ih =>
        intro hmem
        refine .cons ⟨h1.1, ?_⟩ (ih fun p hp => hmem p (List.mem_cons_of_mem _ hp))
        have hpm := hmem p List.mem_cons_self
        have h12 := h1.2.2
        have hfd := hf p hpm
        have had := ha p hpm
        generalize p.draws = pd at *
        generalize p'.draws = pd' at *
        clear * - h12 hfd had hS hJ hM
        induction h12 with
        | nil => exact .nil
        | cons g1 _ ih =>
          refine .cons ?_ (ih (fun d hd => hfd d (List.mem_cons_of_mem _ hd)) (fun d hd => had d (List.mem_cons_of_mem _ hd)))
          intro c hc hc1
          exact C80_angles E hS hJ l.stl hM _ _ (hfd _ List.mem_cons_self) (had _ List.mem_cons_self) g1 c hc hc1
    exact gen _ _ hs fun p hp => hp)
  have e : os' = os := by
    clear * - h5
    induction h5 with
    | nil => rfl
    | cons a _ ih => rw [a, ih]
  exact ⟨r', h1, h2, by rw [h3, h4, e]⟩

/-- **C80**, of a run: the pages of the output show the same strokes, arcs and texts (see `C80_drawing_partial`). -/
theorem C80_run_partial (E : Env (Ext ℝ)) (hS : SortOK E.sorter) (hJ : E.NotAView) (w : World) (src script : Str) (doc : Doc (Ext ℝ))
    (hp : parse script = .ok (some doc)) (pgs' : List (PageN (Ext ℝ))) (hs : List.Forall₂ (PageN.Swapped ClearOfEnds) doc.pages pgs') (r : RunRes)
    (h : scriptToPS E w src script = .ok r) (hok : r.ok = true) :
    ∃ r' os os', docToPS E w src ⟨doc.models, pgs'⟩ = .ok r' ∧ r'.ok = true ∧ r.out = renderPages E src os ∧ r'.out = renderPages E src os' ∧
      List.Forall₂ SamePicture os os' := by
  rw [scriptToPS_some E w src script doc hp] at h
  have hf := parse_isFin script doc hp
  have ha := parse_atLoc script doc hp
  refine run_rel piecewise_same E w src doc.models doc.pages pgs' r h hok ?_
  intro l hl hk
  have hM := loaded_made E w _ l hl hk
  have gen : ∀ ps ps', List.Forall₂ (PageN.Swapped ClearOfEnds) ps ps' → (∀ p ∈ ps, p ∈ doc.pages) →
    List.Forall₂ (fun (p p' : PageN (Ext ℝ)) => p'.metas = p.metas ∧ List.Forall₂ (fun d d' => ∀ c, content E l.stl d = .ok c → c.1 = true →
      ∃ c', content E l.stl d' = .ok c' ∧ c'.1 = true ∧ SamePicture c.2.1 c'.2.1) p.draws p'.draws) ps ps' := by
    intro ps ps' hps
    induction hps with
    | nil => intro _; exact .nil
    | @cons p p' ps ps' h1 _ ih =>
      intro hmem
      refine .cons ⟨h1.1, ?_⟩ (ih fun p hp => hmem p (List.mem_cons_of_mem _ hp))
      have hpm := hmem p List.mem_cons_self
      have h12 := h1.2.2
      have hfd := hf p hpm
      have had := ha p hpm
      generalize p.draws = pd at *
      generalize p'.draws = pd' at *
      clear * - h12 hfd had hS hJ hM
      induction h12 with
      | nil => exact .nil
      | cons g1 _ ih =>
        refine .cons ?_ (ih (fun d hd => hfd d (List.mem_cons_of_mem _ hd)) (fun d hd => had d (List.mem_cons_of_mem _ hd)))
        intro c hc hc1
        exact C80_drawing_partial E hS hJ l.stl hM _ _ (hfd _ List.mem_cons_self) (had _ List.mem_cons_self) g1 c hc hc1
  exact gen _ _ hs fun p hp => hp

/-! ## Where it is false -/

/-- a count that does not see the direction of a stroke -/
theorem sameStrokes_count {α : Type} {ls ms : List (Line α)} (h : SameStrokes ls ms) (p : Line α → Bool) (hp : ∀ l, p ⟨l.t, l.o⟩ = p l) :
    ms.countP p = ls.countP p := by
  obtain ⟨ks, h1, h2⟩ := h
  rw [h1.countP_eq]
  clear h1
  induction h2 with
  | nil => rfl
  | cons a _ ih =>
    rw [List.countP_cons, List.countP_cons, ih]
    rcases a with rfl | rfl
    · rfl
    · rw [hp]

/-- a width: the distance along x, shown at `a` -/
noncomputable def widthDim (a f t : V3 ℝ) : DimN (Ext ℝ) := ⟨.dim, [⟨c!"at", .pt (.val a.fin 1), 1⟩, ⟨c!"dir", .pt (.val (V3.fin ⟨1, 0, 0⟩) 1), 1⟩,
  ⟨c!"from", .pt (.val f.fin 1), 1⟩, ⟨c!"to", .pt (.val t.fin 1), 1⟩], 1⟩

theorem widthDim_fin (a f t : V3 ℝ) : (widthDim a f t).IsFin := by
  intro m hm
  simp only [widthDim, List.mem_cons, List.not_mem_nil, or_false] at hm
  rcases hm with rfl | rfl | rfl | rfl <;> exact ⟨_, rfl⟩

theorem widthDim_good (a f t : V3 ℝ) : GoodDim (widthDim a f t).kind (widthDim a f t).metas := by
  simp only [widthDim, GoodDim]; rw [exactly_def]; simp [Has]

/-- in the view from above -/
theorem width_case (v : Vis (Ext ℝ)) (r : M3 ℝ) (hr : IsRotation r) (hs : specView c!"Z+" = some (r, (⟨0, 0, 1⟩ : V3 ℝ))) (hv : v.rotation = r.fin) (s : ℝ) (hs0 : 0 < s)
    (hsc : v.scale = .fin s) (d : V2 ℝ) (hd : v.d = d.fin) (a f t : V3 ℝ) (hft : f.x < t.x) :
    DimCase rEnv v (widthDim a f t) r s d a ⟨1, 0, 0⟩ f t ⟨f.x, a.y, a.z⟩ ⟨t.x, a.y, a.z⟩ FP.g6 ⟨1, 0⟩ := by
  refine ⟨rEnv_notAView, hr, hv, hsc, hs0, hd, rfl, widthDim_good a f t, ⟨_, _, rfl, rfl⟩, ⟨_, _, rfl, rfl⟩, ⟨_, _, rfl, rfl⟩, ⟨_, _, rfl, rfl⟩,
    by simp [formatOf, widthDim, look, rEnv], ⟨⟨f.x - a.x, ?_⟩, ?_⟩, ⟨⟨t.x - a.x, ?_⟩, ?_⟩, by norm_num, (t.x - f.x) * s, by nlinarith, ?_⟩
  · ext <;> simp [V3.smul]
  · simp [V3.dot]
  · ext <;> simp [V3.smul]
  · simp [V3.dot]
  · simp only [specView] at hs
    obtain ⟨rfl, -⟩ := hs
    ext <;> simp [onPage, V3.mulM, V2.smul]
    ring

/-- a triangle with one width is drawn -/
theorem width_drawn (a f t : V3 ℝ) (hft : f.x < t.x) : ∃ (stl : Models (Ext ℝ)) (c : Bool × OutPage (Ext ℝ) × List Diag) (v : Vis (Ext ℝ)) (r : M3 ℝ) (d : V2 ℝ), stl.Made ∧
    (Drawable.draw c!"m" rMetas [widthDim a f t] 1).IsFin ∧ (Drawable.draw c!"m" rMetas [widthDim a f t] 1).AtLoc ∧
    content rEnv stl (.draw c!"m" rMetas [widthDim a f t] 1) = .ok c ∧ c.1 = true ∧ IsRotation r ∧ specView c!"Z+" = some (r, (⟨0, 0, 1⟩ : V3 ℝ)) ∧
    v.rotation = r.fin ∧ v.scale = .fin 36 ∧ v.d = d.fin ∧
    ∀ x c', content rEnv stl (.draw c!"m" rMetas [x] 1) = .ok c' → ∃ k, dimContent rEnv v x = .ok k ∧ c'.2.1 = v.page.app (OutPage.sum [k.2.1]) := by
  obtain ⟨stl, loc, file, proj, ls, c, hM, hD, hc, -⟩ := real_drawn [widthDim a f t] (by
    intro d hd
    simp only [List.mem_singleton] at hd
    subst hd; exact widthDim_fin a f t)
  obtain ⟨r, ax, e, hr, hs, hax, -⟩ := C30_named_views (K := ℝ) c!"Z+" matZP rfl
  have hs' : specView c!"Z+" = some (r, (⟨0, 0, 1⟩ : V3 ℝ)) := by
    simp only [specView] at hs ⊢
    obtain ⟨rfl, rfl⟩ := hs
    rfl
  obtain ⟨en, hen, hfile⟩ := hD.model
  obtain ⟨file', hf', hmade⟩ := hM en (List.mem_of_find?_eq_some hen)
  rw [hfile] at hf'; injection hf' with hf'; subst hf'
  have hturn := hD.turned
  rw [e] at hturn
  obtain ⟨lo, hi, hl⟩ := limits_fin proj.cull (viewed_fin file proj hmade r hr hturn)
  obtain ⟨l, rfl⟩ := locOf_fin _ (look_fin rMetas_fin _) _ hD.loc
  have hsc : (projScale (1, 2) : Ext ℝ) = .fin 36 := by
    rw [projScale_fin 1 2 (by norm_num)]; norm_num
  have hoff : (drawStart (initVis rEnv) (1, 2) matZP l.fin proj.cull ls).d = (⟨l.x - (lo.x + hi.x) / 2 * 36, l.y - (lo.y + hi.y) / 2 * 36⟩ : V2 ℝ).fin := by
    change projOffset l.fin proj.cull.limits (projScale (1, 2)) = _
    rw [hl, hsc, projOffset_fin]
  have hall : ∀ x c', content rEnv stl (.draw c!"m" rMetas [x] 1) = .ok c' → ∃ k, dimContent rEnv (drawStart (initVis rEnv) (1, 2) matZP l.fin proj.cull ls) x = .ok k ∧
      c'.2.1 = (drawStart (initVis rEnv) (1, 2) matZP l.fin proj.cull ls).page.app (OutPage.sum [k.2.1]) ∧ (c'.1 = true ↔ k.1 = true) := by
    intro x c' hc'
    rcases draw_sum rEnv stl c!"m" rMetas [x] 1 c' hc' with ⟨-, -, -, h1⟩ | ⟨sc', rot', loc', file', proj', ls', cs, hD', hcs, hp, hok, -⟩
    · exact absurd ⟨_, _, _, _, _, _, hD⟩ h1
    obtain ⟨rfl, rfl, rfl, rfl, rfl, rfl⟩ := drawn_unique hD hD'
    cases hcs with
    | @cons _ k _ cs hk hr =>
      cases hr
      refine ⟨k, hk, hp, hok.trans ?_⟩
      simp [rMetas]
  refine ⟨stl, c, drawStart (initVis rEnv) (1, 2) matZP l.fin proj.cull ls, r, _, hM, ⟨rMetas_fin, ?_⟩, ?_, hc, ?_, hr, hs', e, hsc, hoff, ?_⟩
  · intro d hd
    simp only [List.mem_singleton] at hd
    subst hd; exact widthDim_fin a f t
  · intro m hm hn
    simp only [rMetas, List.mem_cons, List.not_mem_nil, or_false] at hm
    rcases hm with rfl | rfl
    · exact ⟨_, rfl⟩
    · simp at hn
  · obtain ⟨k, hk, -, hiff⟩ := hall _ c hc
    have C := width_case (drawStart (initVis rEnv) (1, 2) matZP l.fin proj.cull ls) r hr hs' e 36 (by norm_num) hsc _ hoff a f t hft
    obtain ⟨G, hG⟩ := leaves_exists (labelW (FP.g6 (Ext.fin (shown ⟨1, 0, 0⟩ f t))).length) labelH (by unfold labelW; positivity) (by unfold labelH; norm_num) ⟨1, 0⟩ (by norm_num)
    obtain ⟨P, L, h1, -⟩ := C63_strokes C G hG
    rw [hk] at h1; cases h1
    exact hiff.2 rfl
  · intro x c' hc'
    obtain ⟨k, h1, h2, -⟩ := hall x c' hc'
    exact ⟨k, h1, h2⟩

/-- **C80** as stated is false: a width from a point on the dimension line to a point above it.  Exchanging from and to puts the stub of the extension line at the former
to the other side of the dimension line. -/
theorem C80_false : ¬ EndsDoNotMatter := by
  intro H
  obtain ⟨stl, c, v, r, d, hM, hfin, hat, hc, hc1, hr, hs, hv, hsc, hd, hall⟩ := width_drawn ⟨0, 0, 0⟩ ⟨-3, 0, 0⟩ ⟨3, 2, 0⟩ (by norm_num)
  set x := widthDim ⟨0, 0, 0⟩ ⟨-3, 0, 0⟩ ⟨3, 2, 0⟩ with hx
  obtain ⟨c', hc', -, hsame⟩ := H rEnv insSorter_ok rEnv_notAView stl hM c!"m" rMetas [x] [x.swapEnds] 1 hfin hat c hc hc1 (.cons (Or.inr rfl) .nil)
  obtain ⟨k, hk, hp⟩ := hall _ c hc
  obtain ⟨k', hk', hp'⟩ := hall _ c' hc'
  have C := width_case v r hr hs hv 36 (by norm_num) hsc d hd ⟨0, 0, 0⟩ ⟨-3, 0, 0⟩ ⟨3, 2, 0⟩ (by norm_num)
  rw [← hx] at C
  have C' : DimCase rEnv v x.swapEnds r 36 d ⟨0, 0, 0⟩ ⟨1, 0, 0⟩ ⟨3, 2, 0⟩ ⟨-3, 0, 0⟩ ⟨3, 0, 0⟩ ⟨-3, 0, 0⟩ FP.g6 ⟨-1, 0⟩ := by
    obtain ⟨D, D0, hD⟩ := C.along
    refine ⟨C.notView, hr, hv, hsc, C.pos, hd, rfl, goodDim_swap C.good, ⟨_, _, rfl, rfl⟩, ⟨_, _, rfl, rfl⟩, ⟨_, _, rfl, rfl⟩, ⟨_, _, rfl, rfl⟩,
      by rw [formatOf_swap]; exact C.fmt, C.footT, C.footF, by norm_num, D, D0, ?_⟩
    dsimp only at hD
    rw [hD]
    ext <;> simp [V2.smul]
  obtain ⟨G, hG⟩ := leaves_exists (labelW (FP.g6 (Ext.fin (shown ⟨1, 0, 0⟩ ⟨-3, 0, 0⟩ ⟨3, 2, 0⟩))).length) labelH (by unfold labelW; positivity) (by unfold labelH; norm_num) ⟨1, 0⟩ (by norm_num)
  obtain ⟨G', hG'⟩ := leaves_exists (labelW (FP.g6 (Ext.fin (shown ⟨1, 0, 0⟩ ⟨3, 2, 0⟩ ⟨-3, 0, 0⟩))).length) labelH (by unfold labelW; positivity) (by unfold labelH; norm_num) ⟨-1, 0⟩ (by norm_num)
  obtain ⟨P, L, h1, -, h3⟩ := C63_strokes C G hG
  obtain ⟨P', L', h1', -, h3'⟩ := C63_strokes C' G' hG'
  rw [hk] at h1; cases h1
  rw [hk'] at h1'; cases h1'
  classical
  -- strokes with an end 4 points above the dimension line
  let p : Line (Ext ℝ) → Bool := fun l => decide (l.o.y = Ext.fin (d.y + 4) ∨ l.t.y = Ext.fin (d.y + 4))
  have hcount := sameStrokes_count hsame.lines p (by intro l; simp only [p, decide_eq_decide]; exact or_comm)
  rw [hp, hp'] at hcount
  simp only [OutPage.app, OutPage.sum, OutPage.empty, List.append_nil, List.countP_append] at hcount
  have h0 := Nat.add_left_cancel hcount
  rw [h3, h3', List.countP_map, List.countP_map] at h0
  have hone : ∀ q : V3 ℝ, onPage r 36 d q = ⟨q.x * 36 + d.x, q.y * 36 + d.y⟩ := by
    intro q
    simp only [specView] at hs
    obtain ⟨rfl, -⟩ := hs
    ext <;> simp [onPage, V3.mulM]
  simp only [hone] at h0
  have z : ∀ (fits : Prop) [Decidable fits] (G : ℝ), List.countP (p ∘ fun l : Line ℝ => (⟨l.o.fin, l.t.fin⟩ : Line (Ext ℝ)))
      (dimStrokes fits G ⟨0 * 36 + d.x, 0 * 36 + d.y⟩ ⟨3 * 36 + d.x, 2 * 36 + d.y⟩ ⟨-3 * 36 + d.x, 0 * 36 + d.y⟩ ⟨3 * 36 + d.x, 0 * 36 + d.y⟩ ⟨-3 * 36 + d.x, 0 * 36 + d.y⟩ ⟨-1, 0⟩) = 0 := by
    intro fits _ G
    rw [List.countP_eq_zero]
    intro l hl
    have s1 : sideOf ⟨0 * 36 + d.x, 0 * 36 + d.y⟩ ⟨-1, 0⟩ ⟨3 * 36 + d.x, 2 * 36 + d.y⟩ = -1 := by
      unfold sideOf; rw [if_neg]; simp [V2.dot, V2.left]
    have s2 : sideOf ⟨0 * 36 + d.x, 0 * 36 + d.y⟩ ⟨-1, 0⟩ ⟨-3 * 36 + d.x, 0 * 36 + d.y⟩ = -1 := by
      unfold sideOf; rw [if_neg]; simp [V2.dot, V2.left]
    unfold dimStrokes at hl
    dsimp only at hl
    rw [s1, s2] at hl
    simp only [Function.comp, p, decide_eq_true_eq, V2.fin_y, Ext.fin_inj]
    by_cases hf : fits
    all_goals
      simp only [hf, if_true, if_false, List.cons_append, List.nil_append, List.mem_cons, List.not_mem_nil, or_false, V2.left, V2.smul] at hl
      rcases hl with rfl | rfl | rfl | rfl | rfl | rfl | rfl | rfl <;> rintro (h | h) <;> simp only [V2.sub_y, V2.add_y] at h <;> linarith
  have o : ∀ (fits : Prop) [Decidable fits] (G : ℝ), 0 < List.countP (p ∘ fun l : Line ℝ => (⟨l.o.fin, l.t.fin⟩ : Line (Ext ℝ)))
      (dimStrokes fits G ⟨0 * 36 + d.x, 0 * 36 + d.y⟩ ⟨-3 * 36 + d.x, 0 * 36 + d.y⟩ ⟨3 * 36 + d.x, 2 * 36 + d.y⟩ ⟨-3 * 36 + d.x, 0 * 36 + d.y⟩ ⟨3 * 36 + d.x, 0 * 36 + d.y⟩ ⟨1, 0⟩) := by
    intro fits _ G
    rw [List.countP_pos_iff]
    have s1 : sideOf ⟨0 * 36 + d.x, 0 * 36 + d.y⟩ ⟨1, 0⟩ ⟨-3 * 36 + d.x, 0 * 36 + d.y⟩ = -1 := by
      unfold sideOf; rw [if_neg]; simp [V2.dot, V2.left]
    unfold dimStrokes
    dsimp only
    refine ⟨_, List.mem_append_right _ List.mem_cons_self, ?_⟩
    rw [s1]
    simp only [Function.comp, p, decide_eq_true_eq, V2.fin_y, Ext.fin_inj]
    left
    simp [V2.left, V2.smul]
  have := o (G * 2 < shown ⟨1, 0, 0⟩ ⟨-3, 0, 0⟩ ⟨3, 2, 0⟩ * 36) G
  rw [z] at h0
  omega

/-! ## The premises can be met -/

/-- the width from (0,0,0) to (4,0,0) shown above -/
example : ∃ (stl : Models (Ext ℝ)) (d d' : Drawable (Ext ℝ)) (c : Bool × OutPage (Ext ℝ) × List Diag), stl.Made ∧ d.IsFin ∧ d.AtLoc ∧
    Drawable.Swapped ClearOfEnds d d' ∧ d' ≠ d ∧ content rEnv stl d = .ok c ∧ c.1 = true := by
  obtain ⟨stl, c, v, r, d, hM, hfin, hat, hc, hc1, hr, hs, -⟩ := width_drawn ⟨0, 5, 0⟩ ⟨0, 0, 0⟩ ⟨4, 0, 0⟩ (by norm_num)
  refine ⟨stl, _, .draw c!"m" rMetas [(widthDim ⟨0, 5, 0⟩ ⟨0, 0, 0⟩ ⟨4, 0, 0⟩).swapEnds] 1, c, hM, hfin, hat, .draw _ _ _ _ _ (.cons (Or.inr ⟨rfl, ?_⟩) .nil), ?_, hc, hc1⟩
  · intro _
    refine ⟨?_, ?_⟩
    · intro a b h
      simp [rMetas, look, scaleOf] at h
      omega
    · intro r' hr' _
      have : r' = r := by
        obtain ⟨r2, ax, e, hr2, hs2, -⟩ := C30_named_views (K := ℝ) c!"Z+" matZP rfl
        rw [hs] at hs2
        injection hs2 with hs2; injection hs2 with hs2 _
        have hz : viewOf (look (rMetas) c!"view") = .ok (matZP : M3 (Ext ℝ)) := by simp [rMetas, look, viewOf]
        rw [hz] at hr'
        injection hr' with hr'
        rw [e, ← hs2] at hr'
        have := hr'.symm
        simpa [M3.fin, M3.map, V3.fin, V3.map, M3.ext_iff, V3.ext_iff] using this
      subst this
      refine ⟨⟨0, 5, 0⟩, ⟨1, 0, 0⟩, ⟨0, 0, 0⟩, ⟨4, 0, 0⟩, ⟨_, _, rfl, rfl⟩, ⟨_, _, rfl, rfl⟩, ⟨_, _, rfl, rfl⟩, ⟨_, _, rfl, rfl⟩, Or.inl ?_⟩
      simp only [specView] at hs
      obtain ⟨rfl, -⟩ := hs
      constructor <;> simp [PassesBy, V3.mulM, V3.xy, V2.dot, V2.left]
  · intro h
    injection h with _ _ h _
    injection h with h _
    simp [DimN.swapEnds, widthDim, otherEnd] at h

/-- the angle at (0,0,0) between (1,0,0) and (0,3,0) -/
noncomputable def cornerDim : DimN (Ext ℝ) := ⟨.angle, [⟨c!"at", .pt (.val (V3.fin ⟨1, 1, 0⟩) 1), 1⟩, ⟨c!"apex", .pt (.val (V3.fin ⟨0, 0, 0⟩) 1), 1⟩,
  ⟨c!"from_point", .pt (.val (V3.fin ⟨1, 0, 0⟩) 1), 1⟩, ⟨c!"to_point", .pt (.val (V3.fin ⟨0, 3, 0⟩) 1), 1⟩], 1⟩

def endsScript : Str :=
  c!"load m=\"/x\";page{draw m{dim(at=[0,5,0],dir=[1,0,0],from=[0,0,0],to=[4,0,0]);angle(at=[1,1,0],apex=[0,0,0],from_point=[1,0,0],to_point=[0,3,0]);}}"

open Lean Meta Elab Tactic in
/-- what is read from it: both sides compute to the same (the tactic offers `rfl` to the kernel directly) -/
theorem ends_doc_lit : parse endsScript = .ok (some ⟨[⟨c!"m", c!"/x", 1⟩], [⟨[], [.draw c!"m" [] [⟨.dim, [⟨c!"at", .pt (litPt 0 5 0), 1⟩,
    ⟨c!"dir", .pt (litPt 1 0 0), 1⟩, ⟨c!"from", .pt (litPt 0 0 0), 1⟩, ⟨c!"to", .pt (litPt 4 0 0), 1⟩], 1⟩,
    ⟨.angle, [⟨c!"at", .pt (litPt 1 1 0), 1⟩, ⟨c!"apex", .pt (litPt 0 0 0), 1⟩, ⟨c!"from_point", .pt (litPt 1 0 0), 1⟩,
      ⟨c!"to_point", .pt (litPt 0 3 0), 1⟩], 1⟩] 1], 1⟩]⟩) := by
  run_tac do
    let g ← getMainGoal
    let some (_, a, _) := (← g.getType).eq? | throwError "not an equation"
    g.assign (← mkEqRefl a)

theorem ends_doc : parse endsScript = .ok (some ⟨[⟨c!"m", c!"/x", 1⟩], [⟨[], [.draw c!"m" [] [widthDim ⟨0, 5, 0⟩ ⟨0, 0, 0⟩ ⟨4, 0, 0⟩, cornerDim] 1], 1⟩]⟩) := by
  have lit : ∀ x y z : Rat, litPt x y z = .val (V3.fin ⟨(x : ℝ), (y : ℝ), (z : ℝ)⟩) 1 := fun _ _ _ => rfl
  rw [ends_doc_lit]
  simp only [widthDim, cornerDim, lit]
  norm_num

theorem widthDim_clear (a f t : V3 ℝ) (h : a.y ≠ f.y ∧ a.y ≠ t.y) : ClearOfEnds [] (widthDim a f t) := by
  intro _
  refine ⟨?_, ?_⟩
  · intro a b h
    simp [look, scaleOf] at h
    omega
  · intro r hr _
    obtain ⟨r2, ax, e, hr2, hs, -⟩ := C30_named_views (K := ℝ) c!"Z+" matZP rfl
    have hz : viewOf (look ([] : List (Meta (Ext ℝ))) c!"view") = .ok (matZP : M3 (Ext ℝ)) := by simp [look, viewOf]
    rw [hz] at hr
    injection hr with hr
    rw [e] at hr
    have : r = r2 := by
      have := hr.symm
      simpa [M3.fin, M3.map, V3.fin, V3.map, M3.ext_iff, V3.ext_iff] using this
    subst this
    refine ⟨a, ⟨1, 0, 0⟩, f, t, ⟨_, _, rfl, rfl⟩, ⟨_, _, rfl, rfl⟩, ⟨_, _, rfl, rfl⟩, ⟨_, _, rfl, rfl⟩, Or.inl ?_⟩
    simp only [specView] at hs
    obtain ⟨rfl, -⟩ := hs
    constructor
    · simpa [PassesBy, V3.mulM, V3.xy, V2.dot, V2.left, sub_eq_zero, eq_comm] using h.1
    · simpa [PassesBy, V3.mulM, V3.xy, V2.dot, V2.left, sub_eq_zero, eq_comm] using h.2

/-- all that is asked of the runs is met by this script -/
example : SortOK rEnv.sorter ∧ rEnv.NotAView ∧ ∃ doc r, parse endsScript = .ok (some doc) ∧ scriptToPS rEnv paperDisk c!"s" endsScript = .ok r ∧ r.ok = true ∧
    (∃ pgs', List.Forall₂ (PageN.Swapped NotLinear) doc.pages pgs' ∧ pgs' ≠ doc.pages) ∧
    ∃ pgs', List.Forall₂ (PageN.Swapped ClearOfEnds) doc.pages pgs' ∧ pgs' ≠ doc.pages := by
  obtain ⟨f, T, hf, hT, hz, hM, -⟩ := paper_content
  have hcf : cornerDim.IsFin := by
    intro m hm
    simp only [cornerDim, List.mem_cons, List.not_mem_nil, or_false] at hm
    rcases hm with rfl | rfl | rfl | rfl <;> exact ⟨_, rfl⟩
  have hfin : (Drawable.draw c!"m" [] [widthDim ⟨0, 5, 0⟩ ⟨0, 0, 0⟩ ⟨4, 0, 0⟩, cornerDim] 1).IsFin := ⟨by simp, by
    intro d hd
    simp only [List.mem_cons, List.not_mem_nil, or_false] at hd
    rcases hd with rfl | rfl
    · exact widthDim_fin _ _ _
    · exact hcf⟩
  obtain ⟨c, hc⟩ := content_ok rEnv insSorter_ok rEnv_notAView [(c!"m", some f)] hM _ hfin (by intro m hm; simp at hm)
  obtain ⟨r0, ax, e0, hr0, hs0, -⟩ := C30_named_views (K := ℝ) c!"Z+" matZP rfl
  have ok : c.1 = true := by
    obtain ⟨proj, ls, hD⟩ := drawn_exists rEnv insSorter_ok [(c!"m", some f)] c!"m" [] (by simp) (by simp) (1, 1) rfl matZP rfl _ rfl f ⟨_, rfl, rfl⟩
      (make_made _ f hf)
    rcases draw_sum rEnv _ c!"m" [] _ 1 c hc with ⟨-, -, -, h1⟩ | ⟨sc', rot', loc', file', proj', ls', cs, hD', hcs, hp, hok, -⟩
    · exact absurd ⟨_, _, _, _, _, _, hD⟩ h1
    obtain ⟨rfl, rfl, rfl, rfl, rfl, rfl⟩ := drawn_unique hD hD'
    refine hok.2 ⟨?_, by simp⟩
    have hall : ∀ (v : Vis (Ext ℝ)), v.rotation = r0.fin → ∀ d ∈ [widthDim ⟨0, 5, 0⟩ ⟨0, 0, 0⟩ ⟨4, 0, 0⟩, cornerDim], ∀ k, dimContent rEnv v d = .ok k → k.1 = true := by
      intro v hv d hd k hk
      have hvj : v.rotation.eqv rEnv.junkM = false := by rw [hv]; exact rEnv_notAView r0 hr0
      obtain ⟨hg, P, hP⟩ : GoodDim d.kind d.metas ∧ ∃ P, drawnItems rEnv v d.kind d.metas = some P := by
        simp only [List.mem_cons, List.not_mem_nil, or_false] at hd
        rcases hd with rfl | rfl
        · refine ⟨widthDim_good _ _ _, ?_⟩
          have hz : ((V3.mulM ⟨1, 0, 0⟩ r0).fin.eqv (V3.zero : V3 (Ext ℝ))) = false := by
            simp only [specView] at hs0
            obtain ⟨rfl, -⟩ := hs0
            simp [V3.eqv, V3.zero, V3.map, V3.mulM]
          have l1 : Literal (widthDim ⟨0, 5, 0⟩ ⟨0, 0, 0⟩ ⟨4, 0, 0⟩).metas c!"at" (⟨0, 5, 0⟩ : V3 ℝ) := ⟨_, _, rfl, rfl⟩
          have l2 : Literal (widthDim ⟨0, 5, 0⟩ ⟨0, 0, 0⟩ ⟨4, 0, 0⟩).metas c!"dir" (⟨1, 0, 0⟩ : V3 ℝ) := ⟨_, _, rfl, rfl⟩
          have l3 : Literal (widthDim ⟨0, 5, 0⟩ ⟨0, 0, 0⟩ ⟨4, 0, 0⟩).metas c!"from" (⟨0, 0, 0⟩ : V3 ℝ) := ⟨_, _, rfl, rfl⟩
          have l4 : Literal (widthDim ⟨0, 5, 0⟩ ⟨0, 0, 0⟩ ⟨4, 0, 0⟩).metas c!"to" (⟨4, 0, 0⟩ : V3 ℝ) := ⟨_, _, rfl, rfl⟩
          have hfm : formatOf rEnv c!"%.3f" (widthDim ⟨0, 5, 0⟩ ⟨0, 0, 0⟩ ⟨4, 0, 0⟩).metas = some FP.g6 := by simp [formatOf, widthDim, look, rEnv]
          have hk : (widthDim ⟨0, 5, 0⟩ ⟨0, 0, 0⟩ ⟨4, 0, 0⟩).kind = .dim := rfl
          rw [hk]
          simp only [drawnItems, literal_point hv l1, literal_point hv l2, literal_point hv l3, literal_point hv l4, hfm, bind, Option.bind, hz]
          exact ⟨_, rfl⟩
        · refine ⟨by simp only [cornerDim, GoodDim]; rw [exactly_def]; simp [Has], ?_⟩
          have l1 : Literal cornerDim.metas c!"at" (⟨1, 1, 0⟩ : V3 ℝ) := ⟨_, _, rfl, rfl⟩
          have l2 : Literal cornerDim.metas c!"apex" (⟨0, 0, 0⟩ : V3 ℝ) := ⟨_, _, rfl, rfl⟩
          have l3 : Literal cornerDim.metas c!"from_point" (⟨1, 0, 0⟩ : V3 ℝ) := ⟨_, _, rfl, rfl⟩
          have l4 : Literal cornerDim.metas c!"to_point" (⟨0, 3, 0⟩ : V3 ℝ) := ⟨_, _, rfl, rfl⟩
          refine angle_accepts rEnv v cornerDim.metas _ _ _ _ FP.g6 (literal_point hv l1 0) (literal_point hv l2 1) rfl rfl (literal_point hv l3 3) (literal_point hv l4 5)
            (by simp [formatOf, cornerDim, look, rEnv]) ?_
          simp only [specView] at hs0
          obtain ⟨rfl, -⟩ := hs0
          simp [V3.mulM]
      obtain ⟨L, e⟩ := (dimContent_items rEnv v d hvj).1 P hg hP
      rw [hk] at e; cases e; rfl
    intro k hk
    obtain ⟨d, hd, hdk⟩ := forall₂_right hcs k hk
    exact hall _ e0 d hd k hdk
  obtain ⟨r, hr, hok⟩ := one_run endsScript [] _ 1 1 1 ends_doc paperDisk rfl f hf ⟨c, hc, ok⟩
  refine ⟨insSorter_ok, rEnv_notAView, _, r, ends_doc, hr, hok, ?_, ?_⟩
  · refine ⟨[⟨[], [.draw c!"m" [] [widthDim ⟨0, 5, 0⟩ ⟨0, 0, 0⟩ ⟨4, 0, 0⟩, cornerDim.swapEnds] 1], 1⟩],
      .cons ⟨rfl, rfl, .cons (.draw _ _ _ _ _ (.cons (Or.inl rfl) (.cons (Or.inr ⟨rfl, by simp [NotLinear, cornerDim]⟩) .nil))) .nil⟩ .nil, ?_⟩
    simp [DimN.swapEnds, cornerDim, otherEnd]
  · refine ⟨[⟨[], [.draw c!"m" [] [(widthDim ⟨0, 5, 0⟩ ⟨0, 0, 0⟩ ⟨4, 0, 0⟩).swapEnds, cornerDim] 1], 1⟩],
      .cons ⟨rfl, rfl, .cons (.draw _ _ _ _ _ (.cons (Or.inr ⟨rfl, widthDim_clear _ _ _ (by norm_num)⟩) (.cons (Or.inl rfl) .nil))) .nil⟩ .nil, ?_⟩
    simp [DimN.swapEnds, widthDim, otherEnd]

end S2P
