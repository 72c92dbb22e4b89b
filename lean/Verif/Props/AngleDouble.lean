import Verif.Lemmas.AngleMeant
import Verif.Props.StrokeDouble
import Verif.Props.HolesDouble

set_option linter.unusedSectionVars false
set_option linter.unusedVariables false
set_option linter.unusedSimpArgs false

/-! # C92: the strokes and the arc of an angle, in double arithmetic -/

namespace S2P

section
variable (I : IntRounding) (range64 range32 : ℚ → Bool)

/-- **C92.** In IEEE 754 double arithmetic, whatever the direction of rounding: a drawing that succeeds consists of the lines of the body and then, for each
dimension, in order, of what this dimension gives.  If the file of the model describes triangles `us`, one of which clearly faces the viewer, and the scale
is positive, an angle with literal points whose legs are square to the line of sight, and which is not too flat, gives its label, the two legs, an arrowhead at
each end of the arc, and the arc, counter-clockwise from the leg to the right to the leg to the left.  (The linear dimensions of the same drawing: see C88.) -/
theorem C92_strokes (E : Env (Fl (binary64 I range64 range32))) (hS : SortOK E.sorter) (hJ : E.junkM = ⟨V3.zero, V3.zero, V3.zero⟩)
    (stl : Models (Fl (binary64 I range64 range32))) {n : ℕ} (hn : n ≤ 40) (hM : stl.Bd n) (name : Str)
    (ms : List (Meta (Fl (binary64 I range64 range32)))) (hf : ∀ m ∈ ms, m.val.LocBd) (η : ℝ) (hη : ViewError ms η)
    (hs : TameScale ms) (hpos : PositiveScale ms) (dims : List (DimN (Fl (binary64 I range64 range32)))) (line : Nat) (c)
    (h : content E stl (.draw name ms dims line) = .ok c) (hc : c.1 = true) :
    ∃ file r ts k p off own blocks, (∃ e, stl.find? (fun e => decide (e.1 = name)) = some e ∧ e.2 = some file) ∧ AskedView ms r ∧ IsRotation r ∧
      NearlySeen r file ts (1 / 2 ^ 37) ∧ NearlyProjects file ms ts k p off (inkError (2 ^ n) k p) ∧
      c.2.1.lines = own ++ (blocks.map (fun b => b.lines)).flatten ∧ c.2.1.text = (blocks.map (fun b => b.text)).flatten ∧
      c.2.1.arcs = (blocks.map (fun b => b.arcs)).flatten ∧ blocks.length = dims.length ∧
      ∀ text us, make text = .ok (some file) → Describes (2 ^ n) text us →
        ShowsView (1 / 2 ^ 20) (2 ^ n) r us k off ((2 ^ n * |k| + (|p.x| + |p.y|) + 1) / 2 ^ 16) own ∧
        ((∃ c, MustSee (1 / 2 ^ 20) r us c) →
          List.Forall₂ (fun d (b : OutPage (Fl (binary64 I range64 range32))) =>
            (∀ u g U, DimAsks E d u g (2 ^ n) → Largest u U → (u.mulM r).z = 0 → ShortLabels g (2 ^ n) → DimDone (2 ^ n) η r us k p off d u g b) ∧
            ∀ a x u w f t g K, AngleAsks E d r a x u w f t g K (2 ^ n) → 2 ^ 28 * (K * η) ≤ Real.sin (angleBetween u w) ^ 2 →
              AngleDone (2 ^ n) η K r k p off a x u w f t g b) dims blocks) := by
  have hR := binary64_accurate I range64 range32
  obtain ⟨sc, rot, loc, file, proj, ls, r, kept, k, p, off, F⟩ := draw_frame hR E hS hJ stl (by omega) hM name ms hf hη.tame hs dims line c h hc
  obtain ⟨hfine, r', hr', -, hnear⟩ := view_fine hR ms hη rot F.drawn.view
  obtain rfl := askedView_unique hr' F.asked
  rcases draw_sum E stl name ms dims line c h with ⟨h1, -⟩ | ⟨sc', rot', loc', file', proj', ls', cs, hD, hcs, hp, hok, -⟩
  · rw [h1] at hc; cases hc
  obtain ⟨rfl, rfl, rfl, rfl, rfl, rfl⟩ := drawn_unique F.drawn hD
  refine ⟨file, r', kept.map (fun f => f.val.seenIn r'), k, p, off, ((OutPage.ofLines ls).moved (projScale sc) (projOffset loc proj.limits (projScale sc))).lines,
    cs.map (fun k => k.2.1), F.drawn.model, F.asked, F.rotation, ⟨kept, rfl, F.keptIn, F.keptIff⟩, F.placed, ?_, ?_, ?_, by rw [List.length_map]; exact hcs.length_eq.symm, ?_⟩
  · rw [hp, F.culled]
    show _ ++ (OutPage.sum _).lines = _
    rw [sum_lines]
    rfl
  · rw [hp]
    show _ ++ (OutPage.sum _).text = _
    rw [sum_text]
    rfl
  · rw [hp]
    show _ ++ (OutPage.sum _).arcs = _
    rw [sum_arcs]
    rfl
  intro text us hmk hde
  have hus := described_stored hR ⟨one_le_pow₀ (by norm_num), pow_le_pow_right₀ (by norm_num) hn⟩ hde hmk
  refine ⟨framed_spans hR hS hn F _ (1 / 2 ^ 20) us readAs_oneToOne le_rfl (fun rot hm => ?_), ?_⟩
  · have hst := hus
    rw [List.forall₂_iff_get] at hst ⊢
    exact ⟨hst.1, fun i g1 g2 => turned_stored hR hn F.rotation hm (F.bd _ (List.get_mem _ _)) (hst.2 i g1 g2)⟩
  rintro ⟨q, hq⟩
  have hne : kept ≠ [] := by
    rintro rfl
    obtain ⟨t, ht, hz, -⟩ := hq
    obtain ⟨f, hf, hst⟩ := forall₂_right hus t ht
    obtain ⟨hb, hd⟩ := stored_faces hR F.rotation hst
    refine List.not_mem_nil ((F.keptIff f hf hb).1 ?_)
    have := (abs_le.1 hd).1
    norm_num at this hz ⊢
    linarith
  have hj : (drawStart (initVis E) sc rot loc proj.cull ls).rotation.eqv E.junkM = false := by rw [hJ]; exact F.viewBd.2.2.2
  have hpts : (drawStart (initVis E) sc rot loc proj.cull ls).points = proj.points := by
    show proj.cull.points = _
    rw [F.culled]
  rw [List.forall₂_map_right_iff]
  have hall := (hok.1 hc).1
  have hk1 := scale_positive F.placed hs hpos
  clear hp hok h
  rw [List.forall₂_iff_get] at hcs ⊢
  refine ⟨hcs.1, fun i g1 g2 => ?_⟩
  have hdk := hcs.2 i g1 g2
  have hkt := hall _ (List.get_mem cs ⟨i, g2⟩)
  generalize dims.get ⟨i, g1⟩ = d at *
  generalize cs.get ⟨i, g2⟩ = kk at *
  have hgd : GoodDim d.kind d.metas ∧ drawnItems E (drawStart (initVis E) sc rot loc proj.cull ls) d.kind d.metas ≠ none := by
    by_contra hg
    obtain ⟨L, e⟩ := (dimContent_items E _ d hj).2 (by
      by_cases h1 : GoodDim d.kind d.metas
      · right; by_contra h2; exact hg ⟨h1, h2⟩
      · exact Or.inl h1)
    rw [hdk] at e
    injection e with e
    rw [e] at hkt; cases hkt
  obtain ⟨hg, hsome⟩ := hgd
  constructor
  · intro u g U hA hu hz hlen
    rw [hA.kind] at hsome
    obtain ⟨P, L, e1, e2⟩ := strokes_meant hR hn F hus hfine hnear hk1 hne (v := drawStart (initVis E) sc rot loc proj.cull ls) rfl hpts rfl (by rw [F.culled]; rfl) hj hg hA hu hz hlen
      (by intro h0; apply hsome; simp [drawnItems, h0])
      (by intro h0; apply hsome; simp [drawnItems, h0])
      (by intro h0; apply hsome; simp [drawnItems, h0])
    rw [hdk] at e1
    injection e1 with e1
    subst e1
    exact e2
  · intro a x u w f t g K hA hflat
    obtain ⟨P, L, e1, e2⟩ := angle_meant hR hn F hfine hnear hk1 hne (v := drawStart (initVis E) sc rot loc proj.cull ls) rfl rfl (by rw [F.culled]; rfl) hj hg hA hflat
    rw [hdk] at e1
    injection e1 with e1
    subst e1
    exact e2

/-- **C92, accepted**: a drawing whose dimensions are such angles, each with the right metas, is not refused. -/
theorem C92_accepted (E : Env (Fl (binary64 I range64 range32))) (hS : SortOK E.sorter) (hJ : E.junkM = ⟨V3.zero, V3.zero, V3.zero⟩)
    (stl : Models (Fl (binary64 I range64 range32))) {n : ℕ} (hn : n ≤ 40) (hM : stl.Bd n) (name : Str)
    (ms : List (Meta (Fl (binary64 I range64 range32)))) (hf : ∀ m ∈ ms, m.val.LocBd) (hnames : ∀ m ∈ ms, m.name ∈ [c!"scale", c!"view", c!"@"])
    (hat : AtLoc ms) (η : ℝ) (hη : ViewError ms η)
    (hs : TameScale ms) (dims : List (DimN (Fl (binary64 I range64 range32)))) (line : Nat) (c) (h : content E stl (.draw name ms dims line) = .ok c)
    (sc rot loc file proj ls) (hD : Drawn E stl name ms sc rot loc file proj ls) (r : M3 ℝ) (hr : AskedView ms r)
    (hh : ∀ d ∈ dims, GoodDim d.kind d.metas ∧ ∃ a x u w f t g K M, AngleAsks E d r a x u w f t g K M ∧ 2 ^ 28 * (K * η) ≤ Real.sin (angleBetween u w) ^ 2) : c.1 = true := by
  have hR := binary64_accurate I range64 range32
  obtain ⟨r', kept, k, p, off, F, hfine, hnear⟩ := spots_frame I range64 range32 E hS hJ stl hn hM name ms hf hnames hat η hη hs sc rot loc file proj ls hD
  obtain rfl := askedView_unique hr F.asked
  rcases draw_sum E stl name ms dims line c h with ⟨-, -, -, h1⟩ | ⟨sc', rot', loc', file', proj', ls', cs, hD', hcs, hp, hok, -⟩
  · exact absurd ⟨_, _, _, _, _, _, hD⟩ h1
  obtain ⟨rfl, rfl, rfl, rfl, rfl, rfl⟩ := drawn_unique hD hD'
  have hj : (drawStart (initVis E) sc rot loc proj.cull ls).rotation.eqv E.junkM = false := by rw [hJ]; exact F.viewBd.2.2.2
  refine hok.2 ⟨?_, hnames⟩
  intro k' hk
  obtain ⟨d, hd, hdk⟩ := forall₂_right hcs k' hk
  obtain ⟨hg, a, x, u, w, f, t, g, K, M, hA, hflat⟩ := hh d hd
  obtain ⟨P, hP⟩ := Option.ne_none_iff_exists'.1 (angle_accepts_near hR (v := drawStart (initVis E) sc rot loc proj.cull ls) F.rotation hfine hnear hA hflat)
  obtain ⟨L, e⟩ := (dimContent_items E _ d hj).1 P hg hP
  rw [hdk] at e
  injection e with e
  rw [e]

/-- **C92**, of a run: if a conversion succeeds, the output is written from pages that have, for each drawing, the lines of the body followed by what each
dimension gives. -/
theorem C92_run (E : Env (Fl (binary64 I range64 range32))) (hS : SortOK E.sorter) (hJ : E.junkM = ⟨V3.zero, V3.zero, V3.zero⟩)
    (w : World) (src script : Str) {n : ℕ} (hn : n ≤ 40) (r : RunRes) (h : scriptToPS E w src script = .ok r) (hok : r.ok = true)
    (hw : ∀ doc : Doc (Fl (binary64 I range64 range32)), parse script = .ok (some doc) → SaneModels n E.loadPath w doc.models)
    (hd : ∀ doc : Doc (Fl (binary64 I range64 range32)), parse script = .ok (some doc) → ∀ pg ∈ doc.pages, ∀ name ms dims line,
      Drawable.draw name ms dims line ∈ pg.draws → TameScale ms ∧ PositiveScale ms) :
    ∃ (doc : Doc (Fl (binary64 I range64 range32))) (outs : List (OutPage (Fl (binary64 I range64 range32)))),
      parse script = .ok (some doc) ∧ r.out = renderPages E src outs ∧
      List.Forall₂ (fun pg o => ∀ name ms dims line, Drawable.draw name ms dims line ∈ pg.draws → ∀ η, ViewError ms η →
        ∃ m ∈ doc.models, ∃ text ps file v ts k p off own, ∃ blocks : List (OutPage (Fl (binary64 I range64 range32))),
          m.name = name ∧ Places E.loadPath m.source ps ∧ FoundAt w ps text ∧ make text = .ok (some file) ∧
          AskedView ms v ∧ IsRotation v ∧ NearlySeen v file ts (1 / 2 ^ 37) ∧ NearlyProjects file ms ts k p off (inkError (2 ^ n) k p) ∧
          (own ++ (blocks.map (fun b => b.lines)).flatten <:+: o.lines) ∧ ((blocks.map (fun b => b.text)).flatten <:+: o.text) ∧
          ((blocks.map (fun b => b.arcs)).flatten <:+: o.arcs) ∧ blocks.length = dims.length ∧
          ∀ us, Describes (2 ^ n) text us →
            ShowsView (1 / 2 ^ 20) (2 ^ n) v us k off ((2 ^ n * |k| + (|p.x| + |p.y|) + 1) / 2 ^ 16) own ∧
            ((∃ c, MustSee (1 / 2 ^ 20) v us c) →
              List.Forall₂ (fun d (b : OutPage (Fl (binary64 I range64 range32))) =>
                (∀ u g U, DimAsks E d u g (2 ^ n) → Largest u U → (u.mulM v).z = 0 → ShortLabels g (2 ^ n) → DimDone (2 ^ n) η v us k p off d u g b) ∧
                ∀ a x u w f t g K, AngleAsks E d v a x u w f t g K (2 ^ n) → 2 ^ 28 * (K * η) ≤ Real.sin (angleBetween u w) ^ 2 →
                  AngleDone (2 ^ n) η K v k p off a x u w f t g b) dims blocks)) doc.pages outs := by
  obtain ⟨doc, fs, outs, hp, -, hl, hf, ho⟩ := (C48_all_or_nothing E w src script r h).2.1 hok
  refine ⟨doc, outs, hp, ho, ?_⟩
  have hM : Models.Bd n (List.zipWith (fun (m : ModelN) f => (m.name, some f)) doc.models fs) := by
    have hw' := hw doc hp
    clear * - hl hw' hn
    generalize doc.models = dm at *
    induction hl with
    | nil => intro e he; simp at he
    | @cons m f ms fs hmf _ ih =>
      intro e he
      simp only [List.zipWith_cons_cons, List.mem_cons] at he
      rcases he with rfl | he
      · obtain ⟨ps, x, p1, p2, hx⟩ := hmf
        exact ⟨f, rfl, sane_bd (by omega) (hw' m (by simp) ps x p1 p2) f hx⟩
      · exact ih (fun m' hm' => hw' m' (by simp [hm'])) e he
  have hlo := parse_locBd script doc hp
  have hd' := hd doc hp
  clear ho hp
  generalize hpg : doc.pages = pgs at *
  clear hpg
  induction hf with
  | nil => exact .nil
  | @cons pg o pgs outs ho _ ih =>
    refine .cons ?_ (ih (fun pg hpg => hlo pg (List.mem_cons_of_mem _ hpg)) (fun pg hpg => hd' pg (List.mem_cons_of_mem _ hpg)))
    obtain ⟨g, hg, gok, gp⟩ := ho
    obtain ⟨cs, k1, ⟨t, -, k2⟩, k3⟩ := C58_page E _ pg g hg
    have hall := (k3.1 gok).2.2
    rw [gp] at k2
    injection k2 with k2 _
    intro name ms dims line hdm η hη
    obtain ⟨hs, hps⟩ := hd' pg List.mem_cons_self name ms dims line hdm
    obtain ⟨c, hcm, hdc⟩ := forall₂_left_mem k1 hdm
    obtain ⟨file, v, ts, k, p, off, own, blocks, ⟨en, e1, e2⟩, d1, d2, d3, d4, d5, d6, d6', dl, d7⟩ :=
      C92_strokes I range64 range32 E hS hJ _ hn hM name ms (hlo pg List.mem_cons_self _ hdm) η hη hs hps dims line _ hdc (hall _ hcm)
    obtain ⟨m, m1, m2, ps, text, q1, q2, q3⟩ := find_loads E.loadPath w _ _ hl name en e1 file e2
    refine ⟨m, m1, text, ps, file, v, ts, k, p, off, own, blocks, m2, q1, q2, q3, d1, d2, d3, d4, ?_, ?_, ?_, dl, fun us hus => d7 text us q3 hus⟩
    · rw [← d5, k2]
      have : c.2.1.lines <:+: (OutPage.sum (cs.map (fun c => c.2.1))).lines := by
        rw [sum_lines]
        exact List.infix_of_mem_flatten (List.mem_map.2 ⟨_, List.mem_map.2 ⟨c, hcm, rfl⟩, rfl⟩)
      exact this.trans (List.infix_append' [] _ _)
    · rw [← d6, k2]
      have : c.2.1.text <:+: (OutPage.sum (cs.map (fun c => c.2.1))).text := by
        rw [sum_text]
        exact List.infix_of_mem_flatten (List.mem_map.2 ⟨_, List.mem_map.2 ⟨c, hcm, rfl⟩, rfl⟩)
      exact this.trans (List.infix_append' [] _ _)
    · rw [← d6', k2]
      have : c.2.1.arcs <:+: (OutPage.sum (cs.map (fun c => c.2.1))).arcs := by
        rw [sum_arcs]
        exact List.infix_of_mem_flatten (List.mem_map.2 ⟨_, List.mem_map.2 ⟨c, hcm, rfl⟩, rfl⟩)
      exact this

end

/-! ## The premises occur -/

/-- the angle at (1,1,0) between the direction x and the point (1,3,0); the numbers of its lines in the script are arbitrary -/
noncomputable def squareDim (l : ℕ → ℕ) : DimN F64 :=
  ⟨.angle, [⟨c!"at", .pt (.val ((⟨2, 2, 0⟩ : V3 ℝ).fin : V3 (Ext ℝ)) (l 0)), l 1⟩, ⟨c!"apex", .pt (.val ((⟨1, 1, 0⟩ : V3 ℝ).fin : V3 (Ext ℝ)) (l 2)), l 3⟩,
    ⟨c!"from_dir", .pt (.val ((⟨1, 0, 0⟩ : V3 ℝ).fin : V3 (Ext ℝ)) (l 4)), l 5⟩, ⟨c!"to_point", .pt (.val ((⟨1, 3, 0⟩ : V3 ℝ).fin : V3 (Ext ℝ)) (l 6)), l 7⟩], l 8⟩

theorem square_asks (l : ℕ → ℕ) :
    AngleAsks flEnv (squareDim l) ⟨⟨1, 0, 0⟩, ⟨0, 1, 0⟩, ⟨0, 0, 1⟩⟩ ⟨2, 2, 0⟩ ⟨1, 1, 0⟩ ⟨1, 0, 0⟩ ⟨0, 2, 0⟩ ⟨1, 1, 0⟩ ⟨1, 3, 0⟩ FP.g6 2 (2 ^ 3) where
  given :=
    { kind := rfl
      apex := ⟨_, _, rfl, rfl⟩
      from_ := ⟨1, ⟨by norm_num, by norm_num, by norm_num, Or.inl (by norm_num), by norm_num, small_pow (by norm_num)⟩, Or.inl ⟨_, _, rfl, rfl⟩⟩
      to_ := ⟨2, ⟨by norm_num, by norm_num, by norm_num, Or.inr (Or.inl (by norm_num)), by norm_num, small_pow (by norm_num)⟩,
        Or.inr ⟨rfl, ⟨1, 3, 0⟩, ⟨_, _, rfl, rfl⟩, by ext <;> norm_num, small_pow (by norm_num), by norm_num, by norm_num, by norm_num, by norm_num,
          by norm_num, by norm_num⟩⟩
      fmt := rfl
      size := by norm_num }
  at_ := ⟨_, _, rfl, rfl⟩
  start := Or.inl ⟨rfl, _, ⟨_, _, rfl, rfl⟩⟩
  start' := Or.inr ⟨rfl, ⟨_, _, rfl, rfl⟩⟩
  within := by simp only [V3.Within]; norm_num
  square := by simp [V3.mulM]

theorem square_wide : (2 : ℝ) ^ 28 * (2 * (1 / 2 ^ 50)) ≤ Real.sin (angleBetween ⟨1, 0, 0⟩ ⟨0, 2, 0⟩) ^ 2 := by
  rw [flAngle_right, Real.sin_pi_div_two]; norm_num

theorem square_draws (l : ℕ → ℕ) (b : ℕ) (file : STLFile F64) (h2 : Models.Bd 3 [(c!"m", some file)])
    (h : ∃ c, content flEnv [(c!"m", some file)] (.draw c!"m" [] [roughDim (fun _ => 1)] 1) = .ok c ∧ c.1 = true)
    (u : AskedView ([] : List (Meta F64)) ⟨⟨1, 0, 0⟩, ⟨0, 1, 0⟩, ⟨0, 0, 1⟩⟩)
    (h3 : ViewError (R := binary64 .nearest (fun _ => true) (fun _ => true)) [] (1 / 2 ^ 50)) (h4 : TameScale (R := binary64 .nearest (fun _ => true) (fun _ => true)) []) :
    ∃ c, content flEnv [(c!"m", some file)] (.draw c!"m" [] [squareDim l] b) = .ok c ∧ c.1 = true := by
  obtain ⟨c, hc⟩ := content_bd flEnv insSorter_ok rfl [(c!"m", some file)] (k := 3) (by norm_num) h2 (.draw c!"m" [] [squareDim l] b)
    (by simp [Drawable.LocBd]) (by intro m hm; simp at hm)
  obtain ⟨c0, hc0, hc1⟩ := h
  refine ⟨c, hc, ?_⟩
  rcases draw_sum _ _ _ _ _ _ c0 hc0 with ⟨h, -⟩ | ⟨sc, rot, loc, file', pr, ls, cs, hD, -⟩
  · rw [h] at hc1; cases hc1
  refine C92_accepted _ _ _ flEnv insSorter_ok rfl _ (by norm_num) h2 c!"m" [] (by simp) (by simp) (by intro m hm; simp at hm) _ h3 h4 [squareDim l] b c hc sc rot loc file' pr ls hD _ u ?_
  intro d hd
  rw [List.mem_singleton] at hd
  subst hd
  exact ⟨by simp only [squareDim, GoodDim]; rw [exactly_def]; simp [Has], _, _, _, _, _, _, _, _, _, square_asks l, square_wide⟩

/-- This right angle in a drawing, from above, of the two triangles of `duoText`: every premise is met, the drawing succeeds, and on the page the first leg
points to the right and the second one up. -/
example : ∃ file : STLFile F64, make duoText = .ok (some file) ∧ Models.Bd 3 [(c!"m", some file)] ∧ ViewError (R := binary64 .nearest (fun _ => true) (fun _ => true)) [] (1 / 2 ^ 50) ∧
    TameScale (R := binary64 .nearest (fun _ => true) (fun _ => true)) [] ∧ PositiveScale (R := binary64 .nearest (fun _ => true) (fun _ => true)) [] ∧
    (∃ c, content flEnv [(c!"m", some file)] (.draw c!"m" [] [squareDim (fun _ => 1)] 1) = .ok c ∧ c.1 = true) ∧
    AngleAsks flEnv (squareDim (fun _ => 1)) ⟨⟨1, 0, 0⟩, ⟨0, 1, 0⟩, ⟨0, 0, 1⟩⟩ ⟨2, 2, 0⟩ ⟨1, 1, 0⟩ ⟨1, 0, 0⟩ ⟨0, 2, 0⟩ ⟨1, 1, 0⟩ ⟨1, 3, 0⟩ FP.g6 2 (2 ^ 3) ∧
    (2 : ℝ) ^ 28 * (2 * (1 / 2 ^ 50)) ≤ Real.sin (angleBetween ⟨1, 0, 0⟩ ⟨0, 2, 0⟩) ^ 2 ∧
    ∃ us, Describes (2 ^ 3) duoText us ∧ AskedView ([] : List (Meta F64)) ⟨⟨1, 0, 0⟩, ⟨0, 1, 0⟩, ⟨0, 0, 1⟩⟩ ∧
      (∃ c, MustSee (1 / 2 ^ 20) ⟨⟨1, 0, 0⟩, ⟨0, 1, 0⟩, ⟨0, 0, 1⟩⟩ us c) ∧
      LegDir ⟨⟨1, 0, 0⟩, ⟨0, 1, 0⟩, ⟨0, 0, 1⟩⟩ ⟨1, 0, 0⟩ ⟨1, 0⟩ ∧ LegDir ⟨⟨1, 0, 0⟩, ⟨0, 1, 0⟩, ⟨0, 0, 1⟩⟩ ⟨0, 2, 0⟩ ⟨0, 1⟩ := by
  obtain ⟨file, h1, h2, h3, h4, h5, h6, us, u1, u2, u3, u4, u5, u6, u7⟩ := rough_draws (fun _ => 1) 1
  refine ⟨file, h1, h2, h3, h4, ?_, square_draws _ 1 file h2 h5 u2 h3 h4, square_asks _, square_wide, us, u1, u2, ⟨_, u7⟩, ?_, ?_⟩
  · intro a b h
    have : (a, b) = ((1, 1) : Int × Int) := by
      simp only [look, scaleOf] at h
      cases h; rfl
    cases this; norm_num
  · exact ⟨by simp [V2.dot], 1, by norm_num, by ext <;> simp [V3.mulM, V3.xy, V2.smul]⟩
  · exact ⟨by simp [V2.dot], 2, by norm_num, by ext <;> simp [V3.mulM, V3.xy, V2.smul]⟩

end S2P
