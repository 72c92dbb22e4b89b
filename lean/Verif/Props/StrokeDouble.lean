import Verif.Lemmas.StrokeMeant2

set_option linter.unusedSectionVars false
set_option linter.unusedVariables false
set_option linter.unusedSimpArgs false

/-! # C88: the strokes of a linear dimension, in double arithmetic -/

namespace S2P

theorem sum_text {α : Type} [FP α] : ∀ Ps : List (OutPage α), (OutPage.sum Ps).text = (Ps.map (fun P => P.text)).flatten
  | [] => rfl
  | P :: Ps => by simp [OutPage.sum, OutPage.app, sum_text Ps]

theorem sum_arcs {α : Type} [FP α] : ∀ Ps : List (OutPage α), (OutPage.sum Ps).arcs = (Ps.map (fun P => P.arcs)).flatten
  | [] => rfl
  | P :: Ps => by simp [OutPage.sum, OutPage.app, sum_arcs Ps]

/-- a positive scale is not too small -/
theorem scale_positive {R : Rounding} {file : STLFile (Fl R)} {ms : List (Meta (Fl R))} {ts : List (Tri ℝ)} {k : ℝ} {p off : V2 ℝ} {ε : ℝ}
    (h : NearlyProjects file ms ts k p off ε) (ht : TameScale ms) (hp : PositiveScale ms) : 1 / 2 ^ 40 ≤ k := by
  obtain ⟨-, a, b, -, -, -, hs, hk, -⟩ := h
  obtain ⟨hb0, ha, hb⟩ := ht a b hs
  have hq := hp a b hs
  have hb' : (b : ℝ) ≠ 0 := by exact_mod_cast hb0
  have ha0 : a ≠ 0 := by rintro rfl; simp at hq
  have h1 : (1 : ℝ) ≤ |(a : ℝ)| := by exact_mod_cast Int.one_le_abs ha0
  have h2 : 1 / 2 ^ 31 ≤ (a : ℝ) / b := by
    rw [← abs_of_pos hq, abs_div]
    have hbp : 0 < |(b : ℝ)| := abs_pos.2 hb'
    rw [le_div_iff₀ hbp]
    norm_num at hb ⊢
    linarith
  rw [abs_of_pos (by linarith : (0 : ℝ) < 72 * ((a : ℝ) / b))] at hk
  have := (abs_le.1 hk).1
  norm_num at this h2 ⊢
  linarith

section
variable (I : IntRounding) (range64 range32 : ℚ → Bool)

/-- **C88.** In IEEE 754 double arithmetic, whatever the direction of rounding: a drawing that succeeds consists of the lines of the body and then, for each
dimension, in order, of what this dimension gives.  If the file of the model describes triangles `us`, one of which clearly faces the viewer, and the scale
is positive, a linear dimension along a literal direction square to the line of sight, whose points are literal or near of literal points, gives one label
and, unless it is short, the eight strokes of a dimension between the points meant. -/
theorem C88_strokes (E : Env (Fl (binary64 I range64 range32))) (hS : SortOK E.sorter) (hJ : E.junkM = ⟨V3.zero, V3.zero, V3.zero⟩)
    (stl : Models (Fl (binary64 I range64 range32))) {n : ℕ} (hn : n ≤ 40) (hM : stl.Bd n) (name : Str)
    (ms : List (Meta (Fl (binary64 I range64 range32)))) (hf : ∀ m ∈ ms, m.val.LocBd) (η : ℝ) (hη : ViewError ms η)
    (hs : TameScale ms) (hpos : PositiveScale ms) (dims : List (DimN (Fl (binary64 I range64 range32)))) (line : Nat) (c)
    (h : content E stl (.draw name ms dims line) = .ok c) (hc : c.1 = true) :
    ∃ file r ts k p off own blocks, (∃ e, stl.find? (fun e => decide (e.1 = name)) = some e ∧ e.2 = some file) ∧ AskedView ms r ∧ IsRotation r ∧
      NearlySeen r file ts (1 / 2 ^ 37) ∧ NearlyProjects file ms ts k p off (inkError (2 ^ n) k p) ∧
      c.2.1.lines = own ++ (blocks.map (fun b => b.lines)).flatten ∧ c.2.1.text = (blocks.map (fun b => b.text)).flatten ∧
      c.2.1.arcs = (blocks.map (fun b => b.arcs)).flatten ∧ blocks.length = dims.length ∧
      ∀ text us, make text = .ok (some file) → Describes (2 ^ n) text us →
        ShowsView (1 / 2 ^ 20) (2 ^ n) r us k off ((2 ^ n * |k| + (|p.x| + |p.y|) + 1) / 2 ^ 16) own ∧
        ((∃ c, MustSee (1 / 2 ^ 20) r us c) →
          List.Forall₂ (fun d (b : OutPage (Fl (binary64 I range64 range32))) => ∀ u g U, DimAsks E d u g (2 ^ n) → Largest u U → (u.mulM r).z = 0 → ShortLabels g (2 ^ n) →
            DimDone (2 ^ n) η r us k p off d u g b) dims blocks) := by
  have hR := binary64_accurate I range64 range32
  obtain ⟨sc, rot, loc, file, proj, ls, r, kept, k, p, off, F⟩ := draw_frame hR E hS hJ stl (by omega) hM name ms hf hη.tame hs dims line c h hc
  obtain ⟨hfine, r', hr', -, hnear⟩ := view_fine hR ms hη rot F.drawn.view
  obtain rfl := askedView_unique hr' F.asked
  rcases draw_sum E stl name ms dims line c h with ⟨h1, -⟩ | ⟨sc', rot', loc', file', proj', ls', cs, hD, hcs, hp, hok, -⟩
  · rw [h1] at hc; cases hc
  obtain ⟨rfl, rfl, rfl, rfl, rfl, rfl⟩ := drawn_unique F.drawn hD
  refine ⟨file, r', kept.map (fun f => f.val.seenIn r'), k, p, off, ((OutPage.ofLines ls).moved (projScale sc) (projOffset loc proj.limits (projScale sc))).lines,
    cs.map (fun k => k.2.1), F.drawn.model, F.asked, F.rotation, ⟨kept, rfl, F.keptIn, F.keptIff⟩, F.placed, ?_, ?_, ?_, by rw [List.length_map]; exact hcs.length_eq.symm, ?_⟩
  · rw [hp, F.culled]
    show _ ++ (OutPage.sum _).lines = _
    rw [sum_lines]
    rfl
  · rw [hp]
    show _ ++ (OutPage.sum _).text = _
    rw [sum_text]
    rfl
  · rw [hp]
    show _ ++ (OutPage.sum _).arcs = _
    rw [sum_arcs]
    rfl
  intro text us hmk hde
  have hus := described_stored hR ⟨one_le_pow₀ (by norm_num), pow_le_pow_right₀ (by norm_num) hn⟩ hde hmk
  refine ⟨framed_spans hR hS hn F _ (1 / 2 ^ 20) us readAs_oneToOne le_rfl (fun rot hm => ?_), ?_⟩
  · have hst := hus
    rw [List.forall₂_iff_get] at hst ⊢
    exact ⟨hst.1, fun i g1 g2 => turned_stored hR hn F.rotation hm (F.bd _ (List.get_mem _ _)) (hst.2 i g1 g2)⟩
  rintro ⟨q, hq⟩
  have hne : kept ≠ [] := by
    rintro rfl
    obtain ⟨t, ht, hz, -⟩ := hq
    obtain ⟨f, hf, hst⟩ := forall₂_right hus t ht
    obtain ⟨hb, hd⟩ := stored_faces hR F.rotation hst
    refine List.not_mem_nil ((F.keptIff f hf hb).1 ?_)
    have := (abs_le.1 hd).1
    norm_num at this hz ⊢
    linarith
  have hj : (drawStart (initVis E) sc rot loc proj.cull ls).rotation.eqv E.junkM = false := by rw [hJ]; exact F.viewBd.2.2.2
  have hpts : (drawStart (initVis E) sc rot loc proj.cull ls).points = proj.points := by
    show proj.cull.points = _
    rw [F.culled]
  rw [List.forall₂_map_right_iff]
  have hall := (hok.1 hc).1
  have hk1 := scale_positive F.placed hs hpos
  clear hp hok h
  rw [List.forall₂_iff_get] at hcs ⊢
  refine ⟨hcs.1, fun i g1 g2 u g U hA hu hz hlen => ?_⟩
  have hdk := hcs.2 i g1 g2
  have hkt := hall _ (List.get_mem cs ⟨i, g2⟩)
  generalize dims.get ⟨i, g1⟩ = d at *
  generalize cs.get ⟨i, g2⟩ = kk at *
  have hgd : GoodDim d.kind d.metas ∧ drawnItems E (drawStart (initVis E) sc rot loc proj.cull ls) d.kind d.metas ≠ none := by
    by_contra hg
    obtain ⟨L, e⟩ := (dimContent_items E _ d hj).2 (by
      by_cases h1 : GoodDim d.kind d.metas
      · right; by_contra h2; exact hg ⟨h1, h2⟩
      · exact Or.inl h1)
    rw [hdk] at e
    injection e with e
    rw [e] at hkt; cases hkt
  obtain ⟨hg, hsome⟩ := hgd
  rw [hA.kind] at hsome
  obtain ⟨P, L, e1, e2⟩ := strokes_meant hR hn F hus hfine hnear hk1 hne (v := drawStart (initVis E) sc rot loc proj.cull ls) rfl hpts rfl (by rw [F.culled]; rfl) hj hg hA hu hz hlen
    (by intro h0; apply hsome; simp [drawnItems, h0])
    (by intro h0; apply hsome; simp [drawnItems, h0])
    (by intro h0; apply hsome; simp [drawnItems, h0])
  rw [hdk] at e1
  injection e1 with e1
  subst e1
  exact e2

omit I range64 range32 in
/-- **C88**, for points picked beyond doubt: the label and the strokes are those for these points. -/
theorem C88_clear {R : Rounding} {M η : ℝ} {r : M3 ℝ} (hr : IsRotation r) {us : List (Tri ℝ)} {k : ℝ} {p off : V2 ℝ} {d : DimN (Fl R)} {u : V3 ℝ} {g : Fl R → Str}
    {b : OutPage (Fl R)} (h : DimDone M η r us k p off d u g b) (hz : (u.mulM r).z = 0) {a f t : V3 ℝ}
    (ha : PointClear (1 / 2 ^ 20) (2 ^ 11 * (M ^ 2 * η)) r us d.metas c!"at" a) (hf : PointClear (1 / 2 ^ 20) (2 ^ 11 * (M ^ 2 * η)) r us d.metas c!"from" f)
    (ht : PointClear (1 / 2 ^ 20) (2 ^ 11 * (M ^ 2 * η)) r us d.metas c!"to" t) :
    b.arcs = [] ∧ ∃ q x, b.text = [⟨q, g x, true, false⟩] ∧ Fl.Near x (shown u f t) (2 ^ 13 * (M * η)) ∧ V2.NearTo q (onPage r k off a) (inkError M k p) ∧
      (M / 2 ^ 9 ≤ shown u f t → ∀ e, PageDir r u f t e →
        ∃ G, DimInk G (dimError M k η G off) (dimDoubt M k η G) (g x).length (onPage r k off a) (onPage r k off f) (onPage r k off t) e b.lines) := by
  obtain ⟨h0, a', f', t', ma, mf, mt, q, x, h1, h2, h3, h4⟩ := h
  have ea := meant_clear ma ha
  have ef := meant_clear mf hf
  have et := meant_clear mt ht
  have op : ∀ {c c' : V3 ℝ}, (c.mulM r).xy = (c'.mulM r).xy → onPage r k off c = onPage r k off c' := by
    intro c c' e
    have := congrArg V2.x e
    have := congrArg V2.y e
    simp only [V3.xy] at *
    simp [onPage, *]
  rw [shown_seen hr hz ef et] at h2 h4
  rw [op ea] at h3 h4
  rw [op ef, op et] at h4
  refine ⟨h0, q, x, h1, h2, h3, fun hl e he => h4 hl e ⟨he.1, he.2.1, ?_⟩⟩
  rw [et, ef]
  exact he.2.2

/-- **C88**, of a run: if a conversion succeeds, the output is written from pages that have, for each drawing, the lines of the body followed by what each
dimension gives. -/
theorem C88_run (E : Env (Fl (binary64 I range64 range32))) (hS : SortOK E.sorter) (hJ : E.junkM = ⟨V3.zero, V3.zero, V3.zero⟩)
    (w : World) (src script : Str) {n : ℕ} (hn : n ≤ 40) (r : RunRes) (h : scriptToPS E w src script = .ok r) (hok : r.ok = true)
    (hw : ∀ doc : Doc (Fl (binary64 I range64 range32)), parse script = .ok (some doc) → SaneModels n E.loadPath w doc.models)
    (hd : ∀ doc : Doc (Fl (binary64 I range64 range32)), parse script = .ok (some doc) → ∀ pg ∈ doc.pages, ∀ name ms dims line,
      Drawable.draw name ms dims line ∈ pg.draws → TameScale ms ∧ PositiveScale ms) :
    ∃ (doc : Doc (Fl (binary64 I range64 range32))) (outs : List (OutPage (Fl (binary64 I range64 range32)))),
      parse script = .ok (some doc) ∧ r.out = renderPages E src outs ∧
      List.Forall₂ (fun pg o => ∀ name ms dims line, Drawable.draw name ms dims line ∈ pg.draws → ∀ η, ViewError ms η →
        ∃ m ∈ doc.models, ∃ text ps file v ts k p off own, ∃ blocks : List (OutPage (Fl (binary64 I range64 range32))),
          m.name = name ∧ Places E.loadPath m.source ps ∧ FoundAt w ps text ∧ make text = .ok (some file) ∧
          AskedView ms v ∧ IsRotation v ∧ NearlySeen v file ts (1 / 2 ^ 37) ∧ NearlyProjects file ms ts k p off (inkError (2 ^ n) k p) ∧
          (own ++ (blocks.map (fun b => b.lines)).flatten <:+: o.lines) ∧ ((blocks.map (fun b => b.text)).flatten <:+: o.text) ∧
          ((blocks.map (fun b => b.arcs)).flatten <:+: o.arcs) ∧ blocks.length = dims.length ∧
          ∀ us, Describes (2 ^ n) text us →
            ShowsView (1 / 2 ^ 20) (2 ^ n) v us k off ((2 ^ n * |k| + (|p.x| + |p.y|) + 1) / 2 ^ 16) own ∧
            ((∃ c, MustSee (1 / 2 ^ 20) v us c) →
              List.Forall₂ (fun d (b : OutPage (Fl (binary64 I range64 range32))) => ∀ u g U, DimAsks E d u g (2 ^ n) → Largest u U → (u.mulM v).z = 0 → ShortLabels g (2 ^ n) →
                DimDone (2 ^ n) η v us k p off d u g b) dims blocks)) doc.pages outs := by
  obtain ⟨doc, fs, outs, hp, -, hl, hf, ho⟩ := (C48_all_or_nothing E w src script r h).2.1 hok
  refine ⟨doc, outs, hp, ho, ?_⟩
  have hM : Models.Bd n (List.zipWith (fun (m : ModelN) f => (m.name, some f)) doc.models fs) := by
    have hw' := hw doc hp
    clear * - hl hw' hn
    generalize doc.models = dm at *
    induction hl with
    | nil => intro e he; simp at he
    | @cons m f ms fs hmf _ ih =>
      intro e he
      simp only [List.zipWith_cons_cons, List.mem_cons] at he
      rcases he with rfl | he
      · obtain ⟨ps, x, p1, p2, hx⟩ := hmf
        exact ⟨f, rfl, sane_bd (by omega) (hw' m (by simp) ps x p1 p2) f hx⟩
      · exact ih (fun m' hm' => hw' m' (by simp [hm'])) e he
  have hlo := parse_locBd script doc hp
  have hd' := hd doc hp
  clear ho hp
  generalize hpg : doc.pages = pgs at *
  clear hpg
  induction hf with
  | nil => exact .nil
  | @cons pg o pgs outs ho _ ih =>
    refine .cons ?_ (ih (fun pg hpg => hlo pg (List.mem_cons_of_mem _ hpg)) (fun pg hpg => hd' pg (List.mem_cons_of_mem _ hpg)))
    obtain ⟨g, hg, gok, gp⟩ := ho
    obtain ⟨cs, k1, ⟨t, -, k2⟩, k3⟩ := C58_page E _ pg g hg
    have hall := (k3.1 gok).2.2
    rw [gp] at k2
    injection k2 with k2 _
    intro name ms dims line hdm η hη
    obtain ⟨hs, hps⟩ := hd' pg List.mem_cons_self name ms dims line hdm
    obtain ⟨c, hcm, hdc⟩ := forall₂_left_mem k1 hdm
    obtain ⟨file, v, ts, k, p, off, own, blocks, ⟨en, e1, e2⟩, d1, d2, d3, d4, d5, d6, d6', dl, d7⟩ :=
      C88_strokes I range64 range32 E hS hJ _ hn hM name ms (hlo pg List.mem_cons_self _ hdm) η hη hs hps dims line _ hdc (hall _ hcm)
    obtain ⟨m, m1, m2, ps, text, q1, q2, q3⟩ := find_loads E.loadPath w _ _ hl name en e1 file e2
    refine ⟨m, m1, text, ps, file, v, ts, k, p, off, own, blocks, m2, q1, q2, q3, d1, d2, d3, d4, ?_, ?_, ?_, dl, fun us hus => d7 text us q3 hus⟩
    · rw [← d5, k2]
      have : c.2.1.lines <:+: (OutPage.sum (cs.map (fun c => c.2.1))).lines := by
        rw [sum_lines]
        exact List.infix_of_mem_flatten (List.mem_map.2 ⟨_, List.mem_map.2 ⟨c, hcm, rfl⟩, rfl⟩)
      exact this.trans (List.infix_append' [] _ _)
    · rw [← d6, k2]
      have : c.2.1.text <:+: (OutPage.sum (cs.map (fun c => c.2.1))).text := by
        rw [sum_text]
        exact List.infix_of_mem_flatten (List.mem_map.2 ⟨_, List.mem_map.2 ⟨c, hcm, rfl⟩, rfl⟩)
      exact this.trans (List.infix_append' [] _ _)
    · rw [← d6', k2]
      have : c.2.1.arcs <:+: (OutPage.sum (cs.map (fun c => c.2.1))).arcs := by
        rw [sum_arcs]
        exact List.infix_of_mem_flatten (List.mem_map.2 ⟨_, List.mem_map.2 ⟨c, hcm, rfl⟩, rfl⟩)
      exact this

end

/-! ## The premises occur -/

theorem g6_short {R : Rounding} : ShortLabels (R := R) FP.g6 (2 ^ 3) := by
  intro y h1 h2
  norm_num at h1 h2
  have hy : 0 < y := by linarith
  show (Ext.show6 y).length ≤ 64
  unfold Ext.show6
  rw [if_neg hy.ne', if_pos hy]
  show (Ext.layout6 (Ext.sixDigits y).1 (Ext.sixDigits y).2).length ≤ 64
  have e1 : -3 ≤ Int.log 10 y := by
    rw [← Int.zpow_le_iff_le_log (by norm_num) hy]
    norm_num; linarith
  have e2 : Int.log 10 y < 2 := by
    rw [← Int.lt_zpow_iff_log_lt (by norm_num) hy]
    norm_num; linarith
  have e3 : -3 ≤ (Ext.sixDigits y).1 ∧ (Ext.sixDigits y).1 ≤ 2 := by
    unfold Ext.sixDigits
    dsimp only
    split_ifs <;> constructor <;> dsimp only <;> omega
  obtain ⟨m1, m2, -⟩ := PS.sixDigits_spec y hy
  have hd := (PS.natDigits_spec (Ext.sixDigits y).2).2.2.2 5 (by omega) (by omega)
  generalize (Ext.sixDigits y).1 = e at *
  generalize (Ext.sixDigits y).2 = m at *
  obtain ⟨z, hz⟩ := PS.dropZeros_spec (Ext.natDigits m)
  have hl : (Ext.dropZeros (Ext.natDigits m)).length ≤ 6 := by
    have := congrArg List.length hz
    simp at this
    omega
  simp only [Ext.layout6]
  generalize Ext.dropZeros (Ext.natDigits m) = ds at *
  rw [if_pos (by omega)]
  split_ifs
  · simp; omega
  · simp; omega
  · simp; omega

/-- A drawing that succeeds, of the two triangles of `duoText`, seen from above, with a dimension across the upper triangle: every premise is met, the points
are picked beyond doubt, the dimension is long enough and its direction on the page is to the right. -/
example (l : ℕ → ℕ) : ∃ file : STLFile F64, make duoText = .ok (some file) ∧ Models.Bd 3 [(c!"m", some file)] ∧ ViewError (R := binary64 .nearest (fun _ => true) (fun _ => true)) [] (1 / 2 ^ 50) ∧
    TameScale (R := binary64 .nearest (fun _ => true) (fun _ => true)) [] ∧ PositiveScale (R := binary64 .nearest (fun _ => true) (fun _ => true)) [] ∧
    (∃ c, content flEnv [(c!"m", some file)] (.draw c!"m" [] [roughDim l] 1) = .ok c ∧ c.1 = true) ∧ Largest ⟨2, 0, 0⟩ 2 ∧
    DimAsks flEnv (roughDim l) ⟨2, 0, 0⟩ FP.g6 (2 ^ 3) ∧ ShortLabels (R := binary64 .nearest (fun _ => true) (fun _ => true)) FP.g6 (2 ^ 3) ∧
    ∃ us, Describes (2 ^ 3) duoText us ∧ AskedView ([] : List (Meta F64)) ⟨⟨1, 0, 0⟩, ⟨0, 1, 0⟩, ⟨0, 0, 1⟩⟩ ∧
      (∃ c, MustSee (1 / 2 ^ 20) ⟨⟨1, 0, 0⟩, ⟨0, 1, 0⟩, ⟨0, 0, 1⟩⟩ us c) ∧
      ((⟨2, 0, 0⟩ : V3 ℝ).mulM ⟨⟨1, 0, 0⟩, ⟨0, 1, 0⟩, ⟨0, 0, 1⟩⟩).z = 0 ∧
      PointClear (1 / 2 ^ 20) (2 ^ 11 * ((2 ^ 3) ^ 2 * (1 / 2 ^ 50))) ⟨⟨1, 0, 0⟩, ⟨0, 1, 0⟩, ⟨0, 0, 1⟩⟩ us (roughDim l).metas c!"at" ⟨0, 1, 0⟩ ∧
      PointClear (1 / 2 ^ 20) (2 ^ 11 * ((2 ^ 3) ^ 2 * (1 / 2 ^ 50))) ⟨⟨1, 0, 0⟩, ⟨0, 1, 0⟩, ⟨0, 0, 1⟩⟩ us (roughDim l).metas c!"from" ⟨0, 2, 5⟩ ∧
      PointClear (1 / 2 ^ 20) (2 ^ 11 * ((2 ^ 3) ^ 2 * (1 / 2 ^ 50))) ⟨⟨1, 0, 0⟩, ⟨0, 1, 0⟩, ⟨0, 0, 1⟩⟩ us (roughDim l).metas c!"to" ⟨4, 2, 5⟩ ∧
      2 ^ 3 / 2 ^ 9 ≤ shown ⟨2, 0, 0⟩ ⟨0, 2, 5⟩ ⟨4, 2, 5⟩ ∧
      PageDir ⟨⟨1, 0, 0⟩, ⟨0, 1, 0⟩, ⟨0, 0, 1⟩⟩ ⟨2, 0, 0⟩ ⟨0, 2, 5⟩ ⟨4, 2, 5⟩ ⟨1, 0⟩ := by
  obtain ⟨file, h1, h2, h3, h4, h5, h6, us, u1, u2, u3, u4, u5, u6, u7⟩ := rough_draws l 1
  refine ⟨file, h1, h2, h3, h4, ?_, h5, h6, rough_asks l, g6_short, us, u1, u2, ⟨_, u7⟩, u3, Or.inl ⟨_, _, rfl, rfl⟩, u4, u5, by rw [u6]; norm_num, ?_, ?_, ?_⟩
  · intro a b h
    have : (a, b) = ((1, 1) : Int × Int) := by
      simp only [look, scaleOf] at h
      cases h; rfl
    cases this; norm_num
  · simp [V2.dot]
  · exact ⟨2, by ext <;> simp [V3.mulM, V3.xy, V2.smul]⟩
  · simp [V3.mulM, V3.xy, V2.dot]

end S2P
