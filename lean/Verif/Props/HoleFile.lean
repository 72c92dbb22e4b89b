import Verif.Lemmas.HoleFile
import Verif.Lemmas.HoleSpan
import Verif.Lemmas.HoleAngle
import Verif.Props.RoundDouble

set_option linter.unusedSectionVars false
set_option linter.unusedVariables false
set_option linter.unusedSimpArgs false

/-! # C94: a round hole or boss that a model file describes, in double arithmetic -/

namespace S2P

section
variable (I : IntRounding) (range64 range32 : ℚ → Bool)

/-- **C94.** In IEEE 754 double arithmetic, whatever the direction of rounding: a drawing that succeeds consists of the lines of the body and then, for each
dimension, in order, of what this dimension gives.  If the file of the model describes triangles `us`, and in the view asked for their corners clearly show a circle at the
place given as `center`, a radius or diameter with literal points, whose line is square to the line of sight, gives its label, with the radius or diameter of this
circle, and its strokes.  (The linear dimensions of the same drawing: see C88 and C95; its angles: see C92.) -/
theorem C94_strokes (E : Env (Fl (binary64 I range64 range32))) (hS : SortOK E.sorter) (hJ : E.junkM = ⟨V3.zero, V3.zero, V3.zero⟩)
    (stl : Models (Fl (binary64 I range64 range32))) {n : ℕ} (hn : n ≤ 40) (hM : stl.Bd n) (name : Str)
    (ms : List (Meta (Fl (binary64 I range64 range32)))) (hf : ∀ m ∈ ms, m.val.LocBd) (η : ℝ) (hη : ViewError ms η)
    (hs : TameScale ms) (hpos : PositiveScale ms) (dims : List (DimN (Fl (binary64 I range64 range32)))) (line : Nat) (c)
    (h : content E stl (.draw name ms dims line) = .ok c) (hc : c.1 = true) :
    ∃ file r ts k p off own blocks, (∃ e, stl.find? (fun e => decide (e.1 = name)) = some e ∧ e.2 = some file) ∧ AskedView ms r ∧ IsRotation r ∧
      NearlySeen r file ts (1 / 2 ^ 37) ∧ NearlyProjects file ms ts k p off (inkError (2 ^ n) k p) ∧
      c.2.1.lines = own ++ (blocks.map (fun b => b.lines)).flatten ∧ c.2.1.text = (blocks.map (fun b => b.text)).flatten ∧
      c.2.1.arcs = (blocks.map (fun b => b.arcs)).flatten ∧ blocks.length = dims.length ∧
      ∀ text us, make text = .ok (some file) → Describes (2 ^ n) text us →
        ShowsView (1 / 2 ^ 20) (2 ^ n) r us k off ((2 ^ n * |k| + (|p.x| + |p.y|) + 1) / 2 ^ 16) own ∧
        ((∃ c, MustSee (1 / 2 ^ 20) r us c) →
          List.Forall₂ (DimensionDone E (2 ^ n) η (NamedView ms) r us k p off) dims blocks) := by
  have hR := binary64_accurate I range64 range32
  obtain ⟨sc, rot, loc, file, proj, ls, r, kept, k, p, off, F⟩ := draw_frame hR E hS hJ stl (by omega) hM name ms hf hη.tame hs dims line c h hc
  obtain ⟨hfine, r', hr', -, hnear⟩ := view_fine hR ms hη rot F.drawn.view
  obtain rfl := askedView_unique hr' F.asked
  rcases draw_sum E stl name ms dims line c h with ⟨h1, -⟩ | ⟨sc', rot', loc', file', proj', ls', cs, hD, hcs, hp, hok, -⟩
  · rw [h1] at hc; cases hc
  obtain ⟨rfl, rfl, rfl, rfl, rfl, rfl⟩ := drawn_unique F.drawn hD
  refine ⟨file, r', kept.map (fun f => f.val.seenIn r'), k, p, off, ((OutPage.ofLines ls).moved (projScale sc) (projOffset loc proj.limits (projScale sc))).lines,
    cs.map (fun k => k.2.1), F.drawn.model, F.asked, F.rotation, ⟨kept, rfl, F.keptIn, F.keptIff⟩, F.placed, ?_, ?_, ?_, by rw [List.length_map]; exact hcs.length_eq.symm, ?_⟩
  · rw [hp, F.culled]
    show _ ++ (OutPage.sum _).lines = _
    rw [sum_lines]
    rfl
  · rw [hp]
    show _ ++ (OutPage.sum _).text = _
    rw [sum_text]
    rfl
  · rw [hp]
    show _ ++ (OutPage.sum _).arcs = _
    rw [sum_arcs]
    rfl
  intro text us hmk hde
  have hus := described_stored hR ⟨one_le_pow₀ (by norm_num), pow_le_pow_right₀ (by norm_num) hn⟩ hde hmk
  refine ⟨framed_spans hR hS hn F _ (1 / 2 ^ 20) us readAs_oneToOne le_rfl (fun rot hm => ?_), ?_⟩
  · have hst := hus
    rw [List.forall₂_iff_get] at hst ⊢
    exact ⟨hst.1, fun i g1 g2 => turned_stored hR hn F.rotation hm (F.bd _ (List.get_mem _ _)) (hst.2 i g1 g2)⟩
  rintro ⟨q, hq⟩
  have hne : kept ≠ [] := by
    rintro rfl
    obtain ⟨t, ht, hz, -⟩ := hq
    obtain ⟨f, hf, hst⟩ := forall₂_right hus t ht
    obtain ⟨hb, hd⟩ := stored_faces hR F.rotation hst
    refine List.not_mem_nil ((F.keptIff f hf hb).1 ?_)
    have := (abs_le.1 hd).1
    norm_num at this hz ⊢
    linarith
  have hj : (drawStart (initVis E) sc rot loc proj.cull ls).rotation.eqv E.junkM = false := by rw [hJ]; exact F.viewBd.2.2.2
  have hpts : (drawStart (initVis E) sc rot loc proj.cull ls).points = proj.points := by
    show proj.cull.points = _
    rw [F.culled]
  rw [List.forall₂_map_right_iff]
  have hall := (hok.1 hc).1
  have hk1 := scale_positive F.placed hs hpos
  clear hp hok h
  rw [List.forall₂_iff_get] at hcs ⊢
  refine ⟨hcs.1, fun i g1 g2 => ?_⟩
  have hdk := hcs.2 i g1 g2
  have hkt := hall _ (List.get_mem cs ⟨i, g2⟩)
  generalize dims.get ⟨i, g1⟩ = d at *
  generalize cs.get ⟨i, g2⟩ = kk at *
  have hgd : GoodDim d.kind d.metas ∧ drawnItems E (drawStart (initVis E) sc rot loc proj.cull ls) d.kind d.metas ≠ none := by
    by_contra hg
    obtain ⟨L, e⟩ := (dimContent_items E _ d hj).2 (by
      by_cases h1 : GoodDim d.kind d.metas
      · right; by_contra h2; exact hg ⟨h1, h2⟩
      · exact Or.inl h1)
    rw [hdk] at e
    injection e with e
    rw [e] at hkt; cases hkt
  obtain ⟨hg, hsome⟩ := hgd
  refine ⟨?_, ?_, ?_, ?_, ?_⟩
  · intro u g U hA hu hz hlen
    rw [hA.kind] at hsome
    obtain ⟨P, L, e1, e2⟩ := strokes_meant hR hn F hus hfine hnear hk1 hne (v := drawStart (initVis E) sc rot loc proj.cull ls) rfl hpts rfl (by rw [F.culled]; rfl) hj hg hA hu hz hlen
      (by intro h0; apply hsome; simp [drawnItems, h0])
      (by intro h0; apply hsome; simp [drawnItems, h0])
      (by intro h0; apply hsome; simp [drawnItems, h0])
    rw [hdk] at e1
    injection e1 with e1
    subst e1
    exact e2
  · intro a x u w f t g K hA hflat
    obtain ⟨P, L, e1, e2⟩ := angle_meant hR hn F hfine hnear hk1 hne (v := drawStart (initVis E) sc rot loc proj.cull ls) rfl rfl (by rw [F.culled]; rfl) hj hg hA hflat
    rw [hdk] at e1
    injection e1 with e1
    subst e1
    exact e2
  · intro g a u q m ρ N B A s hA hB hH
    obtain ⟨P, L, e1, e2⟩ := round_meant hR hn F hfine hnear hk1 hne (v := drawStart (initVis E) sc rot loc proj.cull ls) rfl rfl (by rw [F.culled]; rfl) hj
      (hole_asks hR hn F hus hfine hnear hA hB hH)
    rw [hdk] at e1
    injection e1 with e1
    subst e1
    exact e2
  · intro u g a f t εa εf εt hA
    obtain ⟨P, L, e1, e2⟩ := span_meant hR hn F hus hfine hnear hk1 hne (v := drawStart (initVis E) sc rot loc proj.cull ls) rfl hpts rfl (by rw [F.culled]; rfl) hj hA
    rw [hdk] at e1
    injection e1 with e1
    subst e1
    exact e2
  · intro g a x εx l l' K hA
    obtain ⟨P, L, e1, e2⟩ := turn_meant hR hn F hus hfine hnear hk1 hne (v := drawStart (initVis E) sc rot loc proj.cull ls) rfl hpts rfl (by rw [F.culled]; rfl) hj hA
    rw [hdk] at e1
    injection e1 with e1
    subst e1
    exact e2

/-- **C94, accepted**: a drawing whose dimensions are such radii and diameters is not refused. -/
theorem C94_accepted (E : Env (Fl (binary64 I range64 range32))) (hS : SortOK E.sorter) (hJ : E.junkM = ⟨V3.zero, V3.zero, V3.zero⟩)
    (stl : Models (Fl (binary64 I range64 range32))) {n : ℕ} (hn : n ≤ 40) (hM : stl.Bd n) (name : Str)
    (ms : List (Meta (Fl (binary64 I range64 range32)))) (hf : ∀ m ∈ ms, m.val.LocBd) (hnames : ∀ m ∈ ms, m.name ∈ [c!"scale", c!"view", c!"@"])
    (hat : AtLoc ms) (η : ℝ) (hη : ViewError ms η)
    (hs : TameScale ms) (dims : List (DimN (Fl (binary64 I range64 range32)))) (line : Nat) (c) (h : content E stl (.draw name ms dims line) = .ok c)
    (sc rot loc file proj ls) (hD : Drawn E stl name ms sc rot loc file proj ls) (r : M3 ℝ) (hr : AskedView ms r)
    (text us) (hmk : make text = .ok (some file)) (hde : Describes (2 ^ n) text us)
    (hh : ∀ d ∈ dims, ∃ g a u q m ρ N B A s, HoleAsks E r d g a u q (2 ^ n) ∧ B ≤ 2 ^ n ∧ HoleSeen (10 * (2 ^ n * η)) (1 / 2 ^ 20) (NamedView ms) r us q m ρ N B A s) :
    c.1 = true := by
  have hR := binary64_accurate I range64 range32
  obtain ⟨r', kept, k, p, off, F, hfine, hnear⟩ := spots_frame I range64 range32 E hS hJ stl hn hM name ms hf hnames hat η hη hs sc rot loc file proj ls hD
  obtain rfl := askedView_unique hr F.asked
  have hus := described_stored hR ⟨one_le_pow₀ (by norm_num), pow_le_pow_right₀ (by norm_num) hn⟩ hde hmk
  refine C93_accepted I range64 range32 E hJ stl name ms hf hnames dims line c h sc rot loc file proj ls hD r (2 ^ n) ?_
  intro d hd
  obtain ⟨g, a, u, q, m, ρ, N, B, A, s, hA, hB, hH⟩ := hh d hd
  exact ⟨_, _, _, _, _, _, _, _, _, hole_asks hR hn F hus hfine hnear hA hB hH⟩

/-- **C94**, of a run: if a conversion succeeds, the output is written from pages that have, for each drawing, the lines of the body followed by what each
dimension gives. -/
theorem C94_run (E : Env (Fl (binary64 I range64 range32))) (hS : SortOK E.sorter) (hJ : E.junkM = ⟨V3.zero, V3.zero, V3.zero⟩)
    (w : World) (src script : Str) {n : ℕ} (hn : n ≤ 40) (r : RunRes) (h : scriptToPS E w src script = .ok r) (hok : r.ok = true)
    (hw : ∀ doc : Doc (Fl (binary64 I range64 range32)), parse script = .ok (some doc) → SaneModels n E.loadPath w doc.models)
    (hd : ∀ doc : Doc (Fl (binary64 I range64 range32)), parse script = .ok (some doc) → ∀ pg ∈ doc.pages, ∀ name ms dims line,
      Drawable.draw name ms dims line ∈ pg.draws → TameScale ms ∧ PositiveScale ms) :
    ∃ (doc : Doc (Fl (binary64 I range64 range32))) (outs : List (OutPage (Fl (binary64 I range64 range32)))),
      parse script = .ok (some doc) ∧ r.out = renderPages E src outs ∧
      List.Forall₂ (fun pg o => ∀ name ms dims line, Drawable.draw name ms dims line ∈ pg.draws → ∀ η, ViewError ms η →
        ∃ m ∈ doc.models, ∃ text ps file v ts k p off own, ∃ blocks : List (OutPage (Fl (binary64 I range64 range32))),
          m.name = name ∧ Places E.loadPath m.source ps ∧ FoundAt w ps text ∧ make text = .ok (some file) ∧
          AskedView ms v ∧ IsRotation v ∧ NearlySeen v file ts (1 / 2 ^ 37) ∧ NearlyProjects file ms ts k p off (inkError (2 ^ n) k p) ∧
          (own ++ (blocks.map (fun b => b.lines)).flatten <:+: o.lines) ∧ ((blocks.map (fun b => b.text)).flatten <:+: o.text) ∧
          ((blocks.map (fun b => b.arcs)).flatten <:+: o.arcs) ∧ blocks.length = dims.length ∧
          ∀ us, Describes (2 ^ n) text us →
            ShowsView (1 / 2 ^ 20) (2 ^ n) v us k off ((2 ^ n * |k| + (|p.x| + |p.y|) + 1) / 2 ^ 16) own ∧
            ((∃ c, MustSee (1 / 2 ^ 20) v us c) →
              List.Forall₂ (DimensionDone E (2 ^ n) η (NamedView ms) v us k p off) dims blocks)) doc.pages outs := by
  obtain ⟨doc, fs, outs, hp, -, hl, hf, ho⟩ := (C48_all_or_nothing E w src script r h).2.1 hok
  refine ⟨doc, outs, hp, ho, ?_⟩
  have hM : Models.Bd n (List.zipWith (fun (m : ModelN) f => (m.name, some f)) doc.models fs) := by
    have hw' := hw doc hp
    clear * - hl hw' hn
    generalize doc.models = dm at *
    induction hl with
    | nil => intro e he; simp at he
    | @cons m f ms fs hmf _ ih =>
      intro e he
      simp only [List.zipWith_cons_cons, List.mem_cons] at he
      rcases he with rfl | he
      · obtain ⟨ps, x, p1, p2, hx⟩ := hmf
        exact ⟨f, rfl, sane_bd (by omega) (hw' m (by simp) ps x p1 p2) f hx⟩
      · exact ih (fun m' hm' => hw' m' (by simp [hm'])) e he
  have hlo := parse_locBd script doc hp
  have hd' := hd doc hp
  clear ho hp
  generalize hpg : doc.pages = pgs at *
  clear hpg
  induction hf with
  | nil => exact .nil
  | @cons pg o pgs outs ho _ ih =>
    refine .cons ?_ (ih (fun pg hpg => hlo pg (List.mem_cons_of_mem _ hpg)) (fun pg hpg => hd' pg (List.mem_cons_of_mem _ hpg)))
    obtain ⟨g, hg, gok, gp⟩ := ho
    obtain ⟨cs, k1, ⟨t, -, k2⟩, k3⟩ := C58_page E _ pg g hg
    have hall := (k3.1 gok).2.2
    rw [gp] at k2
    injection k2 with k2 _
    intro name ms dims line hdm η hη
    obtain ⟨hs, hps⟩ := hd' pg List.mem_cons_self name ms dims line hdm
    obtain ⟨c, hcm, hdc⟩ := forall₂_left_mem k1 hdm
    obtain ⟨file, v, ts, k, p, off, own, blocks, ⟨en, e1, e2⟩, d1, d2, d3, d4, d5, d6, d6', dl, d7⟩ :=
      C94_strokes I range64 range32 E hS hJ _ hn hM name ms (hlo pg List.mem_cons_self _ hdm) η hη hs hps dims line _ hdc (hall _ hcm)
    obtain ⟨m, m1, m2, ps, text, q1, q2, q3⟩ := find_loads E.loadPath w _ _ hl name en e1 file e2
    refine ⟨m, m1, text, ps, file, v, ts, k, p, off, own, blocks, m2, q1, q2, q3, d1, d2, d3, d4, ?_, ?_, ?_, dl, fun us hus => d7 text us q3 hus⟩
    · rw [← d5, k2]
      have : c.2.1.lines <:+: (OutPage.sum (cs.map (fun c => c.2.1))).lines := by
        rw [sum_lines]
        exact List.infix_of_mem_flatten (List.mem_map.2 ⟨_, List.mem_map.2 ⟨c, hcm, rfl⟩, rfl⟩)
      exact this.trans (List.infix_append' [] _ _)
    · rw [← d6, k2]
      have : c.2.1.text <:+: (OutPage.sum (cs.map (fun c => c.2.1))).text := by
        rw [sum_text]
        exact List.infix_of_mem_flatten (List.mem_map.2 ⟨_, List.mem_map.2 ⟨c, hcm, rfl⟩, rfl⟩)
      exact this.trans (List.infix_append' [] _ _)
    · rw [← d6', k2]
      have : c.2.1.arcs <:+: (OutPage.sum (cs.map (fun c => c.2.1))).arcs := by
        rw [sum_arcs]
        exact List.infix_of_mem_flatten (List.mem_map.2 ⟨_, List.mem_map.2 ⟨c, hcm, rfl⟩, rfl⟩)
      exact this

end

/-! ## The premises occur -/

/-- A round plate at height 5 above a floor of one triangle, all with whole coordinates; the plate has twelve corners at distance 5 from the axis.  One corner of the floor is right under one
of the plate. -/
def plateTris : List (V3 ℤ × V3 ℤ × V3 ℤ) :=
  (⟨5, 0, 0⟩, ⟨-8, 8, 0⟩, ⟨-8, -8, 0⟩) ::
  [((4, 3), (3, 4)), ((3, 4), (0, 5)), ((0, 5), (-3, 4)), ((-3, 4), (-4, 3)), ((-4, 3), (-5, 0)), ((-5, 0), (-4, -3)), ((-4, -3), (-3, -4)), ((-3, -4), (0, -5)),
    ((0, -5), (3, -4)), ((3, -4), (4, -3))].map (fun e : (ℤ × ℤ) × (ℤ × ℤ) => (⟨5, 0, 5⟩, ⟨e.1.1, e.1.2, 5⟩, ⟨e.2.1, e.2.2, 5⟩))

/-- a number of one digit -/
def digit (k : ℤ) : Str := (if k < 0 then c!"-" else []) ++ (c!"0123456789".drop k.natAbs).take 1

def plateVertex (p : V3 ℤ) : Str := c!"vertex " ++ digit p.x ++ c!" " ++ digit p.y ++ c!" " ++ digit p.z ++ c!"\n"

def plateFacet (t : V3 ℤ × V3 ℤ × V3 ℤ) : Str :=
  c!"facet normal 0 0 1\nouter loop\n" ++ plateVertex t.1 ++ plateVertex t.2.1 ++ plateVertex t.2.2 ++ c!"endloop\nendfacet\n"

/-- the file -/
def plateText : Str := c!"solid p\n" ++ plateTris.flatMap plateFacet ++ c!"endsolid p\n"

/-- a point with whole coordinates -/
def V3.whole (p : V3 ℤ) : V3 ℝ := ⟨p.x, p.y, p.z⟩

/-- a level triangle with whole coordinates -/
def levelTri (t : V3 ℤ × V3 ℤ × V3 ℤ) : Tri ℝ := ⟨⟨0, 0, 1⟩, t.1.whole, t.2.1.whole, t.2.2.whole, t.1.z⟩

/-- twice the area of a level triangle -/
def levelArea (t : V3 ℤ × V3 ℤ × V3 ℤ) : ℤ := (t.2.1.x - t.1.x) * (t.2.2.y - t.1.y) - (t.2.1.y - t.1.y) * (t.2.2.x - t.1.x)

theorem level_described (t : V3 ℤ × V3 ℤ × V3 ℤ) (h1 : t.2.1.z = t.1.z) (h2 : t.2.2.z = t.1.z) (h3 : 1 ≤ levelArea t)
    (h4 : ∀ p ∈ [t.1, t.2.1, t.2.2], |p.x| ≤ 16 ∧ |p.y| ≤ 16 ∧ |p.z| ≤ 16) :
    ∃ n a b c rest, ((V3.fin (⟨0, 0, 1⟩ : V3 ℚ), [V3.fin (⟨(t.1.x : ℚ), t.1.y, t.1.z⟩ : V3 ℚ), V3.fin (⟨(t.2.1.x : ℚ), t.2.1.y, t.2.1.z⟩ : V3 ℚ), V3.fin (⟨(t.2.2.x : ℚ), t.2.2.y, t.2.2.z⟩ : V3 ℚ)]) :
        V3 (Ext ℚ) × List (V3 (Ext ℚ))) = (V3.fin n, V3.fin a :: V3.fin b :: V3.fin c :: rest) ∧ Stout (2 ^ 4) n.real a.real b.real c.real ∧
      levelTri t = triOf n.real a.real b.real c.real := by
  obtain ⟨⟨ax, ay, az⟩, ⟨bx, by', bz⟩, ⟨cx, cy, cz⟩⟩ := t
  simp only [levelArea] at *
  subst h1 h2
  have hK : (1 : ℝ) ≤ ((bx - ax) * (cy - ay) - (by' - ay) * (cx - ax) : ℤ) := by exact_mod_cast h3
  generalize hk : ((bx - ax) * (cy - ay) - (by' - ay) * (cx - ax) : ℤ) = K at hK
  have hk' : ((bx - ax) * (cy - ay) - (by' - ay) * (cx - ax) : ℝ) = K := by exact_mod_cast hk
  have cr : ((V3.real ⟨bx, by', cz⟩ - V3.real ⟨ax, ay, cz⟩).cross (V3.real ⟨cx, cy, cz⟩ - V3.real ⟨ax, ay, cz⟩)) = (⟨0, 0, K⟩ : V3 ℝ) := by
    ext
    · simp [V3.real, V3.cross]
    · simp [V3.real, V3.cross]
    · simp [V3.real, V3.cross]; linarith
  have le : len3 (⟨0, 0, K⟩ : V3 ℝ) = K := by
    simp only [len3]
    rw [show ((0 : ℝ) ^ 2 + 0 ^ 2 + (K : ℝ) ^ 2) = (K : ℝ) ^ 2 by norm_num]
    exact Real.sqrt_sq (by linarith)
  have un : unitNormal (V3.real ⟨ax, ay, cz⟩) (V3.real ⟨bx, by', cz⟩) (V3.real ⟨cx, cy, cz⟩) = ⟨0, 0, 1⟩ := by
    unfold unitNormal
    rw [cr, le]
    ext
    · simp [V3.sdiv]
    · simp [V3.sdiv]
    · simp only [V3.sdiv]; exact div_self (by linarith)
  have w : ∀ z : ℤ, |z| ≤ 16 → |(z : ℝ)| ≤ 2 ^ 4 := by
    intro z hz
    have : (|z| : ℝ) ≤ (16 : ℤ) := by exact_mod_cast hz
    norm_num at this ⊢
    exact this
  simp only [List.mem_cons, List.not_mem_nil, or_false, forall_eq_or_imp, forall_eq] at h4
  obtain ⟨⟨a1, a2, a3⟩, ⟨b1, b2, b3⟩, c1, c2, c3⟩ := h4
  refine ⟨_, _, _, _, _, rfl, ⟨?_, ?_, ?_, ?_, ?_, ?_⟩, ?_⟩
  · simpa [V3.Within, V3.real] using ⟨w _ a1, w _ a2, w _ a3⟩
  · simpa [V3.Within, V3.real] using ⟨w _ b1, w _ b2, w _ b3⟩
  · simpa [V3.Within, V3.real] using ⟨w _ c1, w _ c2, w _ c3⟩
  · simp [V3.Within, V3.real]
  · rw [cr, le]; norm_num; linarith
  · rw [un]; simp [V3.real, V3.dot]; norm_num
  · unfold triOf; rw [un, if_neg (by simp [V3.real, V3.dot])]; simp [V3.real, V3.dot, levelTri, V3.whole]

theorem plate_described : Describes (2 ^ 4) plateText (plateTris.map levelTri) := by
  refine ⟨getLines plateText, (getLines plateText).filterMap classify, linesOf_getLines _, ?_, ?_⟩
  · have h : ∀ l ∈ getLines plateText, (classify (α := Ext ℚ) l).isSome = true := by decide +kernel
    generalize getLines plateText = ls at h
    induction ls with
    | nil => exact .nil
    | cons l ls ih =>
      obtain ⟨r, hr⟩ := Option.isSome_iff_exists.1 (h l (by simp))
      rw [List.filterMap_cons, hr]
      exact .cons ((classify_iff l r).1 hr) (ih (fun l hl => h l (by simp [hl])))
  · have e : blocks (α := Ext ℚ) ((getLines plateText).filterMap classify) = plateTris.map (fun t =>
        (V3.fin (⟨0, 0, 1⟩ : V3 ℚ), [V3.fin (⟨(t.1.x : ℚ), t.1.y, t.1.z⟩ : V3 ℚ), V3.fin (⟨(t.2.1.x : ℚ), t.2.1.y, t.2.1.z⟩ : V3 ℚ), V3.fin (⟨(t.2.2.x : ℚ), t.2.2.y, t.2.2.z⟩ : V3 ℚ)])) := by
      decide +kernel
    rw [e, List.forall₂_map_left_iff, List.forall₂_map_right_iff, List.forall₂_same]
    have hl : ∀ t ∈ plateTris, t.2.1.z = t.1.z ∧ t.2.2.z = t.1.z ∧ 1 ≤ levelArea t ∧ ∀ p ∈ [t.1, t.2.1, t.2.2], |p.x| ≤ 16 ∧ |p.y| ≤ 16 ∧ |p.z| ≤ 16 := by
      decide +kernel
    intro t ht
    obtain ⟨k1, k2, k3, k4⟩ := hl t ht
    exact level_described t k1 k2 k3 k4

/-- the corners -/
def plateCorners : List (V3 ℤ) := ⟨5, 0, 0⟩ :: ⟨-8, 8, 0⟩ :: ⟨-8, -8, 0⟩ :: ring5.map (fun p => ⟨p.1, p.2, 5⟩)

theorem plate_corners : ∀ t ∈ plateTris, t.1 ∈ plateCorners ∧ t.2.1 ∈ plateCorners ∧ t.2.2 ∈ plateCorners := by decide +kernel

theorem plate_corners' : ∀ p ∈ plateCorners, ∃ t ∈ plateTris, p = t.1 ∨ p = t.2.1 ∨ p = t.2.2 := by decide +kernel

def V3.plan (p : V3 ℤ) : ℤ × ℤ := (p.x, p.y)

theorem plate_grid : ∀ p ∈ plateCorners, |p.x| ≤ 8 ∧ |p.y| ≤ 8 ∧ 16 ≤ (p.x - 1) * (p.x - 1) + p.y * p.y ∧
    (p.x * p.x + p.y * p.y = 25 ∧ p ≠ ⟨-8, 8, 0⟩ ∧ p ≠ ⟨-8, -8, 0⟩ ∧ -5 ≤ p.x ∨ p.x * p.x + p.y * p.y = 128 ∧ (p.x - 1) * (p.x - 1) + p.y * p.y = 145) := by decide

theorem plate_area : ∀ x ∈ plateCorners, ∀ y ∈ plateCorners, ∀ z ∈ plateCorners, x.x * x.x + x.y * x.y = 25 → y.x * y.x + y.y * y.y = 25 → z.x * z.x + z.y * z.y = 25 →
    x.plan ≠ y.plan → x.plan ≠ z.plan → y.plan ≠ z.plan → 2 ≤ |(y.x - x.x) * (z.y - x.y) - (y.y - x.y) * (z.x - x.x)| := by decide +kernel

theorem plate_may {δ : ℝ} {c : V3 ℝ} (h : MaySee δ ⟨⟨1, 0, 0⟩, ⟨0, 1, 0⟩, ⟨0, 0, 1⟩⟩ (plateTris.map levelTri) c) : ∃ p ∈ plateCorners, c = p.whole := by
  obtain ⟨t, ht, -, hc⟩ := h
  obtain ⟨t, ht', rfl⟩ := List.mem_map.1 ht
  obtain ⟨h1, h2, h3⟩ := plate_corners t ht'
  simp only [levelTri, Tri.corners, List.mem_cons, List.not_mem_nil, or_false] at hc
  rcases hc with rfl | rfl | rfl
  · exact ⟨_, h1, rfl⟩
  · exact ⟨_, h2, rfl⟩
  · exact ⟨_, h3, rfl⟩

theorem plate_must {p : V3 ℤ} (h : p ∈ plateCorners) : MustSee (1 / 2 ^ 20) ⟨⟨1, 0, 0⟩, ⟨0, 1, 0⟩, ⟨0, 0, 1⟩⟩ (plateTris.map levelTri) p.whole := by
  obtain ⟨t, ht, hp⟩ := plate_corners' p h
  refine ⟨_, List.mem_map_of_mem ht, by simp [levelTri, V3.mulM]; norm_num, ?_⟩
  simp only [levelTri, Tri.corners, List.mem_cons, List.not_mem_nil, or_false]
  rcases hp with rfl | rfl | rfl <;> simp

theorem seenAt_whole (p : V3 ℤ) : seenAt ⟨⟨1, 0, 0⟩, ⟨0, 1, 0⟩, ⟨0, 0, 1⟩⟩ p.whole = ⟨p.x, p.y⟩ := by
  simp [seenAt, V3.mulM, V3.xy, V3.whole]

theorem plate_on (p : V3 ℤ) : OnRim ⟨0, 0⟩ 5 0 (⟨p.x, p.y⟩ : V2 ℝ) ↔ p.x * p.x + p.y * p.y = 25 := by
  have : dist2 (⟨p.x, p.y⟩ : V2 ℝ) ⟨0, 0⟩ = ((p.x * p.x + p.y * p.y : ℤ) : ℝ) := by
    simp only [dist2]; push_cast; ring
  unfold OnRim
  rw [this]
  constructor
  · intro h
    have h' : ((p.x * p.x + p.y * p.y : ℤ) : ℝ) - 5 ^ 2 = 0 := abs_eq_zero.1 (le_antisymm (by simpa using h) (abs_nonneg _))
    have : ((p.x * p.x + p.y * p.y : ℤ) : ℝ) = ((25 : ℤ) : ℝ) := by push_cast at *; linarith
    exact_mod_cast this
  · intro h
    rw [h]; norm_num

theorem plate_far (p : V3 ℤ) : dist2 (⟨p.x, p.y⟩ : V2 ℝ) ⟨1, 0⟩ = (((p.x - 1) * (p.x - 1) + p.y * p.y : ℤ) : ℝ) := by
  simp only [dist2]; push_cast; ring

/-- seen from above -/
theorem plate_seen (named : Prop) (hn : named) : HoleSeen (10 * (2 ^ 4 * (1 / 2 ^ 50))) (1 / 2 ^ 20) named ⟨⟨1, 0, 0⟩, ⟨0, 1, 0⟩, ⟨0, 0, 1⟩⟩ (plateTris.map levelTri)
    ⟨1, 0, 0⟩ ⟨0, 0⟩ 5 13 10 (9 / 10) 0 := by
  have hq : seenAt ⟨⟨1, 0, 0⟩, ⟨0, 1, 0⟩, ⟨0, 0, 1⟩⟩ ⟨1, 0, 0⟩ = ⟨1, 0⟩ := by simp [seenAt, V3.mulM, V3.xy]
  have far : ∀ (p : V3 ℤ) (k : ℤ), k ≤ (p.x - 1) * (p.x - 1) + p.y * p.y → (k : ℝ) ≤ dist2 (⟨p.x, p.y⟩ : V2 ℝ) ⟨1, 0⟩ := by
    intro p k h
    rw [plate_far]
    exact_mod_cast h
  refine ⟨⟨by norm_num, by norm_num, (plateCorners.filter (fun p => p.x * p.x + p.y * p.y = 25)).map V3.whole, by decide, ?_⟩, by norm_num, ?_, by norm_num, by norm_num,
    ⟨by norm_num, ?_⟩, ?_, ?_, ?_⟩
  · intro c hc ho
    obtain ⟨p, hp, rfl⟩ := plate_may hc
    rw [seenAt_whole, plate_on] at ho
    exact List.mem_map_of_mem (List.mem_filter.2 ⟨hp, by simpa using ho⟩)
  · rintro c (rfl | hc)
    · rw [hq]; norm_num
    · obtain ⟨p, hp, rfl⟩ := plate_may hc
      obtain ⟨h1, h2, -⟩ := plate_grid p hp
      have h1' : |(p.x : ℝ)| ≤ 8 := by exact_mod_cast h1
      have h2' : |(p.y : ℝ)| ≤ 8 := by exact_mod_cast h2
      rw [seenAt_whole]
      constructor
      · show |(p.x : ℝ)| + _ ≤ _; norm_num at *; linarith
      · show |(p.y : ℝ)| + _ ≤ _; norm_num at *; linarith
  · intro x y z hx hy hz ox oy oz _ _ _ hd
    obtain ⟨d1, d2, d3⟩ := hd hn
    obtain ⟨x, ix, rfl⟩ := plate_may hx
    obtain ⟨y, iy, rfl⟩ := plate_may hy
    obtain ⟨z, iz, rfl⟩ := plate_may hz
    simp only [seenAt_whole, plate_on] at *
    have ne : ∀ a b : V3 ℤ, (⟨a.x, a.y⟩ : V2 ℝ) ≠ ⟨b.x, b.y⟩ → a.plan ≠ b.plan := by
      intro a b h e
      simp only [V3.plan, Prod.mk.injEq] at e
      exact h (by rw [e.1, e.2])
    have := plate_area x ix y iy z iz ox oy oz (ne _ _ d1) (ne _ _ d2) (ne _ _ d3)
    have h2 : (2 : ℝ) ≤ |twiceArea (⟨x.x, x.y⟩ : V2 ℝ) ⟨y.x, y.y⟩ ⟨z.x, z.y⟩| := by
      simp only [twiceArea]
      exact_mod_cast this
    norm_num at *
    linarith
  · simp only [rimErr]; norm_num
  · intro c hc
    obtain ⟨p, hp, rfl⟩ := plate_may hc
    obtain ⟨-, -, h3, -⟩ := plate_grid p hp
    have := far p 16 h3
    rw [seenAt_whole, hq]
    norm_num at *
    linarith
  · have first : ∀ y, MayBeFirst (10 * (2 ^ 4 * (1 / 2 ^ 50))) (1 / 2 ^ 20) ⟨⟨1, 0, 0⟩, ⟨0, 1, 0⟩, ⟨0, 0, 1⟩⟩ (plateTris.map levelTri) y →
        145 ≤ dist2 (seenAt ⟨⟨1, 0, 0⟩, ⟨0, 1, 0⟩, ⟨0, 0, 1⟩⟩ y) ⟨1, 0⟩ := by
      rintro y ⟨hy, hf⟩
      obtain ⟨p, hp, rfl⟩ := plate_may hy
      have h1 := hf _ (plate_must (p := ⟨-8, 8, 0⟩) (by decide))
      rw [seenAt_whole, seenAt_whole] at h1
      rw [seenAt_whole]
      obtain ⟨-, -, -, h3 | h3⟩ := plate_grid p hp
      · exfalso
        have : (-5 : ℝ) ≤ p.x := by exact_mod_cast h3.2.2.2
        norm_num at *
        linarith
      · have := far p 145 h3.2.ge
        exact_mod_cast this
    refine ⟨(⟨5, 0, 5⟩ : V3 ℤ).whole, (⟨4, 3, 5⟩ : V3 ℤ).whole, (⟨4, -3, 5⟩ : V3 ℤ).whole, ?_, ?_, ?_⟩
    · intro x hx
      have : ∃ p ∈ plateCorners, x = p.whole ∧ p.x * p.x + p.y * p.y = 25 ∧ (p.x - 1) * (p.x - 1) + p.y * p.y ≤ 18 := by
        simp only [List.mem_cons, List.not_mem_nil, or_false] at hx
        rcases hx with rfl | rfl | rfl
        · exact ⟨_, by decide, rfl, by decide, by decide⟩
        · exact ⟨_, by decide, rfl, by decide, by decide⟩
        · exact ⟨_, by decide, rfl, by decide, by decide⟩
      obtain ⟨p, hp, rfl, h1, h2⟩ := this
      refine ⟨plate_must hp, by rw [seenAt_whole, plate_on]; exact h1, ?_⟩
      intro y hy
      have h3 := first y hy
      rw [hq, seenAt_whole, plate_far]
      have h2' : (((p.x - 1) * (p.x - 1) + p.y * p.y : ℤ) : ℝ) ≤ 18 := by exact_mod_cast h2
      generalize (((p.x - 1) * (p.x - 1) + p.y * p.y : ℤ) : ℝ) = D at *
      norm_num at *
      linarith
    · simp only [List.pairwise_cons, List.mem_cons, List.not_mem_nil, or_false, forall_eq_or_imp, forall_eq, List.Pairwise.nil, and_true, seenAt_whole, hq, dist2]
      norm_num
    · intro y hy
      obtain ⟨p, hp, rfl⟩ := plate_may hy
      rw [seenAt_whole, plate_on]
      obtain ⟨-, -, -, h3 | h3⟩ := plate_grid p hp
      · exact Or.inl h3.1
      right
      have h4 := far p 145 h3.2.ge
      refine ⟨Or.inr ?_, ?_⟩
      · have : dist2 (⟨p.x, p.y⟩ : V2 ℝ) ⟨0, 0⟩ = ((p.x * p.x + p.y * p.y : ℤ) : ℝ) := by
          simp only [dist2]; push_cast; ring
        rw [this, h3.1]; norm_num
      · intro x hx
        simp only [List.mem_cons, List.not_mem_nil, or_false] at hx
        rcases hx with rfl | rfl | rfl <;> (rw [seenAt_whole, hq]; simp only [dist2] at *; norm_num at *; linarith)

/-- the file read -/
def plateCheck : Bool :=
  match makeLoop (α := X64) (getLines plateText) ⟨V3.zero, [], []⟩ with
  | .ok (some s) => s.facets.all Facet.okB
  | _ => false

theorem plate_check : plateCheck = true := by decide +kernel

/-- A radius of the plate, asked for in a drawing of this file, meets the premises of the theorems. -/
theorem plate_leader (l : ℕ → ℕ) (b : ℕ) : ∃ (file : STLFile F64) (c : _), make plateText = .ok (some file) ∧ Models.Bd 4 [(c!"m", some file)] ∧
    ViewError (R := binary64 .nearest (fun _ => true) (fun _ => true)) [] (1 / 2 ^ 50) ∧
    TameScale (R := binary64 .nearest (fun _ => true) (fun _ => true)) [] ∧ PositiveScale (R := binary64 .nearest (fun _ => true) (fun _ => true)) [] ∧
    content flEnv [(c!"m", some file)] (.draw c!"m" [] [ringRad 1 0 l] b) = .ok c ∧ c.1 = true ∧ AskedView ([] : List (Meta F64)) ⟨⟨1, 0, 0⟩, ⟨0, 1, 0⟩, ⟨0, 0, 1⟩⟩ ∧
    Describes (2 ^ 4) plateText (plateTris.map levelTri) ∧ MustSee (1 / 2 ^ 20) ⟨⟨1, 0, 0⟩, ⟨0, 1, 0⟩, ⟨0, 0, 1⟩⟩ (plateTris.map levelTri) ⟨5, 0, 5⟩ ∧
    HoleAsks flEnv ⟨⟨1, 0, 0⟩, ⟨0, 1, 0⟩, ⟨0, 0, 1⟩⟩ (ringRad 1 0 l) FP.g6 ⟨10, 9, 0⟩ ⟨1, 1, 0⟩ ⟨1, 0, 0⟩ (2 ^ 4) ∧ (10 : ℝ) ≤ 2 ^ 4 ∧
    HoleSeen (10 * (2 ^ 4 * (1 / 2 ^ 50))) (1 / 2 ^ 20) (NamedView ([] : List (Meta F64))) ⟨⟨1, 0, 0⟩, ⟨0, 1, 0⟩, ⟨0, 0, 1⟩⟩ (plateTris.map levelTri) ⟨1, 0, 0⟩ ⟨0, 0⟩ 5 13 10 (9 / 10) 0 := by
  have hc := plate_check
  unfold plateCheck at hc
  split at hc
  · rename_i s hs
    rw [List.all_eq_true] at hc
    obtain ⟨file, hfile, -⟩ := top_file hs hc
    have hsane : SaneFile 4 plateText := saneB_ok _ _ (by decide +kernel)
    have hbd := sane_bd (α := F64) (by norm_num) hsane file hfile
    have hM : Models.Bd 4 [(c!"m", some file)] := by
      intro e he
      simp only [List.mem_singleton] at he
      subst he
      exact ⟨_, rfl, hbd⟩
    obtain ⟨c, hc⟩ := content_bd flEnv insSorter_ok rfl [(c!"m", some file)] (by norm_num) hM (.draw c!"m" [] [ringRad 1 0 l] b) (by simp [Drawable.LocBd]) (by intro m hm; simp at hm)
    obtain ⟨proj, ls, g1, g2, -, g3, -⟩ := turned_bd (n := 4) (by norm_num) flEnv.sorter insSorter_ok _ hbd matZP (viewOf_bd (none : Option (Meta F64)) (by simp) matZP rfl)
    have hD : Drawn flEnv [(c!"m", some file)] c!"m" [] ((1, 1) : Int × Int) matZP _ file proj ls := ⟨by simp, rfl, rfl, rfl, ⟨_, rfl, rfl⟩, g1, by rw [g2]; exact g3⟩
    have hN : NamedView ([] : List (Meta F64)) := by simp [NamedView, look]
    have hH := plate_seen (NamedView ([] : List (Meta F64))) hN
    have hA : HoleAsks flEnv ⟨⟨1, 0, 0⟩, ⟨0, 1, 0⟩, ⟨0, 0, 1⟩⟩ (ringRad 1 0 l) FP.g6 ⟨10, 9, 0⟩ ⟨1, 1, 0⟩ ⟨1, 0, 0⟩ (2 ^ 4) := by
      refine ⟨.inr rfl, ?_, rfl, ⟨_, l 0, rfl, ?_⟩, ⟨_, l 4, rfl, rfl⟩, ⟨_, l 2, rfl, ?_⟩, ⟨by simp only [V3.Within]; norm_num, by simp only [V3.Within]; norm_num⟩,
        ⟨1, by norm_num, by norm_num, by norm_num, Or.inl (by norm_num), by norm_num, small_pow (by norm_num)⟩, by simp [V3.mulM]⟩
      · simp only [ringRad, GoodDim]; rw [exactly_def]; simp
      · have e : (⟨((1 : ℤ) : ℝ) + 9, ((0 : ℤ) : ℝ) + 9, 0⟩ : V3 ℝ) = ⟨10, 9, 0⟩ := by norm_num
        show MetaVal.pt (Pt.val (V3.fin (⟨((1 : ℤ) : ℝ) + 9, ((0 : ℤ) : ℝ) + 9, 0⟩ : V3 ℝ)) (l 0)) = _
        rw [e]
      · have e : (⟨((1 : ℤ) : ℝ), ((0 : ℤ) : ℝ), 0⟩ : V3 ℝ) = ⟨1, 0, 0⟩ := by norm_num
        show MetaVal.pt (Pt.val (V3.fin (⟨((1 : ℤ) : ℝ), ((0 : ℤ) : ℝ), 0⟩ : V3 ℝ)) (l 2)) = _
        rw [e]
    have hm : MustSee (1 / 2 ^ 20) ⟨⟨1, 0, 0⟩, ⟨0, 1, 0⟩, ⟨0, 0, 1⟩⟩ (plateTris.map levelTri) ⟨5, 0, 5⟩ := by
      have := plate_must (p := ⟨5, 0, 5⟩) (by decide)
      simpa [V3.whole] using this
    have hη : ViewError (R := binary64 .nearest (fun _ => true) (fun _ => true)) [] (1 / 2 ^ 50) := Or.inl ⟨hN, rfl⟩
    have hs1 : ∀ a b : Int, scaleOf (look ([] : List (Meta F64)) c!"scale") = .ok (a, b) → (a, b) = ((1, 1) : Int × Int) := by
      intro a b h
      simp only [look, scaleOf] at h
      cases h; rfl
    have hts : TameScale (R := binary64 .nearest (fun _ => true) (fun _ => true)) [] := by
      intro a b h
      cases hs1 a b h; norm_num
    refine ⟨file, c, hfile, hM, hη, hts, ?_, hc, ?_, asked_top, plate_described, hm, hA, by norm_num, hH⟩
    · intro a b h
      cases hs1 a b h; norm_num
    · refine C94_accepted _ _ _ flEnv insSorter_ok rfl _ (by norm_num) hM _ [] (by simp) (by simp) ?_ (1 / 2 ^ 50) hη hts _ _ c hc _ _ _ _ _ _ hD _ asked_top
        _ _ hfile plate_described ?_
      · intro m hm; simp at hm
      · intro d hd
        simp only [List.mem_singleton] at hd
        subst hd
        exact ⟨_, _, _, _, _, _, _, _, _, _, hA, by norm_num, hH⟩
  · simp at hc

end S2P
