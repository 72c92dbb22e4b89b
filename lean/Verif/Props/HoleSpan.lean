import Verif.Props.HoleFile

set_option linter.unusedSectionVars false
set_option linter.unusedVariables false
set_option linter.unusedSimpArgs false

/-! # C95: distances from the centres of holes that a model file describes, in double arithmetic -/

namespace S2P

section
variable (I : IntRounding) (range64 range32 : ℚ → Bool)

/-- **C95.** In IEEE 754 double arithmetic, whatever the direction of rounding: take a drawing that succeeds, of a model whose file describes triangles `us`.  A linear dimension
of it, along a literal direction square to the line of sight, each of whose three points is literal, or a corner picked beyond doubt by `near`, or the `center` of a circle that the
corners seen in the view asked for clearly show, gives one label, centred at the place given, with the distance, along the direction, of the places where the two other points are
seen, and, if the distance is not too small for the size of the drawing, the eight strokes of a dimension between them. -/
theorem C95_strokes (E : Env (Fl (binary64 I range64 range32))) (hS : SortOK E.sorter) (hJ : E.junkM = ⟨V3.zero, V3.zero, V3.zero⟩)
    (stl : Models (Fl (binary64 I range64 range32))) {n : ℕ} (hn : n ≤ 40) (hM : stl.Bd n) (name : Str)
    (ms : List (Meta (Fl (binary64 I range64 range32)))) (hf : ∀ m ∈ ms, m.val.LocBd) (η : ℝ) (hη : ViewError ms η)
    (hs : TameScale ms) (hpos : PositiveScale ms) (dims : List (DimN (Fl (binary64 I range64 range32)))) (line : Nat) (c)
    (h : content E stl (.draw name ms dims line) = .ok c) (hc : c.1 = true)
    (file) (hfile : ∃ e, stl.find? (fun e => decide (e.1 = name)) = some e ∧ e.2 = some file) (r : M3 ℝ) (hr : AskedView ms r)
    (text us) (hmk : make text = .ok (some file)) (hde : Describes (2 ^ n) text us) (hsee : ∃ c, MustSee (1 / 2 ^ 20) r us c) :
    ∃ ts k p off, NearlySeen r file ts (1 / 2 ^ 37) ∧ NearlyProjects file ms ts k p off (inkError (2 ^ n) k p) ∧
      ∀ d ∈ dims, ∀ u g a f t εa εf εt, SpanAsks E (NamedView ms) r us (2 ^ n) η d u g a f t εa εf εt →
        ∃ b : OutPage (Fl (binary64 I range64 range32)), b.lines <:+: c.2.1.lines ∧ b.text <:+: c.2.1.text ∧ SpanDone (2 ^ n) η r k p off u g a f t εa εf εt b := by
  obtain ⟨file', r', ts, k, p, off, own, blocks, ⟨e, e1, e2⟩, d1, d2, d3, d4, d5, d6, d7, dl, d8⟩ :=
    C94_strokes I range64 range32 E hS hJ stl hn hM name ms hf η hη hs hpos dims line c h hc
  obtain rfl := askedView_unique hr d1
  obtain ⟨e', e1', e2'⟩ := hfile
  rw [e1] at e1'
  cases e1'
  rw [e2] at e2'
  cases e2'
  refine ⟨ts, k, p, off, d3, d4, ?_⟩
  intro d hd u g a f t εa εf εt hA
  obtain ⟨b, hb, hdone⟩ := forall₂_left_mem ((d8 text us hmk hde).2 hsee) hd
  refine ⟨b, ?_, ?_, hdone.2.2.2.1 _ _ _ _ _ _ _ _ hA⟩
  · rw [d5]
    exact (List.infix_of_mem_flatten (List.mem_map.2 ⟨b, hb, rfl⟩)).trans (List.suffix_append _ _).isInfix
  · rw [d6]
    exact List.infix_of_mem_flatten (List.mem_map.2 ⟨b, hb, rfl⟩)

/-- **C95, accepted**: a drawing of such a model, each of whose dimensions is such a linear dimension, or an angle not too flat with literal points and legs square to the line of
sight, or a radius or diameter with literal points where the corners show a circle, is not refused. -/
theorem C95_accepted (E : Env (Fl (binary64 I range64 range32))) (hS : SortOK E.sorter) (hJ : E.junkM = ⟨V3.zero, V3.zero, V3.zero⟩)
    (stl : Models (Fl (binary64 I range64 range32))) {n : ℕ} (hn : n ≤ 40) (hM : stl.Bd n) (name : Str)
    (ms : List (Meta (Fl (binary64 I range64 range32)))) (hf : ∀ m ∈ ms, m.val.LocBd) (hnames : ∀ m ∈ ms, m.name ∈ [c!"scale", c!"view", c!"@"])
    (hat : AtLoc ms) (η : ℝ) (hη : ViewError ms η)
    (hs : TameScale ms) (hpos : PositiveScale ms) (dims : List (DimN (Fl (binary64 I range64 range32)))) (line : Nat) (c) (h : content E stl (.draw name ms dims line) = .ok c)
    (sc rot loc file proj ls) (hD : Drawn E stl name ms sc rot loc file proj ls) (r : M3 ℝ) (hr : AskedView ms r)
    (text us) (hmk : make text = .ok (some file)) (hde : Describes (2 ^ n) text us) (hsee : ∃ c, MustSee (1 / 2 ^ 20) r us c)
    (hh : ∀ d ∈ dims, (∃ u g a f t εa εf εt, SpanAsks E (NamedView ms) r us (2 ^ n) η d u g a f t εa εf εt) ∨
      (∃ a x u w f t g K, AngleAsks E d r a x u w f t g K (2 ^ n) ∧ GoodDim d.kind d.metas ∧ 2 ^ 28 * (K * η) ≤ Real.sin (angleBetween u w) ^ 2) ∨
      ∃ g a u q m ρ N B A s, HoleAsks E r d g a u q (2 ^ n) ∧ B ≤ 2 ^ n ∧ HoleSeen (10 * (2 ^ n * η)) (1 / 2 ^ 20) (NamedView ms) r us q m ρ N B A s) :
    c.1 = true := by
  have hR := binary64_accurate I range64 range32
  obtain ⟨r', kept, k, p, off, F, hfine, hnear⟩ := spots_frame I range64 range32 E hS hJ stl hn hM name ms hf hnames hat η hη hs sc rot loc file proj ls hD
  obtain rfl := askedView_unique hr F.asked
  have hus := described_stored hR ⟨one_le_pow₀ (by norm_num), pow_le_pow_right₀ (by norm_num) hn⟩ hde hmk
  rcases draw_sum E stl name ms dims line c h with ⟨-, -, -, h1⟩ | ⟨sc', rot', loc', file', proj', ls', cs, hD', hcs, hp, hok, -⟩
  · exact absurd ⟨_, _, _, _, _, _, hD⟩ h1
  obtain ⟨rfl, rfl, rfl, rfl, rfl, rfl⟩ := drawn_unique hD hD'
  have hj : (drawStart (initVis E) sc rot loc proj.cull ls).rotation.eqv E.junkM = false := by rw [hJ]; exact F.viewBd.2.2.2
  have hpts : (drawStart (initVis E) sc rot loc proj.cull ls).points = proj.points := by
    show proj.cull.points = _
    rw [F.culled]
  have hne : kept ≠ [] := by
    rintro rfl
    obtain ⟨q, t, ht, hz, -⟩ := hsee
    obtain ⟨f, hf, hst⟩ := forall₂_right hus t ht
    obtain ⟨hb, hd⟩ := stored_faces hR F.rotation hst
    refine List.not_mem_nil ((F.keptIff f hf hb).1 ?_)
    have := (abs_le.1 hd).1
    norm_num at this hz ⊢
    linarith
  have hk1 := scale_positive F.placed hs hpos
  refine hok.2 ⟨?_, hnames⟩
  intro k' hk
  obtain ⟨d, hd, hdk⟩ := forall₂_right hcs k' hk
  rcases hh d hd with ⟨u, g, a, f, t, εa, εf, εt, hA⟩ | ⟨a, x, u, w, f, t, g, K, hA, hg, hflat⟩ | ⟨g, a, u, q, m, ρ, N, B, A, s, hA, hB, hH⟩
  · obtain ⟨P, L, e1, -⟩ := span_meant hR hn F hus hfine hnear hk1 hne (v := drawStart (initVis E) sc rot loc proj.cull ls) rfl hpts rfl (by rw [F.culled]; rfl) hj hA
    rw [hdk] at e1
    injection e1 with e1
    rw [e1]
  · obtain ⟨P, L, e1, -⟩ := angle_meant hR hn F hfine hnear hk1 hne (v := drawStart (initVis E) sc rot loc proj.cull ls) rfl rfl (by rw [F.culled]; rfl) hj hg hA hflat
    rw [hdk] at e1
    injection e1 with e1
    rw [e1]
  · obtain ⟨P, L, e1, -⟩ := round_meant hR hn F hfine hnear hk1 hne (v := drawStart (initVis E) sc rot loc proj.cull ls) rfl rfl (by rw [F.culled]; rfl) hj
      (hole_asks hR hn F hus hfine hnear hA hB hH)
    rw [hdk] at e1
    injection e1 with e1
    rw [e1]

/-- **C95**, of a run: if a conversion succeeds, the output is written from pages that have, for each drawing and each such dimension of it, the label and the strokes. -/
theorem C95_run (E : Env (Fl (binary64 I range64 range32))) (hS : SortOK E.sorter) (hJ : E.junkM = ⟨V3.zero, V3.zero, V3.zero⟩)
    (w : World) (src script : Str) {n : ℕ} (hn : n ≤ 40) (r : RunRes) (h : scriptToPS E w src script = .ok r) (hok : r.ok = true)
    (hw : ∀ doc : Doc (Fl (binary64 I range64 range32)), parse script = .ok (some doc) → SaneModels n E.loadPath w doc.models)
    (hd : ∀ doc : Doc (Fl (binary64 I range64 range32)), parse script = .ok (some doc) → ∀ pg ∈ doc.pages, ∀ name ms dims line,
      Drawable.draw name ms dims line ∈ pg.draws → TameScale ms ∧ PositiveScale ms) :
    ∃ (doc : Doc (Fl (binary64 I range64 range32))) (outs : List (OutPage (Fl (binary64 I range64 range32)))),
      parse script = .ok (some doc) ∧ r.out = renderPages E src outs ∧
      List.Forall₂ (fun pg o => ∀ name ms dims line, Drawable.draw name ms dims line ∈ pg.draws → ∀ η, ViewError ms η →
        ∃ m ∈ doc.models, ∃ text ps file v ts k p off,
          m.name = name ∧ Places E.loadPath m.source ps ∧ FoundAt w ps text ∧ make text = .ok (some file) ∧
          AskedView ms v ∧ IsRotation v ∧ NearlySeen v file ts (1 / 2 ^ 37) ∧ NearlyProjects file ms ts k p off (inkError (2 ^ n) k p) ∧
          ∀ us, Describes (2 ^ n) text us → (∃ c, MustSee (1 / 2 ^ 20) v us c) →
            ∀ d ∈ dims, ∀ u g a f t εa εf εt, SpanAsks E (NamedView ms) v us (2 ^ n) η d u g a f t εa εf εt →
              ∃ b : OutPage (Fl (binary64 I range64 range32)), b.lines <:+: o.lines ∧ b.text <:+: o.text ∧ SpanDone (2 ^ n) η v k p off u g a f t εa εf εt b) doc.pages outs := by
  obtain ⟨doc, outs, h1, h2, h3⟩ := C94_run I range64 range32 E hS hJ w src script hn r h hok hw hd
  refine ⟨doc, outs, h1, h2, h3.imp ?_⟩
  intro pg o hpo name ms dims line hdm η hη
  obtain ⟨m, hm, text, ps, file, v, ts, k, p, off, own, blocks, q1, q2, q3, q4, q5, q6, q7, q8, q9, q10, -, -, q12⟩ := hpo name ms dims line hdm η hη
  refine ⟨m, hm, text, ps, file, v, ts, k, p, off, q1, q2, q3, q4, q5, q6, q7, q8, ?_⟩
  intro us hus hsee d hdd u g a f t εa εf εt hA
  obtain ⟨b, hb, hdone⟩ := forall₂_left_mem ((q12 us hus).2 hsee) hdd
  refine ⟨b, ?_, ?_, hdone.2.2.2.1 _ _ _ _ _ _ _ _ hA⟩
  · exact ((List.infix_of_mem_flatten (List.mem_map.2 ⟨b, hb, rfl⟩)).trans (List.suffix_append _ _).isInfix).trans q9
  · exact (List.infix_of_mem_flatten (List.mem_map.2 ⟨b, hb, rfl⟩)).trans q10

end

/-! ## The premises occur -/

/-- from the centre of the plate, given roughly, to the corner of the floor at (-8, 8) -/
noncomputable def plateSpan (l : ℕ → ℕ) : DimN F64 :=
  ⟨.dim, [⟨c!"at", .pt (.val ((⟨-4, 10, 0⟩ : V3 ℝ).fin : V3 (Ext ℝ)) (l 0)), l 1⟩, ⟨c!"dir", .pt (.val ((⟨2, 0, 0⟩ : V3 ℝ).fin : V3 (Ext ℝ)) (l 2)), l 3⟩,
    ⟨c!"from", .pt (.func c!"center" (.val ((⟨1, 0, 0⟩ : V3 ℝ).fin : V3 (Ext ℝ)) (l 4)) (l 5)), l 6⟩,
    ⟨c!"to", .pt (.func c!"near" (.val ((⟨-8, 8, 0⟩ : V3 ℝ).fin : V3 (Ext ℝ)) (l 7)) (l 8)), l 9⟩], l 10⟩

theorem plate_near : ∀ p ∈ plateCorners, p = ⟨-8, 8, 0⟩ ∨ 2 ≤ (p.x + 8) * (p.x + 8) + (p.y - 8) * (p.y - 8) := by decide

theorem plate_span (l : ℕ → ℕ) : SpanAsks flEnv (NamedView ([] : List (Meta F64))) ⟨⟨1, 0, 0⟩, ⟨0, 1, 0⟩, ⟨0, 0, 1⟩⟩ (plateTris.map levelTri) (2 ^ 4) (1 / 2 ^ 50) (plateSpan l)
    ⟨2, 0, 0⟩ FP.g6 ⟨-4, 10⟩ ⟨0, 0⟩ ⟨-8, 8⟩ (2 * (2 ^ 4 * (1 / 2 ^ 50))) (rimErr (13 : ℕ) 10 (9 / 10) (0 + 4 * (10 * (10 * (2 ^ 4 * (1 / 2 ^ 50)))))) (2 * (2 ^ 4 * (1 / 2 ^ 50))) := by
  have e1 : seenAt ⟨⟨1, 0, 0⟩, ⟨0, 1, 0⟩, ⟨0, 0, 1⟩⟩ (⟨-4, 10, 0⟩ : V3 ℝ) = ⟨-4, 10⟩ := by simp [seenAt, V3.mulM, V3.xy]
  have e2 : seenAt ⟨⟨1, 0, 0⟩, ⟨0, 1, 0⟩, ⟨0, 0, 1⟩⟩ (⟨-8, 8, 0⟩ : V3 ℝ) = ⟨-8, 8⟩ := by simp [seenAt, V3.mulM, V3.xy]
  refine ⟨rfl, ?_, rfl, ⟨_, _, rfl, rfl⟩, ⟨_, flDim_largest⟩, by simp [V3.mulM], ?_, ?_, ?_⟩
  · simp only [plateSpan, GoodDim]; rw [exactly_def]; simp
  · rw [← e1]
    exact .corner ⟨-4, 10, 0⟩ ⟨⟨-4, 10, 0⟩, by simp [V3.Within]; norm_num, Or.inl ⟨_, _, rfl, rfl⟩⟩ (Or.inl ⟨_, _, rfl, rfl⟩)
  · exact .centre ⟨1, 0, 0⟩ _ _ _ _ 5 13 10 (9 / 10) 0 rfl (by simp [V3.Within]; norm_num) (by norm_num) (plate_seen _ (by simp [NamedView, look]))
  · rw [← e2]
    have hw : (⟨-8, 8, 0⟩ : V3 ℝ) = (⟨-8, 8, 0⟩ : V3 ℤ).whole := by simp [V3.whole]
    refine .corner ⟨-8, 8, 0⟩ ⟨⟨-8, 8, 0⟩, by simp [V3.Within]; norm_num, Or.inr ⟨_, _, _, rfl, rfl⟩⟩ (Or.inr ⟨⟨-8, 8, 0⟩, ⟨_, _, _, rfl, rfl⟩, by rw [hw]; exact plate_must (by decide), ?_⟩)
    intro c' hc'
    obtain ⟨p, hp, rfl⟩ := plate_may hc'
    rcases plate_near p hp with rfl | h
    · left; rw [hw]
    · right
      have h' : (2 : ℝ) ≤ (p.x + 8) * (p.x + 8) + (p.y - 8) * (p.y - 8) := by exact_mod_cast h
      simp only [seenDist2, pageDist2]
      simp [V3.mulM, V3.xy, V3.whole]
      norm_num
      nlinarith

theorem g6_short4 {R : Rounding} : ShortLabels (R := R) FP.g6 (2 ^ 4) := by
  intro y h1 h2
  norm_num at h1 h2
  have hy : 0 < y := by linarith
  show (Ext.show6 y).length ≤ 64
  unfold Ext.show6
  rw [if_neg hy.ne', if_pos hy]
  show (Ext.layout6 (Ext.sixDigits y).1 (Ext.sixDigits y).2).length ≤ 64
  have e1 : -3 ≤ Int.log 10 y := by
    rw [← Int.zpow_le_iff_le_log (by norm_num) hy]
    norm_num; linarith
  have e2 : Int.log 10 y < 2 := by
    rw [← Int.lt_zpow_iff_log_lt (by norm_num) hy]
    norm_num; linarith
  have e3 : -3 ≤ (Ext.sixDigits y).1 ∧ (Ext.sixDigits y).1 ≤ 2 := by
    unfold Ext.sixDigits
    dsimp only
    split_ifs <;> constructor <;> dsimp only <;> omega
  obtain ⟨m1, m2, -⟩ := PS.sixDigits_spec y hy
  have hd := (PS.natDigits_spec (Ext.sixDigits y).2).2.2.2 5 (by omega) (by omega)
  generalize (Ext.sixDigits y).1 = e at *
  generalize (Ext.sixDigits y).2 = m at *
  obtain ⟨z, hz⟩ := PS.dropZeros_spec (Ext.natDigits m)
  have hl : (Ext.dropZeros (Ext.natDigits m)).length ≤ 6 := by
    have := congrArg List.length hz
    simp at this
    omega
  simp only [Ext.layout6]
  generalize Ext.dropZeros (Ext.natDigits m) = ds at *
  rw [if_pos (by omega)]
  split_ifs
  · simp; omega
  · simp; omega
  · simp; omega

theorem plate_eight : spanAlong ⟨⟨1, 0, 0⟩, ⟨0, 1, 0⟩, ⟨0, 0, 1⟩⟩ ⟨2, 0, 0⟩ ⟨0, 0⟩ ⟨-8, 8⟩ = 8 := by
  have hlen : len3 (⟨2, 0, 0⟩ : V3 ℝ) = 2 := by
    simp only [len3]
    rw [show (2 ^ 2 + 0 ^ 2 + 0 ^ 2 : ℝ) = 2 ^ 2 by norm_num]
    exact Real.sqrt_sq (by norm_num)
  rw [spanAlong, hlen]
  norm_num [V3.mulM, V3.xy, V2.dot, seenAt]

/-- The drawing of this plate from above with this dimension and a radius of the plate is accepted; the linear dimension shows 8, but for 10^-3, and has its eight strokes. -/
theorem plate_spanned (l : ℕ → ℕ) (b : ℕ) : ∃ (file : STLFile F64) (c : _), make plateText = .ok (some file) ∧
    content flEnv [(c!"m", some file)] (.draw c!"m" [] [plateSpan l, ringRad 1 0 l] b) = .ok c ∧ c.1 = true ∧
    ∃ blk : OutPage F64, blk.lines <:+: c.2.1.lines ∧ blk.text <:+: c.2.1.text ∧
      (∃ (q : V2 F64) (x : F64), blk.text = [⟨q, FP.g6 x, true, false⟩] ∧ Fl.Near x 8 (1 / 10 ^ 3)) ∧ blk.lines.length = 8 := by
  obtain ⟨file, -, hfile, hM, hη, hts, hps, -, -, hask, hde, hm, hA, h10, hH⟩ := plate_leader l b
  have hbd' : file.Bd 4 := by
    obtain ⟨f, e, h⟩ := hM _ (List.mem_singleton_self _)
    cases e
    exact h
  obtain ⟨c, hc⟩ := content_bd flEnv insSorter_ok rfl [(c!"m", some file)] (by norm_num) hM (.draw c!"m" [] [plateSpan l, ringRad 1 0 l] b) (by simp [Drawable.LocBd]) (by intro m hm; simp at hm)
  obtain ⟨proj, ls, g1, g2, -, g3, -⟩ := turned_bd (n := 4) (by norm_num) flEnv.sorter insSorter_ok _ hbd' matZP (viewOf_bd (none : Option (Meta F64)) (by simp) matZP rfl)
  have hD : Drawn flEnv [(c!"m", some file)] c!"m" [] ((1, 1) : Int × Int) matZP _ file proj ls := ⟨by simp, rfl, rfl, rfl, ⟨_, rfl, rfl⟩, g1, by rw [g2]; exact g3⟩
  have hok : c.1 = true := by
    refine C95_accepted _ _ _ flEnv insSorter_ok rfl _ (by norm_num) hM _ [] (by simp) (by simp) (by intro m hm; simp at hm) (1 / 2 ^ 50) hη hts hps _ _ c hc _ _ _ _ _ _ hD _ hask
      _ _ hfile hde ⟨_, hm⟩ ?_
    intro d hd
    simp only [List.mem_cons, List.not_mem_nil, or_false] at hd
    rcases hd with rfl | rfl
    · exact Or.inl ⟨_, _, _, _, _, _, _, _, plate_span l⟩
    · exact Or.inr (Or.inr ⟨_, _, _, _, _, _, _, _, _, _, hA, h10, hH⟩)
  obtain ⟨ts, k, p, off, -, -, hall⟩ := C95_strokes _ _ _ flEnv insSorter_ok rfl _ (by norm_num) hM _ [] (by simp) (1 / 2 ^ 50) hη hts hps _ _ c hc hok file ⟨_, rfl, rfl⟩ _ hask _ _ hfile hde ⟨_, hm⟩
  obtain ⟨blk, b1, b2, -, q, x, b4, b5, -, b7⟩ := hall (plateSpan l) (by simp) _ _ _ _ _ _ _ _ (plate_span l)
  rw [plate_eight] at b5 b7
  refine ⟨file, c, hfile, hc, hok, blk, b1, b2, ⟨q, x, b4, b5.mono ?_⟩, ?_⟩
  · unfold rimErr; norm_num
  · obtain ⟨G, -, fits, σf, σt, -, -, -, -, hF⟩ := b7 g6_short4 (by unfold rimErr; norm_num) ⟨-1, 0⟩
      ⟨by norm_num [V2.dot], ⟨-2, by simp [seenAt, V3.mulM, V3.xy, V2.smul]⟩, by norm_num [V2.dot]⟩
    rw [hF.length_eq]
    cases fits <;> simp [strokesOf]

end S2P
