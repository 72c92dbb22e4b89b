import Verif.Props.HoleSpan
import Verif.Lemmas.DimPaper

set_option linter.unusedSectionVars false
set_option linter.unusedVariables false
set_option linter.unusedSimpArgs false

/-! # C96: angles between lines through the centres of round parts that a model file describes, in double arithmetic -/

namespace S2P

section
variable (I : IntRounding) (range64 range32 : ℚ → Bool)

/-- **C96.** In IEEE 754 double arithmetic, whatever the direction of rounding: take a drawing that succeeds, of a model whose file describes triangles `us`.  An angle of it,
whose apex is the `center` of a circle that the corners seen in the view asked for clearly show, or a literal point at depth 0 of the view, or a corner picked by `near` beyond doubt, and each of whose legs goes through
such a point or is along a literal direction square to the line of sight, gives one label, centred at the place given, with the angle, and the six strokes and the arc; all this with
the centres off by no more than the error of the fit.  The legs must not be too short and the angle not too flat. -/
theorem C96_strokes (E : Env (Fl (binary64 I range64 range32))) (hS : SortOK E.sorter) (hJ : E.junkM = ⟨V3.zero, V3.zero, V3.zero⟩)
    (stl : Models (Fl (binary64 I range64 range32))) {n : ℕ} (hn : n ≤ 40) (hM : stl.Bd n) (name : Str)
    (ms : List (Meta (Fl (binary64 I range64 range32)))) (hf : ∀ m ∈ ms, m.val.LocBd) (η : ℝ) (hη : ViewError ms η)
    (hs : TameScale ms) (hpos : PositiveScale ms) (dims : List (DimN (Fl (binary64 I range64 range32)))) (line : Nat) (c)
    (h : content E stl (.draw name ms dims line) = .ok c) (hc : c.1 = true)
    (file) (hfile : ∃ e, stl.find? (fun e => decide (e.1 = name)) = some e ∧ e.2 = some file) (r : M3 ℝ) (hr : AskedView ms r)
    (text us) (hmk : make text = .ok (some file)) (hde : Describes (2 ^ n) text us) (hsee : ∃ c, MustSee (1 / 2 ^ 20) r us c) :
    ∃ ts k p off, NearlySeen r file ts (1 / 2 ^ 37) ∧ NearlyProjects file ms ts k p off (inkError (2 ^ n) k p) ∧
      ∀ d ∈ dims, ∀ g a x εx l l' K, TurnAsks E (NamedView ms) r us (2 ^ n) η d g a x εx l l' K →
        ∃ b : OutPage (Fl (binary64 I range64 range32)), b.lines <:+: c.2.1.lines ∧ b.text <:+: c.2.1.text ∧ b.arcs <:+: c.2.1.arcs ∧ TurnDone (2 ^ n) η r k p off g a x εx l l' K b := by
  obtain ⟨file', r', ts, k, p, off, own, blocks, ⟨e, e1, e2⟩, d1, d2, d3, d4, d5, d6, d7, dl, d8⟩ :=
    C94_strokes I range64 range32 E hS hJ stl hn hM name ms hf η hη hs hpos dims line c h hc
  obtain rfl := askedView_unique hr d1
  obtain ⟨e', e1', e2'⟩ := hfile
  rw [e1] at e1'
  cases e1'
  rw [e2] at e2'
  cases e2'
  refine ⟨ts, k, p, off, d3, d4, ?_⟩
  intro d hd g a x εx l l' K hA
  obtain ⟨b, hb, hdone⟩ := forall₂_left_mem ((d8 text us hmk hde).2 hsee) hd
  refine ⟨b, ?_, ?_, ?_, hdone.2.2.2.2 _ _ _ _ _ _ _ hA⟩
  · rw [d5]
    exact (List.infix_of_mem_flatten (List.mem_map.2 ⟨b, hb, rfl⟩)).trans (List.suffix_append _ _).isInfix
  · rw [d6]
    exact List.infix_of_mem_flatten (List.mem_map.2 ⟨b, hb, rfl⟩)
  · rw [d7]
    exact List.infix_of_mem_flatten (List.mem_map.2 ⟨b, hb, rfl⟩)

/-- **C96, accepted**: a drawing of such a model, each of whose dimensions is such an angle, or a linear dimension between places that the body clearly shows, or an angle not too flat with literal points and legs square to the line of
sight, or a radius or diameter with literal points where the corners show a circle, is not refused. -/
theorem C96_accepted (E : Env (Fl (binary64 I range64 range32))) (hS : SortOK E.sorter) (hJ : E.junkM = ⟨V3.zero, V3.zero, V3.zero⟩)
    (stl : Models (Fl (binary64 I range64 range32))) {n : ℕ} (hn : n ≤ 40) (hM : stl.Bd n) (name : Str)
    (ms : List (Meta (Fl (binary64 I range64 range32)))) (hf : ∀ m ∈ ms, m.val.LocBd) (hnames : ∀ m ∈ ms, m.name ∈ [c!"scale", c!"view", c!"@"])
    (hat : AtLoc ms) (η : ℝ) (hη : ViewError ms η)
    (hs : TameScale ms) (hpos : PositiveScale ms) (dims : List (DimN (Fl (binary64 I range64 range32)))) (line : Nat) (c) (h : content E stl (.draw name ms dims line) = .ok c)
    (sc rot loc file proj ls) (hD : Drawn E stl name ms sc rot loc file proj ls) (r : M3 ℝ) (hr : AskedView ms r)
    (text us) (hmk : make text = .ok (some file)) (hde : Describes (2 ^ n) text us) (hsee : ∃ c, MustSee (1 / 2 ^ 20) r us c)
    (hh : ∀ d ∈ dims, (∃ g a x εx l l' K, TurnAsks E (NamedView ms) r us (2 ^ n) η d g a x εx l l' K) ∨ (∃ u g a f t εa εf εt, SpanAsks E (NamedView ms) r us (2 ^ n) η d u g a f t εa εf εt) ∨
      (∃ a x u w f t g K, AngleAsks E d r a x u w f t g K (2 ^ n) ∧ GoodDim d.kind d.metas ∧ 2 ^ 28 * (K * η) ≤ Real.sin (angleBetween u w) ^ 2) ∨
      ∃ g a u q m ρ N B A s, HoleAsks E r d g a u q (2 ^ n) ∧ B ≤ 2 ^ n ∧ HoleSeen (10 * (2 ^ n * η)) (1 / 2 ^ 20) (NamedView ms) r us q m ρ N B A s) :
    c.1 = true := by
  have hR := binary64_accurate I range64 range32
  obtain ⟨r', kept, k, p, off, F, hfine, hnear⟩ := spots_frame I range64 range32 E hS hJ stl hn hM name ms hf hnames hat η hη hs sc rot loc file proj ls hD
  obtain rfl := askedView_unique hr F.asked
  have hus := described_stored hR ⟨one_le_pow₀ (by norm_num), pow_le_pow_right₀ (by norm_num) hn⟩ hde hmk
  rcases draw_sum E stl name ms dims line c h with ⟨-, -, -, h1⟩ | ⟨sc', rot', loc', file', proj', ls', cs, hD', hcs, hp, hok, -⟩
  · exact absurd ⟨_, _, _, _, _, _, hD⟩ h1
  obtain ⟨rfl, rfl, rfl, rfl, rfl, rfl⟩ := drawn_unique hD hD'
  have hj : (drawStart (initVis E) sc rot loc proj.cull ls).rotation.eqv E.junkM = false := by rw [hJ]; exact F.viewBd.2.2.2
  have hpts : (drawStart (initVis E) sc rot loc proj.cull ls).points = proj.points := by
    show proj.cull.points = _
    rw [F.culled]
  have hne : kept ≠ [] := by
    rintro rfl
    obtain ⟨q, t, ht, hz, -⟩ := hsee
    obtain ⟨f, hf, hst⟩ := forall₂_right hus t ht
    obtain ⟨hb, hd⟩ := stored_faces hR F.rotation hst
    refine List.not_mem_nil ((F.keptIff f hf hb).1 ?_)
    have := (abs_le.1 hd).1
    norm_num at this hz ⊢
    linarith
  have hk1 := scale_positive F.placed hs hpos
  refine hok.2 ⟨?_, hnames⟩
  intro k' hk
  obtain ⟨d, hd, hdk⟩ := forall₂_right hcs k' hk
  rcases hh d hd with ⟨g, a, x, εx, l, l', K, hA⟩ | ⟨u, g, a, f, t, εa, εf, εt, hA⟩ | ⟨a, x, u, w, f, t, g, K, hA, hg, hflat⟩ | ⟨g, a, u, q, m, ρ, N, B, A, s, hA, hB, hH⟩
  · obtain ⟨P, L, e1, -⟩ := turn_meant hR hn F hus hfine hnear hk1 hne (v := drawStart (initVis E) sc rot loc proj.cull ls) rfl hpts rfl (by rw [F.culled]; rfl) hj hA
    rw [hdk] at e1
    injection e1 with e1
    rw [e1]
  · obtain ⟨P, L, e1, -⟩ := span_meant hR hn F hus hfine hnear hk1 hne (v := drawStart (initVis E) sc rot loc proj.cull ls) rfl hpts rfl (by rw [F.culled]; rfl) hj hA
    rw [hdk] at e1
    injection e1 with e1
    rw [e1]
  · obtain ⟨P, L, e1, -⟩ := angle_meant hR hn F hfine hnear hk1 hne (v := drawStart (initVis E) sc rot loc proj.cull ls) rfl rfl (by rw [F.culled]; rfl) hj hg hA hflat
    rw [hdk] at e1
    injection e1 with e1
    rw [e1]
  · obtain ⟨P, L, e1, -⟩ := round_meant hR hn F hfine hnear hk1 hne (v := drawStart (initVis E) sc rot loc proj.cull ls) rfl rfl (by rw [F.culled]; rfl) hj
      (hole_asks hR hn F hus hfine hnear hA hB hH)
    rw [hdk] at e1
    injection e1 with e1
    rw [e1]

/-- **C96**, of a run: if a conversion succeeds, the output is written from pages that have, for each drawing and each such dimension of it, the label, the strokes and the arc. -/
theorem C96_run (E : Env (Fl (binary64 I range64 range32))) (hS : SortOK E.sorter) (hJ : E.junkM = ⟨V3.zero, V3.zero, V3.zero⟩)
    (w : World) (src script : Str) {n : ℕ} (hn : n ≤ 40) (r : RunRes) (h : scriptToPS E w src script = .ok r) (hok : r.ok = true)
    (hw : ∀ doc : Doc (Fl (binary64 I range64 range32)), parse script = .ok (some doc) → SaneModels n E.loadPath w doc.models)
    (hd : ∀ doc : Doc (Fl (binary64 I range64 range32)), parse script = .ok (some doc) → ∀ pg ∈ doc.pages, ∀ name ms dims line,
      Drawable.draw name ms dims line ∈ pg.draws → TameScale ms ∧ PositiveScale ms) :
    ∃ (doc : Doc (Fl (binary64 I range64 range32))) (outs : List (OutPage (Fl (binary64 I range64 range32)))),
      parse script = .ok (some doc) ∧ r.out = renderPages E src outs ∧
      List.Forall₂ (fun pg o => ∀ name ms dims line, Drawable.draw name ms dims line ∈ pg.draws → ∀ η, ViewError ms η →
        ∃ m ∈ doc.models, ∃ text ps file v ts k p off,
          m.name = name ∧ Places E.loadPath m.source ps ∧ FoundAt w ps text ∧ make text = .ok (some file) ∧
          AskedView ms v ∧ IsRotation v ∧ NearlySeen v file ts (1 / 2 ^ 37) ∧ NearlyProjects file ms ts k p off (inkError (2 ^ n) k p) ∧
          ∀ us, Describes (2 ^ n) text us → (∃ c, MustSee (1 / 2 ^ 20) v us c) →
            ∀ d ∈ dims, ∀ g a x εx l l' K, TurnAsks E (NamedView ms) v us (2 ^ n) η d g a x εx l l' K →
              ∃ b : OutPage (Fl (binary64 I range64 range32)), b.lines <:+: o.lines ∧ b.text <:+: o.text ∧ b.arcs <:+: o.arcs ∧ TurnDone (2 ^ n) η v k p off g a x εx l l' K b) doc.pages outs := by
  obtain ⟨doc, outs, h1, h2, h3⟩ := C94_run I range64 range32 E hS hJ w src script hn r h hok hw hd
  refine ⟨doc, outs, h1, h2, h3.imp ?_⟩
  intro pg o hpo name ms dims line hdm η hη
  obtain ⟨m, hm, text, ps, file, v, ts, k, p, off, own, blocks, q1, q2, q3, q4, q5, q6, q7, q8, q9, q10, q11, -, q12⟩ := hpo name ms dims line hdm η hη
  refine ⟨m, hm, text, ps, file, v, ts, k, p, off, q1, q2, q3, q4, q5, q6, q7, q8, ?_⟩
  intro us hus hsee d hdd g a x εx l l' K hA
  obtain ⟨b, hb, hdone⟩ := forall₂_left_mem ((q12 us hus).2 hsee) hdd
  refine ⟨b, ?_, ?_, ?_, hdone.2.2.2.2 _ _ _ _ _ _ _ hA⟩
  · exact ((List.infix_of_mem_flatten (List.mem_map.2 ⟨b, hb, rfl⟩)).trans (List.suffix_append _ _).isInfix).trans q9
  · exact (List.infix_of_mem_flatten (List.mem_map.2 ⟨b, hb, rfl⟩)).trans q10
  · exact (List.infix_of_mem_flatten (List.mem_map.2 ⟨b, hb, rfl⟩)).trans q11

end

/-! ## The premises occur -/

/-- the angle at the centre of the plate, given roughly, between the direction x and the point (0, 8, 0) -/
noncomputable def plateTurn (l : ℕ → ℕ) : DimN F64 :=
  ⟨.angle, [⟨c!"at", .pt (.val ((⟨5, 5, 0⟩ : V3 ℝ).fin : V3 (Ext ℝ)) (l 0)), l 1⟩,
    ⟨c!"apex", .pt (.func c!"center" (.val ((⟨1, 0, 0⟩ : V3 ℝ).fin : V3 (Ext ℝ)) (l 2)) (l 3)), l 4⟩,
    ⟨c!"from_dir", .pt (.val ((⟨2, 0, 0⟩ : V3 ℝ).fin : V3 (Ext ℝ)) (l 5)), l 6⟩,
    ⟨c!"to_point", .pt (.val ((⟨0, 8, 0⟩ : V3 ℝ).fin : V3 (Ext ℝ)) (l 7)), l 8⟩], l 9⟩

/-- nearly a right angle -/
theorem nearly_right {ξ x y : ℝ} (hx : |x| ≤ ξ) (hy : |y| ≤ ξ) (hξ : ξ ≤ 1 / 1000) :
    ∃ c, angle2 ⟨2, 0⟩ (⟨0, 8⟩ - ⟨x, y⟩) = Real.arccos c ∧ |c| ≤ ξ / 7 ∧ 7 ≤ (⟨0, 8⟩ - ⟨x, y⟩ : V2 ℝ).len := by
  have e0 : (⟨0, 8⟩ - ⟨x, y⟩ : V2 ℝ) = ⟨-x, 8 - y⟩ := by ext <;> simp
  have e1 : (⟨2, 0⟩ : V2 ℝ).len = 2 := by
    simp only [V2.len]
    rw [show (2 ^ 2 + 0 ^ 2 : ℝ) = 2 ^ 2 by norm_num]
    exact Real.sqrt_sq (by norm_num)
  rw [e0]
  have hy' := abs_le.1 hy
  have e2 : 7 ≤ (⟨-x, 8 - y⟩ : V2 ℝ).len := by
    simp only [V2.len]
    refine Real.le_sqrt_of_sq_le ?_
    nlinarith [sq_nonneg x]
  refine ⟨_, rfl, ?_, e2⟩
  rw [e1, abs_div, abs_of_pos (show 0 < 2 * (⟨-x, 8 - y⟩ : V2 ℝ).len by linarith)]
  have e3 : |(⟨2, 0⟩ : V2 ℝ).dot ⟨-x, 8 - y⟩| = 2 * |x| := by
    simp [V2.dot, abs_mul]
  rw [e3, div_le_div_iff₀ (by linarith) (by norm_num)]
  have := abs_nonneg x
  nlinarith

theorem plate_turn (l : ℕ → ℕ) : TurnAsks flEnv (NamedView ([] : List (Meta F64))) ⟨⟨1, 0, 0⟩, ⟨0, 1, 0⟩, ⟨0, 0, 1⟩⟩ (plateTris.map levelTri) (2 ^ 4) (1 / 2 ^ 50) (plateTurn l)
    FP.g6 ⟨5, 5, 0⟩ ⟨0, 0⟩ (rimErr (13 : ℕ) 10 (9 / 10) (0 + 4 * (10 * (10 * (2 ^ 4 * (1 / 2 ^ 50)))))) (.along ⟨2, 0, 0⟩) (.through ⟨0, 8⟩ 0) 3 := by
  have e1 : seenAt ⟨⟨1, 0, 0⟩, ⟨0, 1, 0⟩, ⟨0, 0, 1⟩⟩ (⟨0, 8, 0⟩ : V3 ℝ) = ⟨0, 8⟩ := by simp [seenAt, V3.mulM, V3.xy]
  have e2 : seenAt ⟨⟨1, 0, 0⟩, ⟨0, 1, 0⟩, ⟨0, 0, 1⟩⟩ (⟨2, 0, 0⟩ : V3 ℝ) = ⟨2, 0⟩ := by simp [seenAt, V3.mulM, V3.xy]
  refine ⟨rfl, ?_, rfl, ⟨_, _, rfl, rfl⟩, by simp only [V3.Within]; norm_num, ?_, ⟨⟨_, _, rfl, rfl⟩, ⟨_, flDim_largest⟩, by simp [V3.mulM]⟩, ⟨rfl, ?_⟩, by norm_num, ?_⟩
  · simp only [plateTurn, GoodDim]; rw [exactly_def]; simp [Has]
  · exact .centre ⟨1, 0, 0⟩ _ _ _ _ 5 13 10 (9 / 10) 0 rfl (by simp only [V3.Within]; norm_num) (by norm_num) (plate_seen _ (by simp [NamedView, look]))
  · rw [← e1]
    exact .point ⟨0, 8, 0⟩ ⟨_, _, rfl, rfl⟩ (by simp only [V3.Within]; norm_num) (by simp [V3.mulM])
  · rintro x' q w q' w' ⟨hx, hy⟩ ⟨-, rfl⟩ ⟨⟨hq1, hq2⟩, rfl⟩
    obtain rfl : q' = ⟨0, 8⟩ := by
      have h1 := abs_nonpos_iff.1 hq1
      have h2 := abs_nonpos_iff.1 hq2
      ext
      · exact sub_eq_zero.1 h1
      · exact sub_eq_zero.1 h2
    rw [e2]
    obtain ⟨c, hc, hb, hlen⟩ := nearly_right (ξ := rimErr (13 : ℕ) 10 (9 / 10) (0 + 4 * (10 * (10 * (2 ^ 4 * (1 / 2 ^ 50)))))) (x := x'.x) (y := x'.y) (by simpa using hx) (by simpa using hy)
      (by unfold rimErr; norm_num)
    refine ⟨trivial, ?_, ?_⟩
    · show (2 : ℝ) ^ 4 ≤ 3 * (⟨0, 8⟩ - x' : V2 ℝ).len
      norm_num
      have : 7 ≤ (⟨0, 8⟩ - x' : V2 ℝ).len := hlen
      linarith
    · have hc' : angle2 ⟨2, 0⟩ (⟨0, 8⟩ - x') = Real.arccos c := hc
      rw [hc', Real.sin_arccos, Real.sq_sqrt]
      · have hb' : |c| ≤ 1 / 2 := hb.trans (by unfold rimErr; norm_num)
        have := abs_le.1 hb'
        norm_num
        nlinarith
      · have hb' : |c| ≤ 1 / 2 := hb.trans (by unfold rimErr; norm_num)
        have := abs_le.1 hb'
        nlinarith

/-- The drawing of this plate from above with this angle is accepted; the angle shows 90 but for 1/100, and has six strokes and an arc. -/
theorem plate_turned (l : ℕ → ℕ) (b : ℕ) : ∃ (file : STLFile F64) (c : _), make plateText = .ok (some file) ∧
    content flEnv [(c!"m", some file)] (.draw c!"m" [] [plateTurn l] b) = .ok c ∧ c.1 = true ∧
    ∃ blk : OutPage F64, blk.lines <:+: c.2.1.lines ∧ blk.text <:+: c.2.1.text ∧ blk.arcs <:+: c.2.1.arcs ∧
      (∃ (q : V2 F64) (x : F64), blk.text = [⟨q, FP.g6 x ++ c!" deg", true, false⟩] ∧ Fl.Near x 90 (1 / 100)) ∧ blk.lines.length = 6 ∧ blk.arcs.length = 1 := by
  obtain ⟨file, -, hfile, hM, hη, hts, hps, -, -, hask, hde, hm, hA, h10, hH⟩ := plate_leader l b
  have hbd' : file.Bd 4 := by
    obtain ⟨f, e, h⟩ := hM _ (List.mem_singleton_self _)
    cases e
    exact h
  obtain ⟨c, hc⟩ := content_bd flEnv insSorter_ok rfl [(c!"m", some file)] (by norm_num) hM (.draw c!"m" [] [plateTurn l] b) (by simp [Drawable.LocBd]) (by intro m hm; simp at hm)
  obtain ⟨proj, ls, g1, g2, -, g3, -⟩ := turned_bd (n := 4) (by norm_num) flEnv.sorter insSorter_ok _ hbd' matZP (viewOf_bd (none : Option (Meta F64)) (by simp) matZP rfl)
  have hD : Drawn flEnv [(c!"m", some file)] c!"m" [] ((1, 1) : Int × Int) matZP _ file proj ls := ⟨by simp, rfl, rfl, rfl, ⟨_, rfl, rfl⟩, g1, by rw [g2]; exact g3⟩
  have hok : c.1 = true := by
    refine C96_accepted _ _ _ flEnv insSorter_ok rfl _ (by norm_num) hM _ [] (by simp) (by simp) (by intro m hm; simp at hm) (1 / 2 ^ 50) hη hts hps _ _ c hc _ _ _ _ _ _ hD _ hask
      _ _ hfile hde ⟨_, hm⟩ ?_
    intro d hd
    rw [List.mem_singleton] at hd
    subst hd
    exact Or.inl ⟨_, _, _, _, _, _, _, plate_turn l⟩
  obtain ⟨ts, k, p, off, -, -, hall⟩ := C96_strokes _ _ _ flEnv insSorter_ok rfl _ (by norm_num) hM _ [] (by simp) (1 / 2 ^ 50) hη hts hps _ _ c hc hok file ⟨_, rfl, rfl⟩ _ hask _ _ hfile hde ⟨_, hm⟩
  obtain ⟨blk, b1, b2, b3, x', q, w, q', w', ⟨hx, hy⟩, ⟨-, rfl⟩, ⟨⟨hq1, hq2⟩, rfl⟩, ⟨z, y, t1, t2, -⟩, hink⟩ := hall (plateTurn l) (by simp) _ _ _ _ _ _ _ (plate_turn l)
  have e2 : seenAt ⟨⟨1, 0, 0⟩, ⟨0, 1, 0⟩, ⟨0, 0, 1⟩⟩ (⟨2, 0, 0⟩ : V3 ℝ) = ⟨2, 0⟩ := by simp [seenAt, V3.mulM, V3.xy]
  obtain rfl : q' = ⟨0, 8⟩ := by
    have h1 := abs_nonpos_iff.1 hq1
    have h2 := abs_nonpos_iff.1 hq2
    ext
    · exact sub_eq_zero.1 h1
    · exact sub_eq_zero.1 h2
  rw [e2] at t2 hink
  obtain ⟨κ, hκ, hb, hlen⟩ := nearly_right (ξ := rimErr (13 : ℕ) 10 (9 / 10) (0 + 4 * (10 * (10 * (2 ^ 4 * (1 / 2 ^ 50)))))) (x := x'.x) (y := x'.y) (by simpa using hx) (by simpa using hy)
    (by unfold rimErr; norm_num)
  have hκ' : angle2 ⟨2, 0⟩ (⟨0, 8⟩ - x') = Real.arccos κ := hκ
  have hb' : |κ| ≤ 1 / 20000 := hb.trans (by unfold rimErr; norm_num)
  have hbb := abs_le.1 hb'
  refine ⟨file, c, hfile, hc, hok, blk, b1, b2, b3, ⟨z, y, t1, ?_⟩, ?_⟩
  · rw [hκ'] at t2
    have hsin : (1 : ℝ) / 2 ≤ Real.sin (Real.arccos κ) := by
      rw [Real.sin_arccos]
      refine Real.le_sqrt_of_sq_le ?_
      nlinarith
    have hpi := Real.pi_gt_three
    have harc : |Real.arccos κ - Real.pi / 2| ≤ 1 / 10000 := by
      rw [Real.arccos, show Real.pi / 2 - Real.arcsin κ - Real.pi / 2 = -Real.arcsin κ by ring, abs_neg]
      have hsmall : ∀ t : ℝ, 0 ≤ t → t ≤ 1 → Real.arcsin (t / 2) ≤ t := by
        intro t t0 t1
        have hs := Real.mul_le_sin (x := t) t0 (by linarith)
        have hp4 := Real.pi_le_four
        have : t / 2 ≤ Real.sin t := by
          refine le_trans ?_ hs
          rw [div_mul_eq_mul_div, div_le_div_iff₀ (by norm_num) Real.pi_pos]
          nlinarith
        refine (Real.arcsin_le_iff_le_sin' ⟨by linarith, by linarith⟩).2 this
      have h1 := hsmall (1 / 10000) (by norm_num) (by norm_num)
      rw [abs_le]
      constructor
      · have := Real.monotone_arcsin (show -(1 / 10000 / 2) ≤ κ by linarith)
        rw [Real.arcsin_neg] at this
        linarith
      · have := Real.monotone_arcsin (show κ ≤ 1 / 10000 / 2 by linarith)
        linarith
    have hdist : |Real.arccos κ * 180 / Real.pi - 90| ≤ 6 / 1000 := by
      rw [show Real.arccos κ * 180 / Real.pi - 90 = (Real.arccos κ - Real.pi / 2) * (180 / Real.pi) by field_simp; ring, abs_mul, abs_of_pos (show 0 < 180 / Real.pi by positivity)]
      have : 180 / Real.pi ≤ 60 := by rw [div_le_iff₀ Real.pi_pos]; linarith
      nlinarith [abs_nonneg (Real.arccos κ - Real.pi / 2)]
    have herr : (2 : ℝ) ^ 18 * (3 * (1 / 2 ^ 50)) / Real.sin (Real.arccos κ) ≤ 1 / 1000 := by
      rw [div_le_iff₀ (by linarith)]
      norm_num
      linarith
    exact (t2.trans hdist).mono (by linarith)
  · obtain ⟨e, he⟩ := goes_along (R := binary64 .nearest (fun _ => true) (fun _ => true)) noTurn_rotation (by norm_num) (plate_turn l).from_ (x := x') (q := x') ⟨rfl, rfl⟩ (K := 3) trivial
    have hlen' : (2 : ℝ) ^ 4 ≤ 3 * (⟨0, 8⟩ - x' : V2 ℝ).len := by
      have : 7 ≤ (⟨0, 8⟩ - x' : V2 ℝ).len := hlen
      norm_num
      linarith
    obtain ⟨e', he'⟩ := goes_along (R := binary64 .nearest (fun _ => true) (fun _ => true)) noTurn_rotation (by norm_num) (plate_turn l).to_ (x := x') (q := (⟨0, 8⟩ : V2 ℝ)) (w := (⟨0, 8⟩ : V2 ℝ) - x') ⟨by simp [Nearby], rfl⟩ (K := 3) hlen'
    rw [e2] at he
    have hs := sin_legs noTurn_rotation (along_leg he) (along_leg he') (by rw [noTurn]) (by rw [noTurn])
    rw [angle2_flat, hκ', Real.sin_arccos] at hs
    have h0 : 0 < |e.x * e'.y - e.y * e'.x| := by
      rw [← hs]
      refine Real.sqrt_pos.2 ?_
      nlinarith
    rcases lt_or_gt_of_ne (abs_pos.1 h0) with hl | hl
    · obtain ⟨i1, a, i2, -⟩ := (hink e e' he he').2 (by linarith)
      exact ⟨by rw [i1.length_eq]; rfl, by rw [i2]; rfl⟩
    · obtain ⟨i1, a, i2, -⟩ := (hink e e' he he').1 hl
      exact ⟨by rw [i1.length_eq]; rfl, by rw [i2]; rfl⟩

/-- the angle at the centre of the plate between the direction x and the corner of the floor at (-8, 8) -/
noncomputable def plateTurn' (l : ℕ → ℕ) : DimN F64 :=
  ⟨.angle, [⟨c!"at", .pt (.val ((⟨5, 5, 0⟩ : V3 ℝ).fin : V3 (Ext ℝ)) (l 0)), l 1⟩,
    ⟨c!"apex", .pt (.func c!"center" (.val ((⟨1, 0, 0⟩ : V3 ℝ).fin : V3 (Ext ℝ)) (l 2)) (l 3)), l 4⟩,
    ⟨c!"from_dir", .pt (.val ((⟨2, 0, 0⟩ : V3 ℝ).fin : V3 (Ext ℝ)) (l 5)), l 6⟩,
    ⟨c!"to_point", .pt (.func c!"near" (.val ((⟨-8, 8, 0⟩ : V3 ℝ).fin : V3 (Ext ℝ)) (l 7)) (l 8)), l 9⟩], l 10⟩

theorem nearly_half {u v : ℝ} (hu : |u + 8| ≤ 1 / 500) (hv : |v - 8| ≤ 1 / 500) :
    7 ≤ (⟨u, v⟩ : V2 ℝ).len ∧ 1 / 4 ≤ Real.sin (angle2 ⟨2, 0⟩ ⟨u, v⟩) ^ 2 := by
  have e1 : (⟨2, 0⟩ : V2 ℝ).len = 2 := by
    simp only [V2.len]
    rw [show (2 ^ 2 + 0 ^ 2 : ℝ) = 2 ^ 2 by norm_num]
    exact Real.sqrt_sq (by norm_num)
  obtain ⟨u1, u2⟩ := abs_le.1 hu
  obtain ⟨v1, v2⟩ := abs_le.1 hv
  have e2 : 7 ≤ (⟨u, v⟩ : V2 ℝ).len := by
    simp only [V2.len]
    refine Real.le_sqrt_of_sq_le ?_
    nlinarith
  have e3 : (⟨u, v⟩ : V2 ℝ).len * (⟨u, v⟩ : V2 ℝ).len = u ^ 2 + v ^ 2 := Real.mul_self_sqrt (by positivity)
  refine ⟨e2, ?_⟩
  have e4 : (⟨2, 0⟩ : V2 ℝ).dot ⟨u, v⟩ / (2 * (⟨u, v⟩ : V2 ℝ).len) = u / (⟨u, v⟩ : V2 ℝ).len := by
    simp only [V2.dot]
    rw [zero_mul, add_zero, mul_div_mul_left _ _ (two_ne_zero)]
  have e5 : (u / (⟨u, v⟩ : V2 ℝ).len) ^ 2 ≤ 3 / 4 := by
    rw [div_pow, div_le_iff₀ (by positivity), sq ((⟨u, v⟩ : V2 ℝ).len), e3]
    nlinarith
  simp only [angle2]
  rw [e1, e4, Real.sin_arccos, Real.sq_sqrt] <;> linarith

/-- here a leg goes to a corner picked by `near` -/
theorem plate_turn' (l : ℕ → ℕ) : TurnAsks flEnv (NamedView ([] : List (Meta F64))) ⟨⟨1, 0, 0⟩, ⟨0, 1, 0⟩, ⟨0, 0, 1⟩⟩ (plateTris.map levelTri) (2 ^ 4) (1 / 2 ^ 50) (plateTurn' l)
    FP.g6 ⟨5, 5, 0⟩ ⟨0, 0⟩ (rimErr (13 : ℕ) 10 (9 / 10) (0 + 4 * (10 * (10 * (2 ^ 4 * (1 / 2 ^ 50)))))) (.along ⟨2, 0, 0⟩) (.through ⟨-8, 8⟩ (2 * (2 ^ 4 * (1 / 2 ^ 50)))) 3 := by
  have e1 : seenAt ⟨⟨1, 0, 0⟩, ⟨0, 1, 0⟩, ⟨0, 0, 1⟩⟩ (⟨-8, 8, 0⟩ : V3 ℝ) = ⟨-8, 8⟩ := by simp [seenAt, V3.mulM, V3.xy]
  have e2 : seenAt ⟨⟨1, 0, 0⟩, ⟨0, 1, 0⟩, ⟨0, 0, 1⟩⟩ (⟨2, 0, 0⟩ : V3 ℝ) = ⟨2, 0⟩ := by simp [seenAt, V3.mulM, V3.xy]
  refine ⟨rfl, ?_, rfl, ⟨_, _, rfl, rfl⟩, by simp only [V3.Within]; norm_num, ?_, ⟨⟨_, _, rfl, rfl⟩, ⟨_, flDim_largest⟩, by simp [V3.mulM]⟩, ⟨rfl, ?_⟩, by norm_num, ?_⟩
  · simp only [plateTurn', GoodDim]; rw [exactly_def]; simp [Has]
  · exact .centre ⟨1, 0, 0⟩ _ _ _ _ 5 13 10 (9 / 10) 0 rfl (by simp only [V3.Within]; norm_num) (by norm_num) (plate_seen _ (by simp [NamedView, look]))
  · rw [← e1]
    have hw : (⟨-8, 8, 0⟩ : V3 ℝ) = (⟨-8, 8, 0⟩ : V3 ℤ).whole := by simp [V3.whole]
    refine .corner ⟨-8, 8, 0⟩ ⟨-8, 8, 0⟩ ⟨_, _, _, rfl, rfl⟩ (by simp only [V3.Within]; norm_num)
      (Or.inr ⟨⟨-8, 8, 0⟩, ⟨_, _, _, rfl, rfl⟩, by rw [hw]; exact plate_must (by decide), ?_⟩) (Or.inl (by simp [V3.mulM]))
    intro c' hc'
    obtain ⟨p, hp, rfl⟩ := plate_may hc'
    rcases plate_near p hp with rfl | h
    · left; rw [hw]
    · right
      have h' : (2 : ℝ) ≤ (p.x + 8) * (p.x + 8) + (p.y - 8) * (p.y - 8) := by exact_mod_cast h
      simp only [seenDist2, pageDist2]
      simp [V3.mulM, V3.xy, V3.whole]
      norm_num
      nlinarith
  · rintro x' q w q' w' ⟨hx, hy⟩ ⟨-, rfl⟩ ⟨⟨hq1, hq2⟩, rfl⟩
    rw [e2]
    have hr : rimErr (13 : ℕ) 10 (9 / 10) (0 + 4 * (10 * (10 * (2 ^ 4 * (1 / 2 ^ 50))))) ≤ 1 / 1000 := by unfold rimErr; norm_num
    have hd : 2 * (2 ^ 4 * (1 / 2 ^ 50) : ℝ) ≤ 1 / 1000 := by norm_num
    obtain ⟨x1, x2⟩ := abs_le.1 (hx.trans hr)
    obtain ⟨y1, y2⟩ := abs_le.1 (hy.trans hr)
    obtain ⟨a1, a2⟩ := abs_le.1 (hq1.trans hd)
    obtain ⟨b1, b2⟩ := abs_le.1 (hq2.trans hd)
    obtain ⟨k1, k2⟩ := nearly_half (u := (q' - x').x) (v := (q' - x').y) (by rw [V2.sub_x]; exact abs_le.2 ⟨by linarith, by linarith⟩)
      (by rw [V2.sub_y]; exact abs_le.2 ⟨by linarith, by linarith⟩)
    refine ⟨trivial, ?_, ?_⟩
    · show (2 : ℝ) ^ 4 ≤ 3 * (q' - x').len
      norm_num
      have : 7 ≤ (q' - x').len := k1
      linarith
    · refine le_trans ?_ k2
      norm_num

end S2P
