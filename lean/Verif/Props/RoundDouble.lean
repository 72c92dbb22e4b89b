import Verif.Lemmas.RoundMeant
import Verif.Props.AngleDouble

set_option linter.unusedSectionVars false
set_option linter.unusedVariables false
set_option linter.unusedSimpArgs false

/-! # C93: the strokes of a radius or diameter, in double arithmetic -/

namespace S2P

theorem points_kept {R : Rounding} {E : Env (Fl R)} {stl : Models (Fl R)} {n : ℕ} {name : Str} {ms : List (Meta (Fl R))} {sc rot loc file proj ls r kept k p off}
    (F : Framed E stl n name ms sc rot loc file proj ls r kept k p off) (h : proj.points ≠ []) : kept ≠ [] := by
  rintro rfl
  have h0 : proj.facets = [] := by
    have := F.perm
    rw [List.map_nil] at this
    exact this.eq_nil
  obtain ⟨q, hq⟩ := List.exists_mem_of_ne_nil _ h
  obtain ⟨g, hg, -⟩ := (C18_points proj (by rw [h0]; intro g hg; cases hg)).1 q hq
  rw [h0] at hg
  cases hg

theorem rim_points {R : Rounding} {E : Env (Fl R)} {rot : M3 (Fl R)} {pts : List (V3 (Fl R))} {d : DimN (Fl R)} {g : Fl R → Str} {m : V2 ℝ} {r : ℝ} {N : ℕ} {M A η : ℝ}
    (h : AtRim E rot pts d g m r N M A η) : pts ≠ [] := by
  rintro rfl
  obtain ⟨q, t, p0, ps, -, -, h1, -⟩ := h.rim
  cases h1

section
variable (I : IntRounding) (range64 range32 : ℚ → Bool)

/-- **C93.** In IEEE 754 double arithmetic, whatever the direction of rounding: a drawing that succeeds consists of the lines of the body and then, for each
dimension, in order, of what this dimension gives.  At a positive scale a radius or diameter with literal points, whose line is square to the line of sight and whose
centre is given where the corners that are seen show a circle clearly, gives its label to the right of the place for it, a line that runs from the centre, or from the far
side of the rim, along the direction given to an elbow and from there to the place of the label, and an arrowhead where the line crosses the rim. -/
theorem C93_strokes (E : Env (Fl (binary64 I range64 range32))) (hS : SortOK E.sorter) (hJ : E.junkM = ⟨V3.zero, V3.zero, V3.zero⟩)
    (stl : Models (Fl (binary64 I range64 range32))) {n : ℕ} (hn : n ≤ 40) (hM : stl.Bd n) (name : Str)
    (ms : List (Meta (Fl (binary64 I range64 range32)))) (hf : ∀ m ∈ ms, m.val.LocBd) (η : ℝ) (hη : ViewError ms η)
    (hs : TameScale ms) (hpos : PositiveScale ms) (dims : List (DimN (Fl (binary64 I range64 range32)))) (line : Nat) (c)
    (h : content E stl (.draw name ms dims line) = .ok c) (hc : c.1 = true) (sc rot loc file proj ls) (hD : Drawn E stl name ms sc rot loc file proj ls) :
    ∃ r ts k p off own blocks, AskedView ms r ∧ IsRotation r ∧ NearlySeen r file ts (1 / 2 ^ 37) ∧ NearlyProjects file ms ts k p off (inkError (2 ^ n) k p) ∧
      c.2.1.lines = own ++ (blocks.map (fun b => b.lines)).flatten ∧ c.2.1.text = (blocks.map (fun b => b.text)).flatten ∧
      c.2.1.arcs = (blocks.map (fun b => b.arcs)).flatten ∧
      List.Forall₂ (fun d (b : OutPage (Fl (binary64 I range64 range32))) => ∀ g a u m ρ N B A s, RoundAsks E rot r proj.cull.points d g a u m ρ N B A s (2 ^ n) →
        RoundDone (2 ^ n) η r k off d g a u m ρ N B A s b) dims blocks := by
  have hR := binary64_accurate I range64 range32
  obtain ⟨sc1, rot1, loc1, file1, proj1, ls1, r, kept, k, p, off, F⟩ := draw_frame hR E hS hJ stl (by omega) hM name ms hf hη.tame hs dims line c h hc
  obtain ⟨rfl, rfl, rfl, rfl, rfl, rfl⟩ := drawn_unique hD F.drawn
  obtain ⟨hfine, r', hr', -, hnear⟩ := view_fine hR ms hη rot F.drawn.view
  obtain rfl := askedView_unique hr' F.asked
  rcases draw_sum E stl name ms dims line c h with ⟨h1, -⟩ | ⟨sc', rot', loc', file', proj', ls', cs, hD', hcs, hp, hok, -⟩
  · rw [h1] at hc; cases hc
  obtain ⟨rfl, rfl, rfl, rfl, rfl, rfl⟩ := drawn_unique hD hD'
  refine ⟨r', kept.map (fun f => f.val.seenIn r'), k, p, off, ((OutPage.ofLines ls).moved (projScale sc) (projOffset loc proj.limits (projScale sc))).lines,
    cs.map (fun k => k.2.1), F.asked, F.rotation, ⟨kept, rfl, F.keptIn, F.keptIff⟩, F.placed, ?_, ?_, ?_, ?_⟩
  · rw [hp, F.culled]
    show _ ++ (OutPage.sum _).lines = _
    rw [sum_lines]
    rfl
  · rw [hp]
    show _ ++ (OutPage.sum _).text = _
    rw [sum_text]
    rfl
  · rw [hp]
    show _ ++ (OutPage.sum _).arcs = _
    rw [sum_arcs]
    rfl
  have hj : (drawStart (initVis E) sc rot loc proj.cull ls).rotation.eqv E.junkM = false := by rw [hJ]; exact F.viewBd.2.2.2
  rw [List.forall₂_map_right_iff]
  have hk1 := scale_positive F.placed hs hpos
  clear hp hok h
  refine hcs.imp ?_
  intro d b hdk g a u m ρ N B A s hA
  have hne : kept ≠ [] := points_kept F (by rw [F.culled] at hA; exact rim_points hA.rim)
  obtain ⟨P, L, e1, e2⟩ := round_meant hR hn F hfine hnear hk1 hne (v := drawStart (initVis E) sc rot loc proj.cull ls) rfl rfl (by rw [F.culled]; rfl) hj hA
  rw [hdk] at e1
  injection e1 with e1
  subst e1
  exact e2

/-- **C93, accepted**: a drawing whose dimensions are such radii and diameters is not refused. -/
theorem C93_accepted (E : Env (Fl (binary64 I range64 range32))) (hJ : E.junkM = ⟨V3.zero, V3.zero, V3.zero⟩)
    (stl : Models (Fl (binary64 I range64 range32))) (name : Str)
    (ms : List (Meta (Fl (binary64 I range64 range32)))) (hf : ∀ m ∈ ms, m.val.LocBd) (hnames : ∀ m ∈ ms, m.name ∈ [c!"scale", c!"view", c!"@"])
    (dims : List (DimN (Fl (binary64 I range64 range32)))) (line : Nat) (c) (h : content E stl (.draw name ms dims line) = .ok c)
    (sc rot loc file proj ls) (hD : Drawn E stl name ms sc rot loc file proj ls) (r : M3 ℝ) (M : ℝ)
    (hh : ∀ d ∈ dims, ∃ g a u m ρ N B A s, RoundAsks E rot r proj.cull.points d g a u m ρ N B A s M) : c.1 = true := by
  refine C90_accepted_partial (binary64_accurate I range64 range32) E hJ stl name ms hf hnames dims line c h sc rot loc file proj ls hD ?_
  intro d hd
  obtain ⟨g, a, u, m, ρ, N, B, A, s, hA⟩ := hh d hd
  exact ⟨_, _, _, _, _, _, _, hA.rim⟩

end

/-! ## The premises occur -/

/-- the disc of radius 5 from above, with a radius: every premise is met, the drawing succeeds, and the line points to the upper right -/
theorem disc_leader (l : ℕ → ℕ) (b : ℕ) : ∃ (file : STLFile F64) (c : _) (sc rot loc proj ls : _), make discText = .ok (some file) ∧ Models.Bd 4 [(c!"m", some file)] ∧
    ViewError (R := binary64 .nearest (fun _ => true) (fun _ => true)) [] (1 / 2 ^ 50) ∧
    TameScale (R := binary64 .nearest (fun _ => true) (fun _ => true)) [] ∧ PositiveScale (R := binary64 .nearest (fun _ => true) (fun _ => true)) [] ∧
    content flEnv [(c!"m", some file)] (.draw c!"m" [] [ringRad 1 0 l] b) = .ok c ∧ c.1 = true ∧ Drawn flEnv [(c!"m", some file)] c!"m" [] sc rot loc file proj ls ∧
    RoundAsks flEnv rot ⟨⟨1, 0, 0⟩, ⟨0, 1, 0⟩, ⟨0, 0, 1⟩⟩ proj.cull.points (ringRad 1 0 l) FP.g6 ⟨10, 9, 0⟩ ⟨1, 1, 0⟩ ⟨0, 0⟩ 5 12 5 1 0 (2 ^ 4) ∧
    AskedView ([] : List (Meta F64)) ⟨⟨1, 0, 0⟩, ⟨0, 1, 0⟩, ⟨0, 0, 1⟩⟩ ∧ LegDir ⟨⟨1, 0, 0⟩, ⟨0, 1, 0⟩, ⟨0, 0, 1⟩⟩ ⟨1, 1, 0⟩ ⟨1 / Real.sqrt 2, 1 / Real.sqrt 2⟩ := by
  have hc := disc_check
  unfold discCheck at hc
  split at hc
  · rename_i s hs
    rw [Bool.and_eq_true, List.all_eq_true, decide_eq_true_iff] at hc
    obtain ⟨hok, hseen⟩ := hc
    obtain ⟨file, hfile, hfac⟩ := top_file hs hok
    have hsane : SaneFile 4 discText := saneB_ok _ _ (by decide +kernel)
    have hbd := sane_bd (α := F64) (by norm_num) hsane file hfile
    have hM : Models.Bd 4 [(c!"m", some file)] := by
      intro e he
      simp only [List.mem_singleton] at he
      subst he
      exact ⟨_, rfl, hbd⟩
    obtain ⟨c, hc⟩ := content_bd flEnv insSorter_ok rfl [(c!"m", some file)] (by norm_num) hM (.draw c!"m" [] [ringRad 1 0 l] b) (by simp [Drawable.LocBd]) (by intro m hm; simp at hm)
    obtain ⟨proj, ls, g1, g2, -, g3, -⟩ := turned_bd (n := 4) (by norm_num) flEnv.sorter insSorter_ok _ hbd matZP (viewOf_bd (none : Option (Meta F64)) (by simp) matZP rfl)
    have hD : Drawn flEnv [(c!"m", some file)] c!"m" [] ((1, 1) : Int × Int) matZP _ file proj ls := ⟨by simp, rfl, rfl, rfl, ⟨_, rfl, rfl⟩, g1, by rw [g2]; exact g3⟩
    have hpts := top_points hfac (index_facets g1)
    have hrim : AtRim flEnv matZP proj.cull.points (ringRad 1 0 l) FP.g6 ⟨0, 0⟩ 5 12 5 1 0 := by
      refine ⟨.inr rfl, ?_, ⟨_, _, _, rfl⟩, ⟨_, _, _, rfl⟩, rfl, ⟨_, ⟨1, 0⟩, intPt (-5, 0), discPts.tail.map intPt, ⟨_, _, rfl⟩, ?_, ?_, disc_rim⟩⟩
      · simp only [ringRad, GoodDim]; rw [exactly_def]; simp
      · rw [← gridPt_fl, mulTop_fl]
        exact (congrArg (fun w : V2 X64 => w.map (X64.fl R64)) disc_point).trans ((grid_toFl (1, 0)).trans (by simp [intPt]))
      · rw [hpts, List.map_map]
        have e1 : (seenTop s.facets).map (V3.xy ∘ V3.fl) = ((seenTop s.facets).map V3.xy).map (V2.map (X64.fl R64)) := by
          rw [List.map_map]
          rfl
        rw [e1, hseen, List.map_map]
        show discPts.map _ = (discPts.map intPt).map (V2.toFl R64)
        rw [List.map_map]
        exact List.map_congr_left (fun p _ => grid_toFl p)
    have hA : RoundAsks flEnv matZP ⟨⟨1, 0, 0⟩, ⟨0, 1, 0⟩, ⟨0, 0, 1⟩⟩ proj.cull.points (ringRad 1 0 l) FP.g6 ⟨10, 9, 0⟩ ⟨1, 1, 0⟩ ⟨0, 0⟩ 5 12 5 1 0 (2 ^ 4) := by
      refine ⟨hrim, ⟨_, l 0, rfl, ?_⟩, ⟨_, l 4, rfl, rfl⟩, ⟨by simp only [V3.Within]; norm_num, by norm_num⟩, ⟨1, by norm_num, by norm_num, by norm_num, Or.inl (by norm_num), by norm_num, small_pow (by norm_num)⟩,
        by simp [V3.mulM]⟩
      have e : (⟨((1 : ℤ) : ℝ) + 9, ((0 : ℤ) : ℝ) + 9, 0⟩ : V3 ℝ) = ⟨10, 9, 0⟩ := by norm_num
      show MetaVal.pt (Pt.val (V3.fin (⟨((1 : ℤ) : ℝ) + 9, ((0 : ℤ) : ℝ) + 9, 0⟩ : V3 ℝ)) (l 0)) = _
      rw [e]
    refine ⟨file, c, _, _, _, proj, ls, hfile, hM, Or.inl ⟨by simp [NamedView, look], rfl⟩, ?_, ?_, hc, ?_, hD, hA, asked_top, ?_⟩
    · intro a b h
      have : (a, b) = ((1, 1) : Int × Int) := by
        simp only [look, scaleOf] at h
        cases h; rfl
      cases this; norm_num
    · intro a b h
      have : (a, b) = ((1, 1) : Int × Int) := by
        simp only [look, scaleOf] at h
        cases h; rfl
      cases this; norm_num
    · refine C93_accepted _ _ _ flEnv rfl _ _ [] (by simp) (by simp) _ _ c hc _ _ _ _ _ _ hD ⟨⟨1, 0, 0⟩, ⟨0, 1, 0⟩, ⟨0, 0, 1⟩⟩ (2 ^ 4) ?_
      intro d hd
      simp only [List.mem_singleton] at hd
      subst hd
      exact ⟨_, _, _, _, _, _, _, _, _, hA⟩
    · have h2 : Real.sqrt 2 * Real.sqrt 2 = 2 := Real.mul_self_sqrt (by norm_num)
      have h0 : 0 < Real.sqrt 2 := by positivity
      refine ⟨?_, Real.sqrt 2, h0, ?_⟩
      · simp only [V2.dot]
        field_simp
        nlinarith
      · ext <;> simp [V3.mulM, V3.xy, V2.smul]
  · simp at hc

end S2P
