import Verif.Lemmas.DimPaper
import Verif.Props.HoleSpan

set_option linter.unusedSectionVars false
set_option linter.unusedVariables false
set_option linter.unusedSimpArgs false

/-! # C89: sheets with dimensions -/

namespace S2P
open PS

section
variable (I : IntRounding) (range64 range32 : ℚ → Bool)

/-- a drawing on paper -/
theorem draw_paper (F : Fonts) (E : Env (Fl (binary64 I range64 range32))) (hS : SortOK E.sorter) (hJ : E.junkM = ⟨V3.zero, V3.zero, V3.zero⟩)
    (stl : Models (Fl (binary64 I range64 range32))) {n : ℕ} (hn : n ≤ 40) (hM : stl.Bd n) (w : World) (models : List ModelN)
    (hl : ∀ name e file, stl.find? (fun e => decide (e.1 = name)) = some e → e.2 = some file → ∃ m ∈ models, m.name = name ∧ Loads E.loadPath w m file)
    (name : Str) (ms : List (Meta (Fl (binary64 I range64 range32)))) (hf : ∀ m ∈ ms, m.val.LocBd) (η : ℝ)
    (dims : List (DimN (Fl (binary64 I range64 range32)))) (hD : Drawing E w models (2 ^ n) η name ms dims) (line : Nat) (c)
    (h : content E stl (.draw name ms dims line) = .ok c) (hc : c.1 = true) :
    FinPage c.2.1 ∧ ∀ pb, PutsDown F c.2.1 pb → DrawingPaper F E w models (2 ^ n) η name ms dims pb.1 pb.2.1 pb.2.2 := by
  have hR := binary64_accurate I range64 range32
  obtain ⟨file, v, ts, k, p, off, own, blocks, ⟨en, e1, e2⟩, d1, d2, d3, d4, d5, d6, d6', dl, d7⟩ :=
    C94_strokes I range64 range32 E hS hJ _ hn hM name ms hf η hD.view hD.scale hD.positive dims line _ h hc
  obtain ⟨m, m1, m2, ps, text, q1, q2, q3⟩ := hl name en file e1 e2
  obtain ⟨us, hus, hr⟩ := hD.body m m1 m2 ps text q1 q2
  obtain ⟨hsee, hdims⟩ := hr v d1
  obtain ⟨s1, s2⟩ := d7 text us q3 hus
  have hη0 : 0 < η := lt_of_lt_of_le (by positivity) (show 1 / 2 ^ 50 ≤ η by rcases hD.view with ⟨-, rfl⟩ | ⟨-, rfl⟩ <;> norm_num)
  have each : ∀ b ∈ blocks, FinPage b := by
    intro b hb
    by_cases hd0 : dims = []
    · rw [hd0] at dl
      rw [List.length_eq_zero_iff.1 dl] at hb
      cases hb
    obtain ⟨d, hd, hdb⟩ := forall₂_right (s2 (hsee hd0)) b hb
    rcases hdims d hd with ⟨u, g, hmd⟩ | ⟨a, x, u, w, f, t, g, K, hmd⟩ | ⟨g, a, u, q, m, ρ, N, B, A, s, hmd⟩ | ⟨u, g, a, f, t, εa, εf, εt, hmd⟩ | ⟨g, a, x, εx, l, l', K, hmd⟩
    · obtain ⟨U, hU⟩ := hmd.largest
      exact (dim_paper F d2 (by positivity) (hdb.1 u g U hmd.asks hU hmd.square hmd.short) hmd).1
    · exact (angle_paper hR F hη0 d2 (hdb.2.1 a x u w f t g K hmd.asks hmd.wide) hmd).1
    · exact (round_paper F d2 (hdb.2.2.1 g a u q m ρ N B A s hmd.asks hmd.size hmd.seen) hmd).1
    · exact (span_paper F d2 (by positivity) hη0 (hdb.2.2.2.1 u g a f t εa εf εt hmd.asks) hmd).1
    · exact (turn_paper hR F d2 (by positivity) hη0 (hdb.2.2.2.2 g a x εx l l' K hmd) hmd).1
  refine ⟨⟨?_, ?_, ?_⟩, ?_⟩
  · intro a ha
    rw [d6'] at ha
    obtain ⟨L, hL, ha⟩ := List.mem_flatten.1 ha
    obtain ⟨b, hb, rfl⟩ := List.mem_map.1 hL
    exact (each b hb).1 a ha
  · intro l hl'
    rw [d5] at hl'
    rcases List.mem_append.1 hl' with ha | ha
    · obtain ⟨_, _, _, _, -, -, -, -, ⟨j1, j2⟩ | ⟨j1, j2⟩⟩ := s1.2 l ha
      · exact ⟨_, _, _, j1, j2⟩
      · exact ⟨_, _, _, j1, j2⟩
    · obtain ⟨L, hL, ha⟩ := List.mem_flatten.1 ha
      obtain ⟨b, hb, rfl⟩ := List.mem_map.1 hL
      exact (each b hb).2.1 l ha
  · intro x hx
    rw [d6] at hx
    obtain ⟨L, hL, ha⟩ := List.mem_flatten.1 hx
    obtain ⟨b, hb, rfl⟩ := List.mem_map.1 hL
    exact (each b hb).2.2 x ha
  · rintro ⟨texts, arcs, ink⟩ ⟨p1, p0, p2⟩
    rw [d6] at p1
    rw [d6'] at p0
    rw [d5] at p2
    have p2' : List.Forall₂ (fun (l : Line (Fl (binary64 I range64 range32))) m => PaintsLine (K := ℝ) l m) ((own :: blocks.map (fun b => b.lines)).flatten ++ [])
        (ink.map Mark.stroke) := by
      rw [List.append_nil, List.flatten_cons, List.forall₂_map_right_iff]
      exact p2
    have p0' : List.Forall₂ (fun (l : Arc (Fl (binary64 I range64 range32))) m => PaintsArc (arcExt l) m) ((blocks.map (fun b => b.arcs)).flatten ++ [])
        (arcs.map Mark.stroke) := by
      rw [List.append_nil, List.forall₂_map_right_iff]
      exact p0
    rw [← List.append_nil (blocks.map (fun b => b.text)).flatten] at p1
    obtain ⟨Mt, r1, rfl, f1, g1⟩ := flatten_split _ _ _ p1
    cases g1
    obtain ⟨Ma, r0, harcs, f0, g0⟩ := flatten_split _ _ _ p0'
    cases g0
    obtain ⟨Ml, r2, hink, f2, g2⟩ := flatten_split _ _ _ p2'
    cases g2
    cases f2 with
    | @cons _ Mo _ Ml f2 f3 =>
      obtain ⟨pbs, rfl, rfl, rfl, f4⟩ := blocks_split F _ _ _ _ f1 f0 f3
      obtain ⟨oink, rfl, f5⟩ := stroke_paths (R := binary64 I range64 range32) _ _ f2
      have inj : Function.Injective Mark.stroke := fun a b h => by injection h
      have hink' : ink = oink ++ (pbs.map (fun b => b.2.2)).flatten := by
        apply List.map_injective_iff.2 inj
        rw [hink]
        simp [List.map_flatten, List.map_map, Function.comp_def]
      have harcs' : arcs = (pbs.map (fun b => b.2.1)).flatten := by
        apply List.map_injective_iff.2 inj
        rw [harcs]
        simp [List.map_flatten, List.map_map, Function.comp_def]
      refine ⟨m, m1, text, ps, file, v, ts, k, p, off, oink, pbs, m2, q1, q2, q3, d1, d2, d3, d4, by simp, harcs', hink', ?_⟩
      intro us hus
      obtain ⟨s1, s2⟩ := d7 text us q3 hus
      refine ⟨ink_shows f5 s1, fun hsee => ?_⟩
      have s3 := s2 hsee
      rw [List.forall₂_iff_get] at s3 f4 ⊢
      refine ⟨s3.1.trans f4.1, fun i i1 i2 => ?_⟩
      have i3 : i < blocks.length := by rw [f4.1]; exact i2
      refine ⟨?_, ?_, ?_, ?_, ?_⟩
      · intro u g hmd
        obtain ⟨U, hU⟩ := hmd.largest
        exact (dim_paper F d2 (by positivity) ((s3.2 i i1 i3).1 u g U hmd.asks hU hmd.square hmd.short) hmd).2 _ (f4.2 i i3 i2)
      · intro a x u w f t g K hmd
        exact (angle_paper hR F hη0 d2 ((s3.2 i i1 i3).2.1 a x u w f t g K hmd.asks hmd.wide) hmd).2 _ (f4.2 i i3 i2)
      · intro g a u q m ρ N B A s hmd
        exact (round_paper F d2 ((s3.2 i i1 i3).2.2.1 g a u q m ρ N B A s hmd.asks hmd.size hmd.seen) hmd).2 _ (f4.2 i i3 i2)
      · intro u g a f t εa εf εt hmd
        exact (span_paper F d2 (by positivity) hη0 ((s3.2 i i1 i3).2.2.2.1 u g a f t εa εf εt hmd.asks) hmd).2 _ (f4.2 i i3 i2)
      · intro g a x εx l l' K hmd
        exact (turn_paper hR F d2 (by positivity) hη0 ((s3.2 i i1 i3).2.2.2.2 g a x εx l l' K hmd) hmd).2 _ (f4.2 i i3 i2)

/-- a text on paper -/
theorem text_paper (F : Fonts) (E : Env (Fl (binary64 I range64 range32))) (stl : Models (Fl (binary64 I range64 range32))) (s : Str)
    (ms : List (Meta (Fl (binary64 I range64 range32)))) (l : Nat) (hf : ∀ m ∈ ms, m.val.LocBd)
    (hs : s.length < 2 ^ 32) (c) (h : content E stl (.text s ms l) = .ok c) (hc : c.1 = true) :
    FinPage c.2.1 ∧ ∀ pb, PutsDown F c.2.1 pb → pb.2 = ([], []) ∧ TextPaper s ms pb.1 := by
  obtain ⟨p, ls, t1, t2, t3, t4, t5⟩ := text_near (binary64_accurate I range64 range32) E stl s ms l hf hs c h hc
  refine ⟨⟨by rw [t4]; simp, by rw [t3]; simp, ?_⟩, ?_⟩
  · intro x hx
    obtain ⟨il, -, -, -, h3, h4⟩ := forall₂_right t5 x hx
    exact ⟨⟨_, _, h4⟩, by rw [h3]; simp⟩
  · rintro ⟨texts, arcs, ink⟩ ⟨p1, p0, p2⟩
    rw [t3] at p2
    rw [t4] at p0
    cases p2
    cases p0
    refine ⟨rfl, p, ls, t1, t2, ?_⟩
    have p1 := (List.forall₂_iff_get (R := fun (x : PsText (Fl (binary64 I range64 range32))) m => PaintsText (K := ℝ) F x m)).1 p1
    rw [List.forall₂_iff_get] at t5 ⊢
    refine ⟨t5.1.trans p1.1, fun i i1 i2 => ?_⟩
    have i3 : i < c.2.1.text.length := by rw [p1.1]; exact i2
    obtain ⟨h1, h2, h3, h4⟩ := t5.2 i i1 i3
    obtain ⟨q, s1, s2, e⟩ := paints_plain F _ _ (p1.2 i i3 i2) h2 h3
    refine ⟨q, ⟨printed h4.1 s1, printed h4.2 s2⟩, ?_⟩
    rw [← h1]
    exact e

/-- what is known of a sheet, before and after it is printed -/
theorem sheet_whole (F : Fonts) (E : Env (Fl (binary64 I range64 range32))) (hS : SortOK E.sorter) (hJ : E.junkM = ⟨V3.zero, V3.zero, V3.zero⟩)
    (stl : Models (Fl (binary64 I range64 range32))) {n : ℕ} (hn : n ≤ 40) (hM : stl.Bd n) (w : World) (models : List ModelN)
    (hl : ∀ name e file, stl.find? (fun e => decide (e.1 = name)) = some e → e.2 = some file → ∃ m ∈ models, m.name = name ∧ Loads E.loadPath w m file)
    (pg : PageN (Fl (binary64 I range64 range32))) (hlo : ∀ x ∈ pg.draws, x.LocBd) (η : List (Meta (Fl (binary64 I range64 range32))) → ℝ)
    (hd : ∀ name ms dims line, Drawable.draw name ms dims line ∈ pg.draws → Drawing E w models (2 ^ n) (η ms) name ms dims)
    (ht : ∀ t, titled pg.metas t → t.length ≤ 2 ^ 32) (hx : ∀ s ms line, Drawable.text s ms line ∈ pg.draws → s.length < 2 ^ 32)
    (g : GenRes (Fl (binary64 I range64 range32))) (hg : onePage E stl pg = .ok g) (gok : g.ok = true)
    (o : OutPage (Fl (binary64 I range64 range32))) (gp : g.pages = [o]) :
    (∀ a ∈ o.arcs, ArcFin a) ∧ OutPage.IsFin (pageExt o) ∧ (∀ t ∈ (pageExt o).text, Harmless t) ∧
      ∀ k i P, PaintsPage (K := ℝ) F E k i (pageExt o) P → WholeSheet F E w models (2 ^ n) η (cornerLabel E i k) pg P := by
  have hR := binary64_accurate I range64 range32
  obtain ⟨cs, k1, ⟨t, kt, k2⟩, k3⟩ := C58_page E _ pg g hg
  have hall := (k3.1 gok).2.2
  rw [gp] at k2
  injection k2 with k2 _
  have hT := title_near hR t.length (ht t kt)
  -- what each thing on the page gives
  have each : List.Forall₂ (fun d (b : OutPage (Fl (binary64 I range64 range32))) =>
      FinPage b ∧ ∀ pb, PutsDown F b pb → PartPaper F E w models (2 ^ n) η d pb) pg.draws (cs.map (fun c => c.2.1)) := by
    rw [List.forall₂_map_right_iff]
    rw [List.forall₂_iff_get] at k1 ⊢
    refine ⟨k1.1, fun i i1 i2 => ?_⟩
    have hdc := k1.2 i i1 i2
    have hdm := List.get_mem pg.draws ⟨i, i1⟩
    have hcm := List.get_mem cs ⟨i, i2⟩
    generalize pg.draws.get ⟨i, i1⟩ = d at *
    generalize cs.get ⟨i, i2⟩ = c at *
    cases d with
    | text s ms l =>
      exact text_paper I range64 range32 F E stl s ms l (hlo _ hdm) (hx s ms l hdm) c hdc (hall c hcm)
    | draw name ms dims line =>
      exact draw_paper I range64 range32 F E hS hJ stl hn hM w models hl name ms (hlo _ hdm) (η ms) dims (hd name ms dims line hdm) line c hdc (hall c hcm)
  generalize hbs : cs.map (fun c => c.2.1) = bs at *
  have fin : ∀ b ∈ bs, FinPage b := by
    intro b hb
    obtain ⟨d, -, h, -⟩ := forall₂_right each b hb
    exact h
  have ho0 : o.arcs = (bs.map (fun b => b.arcs)).flatten := by
    rw [k2]
    change (OutPage.sum bs).arcs = _
    rw [sum_arcs]
  have arcFin : ∀ a ∈ o.arcs, ArcFin a := by
    intro a ha
    rw [ho0] at ha
    obtain ⟨L, hL, ha⟩ := List.mem_flatten.1 ha
    obtain ⟨b, hb, rfl⟩ := List.mem_map.1 hL
    exact (fin b hb).1 a ha
  have lit : ∀ z : ℤ, |z| < 2 ^ 53 → ∀ (ε : ℝ), 0 ≤ ε → Fl.Near (FP.lit (z : ℚ) : Fl (binary64 I range64 range32)) z ε := by
    intro z hz ε he
    rw [lit_int I range64 range32 z hz]
    exact (Fl.near_fin _).mono he
  have hε : (0 : ℝ) ≤ (t.length + 200) / 2 ^ 18 := by positivity
  have n5 := lit 5 (by norm_num) _ hε
  have n8 := lit 8 (by norm_num) _ hε
  have n16 := lit 16 (by norm_num) _ hε
  have n787 := lit 787 (by norm_num) _ hε
  push_cast at n5 n8 n16 n787
  have e16 : ((kFontSize : ℚ) + 8) = 16 := by norm_num [kFontSize]
  have hhead : (addHeader (OutPage.empty) t : OutPage (Fl (binary64 I range64 range32))).lines =
      [⟨⟨FP.f32 (FP.f32 (FP.lit 784 - FP.lit t.length * FP.lit (kFontSize : ℚ) * FP.lit (6 / 10)) - FP.lit 3), FP.lit 5⟩,
        ⟨FP.f32 (FP.f32 (FP.lit 784 - FP.lit t.length * FP.lit (kFontSize : ℚ) * FP.lit (6 / 10)) - FP.lit 3), FP.lit 16⟩⟩,
       ⟨⟨FP.f32 (FP.f32 (FP.lit 784 - FP.lit t.length * FP.lit (kFontSize : ℚ) * FP.lit (6 / 10)) - FP.lit 3), FP.lit 16⟩, ⟨FP.lit 787, FP.lit 16⟩⟩] := by
    rw [← e16]; rfl
  have hheadt : (addHeader (OutPage.empty) t : OutPage (Fl (binary64 I range64 range32))).text =
      [⟨⟨FP.f32 (FP.lit 784 - FP.lit t.length * FP.lit (kFontSize : ℚ) * FP.lit (6 / 10)), FP.lit 8⟩, t, false, false⟩] := rfl
  have hT1 : Fl.Near _ _ ((t.length + 200) / 2 ^ 18) := hT.1.mono (by
    apply div_le_div_of_nonneg_left (by positivity) (by norm_num) (by norm_num))
  have ho : o.lines = (bs.map (fun b => b.lines)).flatten ++ (addHeader (OutPage.empty) t : OutPage (Fl (binary64 I range64 range32))).lines ∧
      o.text = (bs.map (fun b => b.text)).flatten ++ (addHeader (OutPage.empty) t : OutPage (Fl (binary64 I range64 range32))).text := by
    rw [k2]
    constructor
    · change (OutPage.sum bs).lines ++ _ = _
      rw [sum_lines]; rfl
    · change (OutPage.sum bs).text ++ _ = _
      rw [sum_text]; rfl
  rw [hhead, hheadt] at ho
  have lineFin : ∀ l ∈ o.lines, ∃ a b ε, V2.NearTo l.o a ε ∧ V2.NearTo l.t b ε := by
    intro l hl'
    rw [ho.1] at hl'
    rcases List.mem_append.1 hl' with h | h
    · obtain ⟨L, hL, ha⟩ := List.mem_flatten.1 h
      obtain ⟨b, hb, rfl⟩ := List.mem_map.1 hL
      exact (fin b hb).2.1 l ha
    · simp only [List.mem_cons, List.not_mem_nil, or_false] at h
      rcases h with rfl | rfl
      · exact ⟨⟨_, _⟩, ⟨_, _⟩, _, ⟨hT.2, n5⟩, ⟨hT.2, n16⟩⟩
      · exact ⟨⟨_, _⟩, ⟨_, _⟩, _, ⟨hT.2, n16⟩, ⟨n787, n16⟩⟩
  have textFin : ∀ x ∈ o.text, (∃ a ε, V2.NearTo x.at_ a ε) ∧ (x.raw = true → ∃ u, Plain u ∧ x.str = c!"\\351" ++ u) := by
    intro x hx'
    rw [ho.2] at hx'
    rcases List.mem_append.1 hx' with h | h
    · obtain ⟨L, hL, ha⟩ := List.mem_flatten.1 h
      obtain ⟨b, hb, rfl⟩ := List.mem_map.1 hL
      exact (fin b hb).2.2 x ha
    · simp only [List.mem_cons, List.not_mem_nil, or_false] at h
      subst h
      exact ⟨⟨⟨_, _⟩, _, hT1, n8⟩, by simp⟩
  refine ⟨arcFin, ⟨?_, ?_, ?_⟩, ?_, ?_⟩
  · intro l hl'
    obtain ⟨_, _, _, h1, h2⟩ := lineFin l hl'
    exact ⟨nearTo_isFin h1, nearTo_isFin h2⟩
  · intro a ha
    obtain ⟨a, ha', rfl⟩ := List.mem_map.1 ha
    obtain ⟨f1, f2, f3, f4⟩ := arcFin a ha'
    exact ⟨f1, f2, (angleExt_deg f3).2, (angleExt_deg f4).2⟩
  · intro x hx'
    obtain ⟨⟨_, _, h1⟩, -⟩ := textFin x hx'
    exact nearTo_isFin h1
  · intro x hx' hr
    exact (textFin x hx').2 hr
  · rintro k i P ⟨mt, ma, ml, rfl, ft, fa, fl⟩
    change List.Forall₂ _ (o.arcs.map arcExt) ma at fa
    rw [List.forall₂_map_left_iff, ho0, ← List.append_nil (bs.map (fun b => b.arcs)).flatten] at fa
    change List.Forall₂ _ o.text mt at ft
    change List.Forall₂ _ o.lines ml at fl
    rw [ho.1] at fl
    rw [ho.2] at ft
    obtain ⟨Mt, r1, rfl, f1, g1⟩ := flatten_split _ _ _ ft
    obtain ⟨Ma, r0, rfl, f0, g0⟩ := flatten_split _ _ _ fa
    cases g0
    obtain ⟨Ml, r2, rfl, f2, g2⟩ := flatten_split _ _ _ fl
    obtain ⟨pbs, rfl, rfl, rfl, f4⟩ := blocks_split F _ _ _ _ f1 f0 f2
    cases g1 with
    | @cons _ mtitle _ _ g1 g1' =>
      cases g1'
      obtain ⟨q, s1, s2, rfl⟩ := paints_plain F _ _ g1 rfl rfl
      obtain ⟨ls, rfl, g3⟩ := stroke_paths (R := binary64 I range64 range32) _ _ g2
      clear g2
      cases g3 with
      | @cons _ l1 _ _ j1 g3 =>
        cases g3 with
        | @cons _ l2 _ _ j2 g3 =>
          cases g3
          refine ⟨t, pbs, q, l1, l2, kt, ?_, ?_, ⟨printed hT1 s1, printed n8 s2⟩, line_near (a := ⟨_, _⟩) (b := ⟨_, _⟩) ⟨hT.2, n5⟩ ⟨hT.2, n16⟩ j1,
            line_near (a := ⟨_, _⟩) (b := ⟨_, _⟩) ⟨hT.2, n16⟩ ⟨n787, n16⟩ j2⟩
          · rw [List.forall₂_iff_get] at each f4 ⊢
            refine ⟨each.1.trans f4.1, fun i i1 i2 => ?_⟩
            have i3 : i < bs.length := by rw [f4.1]; exact i2
            exact (each.2 i i1 i3).2 _ (f4.2 i i3 i2)
          · simp [List.map_flatten, List.map_map, Function.comp_def]
            rfl

/-- **C89.** In IEEE 754 double arithmetic, whatever the direction of rounding: if a conversion succeeds, what it writes, run as a PostScript program, puts one
sheet after the other on paper, one for each page of the script, and all that is on each, in order, is this: the border, the label in the corner, the
texts, the title, the arcs and the lines of the drawings, the title's box.  Each drawing gives first the lines that show the body that the text of its model
file describes, and then, for each of its dimensions, in order, the label and the eight strokes of a linear dimension, the label, the arc and the six
strokes of an angle, or the label and the four or six strokes of a radius or diameter.  The points of a linear dimension may be centres of circles that the body clearly shows. -/
theorem C89_paper (F : Fonts) (E : Env (Fl (binary64 I range64 range32))) (hS : SortOK E.sorter) (hJ : E.junkM = ⟨V3.zero, V3.zero, V3.zero⟩)
    (w : World) (src script : Str) {n : ℕ} (hn : n ≤ 40) (r : RunRes) (h : scriptToPS E w src script = .ok r) (hok : r.ok = true)
    (η : List (Meta (Fl (binary64 I range64 range32))) → ℝ)
    (hw : ∀ doc : Doc (Fl (binary64 I range64 range32)), parse script = .ok (some doc) → SaneModels n E.loadPath w doc.models)
    (hd : ∀ doc : Doc (Fl (binary64 I range64 range32)), parse script = .ok (some doc) → ∀ pg ∈ doc.pages, ∀ name ms dims line,
      Drawable.draw name ms dims line ∈ pg.draws → Drawing E w doc.models (2 ^ n) (η ms) name ms dims)
    (ht : ∀ doc : Doc (Fl (binary64 I range64 range32)), parse script = .ok (some doc) → ∀ pg ∈ doc.pages, (∀ t, titled pg.metas t → t.length ≤ 2 ^ 32) ∧
      ∀ s ms line, Drawable.text s ms line ∈ pg.draws → s.length < 2 ^ 32)
    (h1 : OneLine E.name) (h2 : OneLine src) (h3 : OneLine E.now) :
    ∃ (doc : Doc (Fl (binary64 I range64 range32))) (sheets : List (List Mark)), parse script = .ok (some doc) ∧ Paints F r.out sheets.flatten ∧
      List.Forall₂ (fun (pg : PageN (Fl (binary64 I range64 range32)) × ℕ) P => WholeSheet F E w doc.models (2 ^ n) η (cornerLabel E pg.2 doc.pages.length) pg.1 P)
        (doc.pages.zipIdx 1) sheets := by
  obtain ⟨doc, fs, outs, hp, -, hl, hf, ho⟩ := (C48_all_or_nothing E w src script r h).2.1 hok
  have hM : Models.Bd n (List.zipWith (fun (m : ModelN) f => (m.name, some f)) doc.models fs) := by
    have hw' := hw doc hp
    clear * - hl hw' hn
    generalize doc.models = dm at *
    induction hl with
    | nil => intro e he; simp at he
    | @cons m f ms fs hmf _ ih =>
      intro e he
      simp only [List.zipWith_cons_cons, List.mem_cons] at he
      rcases he with rfl | he
      · obtain ⟨ps, x, p1, p2, hx⟩ := hmf
        exact ⟨f, rfl, sane_bd (by omega) (hw' m (by simp) ps x p1 p2) f hx⟩
      · exact ih (fun m' hm' => hw' m' (by simp [hm'])) e he
  have hlo := parse_locBd script doc hp
  have hd' := hd doc hp
  have ht' := ht doc hp
  have each : List.Forall₂ (fun pg (o : OutPage (Fl (binary64 I range64 range32))) => (∀ a ∈ o.arcs, ArcFin a) ∧ OutPage.IsFin (pageExt o) ∧
      (∀ t ∈ (pageExt o).text, Harmless t) ∧ ∀ k i a, PaintsPage (K := ℝ) F E k i (pageExt o) a → WholeSheet F E w doc.models (2 ^ n) η (cornerLabel E i k) pg a) doc.pages outs := by
    generalize doc.pages = pgs at *
    clear ho
    induction hf with
    | nil => exact .nil
    | @cons pg o pgs outs ho _ ih =>
      refine .cons ?_ (ih (fun pg hpg => hlo pg (List.mem_cons_of_mem _ hpg)) (fun pg hpg => hd' pg (List.mem_cons_of_mem _ hpg))
        (fun pg hpg => ht' pg (List.mem_cons_of_mem _ hpg)))
      obtain ⟨g, hg, gok, gp⟩ := ho
      exact sheet_whole I range64 range32 F E hS hJ _ hn hM w doc.models (fun name e file e1 e2 => find_loads E.loadPath w _ _ hl name e e1 file e2) pg
        (hlo pg List.mem_cons_self) η (hd' pg List.mem_cons_self) (ht' pg List.mem_cons_self).1 (ht' pg List.mem_cons_self).2 g hg gok o gp
  have mem : ∀ o ∈ outs, ∃ pg ∈ doc.pages, _ := fun o ho => forall₂_right each o ho
  rw [renderPages_arcs I range64 range32 E src outs (fun o ho => (mem o ho).choose_spec.2.1)] at ho
  have mem' : ∀ P ∈ outs.map pageExt, ∃ o ∈ outs, pageExt o = P := fun P hP => List.mem_map.1 hP
  obtain ⟨ms, k1, k2⟩ := C35_paints F (K := ℝ) E src (outs.map pageExt)
    (fun P hP => by obtain ⟨o, ho, rfl⟩ := mem' P hP; exact (mem o ho).choose_spec.2.2.1)
    (fun P hP => by obtain ⟨o, ho, rfl⟩ := mem' P hP; exact (mem o ho).choose_spec.2.2.2.1) h1 h2 h3
  obtain ⟨sheets, rfl, k3⟩ := sheets_indexed F E _ (outs.map pageExt) 1 ms k2
  refine ⟨doc, sheets, hp, by rw [ho]; exact k1, ?_⟩
  rw [each.length_eq]
  rw [List.length_map] at k3
  exact sheets_meet (S := fun n i o a => PaintsPage (K := ℝ) F E n i o a)
    (Q := fun k i pg P => WholeSheet F E w doc.models (2 ^ n) η (cornerLabel E i k) pg P) outs.length doc.pages (outs.map pageExt)
    (by rw [List.forall₂_map_right_iff]; exact each.imp fun _ _ h => h.2.2.2) _ _ k3

/-- **C89**, of the program: after exit status 0 the output file holds such a program. -/
theorem C89_program (F : Fonts) (E : Env (Fl (binary64 I range64 range32))) (hS : SortOK E.sorter) (hJ : E.junkM = ⟨V3.zero, V3.zero, V3.zero⟩)
    (w : World) (script output : Str) (hs : w.ident script ≠ w.ident output)
    (hm : ∀ text (doc : Doc (Fl (binary64 I range64 range32))), w.read script = some text → parse text = .ok (some doc) → ∀ m ∈ doc.models, ∀ ps,
      Places E.loadPath m.source ps → ∀ p ∈ ps, w.ident p ≠ w.ident output)
    {n : ℕ} (hn : n ≤ 40) (η : List (Meta (Fl (binary64 I range64 range32))) → ℝ)
    (hw : ∀ text (doc : Doc (Fl (binary64 I range64 range32))), w.read script = some text → parse text = .ok (some doc) →
      SaneModels n E.loadPath w doc.models ∧ ∀ pg ∈ doc.pages, (∀ t, titled pg.metas t → t.length ≤ 2 ^ 32) ∧
        (∀ s ms line, Drawable.text s ms line ∈ pg.draws → s.length < 2 ^ 32) ∧
        ∀ name ms dims line, Drawable.draw name ms dims line ∈ pg.draws → Drawing E w doc.models (2 ^ n) (η ms) name ms dims)
    (h1 : OneLine E.name) (h2 : OneLine script) (h3 : OneLine E.now) (h0 : (mainRun E w script output).1 = .ok 0) :
    ∃ (text out : Str) (doc : Doc (Fl (binary64 I range64 range32))) (sheets : List (List Mark)), w.read script = some text ∧ parse text = .ok (some doc) ∧
      (mainRun E w script output).2.read output = some out ∧ Paints F out sheets.flatten ∧
      List.Forall₂ (fun (pg : PageN (Fl (binary64 I range64 range32)) × ℕ) P => WholeSheet F E w doc.models (2 ^ n) η (cornerLabel E pg.2 doc.pages.length) pg.1 P)
        (doc.pages.zipIdx 1) sheets := by
  obtain ⟨-, -, -, text, r, k1, k2, k3, -, k4⟩ := (C49_exit_partial E w script output hs hm).1.1 h0
  obtain ⟨doc, sheets, j1, j2, j3⟩ := C89_paper I range64 range32 F E hS hJ w script text hn r k2 k3 η (fun doc hd => (hw text doc k1 hd).1)
    (fun doc hd pg hpg => ((hw text doc k1 hd).2 pg hpg).2.2) (fun doc hd pg hpg => ⟨((hw text doc k1 hd).2 pg hpg).1, ((hw text doc k1 hd).2 pg hpg).2.1⟩) h1 h2 h3
  exact ⟨text, r.out, doc, sheets, k1, j1, k4, j2, j3⟩
end

/-! ## The premises occur -/

theorem roundTo_int32 (I : IntRounding) (z : ℤ) (hz : |z| < 2 ^ 24) : roundTo I 24 (-149) (z : ℝ) = z := by
  by_cases h0 : z = 0
  · subst h0
    have := I.int 0
    simp only [Int.cast_zero] at this
    simp [roundTo, this]
  have hpos : (0 : ℝ) < |(z : ℝ)| := abs_pos.mpr (by exact_mod_cast h0)
  have hlog : Int.log 2 |(z : ℝ)| < 24 := by
    have := (Int.lt_zpow_iff_log_lt (b := 2) (R := ℝ) (by norm_num) (x := 24) hpos).mp (by
      have : (|z| : ℝ) < 2 ^ 24 := by exact_mod_cast hz
      exact_mod_cast this)
    exact this
  have hl : lastPlace 24 (-149) (z : ℝ) ≤ 0 := by
    unfold lastPlace
    push_cast
    omega
  obtain ⟨k, hk⟩ := Int.eq_ofNat_of_zero_le (neg_nonneg.mpr hl)
  have hk' : lastPlace 24 (-149) (z : ℝ) = -(k : ℤ) := by omega
  unfold roundTo
  rw [hk', zpow_neg, zpow_natCast, div_inv_eq_mul]
  have := I.int (z * 2 ^ k)
  push_cast at this
  rw [this]
  push_cast
  field_simp

/-- a digit reads as its value -/
theorem spell_digit (m : ℕ) (hm : m < 10) : SpellNum (α := F64) (Ext.fin (m : ℝ) : Ext ℝ) [Nat.digitChar m] := by
  have hd : Digits [Nat.digitChar m] ∧ natVal [Nat.digitChar m] = m := by
    interval_cases m <;> exact ⟨by intro x hx; rw [List.mem_singleton] at hx; subst hx; unfold Digit; decide, by decide⟩
  refine ⟨Or.inl ⟨[], [Nat.digitChar m], by simp [IsSignStr], hd.1, by simp, Or.inl rfl⟩, (m : ℚ), ⟨[], [Nat.digitChar m], [], by simp [IsSignStr], hd.1, by simp [Digits], Or.inl ⟨rfl, rfl⟩, ?_⟩, ?_⟩
  · rw [hd.2]; simp [natVal]
  · have h := roundTo_int32 .nearest m (by
      have : (m : ℤ) < 10 := by exact_mod_cast hm
      rw [abs_of_nonneg (by positivity)]
      exact this.trans (by norm_num))
    have hlt : |(m : ℝ)| < 2 ^ 128 := by
      rw [abs_of_nonneg (by positivity)]
      have : (m : ℝ) < 10 := by exact_mod_cast hm
      exact this.trans (by norm_num)
    show (match overflow (2 ^ 128) (roundTo .nearest 24 (-149) (((m : ℚ) : ℝ))) with
      | .fin x => if true = true then some (Ext.fin x : Ext ℝ) else none
      | _ => none) = _
    have e : (((m : ℚ) : ℝ)) = ((m : ℤ) : ℝ) := by simp
    rw [e, h]
    have e2 : ((m : ℤ) : ℝ) = (m : ℝ) := by simp
    rw [e2, overflow_fin hlt]
    rfl

noncomputable def roughDoc : Doc F64 :=
  ⟨[⟨c!"m", c!"/x", 1⟩], [⟨[], [.draw c!"m" [] [roughDim (fun _ => 1)] 1, .draw c!"m" [] [squareDim (fun _ => 1)] 1], 1⟩]⟩

theorem isName_of {w : Str} (h : (match w with
    | [] => false
    | c :: t => decide (('a' ≤ c ∧ c ≤ 'z') ∨ ('A' ≤ c ∧ c ≤ 'Z') ∨ c = '_') && t.all (fun c => decide ((('a' ≤ c ∧ c ≤ 'z') ∨ ('A' ≤ c ∧ c ≤ 'Z') ∨ c = '_') ∨ ('0' ≤ c ∧ c ≤ '9')))) = true)
    (hk : ∀ k ∈ keywords (α := _root_.Unit), w ≠ k.1) : IsName w := by
  refine ⟨?_, hk⟩
  cases w with
  | nil => cases h
  | cons c t =>
    simp only [Bool.and_eq_true, decide_eq_true_eq, List.all_eq_true] at h
    exact ⟨c, t, rfl, h.1, h.2⟩

/-- a script that draws the two triangles of `duoText` twice, first with the width of the upper one, then with an angle -/
theorem rough_script : ∃ (s : Str) (l l' : ℕ → ℕ) (a b b' c : ℕ),
    parse s = .ok (some (⟨[⟨c!"m", c!"/x", a⟩], [⟨[], [.draw c!"m" [] [roughDim l] b, .draw c!"m" [] [squareDim l'] b'], c⟩]⟩ : Doc F64)) := by
  classical
  let num : F64 → Str := fun x => if h : ∃ w, SpellNum x w then h.choose else []
  have hnum : ∀ m : ℕ, m < 10 → ∀ x : ℝ, x = m → SpellNum (α := F64) (Ext.fin x : Ext ℝ) (num (Ext.fin x : Ext ℝ)) := by
    rintro m hm x rfl
    have h : ∃ w, SpellNum (α := F64) (Ext.fin (m : ℝ) : Ext ℝ) w := ⟨_, spell_digit m hm⟩
    show SpellNum _ (if h : ∃ w, SpellNum (α := F64) (Ext.fin (m : ℝ) : Ext ℝ) w then h.choose else [])
    rw [dif_pos h]
    exact h.choose_spec
  have z := hnum 0 (by norm_num) 0 (by norm_num)
  have hgood : roughDoc.Good num (fun _ => []) := by
    refine ⟨?_, ?_⟩
    · intro m hm
      simp only [roughDoc, List.mem_singleton] at hm
      subst hm
      exact ⟨isName_of (by decide) (by decide), by decide⟩
    · intro pg hpg
      simp only [roughDoc, List.mem_singleton] at hpg
      subst hpg
      refine ⟨by simp, ?_⟩
      intro d hd
      simp only [List.mem_cons, List.not_mem_nil, or_false] at hd
      have h1 := hnum 1 (by norm_num) 1 (by norm_num)
      have h2 := hnum 2 (by norm_num) 2 (by norm_num)
      rcases hd with rfl | rfl
      on_goal 2 =>
        refine ⟨isName_of (by decide) (by decide), by simp, ?_⟩
        intro d hd
        rw [List.mem_singleton] at hd
        subst hd
        intro m hm
        simp only [squareDim, List.mem_cons, List.not_mem_nil, or_false] at hm
        rcases hm with rfl | rfl | rfl | rfl
        · exact ⟨Or.inl (isName_of (by decide) (by decide)), h2, h2, z⟩
        · exact ⟨Or.inl (isName_of (by decide) (by decide)), h1, h1, z⟩
        · exact ⟨Or.inl (isName_of (by decide) (by decide)), h1, z, z⟩
        · exact ⟨Or.inl (isName_of (by decide) (by decide)), h1, hnum 3 (by norm_num) 3 (by norm_num), z⟩
      refine ⟨isName_of (by decide) (by decide), by simp, ?_⟩
      intro d hd
      rw [List.mem_singleton] at hd
      subst hd
      intro m hm
      simp only [roughDim, List.mem_cons, List.not_mem_nil, or_false] at hm
      rcases hm with rfl | rfl | rfl | rfl
      · exact ⟨Or.inl (isName_of (by decide) (by decide)), z, hnum 1 (by norm_num) 1 (by norm_num), z⟩
      · exact ⟨Or.inl (isName_of (by decide) (by decide)), hnum 2 (by norm_num) 2 (by norm_num), z, z⟩
      · exact ⟨Or.inl (isName_of (by decide) (by decide)), isName_of (by decide) (by decide), z, hnum 2 (by norm_num) 2 (by norm_num), z⟩
      · exact ⟨Or.inl (isName_of (by decide) (by decide)), isName_of (by decide) (by decide), hnum 5 (by norm_num) 5 (by norm_num), hnum 2 (by norm_num) 2 (by norm_num), z⟩
  obtain ⟨-, h⟩ := C04_writable num _ roughDoc hgood
  generalize spaced (roughDoc.print num fun _ => []) = s at h
  refine ⟨s, ?_⟩
  cases hp : (parse s : Except Abort (Option (Doc F64))) with
  | error e => rw [hp] at h; cases h
  | ok d =>
    rw [hp] at h
    cases d with
    | none => cases h
    | some d =>
      have h : d.noLine = roughDoc.noLine := by
        have : (Except.ok (some d.noLine) : Except Abort (Option (Doc F64))) = .ok (some roughDoc.noLine) := h
        injection this with h
        injection h
      clear hp
      obtain ⟨models, pages⟩ := d
      simp only [Doc.noLine, roughDoc, Doc.mk.injEq, List.map_cons, List.map_nil, List.map_eq_singleton_iff] at h
      obtain ⟨⟨⟨n, src, a⟩, rfl, hm⟩, ⟨⟨pm, draws, c⟩, rfl, hpg⟩⟩ := h
      simp only [ModelN.noLine, ModelN.mk.injEq, and_true] at hm
      obtain ⟨rfl, rfl⟩ := hm
      simp only [PageN.noLine, PageN.mk.injEq, List.map_nil, List.map_eq_nil_iff, and_true, List.map_cons, List.map_eq_cons_iff] at hpg
      obtain ⟨rfl, ⟨dr, _, rfl, hd, dr', _, rfl, hd', rfl⟩⟩ := hpg
      have pv : ∀ (v : MetaVal F64) (q : V3 F64), v.noLine = .pt (.val q 0) → ∃ k, v = .pt (.val q k) := by
        intro v q hv
        cases v <;> simp [MetaVal.noLine] at hv
        rename_i p
        cases p <;> simp [Pt.noLine] at hv
        subst hv
        exact ⟨_, rfl⟩
      have pf : ∀ (v : MetaVal F64) (n : Str) (q : V3 F64), v.noLine = .pt (.func n (.val q 0) 0) → ∃ k k', v = .pt (.func n (.val q k) k') := by
        intro v n q hv
        cases v <;> simp [MetaVal.noLine] at hv
        rename_i p
        cases p with
        | val => simp [Pt.noLine] at hv
        | func n' p k' =>
          simp [Pt.noLine] at hv
          obtain ⟨rfl, hv⟩ := hv
          cases p <;> simp [Pt.noLine] at hv
          subst hv
          exact ⟨_, _, rfl⟩
      have first : ∃ l b, dr = .draw c!"m" [] [roughDim l] b := by
        cases dr with
        | text s ms l => simp [Drawable.noLine] at hd
        | draw n ms dims b =>
          simp only [Drawable.noLine, Drawable.draw.injEq, List.map_nil, List.map_eq_nil_iff, and_true, List.map_cons, List.map_eq_singleton_iff] at hd
          obtain ⟨rfl, rfl, ⟨kd, metas, ld⟩, rfl, hd⟩ := hd
          simp only [DimN.noLine, roughDim, DimN.mk.injEq, List.map_cons, List.map_nil, and_true, List.map_eq_cons_iff, List.map_eq_nil_iff] at hd
          obtain ⟨rfl, ⟨n1, v1, l1⟩, _, rfl, h1, ⟨n2, v2, l2⟩, _, rfl, h2, ⟨n3, v3, l3⟩, _, rfl, h3, ⟨n4, v4, l4⟩, _, rfl, h4, rfl⟩ := hd
          simp only [Meta.noLine, Meta.mk.injEq, and_true] at h1 h2 h3 h4
          obtain ⟨rfl, h1⟩ := h1
          obtain ⟨rfl, h2⟩ := h2
          obtain ⟨rfl, h3⟩ := h3
          obtain ⟨rfl, h4⟩ := h4
          obtain ⟨k0, rfl⟩ := pv _ _ h1
          obtain ⟨k2, rfl⟩ := pv _ _ h2
          obtain ⟨k4, k5, rfl⟩ := pf _ _ _ h3
          obtain ⟨k7, k8, rfl⟩ := pf _ _ _ h4
          exact ⟨fun i => [k0, l1, k2, l2, k4, k5, l3, k7, k8, l4, ld].getD i 0, b, rfl⟩
      have second : ∃ l b, dr' = .draw c!"m" [] [squareDim l] b := by
        cases dr' with
        | text s ms l => simp [Drawable.noLine] at hd'
        | draw n ms dims b =>
          simp only [Drawable.noLine, Drawable.draw.injEq, List.map_nil, List.map_eq_nil_iff, and_true, List.map_cons, List.map_eq_singleton_iff] at hd'
          obtain ⟨rfl, rfl, ⟨kd, metas, ld⟩, rfl, hd'⟩ := hd'
          simp only [DimN.noLine, squareDim, DimN.mk.injEq, List.map_cons, List.map_nil, and_true, List.map_eq_cons_iff, List.map_eq_nil_iff] at hd'
          obtain ⟨rfl, ⟨n1, v1, l1⟩, _, rfl, h1, ⟨n2, v2, l2⟩, _, rfl, h2, ⟨n3, v3, l3⟩, _, rfl, h3, ⟨n4, v4, l4⟩, _, rfl, h4, rfl⟩ := hd'
          simp only [Meta.noLine, Meta.mk.injEq, and_true] at h1 h2 h3 h4
          obtain ⟨rfl, h1⟩ := h1
          obtain ⟨rfl, h2⟩ := h2
          obtain ⟨rfl, h3⟩ := h3
          obtain ⟨rfl, h4⟩ := h4
          obtain ⟨k0, rfl⟩ := pv _ _ h1
          obtain ⟨k2, rfl⟩ := pv _ _ h2
          obtain ⟨k4, rfl⟩ := pv _ _ h3
          obtain ⟨k6, rfl⟩ := pv _ _ h4
          exact ⟨fun i => [k0, l1, k2, l2, k4, l3, k6, l4, ld].getD i 0, b, rfl⟩
      obtain ⟨l, b, rfl⟩ := first
      obtain ⟨l', b', rfl⟩ := second
      exact ⟨l, l', a, b, b', c, rfl⟩

/-- the script is file 1, the output file 2, the model file 3 -/
def roughDisk (s : Str) : World where
  ident p := if p = c!"s" then 1 else if p = c!"o" then 2 else if p = c!"/x" then 3 else 0
  data i := if i = 1 then some s else if i = 3 then some duoText else none
  canWrite i := i == 2

/-- the dimension is of the kind in question -/
theorem rough_measured (l : ℕ → ℕ) : ∃ us, Describes (2 ^ 3) duoText us ∧ (∃ c, MustSee (1 / 2 ^ 20) ⟨⟨1, 0, 0⟩, ⟨0, 1, 0⟩, ⟨0, 0, 1⟩⟩ us c) ∧
    MeasuredDim flEnv (2 ^ 3) (1 / 2 ^ 50) ⟨⟨1, 0, 0⟩, ⟨0, 1, 0⟩, ⟨0, 0, 1⟩⟩ us (roughDim l) ⟨2, 0, 0⟩ FP.g6 := by
  obtain ⟨file, h1, h2, h3, h4, h5, h6, us, u1, u2, u3, u4, u5, u6, u7⟩ := rough_draws l 1
  refine ⟨us, u1, ⟨_, u7⟩, rough_asks l, ⟨_, h6⟩, u3, g6_short, ?_⟩
  intro f t mf mt
  rw [shown_seen (r := ⟨⟨1, 0, 0⟩, ⟨0, 1, 0⟩, ⟨0, 0, 1⟩⟩) ⟨by intro v w; simp [V3.mulM], by simp [M3.det, V3.cross, V3.dot]⟩ u3 (meant_clear mf u4) (meant_clear mt u5), u6]
  norm_num

theorem rough_run (w : World) (hw : w.read c!"/x" = some duoText) {s : Str} {l l' : ℕ → ℕ} {a b b' c : ℕ}
    (hp : parse s = .ok (some (⟨[⟨c!"m", c!"/x", a⟩], [⟨[], [.draw c!"m" [] [roughDim l] b, .draw c!"m" [] [squareDim l'] b'], c⟩]⟩ : Doc F64))) :
    ∃ r, scriptToPS flEnv w c!"s" s = .ok r ∧ r.ok = true := by
  obtain ⟨f, hf, hM, hv, hts, ⟨cc, hc, hc1⟩, -, us, -, u2, -⟩ := rough_draws l b
  obtain ⟨f', hf', -, -, -, hdr, -⟩ := rough_draws (fun _ => 1) 1
  obtain rfl : f = f' := by
    rw [hf] at hf'
    cases hf'; rfl
  obtain ⟨cc', hc', hc1'⟩ := square_draws l' b' f hM hdr u2 hv hts
  obtain ⟨r, hr⟩ := C62_run flEnv insSorter_ok rfl w c!"s" s (by intro a h; rw [hp] at h; cases h) (by
    intro doc hd
    rw [hp] at hd; cases hd
    intro m hm ps x h1 h2
    exact (fl_saneModels_of w hw duo_sane a m hm ps x h1 h2).mono (by norm_num))
  have hload : Loads flEnv.loadPath w ⟨c!"m", c!"/x", a⟩ f := ⟨[c!"/x"], _, Or.inl ⟨rfl, rfl⟩, ⟨[], c!"/x", [], rfl, by simp, hw⟩, hf⟩
  refine ⟨r, hr, ?_⟩
  rw [(C48_all_or_nothing flEnv w _ _ r hr).1]
  obtain ⟨g, hg⟩ := generatePages_ok flEnv [(c!"m", some f)] ⟨[], [⟨[], [.draw c!"m" [] [roughDim l] b, .draw c!"m" [] [squareDim l'] b'], c⟩]⟩ [] (by
    intro pg hpg x hx
    simp only [List.mem_singleton] at hpg; subst hpg
    simp only [List.mem_cons, List.not_mem_nil, or_false] at hx
    rcases hx with rfl | rfl
    · exact ⟨cc, hc⟩
    · exact ⟨cc', hc'⟩)
  obtain ⟨cs, k1, ⟨t, -, k2⟩, k3⟩ := C58_page flEnv [(c!"m", some f)] ⟨[], [.draw c!"m" [] [roughDim l] b, .draw c!"m" [] [squareDim l'] b'], c⟩ g hg
  have gok : g.ok = true := by
    rw [k3]
    refine ⟨⟨by simp, by simp, by simp⟩, by simp [nameIsString, look], ?_⟩
    intro c' hc''
    obtain ⟨d, hd, e⟩ := forall₂_right k1 c' hc''
    simp only [List.mem_cons, List.not_mem_nil, or_false] at hd
    rcases hd with rfl | rfl
    · rw [hc] at e; cases e; exact hc1
    · rw [hc'] at e; cases e; exact hc1'
  exact ⟨_, _, [f], _, hp, by simp, .cons hload .nil, .cons ⟨g, hg, gok, k2⟩ .nil, rfl⟩

/-- A run of the program, in double arithmetic with rounding to nearest, that meets the premises of `C89_program`; the script asks for a linear dimension and an
angle. -/
example : ∃ s : Str, SortOK flEnv.sorter ∧ flEnv.junkM = ⟨V3.zero, V3.zero, V3.zero⟩ ∧ (roughDisk s).ident c!"s" ≠ (roughDisk s).ident c!"o" ∧
    (∃ text, ∃ doc : Doc F64, (roughDisk s).read c!"s" = some text ∧ parse text = .ok (some doc) ∧ ∃ pg ∈ doc.pages,
      (∃ name ms d line, Drawable.draw name ms [d] line ∈ pg.draws ∧ d.kind = .dim) ∧ ∃ name ms d line, Drawable.draw name ms [d] line ∈ pg.draws ∧ d.kind = .angle) ∧
    (∀ text (doc : Doc F64), (roughDisk s).read c!"s" = some text → parse text = .ok (some doc) →
      (∀ m ∈ doc.models, ∀ ps, Places flEnv.loadPath m.source ps → ∀ p ∈ ps, (roughDisk s).ident p ≠ (roughDisk s).ident c!"o") ∧
      SaneModels 3 flEnv.loadPath (roughDisk s) doc.models ∧ ∀ pg ∈ doc.pages, (∀ t, titled pg.metas t → t.length ≤ 2 ^ 32) ∧
        (∀ s ms line, Drawable.text s ms line ∈ pg.draws → s.length < 2 ^ 32) ∧
        ∀ name ms dims line, Drawable.draw name ms dims line ∈ pg.draws → Drawing flEnv (roughDisk s) doc.models (2 ^ 3) (1 / 2 ^ 50) name ms dims) ∧
    OneLine flEnv.name ∧ OneLine c!"s" ∧ OneLine flEnv.now ∧ (mainRun flEnv (roughDisk s) c!"s" c!"o").1 = .ok 0 := by
  obtain ⟨s, l, l', a, b, b', c, hp⟩ := rough_script
  have hread : (roughDisk s).read c!"s" = some s := rfl
  refine ⟨s, insSorter_ok, rfl, (by decide : (1 : ℕ) ≠ 2), ⟨s, _, rfl, hp, _, List.mem_singleton.2 rfl,
    ⟨_, _, roughDim l, _, List.mem_cons_self, rfl⟩, _, _, squareDim l', _, List.mem_cons_of_mem _ (List.mem_singleton.2 rfl), rfl⟩, ?_,
    by unfold OneLine; decide, by unfold OneLine; decide, by unfold OneLine; decide, ?_⟩
  · intro text doc ht hd
    rw [hread] at ht; cases ht
    rw [hp] at hd; cases hd
    refine ⟨?_, fl_saneModels_of (roughDisk s) rfl duo_sane a, ?_⟩
    · intro m hm ps hps p hpp
      simp only [List.mem_singleton] at hm; subst hm
      rw [paper_places ps hps, List.mem_singleton] at hpp
      subst hpp
      exact (by decide : (3 : ℕ) ≠ 2)
    · intro pg hpg
      simp only [List.mem_singleton] at hpg; subst hpg
      refine ⟨?_, by simp, ?_⟩
      · intro t ht
        simp [titled, look] at ht
        subst ht; simp
      · intro name ms dims line h
        have h : name = c!"m" ∧ ms = [] ∧ (dims = [roughDim l] ∨ dims = [squareDim l']) := by
          simp only [List.mem_cons, List.not_mem_nil, or_false, Drawable.draw.injEq] at h
          rcases h with ⟨rfl, rfl, rfl, -⟩ | ⟨rfl, rfl, rfl, -⟩
          · exact ⟨rfl, rfl, Or.inl rfl⟩
          · exact ⟨rfl, rfl, Or.inr rfl⟩
        obtain ⟨rfl, rfl, hdims⟩ := h
        obtain ⟨file, h1, h2, h3, h4, -⟩ := rough_draws l b
        refine ⟨h4, ?_, h3, ?_⟩
        · intro a b h
          have : (a, b) = ((1, 1) : Int × Int) := by
            simp only [look, scaleOf] at h
            cases h; rfl
          cases this; norm_num
        · intro m hm hname ps text hps ⟨u, p, v, q1, q2, q3⟩
          simp only [List.mem_singleton] at hm; subst hm
          rw [paper_places ps hps] at q1
          have : p = c!"/x" := by
            have : p ∈ u ++ p :: v := by simp
            rw [← q1] at this
            simpa using this
          subst this
          have : (roughDisk s).read c!"/x" = some duoText := rfl
          rw [this] at q3; cases q3
          obtain ⟨us, u1, u2, u3⟩ := rough_measured l
          refine ⟨us, u1, fun r hr => ?_⟩
          obtain rfl := askedView_unique hr asked_top
          refine ⟨fun _ => u2, ?_⟩
          intro d hd
          rcases hdims with rfl | rfl
          · rw [List.mem_singleton] at hd
            subst hd
            exact Or.inl ⟨_, _, u3⟩
          · rw [List.mem_singleton] at hd
            subst hd
            exact Or.inr (Or.inl ⟨_, _, _, _, _, _, _, _, square_asks l', square_wide⟩)
  · obtain ⟨r, hr, hok⟩ := rough_run ((roughDisk s).write c!"o" []) rfl hp
    have hread : ((roughDisk s).write c!"o" []).read c!"s" = some s := rfl
    have e1 : (roughDisk s).ident c!"s" ≠ (roughDisk s).ident c!"o" := (by decide : (1 : ℕ) ≠ 2)
    unfold mainRun
    rw [if_neg (by decide), if_neg (by decide), if_neg (by simp [roughDisk])]
    simp only [hread, hr, hok, if_true]

/-- the radius or the diameter of the plate -/
noncomputable def plateDim (k : DimKind) (l : ℕ → ℕ) : DimN F64 := ⟨k, (ringRad 1 0 l).metas, l 6⟩

theorem plate_measured (k : DimKind) (hk : k = .dia ∨ k = .rad) (l : ℕ → ℕ) :
    MeasuredRound flEnv (2 ^ 4) (1 / 2 ^ 50) (NamedView ([] : List (Meta F64))) ⟨⟨1, 0, 0⟩, ⟨0, 1, 0⟩, ⟨0, 0, 1⟩⟩ (plateTris.map levelTri) (plateDim k l) FP.g6 ⟨10, 9, 0⟩ ⟨1, 1, 0⟩
      ⟨1, 0, 0⟩ ⟨0, 0⟩ 5 13 10 (9 / 10) 0 := by
  obtain ⟨file, c, -, -, -, -, -, -, -, -, -, -, hA, h10, hH⟩ := plate_leader l 1
  refine ⟨⟨hk, ?_, hA.fmt, hA.at_, hA.dir, hA.center, hA.within, hA.largest, hA.square⟩, h10, hH, ?_, fun _ z => g6_plain (K := ℝ) z⟩
  · have h := hA.good
    rcases hk with rfl | rfl
    · simp only [plateDim, ringRad, GoodDim] at h ⊢
      exact h
    · exact h
  · intro y h1 h2
    have := g6_short (R := binary64 .nearest (fun _ => true) (fun _ => true)) y (by norm_num at *; linarith) (by norm_num at *; linarith)
    exact this.trans (by norm_num)

theorem plate_span_measured (l : ℕ → ℕ) : MeasuredSpan flEnv (2 ^ 4) (1 / 2 ^ 50) (NamedView ([] : List (Meta F64))) ⟨⟨1, 0, 0⟩, ⟨0, 1, 0⟩, ⟨0, 0, 1⟩⟩ (plateTris.map levelTri)
    (plateSpan l) ⟨2, 0, 0⟩ FP.g6 ⟨-4, 10⟩ ⟨0, 0⟩ ⟨-8, 8⟩ (2 * (2 ^ 4 * (1 / 2 ^ 50))) (rimErr (13 : ℕ) 10 (9 / 10) (0 + 4 * (10 * (10 * (2 ^ 4 * (1 / 2 ^ 50))))))
    (2 * (2 ^ 4 * (1 / 2 ^ 50))) := by
  refine ⟨plate_span l, g6_short4, ?_⟩
  rw [plate_eight]
  unfold rimErr
  norm_num

end S2P
