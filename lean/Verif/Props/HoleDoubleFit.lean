import Verif.Lemmas.LocateNear
import Verif.Props.HoleDouble

set_option linter.unusedSectionVars false
set_option linter.unusedVariables false
set_option linter.unusedSimpArgs false

/-! # C90, the part that holds: how far the radius is off

The full statement is C90 (Props/HoleDouble has the counterexamples).  What holds: the error is at most `8 M ε / r`, where `ε = rimErr N M A η` grows with the number `N` of
corners on the rim and the distance `M` from the origin, and falls with the area `A` of the triangles they span.  What is missing: rims whose `ε` is not small against their
radius, for which the claim is false, and rims that are not clearly nearer than the first corner, for which it is false in exact arithmetic already (C82). -/

namespace S2P

/-- **C90, located**: the circle found at a clear rim. -/
theorem C90_located_partial {R : Rounding} (hR : R.Accurate) {p0 : V2 ℝ} {ps : List (V2 ℝ)} {t m : V2 ℝ} {r : ℝ} {N : ℕ} {M A η : ℝ} (h : RimAt p0 ps t m r N M A η) (pts : List (V3 (Fl R)))
    (hp : pts.map V3.xy = (p0 :: ps).map (V2.toFl R)) :
    ∃ c rad, locate pts (V2.toFl R t) = some (c, rad) ∧ Fl.Near c.x m.x (rimErr N M A η) ∧ Fl.Near c.y m.y (rimErr N M A η) ∧ Fl.Near rad r (8 * M * rimErr N M A η / r) :=
  locate_rim hR h hp

/-- the error of the radius is less than half a percent in any case -/
theorem C90_small {p0 : V2 ℝ} {ps : List (V2 ℝ)} {t m : V2 ℝ} {r : ℝ} {N : ℕ} {M A η : ℝ} (h : RimAt p0 ps t m r N M A η) : 8 * M * rimErr N M A η / r ≤ r / 250 := by
  have := h.cond
  rw [div_le_iff₀ h.rad.1]
  nlinarith

section
variable {R : Rounding} (hR : R.Accurate)
include hR

/-- a rim has three corners -/
theorem rim_three {p0 : V2 ℝ} {ps : List (V2 ℝ)} {t m : V2 ℝ} {r : ℝ} {N : ℕ} {M A η : ℝ} (hrim : RimAt p0 ps t m r N M A η) {pts : List (V3 (Fl R))}
    (hpts : pts.map V3.xy = (p0 :: ps).map (V2.toFl R)) : ¬ pts.length < 3 := by
  intro h3
  obtain ⟨x, y, z, -, hxy, hxz, hyz, hm⟩ := fetch_rim hR hrim
  have hsub : [x, y, z] ⊆ p0 :: ps := fun e he => (hm e he).1
  have h1 := (List.subperm_of_subset (by simp [hxy, hxz, hyz]) hsub).length_le
  have h2 := congrArg List.length hpts
  rw [List.length_map, List.length_map] at h2
  simp only [List.length_cons, List.length_nil] at h1 h2
  omega

/-- the diameter -/
theorem rim_twice {p0 : V2 ℝ} {ps : List (V2 ℝ)} {t m : V2 ℝ} {r : ℝ} {N : ℕ} {M A η : ℝ} (hrim : RimAt p0 ps t m r N M A η) {rad : Fl R}
    (hrad : Fl.Near rad r (8 * M * rimErr N M A η / r)) : Fl.Near (rad * FP.lit 2) (2 * r) (17 * M * rimErr N M A η / r) := by
  obtain ⟨m1, m16, -⟩ := hrim.near
  obtain ⟨hr, hrM⟩ := hrim.rad
  obtain ⟨x, y, z, -, hxy, hxz, hyz, hm⟩ := fetch_rim hR hrim
  obtain ⟨he1, -⟩ := fit_rim hR hrim [x, y, z] hm hrim.few.2.1 (by simp) (by simp) (by simp) hxy hxz hyz
  set ε := rimErr N M A η
  have huge : ∀ {S : ℝ}, S ≤ 2 ^ 100 → S ≤ 2 ^ 1000 := fun hS => hS.trans (pow_le_pow_right₀ (by norm_num) (by norm_num))
  have l2 := Fl.near_lit hR 2 (S := 2) (by norm_num) (by norm_num) (huge (by norm_num))
  rw [show ((2 : ℚ) : ℝ) = 2 by norm_num] at l2
  have hs := C90_small hrim
  have he0 : 0 ≤ 8 * M * ε / r := by
    have : 0 ≤ ε := le_trans (by positivity) he1
    positivity
  have := Fl.Near.mul hR hrad l2 (A := r) (B := 2) (abs_of_pos hr).le (by norm_num) (S := 3 * M) (by nlinarith) (le_trans (by norm_num) (show (1 : ℝ) ≤ 3 * M by linarith))
    (huge (le_trans (show 3 * M ≤ 3 * 2 ^ 16 by linarith) (by norm_num)))
  rw [mul_comm r 2] at this
  refine this.mono ?_
  have e1 : 16 * M / 2 ^ 51 ≤ M * ε / r := by
    refine he1.trans ?_
    rw [le_div_iff₀ hr]
    have : 0 ≤ ε := le_trans (by positivity) he1
    nlinarith
  have e2 : 17 * M * ε / r = 2 * (8 * M * ε / r) + M * ε / r := by ring
  have e3 : 8 * M * ε / r * (2 / 2 ^ 51) ≤ M * (2 / 2 ^ 51) := by
    apply mul_le_mul_of_nonneg_right _ (by positivity)
    linarith
  have e4 : r * (2 / 2 ^ 51) ≤ M * (2 / 2 ^ 51) := mul_le_mul_of_nonneg_right hrM (by positivity)
  rw [e2]
  linarith

/-- what such a dimension draws -/
theorem rim_dim (E : Env (Fl R)) (v : Vis (Fl R)) (hrot : v.rotation.eqv E.junkM = false) (d : DimN (Fl R)) (g : Fl R → Str) (m : V2 ℝ) (r : ℝ) (N : ℕ) (M A η : ℝ)
    (hh : AtRim E v.rotation v.points d g m r N M A η) :
    ∃ P L, dimContent E v d = .ok (true, P, L) ∧ ∃ item ∈ P.text, ∃ z : Fl R,
      if d.kind = .dia then Fl.Near z (2 * r) (17 * M * rimErr N M A η / r) ∧ item.str = c!"\\351" ++ g z
      else Fl.Near z r (8 * M * rimErr N M A η / r) ∧ item.str = c!"R" ++ g z := by
  obtain ⟨a, la, na, ha⟩ := hh.label
  obtain ⟨u, lu, nu, hu⟩ := hh.arrow
  obtain ⟨q, t, p0, ps, ⟨lq, nq, hq⟩, hqt, hpts, hrim⟩ := hh.rim
  have hfmt := hh.fmt
  obtain ⟨c, rad, hl, -, -, hrad⟩ := locate_rim hR hrim hpts
  have pt : ∀ j n p l line, look d.metas n = some ⟨n, .pt (.val p l), line⟩ → pointOf E v j d.metas n = some (p.mulM v.rotation) := by
    intro j n p l line h
    unfold pointOf
    rw [h]
    rfl
  have p1 := pt 0 _ _ _ _ ha
  have p2 := pt 1 _ _ _ _ hq
  have p3 := pt 2 _ _ _ _ hu
  have hl' : locate v.points (q.mulM v.rotation).xy = some (c, rad) := by rw [hqt]; exact hl
  have h3 := rim_three hR hrim hpts
  have hdia := rim_twice hR hrim hrad
  obtain ⟨P, hP, item, hi, z, hz⟩ : ∃ P, drawnItems E v d.kind d.metas = some P ∧ ∃ item ∈ P.text, ∃ z : Fl R,
      if d.kind = .dia then Fl.Near z (2 * r) (17 * M * rimErr N M A η / r) ∧ item.str = c!"\\351" ++ g z
      else Fl.Near z r (8 * M * rimErr N M A η / r) ∧ item.str = c!"R" ++ g z := by
    rcases hh.kind with hk | hk
    · refine ⟨diaItems g v.scale ⟨(a.mulM v.rotation).xy, (u.mulM v.rotation).xy, c, rad⟩, ?_, _, List.mem_cons_self, rad * FP.lit 2, ?_⟩
      · rw [hk]
        simp only [drawnItems, drawnItems.circ, p1, p2, p3, hl', hfmt, bind, Option.bind]
        rw [if_neg h3]
      · rw [if_pos hk]
        exact ⟨hdia, rfl⟩
    · refine ⟨radItems g v.scale ⟨(a.mulM v.rotation).xy, (u.mulM v.rotation).xy, c, rad⟩, ?_, _, List.mem_cons_self, rad, ?_⟩
      · rw [hk]
        simp only [drawnItems, drawnItems.circ, p1, p2, p3, hl', hfmt, bind, Option.bind]
        rw [if_neg h3]
      · rw [if_neg (by rw [hk]; decide)]
        exact ⟨hrad, rfl⟩
  obtain ⟨L, e⟩ := (dimContent_items E v d hrot).1 _ hh.good hP
  refine ⟨_, L, e, _, List.mem_map.2 ⟨item, hi, rfl⟩, z, ?_⟩
  exact hz

/-- **C90, the label**: in a drawing computed in doubles, a radius or diameter at a clear rim shows its radius or diameter, but for an error that is bounded. -/
theorem C90_label_partial (E : Env (Fl R)) (hJ : E.junkM = ⟨V3.zero, V3.zero, V3.zero⟩) (stl : Models (Fl R)) (name : Str) (ms : List (Meta (Fl R))) (hf : ∀ m ∈ ms, m.val.LocBd)
    (dims : List (DimN (Fl R))) (line : Nat) (c) (h : content E stl (.draw name ms dims line) = .ok c) (sc rot loc file proj ls) (hD : Drawn E stl name ms sc rot loc file proj ls)
    (d : DimN (Fl R)) (hd : d ∈ dims) (g : Fl R → Str) (m : V2 ℝ) (r : ℝ) (N : ℕ) (M A η : ℝ) (hh : AtRim E rot proj.cull.points d g m r N M A η) :
    ∃ item ∈ c.2.1.text, ∃ z : Fl R,
      if d.kind = .dia then Fl.Near z (2 * r) (17 * M * rimErr N M A η / r) ∧ item.str = c!"\\351" ++ g z
      else Fl.Near z r (8 * M * rimErr N M A η / r) ∧ item.str = c!"R" ++ g z := by
  have hvb := viewOf_bd _ (fun m hm => hf m (look_mem hm)) _ hD.view
  rcases draw_sum E stl name ms dims line c h with ⟨-, -, -, h1⟩ | ⟨sc', rot', loc', file', proj', ls', cs, hD', hcs, hp, hok, -⟩
  · exact absurd ⟨_, _, _, _, _, _, hD⟩ h1
  obtain ⟨rfl, rfl, rfl, rfl, rfl, rfl⟩ := drawn_unique hD hD'
  obtain ⟨k, hk2, hdk⟩ := forall₂_left_mem hcs hd
  obtain ⟨P, L, e, item, hi, z, hz⟩ := rim_dim hR E (drawStart (initVis E) sc rot loc proj.cull ls) (by rw [hJ]; exact hvb.2.2.2) d g m r N M A η hh
  rw [hdk] at e
  injection e with e
  refine ⟨item, ?_, z, hz⟩
  rw [hp]
  simp only [OutPage.app, List.mem_append]
  exact Or.inr ((mem_sum_text _).2 ⟨P, List.mem_map.2 ⟨_, hk2, by rw [e]⟩, hi⟩)

/-- **C90, accepted**: and a drawing whose dimensions are all such is not refused. -/
theorem C90_accepted_partial (E : Env (Fl R)) (hJ : E.junkM = ⟨V3.zero, V3.zero, V3.zero⟩) (stl : Models (Fl R)) (name : Str) (ms : List (Meta (Fl R))) (hf : ∀ m ∈ ms, m.val.LocBd)
    (hnames : ∀ m ∈ ms, m.name ∈ [c!"scale", c!"view", c!"@"]) (dims : List (DimN (Fl R))) (line : Nat) (c) (h : content E stl (.draw name ms dims line) = .ok c)
    (sc rot loc file proj ls) (hD : Drawn E stl name ms sc rot loc file proj ls) (hh : ∀ d ∈ dims, ∃ g m r N M A η, AtRim E rot proj.cull.points d g m r N M A η) : c.1 = true := by
  have hvb := viewOf_bd _ (fun m hm => hf m (look_mem hm)) _ hD.view
  rcases draw_sum E stl name ms dims line c h with ⟨-, -, -, h1⟩ | ⟨sc', rot', loc', file', proj', ls', cs, hD', hcs, hp, hok, -⟩
  · exact absurd ⟨_, _, _, _, _, _, hD⟩ h1
  obtain ⟨rfl, rfl, rfl, rfl, rfl, rfl⟩ := drawn_unique hD hD'
  refine hok.2 ⟨?_, hnames⟩
  intro k hk
  obtain ⟨d, hd, hdk⟩ := forall₂_right hcs k hk
  obtain ⟨g, m, r, N, M, A, η, ha⟩ := hh d hd
  obtain ⟨P, L, e, -⟩ := rim_dim hR E (drawStart (initVis E) sc rot loc proj.cull ls) (by rw [hJ]; exact hvb.2.2.2) d g m r N M A η ha
  rw [hdk] at e
  injection e with e
  rw [e]

end
/-! ## A case: a disc of radius 5 -/

/-- radius 5 round the origin -/
def discText : Str := ringText [c!"-5", c!"-4", c!"-3", c!"0", c!"3", c!"4", c!"5"]

theorem disc_on : AllOn discText 0 0 5 := allOn_ok (by decide +kernel)
theorem disc_sane : SaneFile 3 discText := saneB_ok _ _ (by decide +kernel)

/-- the corners in the order of the search -/
def discPts : List (ℤ × ℤ) := [(-5, 0), (-4, -3), (-4, 3), (-3, -4), (-3, 4), (0, -5), (0, 5), (3, -4), (3, 4), (4, -3), (4, 3), (5, 0)]

def discCheck : Bool :=
  match makeLoop (α := X64) (getLines discText) ⟨V3.zero, [], []⟩ with
  | .ok (some s) => s.facets.all Facet.okB && decide ((seenTop s.facets).map V3.xy = discPts.map (fun p => (gridPt p.1 p.2).xy))
  | _ => false

theorem disc_check : discCheck = true := by decide +kernel

/-- a pair of integers as a point -/
def intPt (p : ℤ × ℤ) : V2 ℝ := ⟨p.1, p.2⟩

theorem disc_grid : ∀ p ∈ discPts, p.1 * p.1 + p.2 * p.2 = 25 ∧ |p.1| ≤ 5 ∧ |p.2| ≤ 5 ∧ 16 ≤ (p.1 - 1) * (p.1 - 1) + p.2 * p.2 := by decide

theorem disc_area : ∀ x ∈ discPts, ∀ y ∈ discPts, ∀ z ∈ discPts, x ≠ y → x ≠ z → y ≠ z → 2 ≤ |(y.1 - x.1) * (z.2 - x.2) - (y.2 - x.2) * (z.1 - x.1)| := by decide +kernel

theorem disc_rim : RimAt (intPt (-5, 0)) (discPts.tail.map intPt) ⟨1, 0⟩ ⟨0, 0⟩ 5 12 5 1 0 := by
  have mem : ∀ q, q ∈ intPt (-5, 0) :: discPts.tail.map intPt → ∃ p ∈ discPts, intPt p = q := fun q hq => List.mem_map.1 (show q ∈ discPts.map intPt from hq)
  have on : ∀ q, q ∈ intPt (-5, 0) :: discPts.tail.map intPt → OnRim ⟨0, 0⟩ 5 0 q := by
    intro q hq
    obtain ⟨p, hp, rfl⟩ := mem q hq
    have h1 := (disc_grid p hp).1
    have h2 : (p.1 : ℝ) * p.1 + (p.2 : ℝ) * p.2 = 25 := by exact_mod_cast h1
    unfold OnRim dist2 intPt
    rw [show ((p.1 : ℝ) - 0) ^ 2 + ((p.2 : ℝ) - 0) ^ 2 - 5 ^ 2 = ((p.1 : ℝ) * p.1 + (p.2 : ℝ) * p.2) - 25 by ring, h2]
    norm_num
  refine ⟨⟨?_, by norm_num, by norm_num⟩, ⟨by norm_num, by norm_num, ?_⟩, ⟨by norm_num, by norm_num⟩, ⟨le_rfl, by norm_num⟩, ⟨by norm_num, ?_⟩, ?_, ?_, ?_⟩
  · exact (List.length_filter_le _ _).trans (by decide)
  · intro q hq
    simp only [List.mem_cons] at hq
    rcases hq with rfl | rfl | hq
    · norm_num
    · norm_num
    · obtain ⟨p, hp, rfl⟩ := mem q (List.mem_cons.2 hq)
      obtain ⟨-, h1, h2, -⟩ := disc_grid p hp
      have i1 : |(p.1 : ℝ)| ≤ 5 := by exact_mod_cast h1
      have i2 : |(p.2 : ℝ)| ≤ 5 := by exact_mod_cast h2
      exact ⟨i1, i2⟩
  · intro x hx y hy z hz _ _ _ hxy hxz hyz
    obtain ⟨x, ix, rfl⟩ := mem x hx
    obtain ⟨y, iy, rfl⟩ := mem y hy
    obtain ⟨z, iz, rfl⟩ := mem z hz
    have := disc_area x ix y iy z iz (fun e => hxy (by rw [e])) (fun e => hxz (by rw [e])) (fun e => hyz (by rw [e]))
    have h2 : (2 : ℝ) ≤ |((y.1 : ℝ) - x.1) * (z.2 - x.2) - (y.2 - x.2) * (z.1 - x.1)| := by exact_mod_cast this
    rw [mul_one]
    exact h2
  · norm_num [rimErr]
  · intro q hq
    obtain ⟨p, hp, rfl⟩ := mem q hq
    have h1 := (disc_grid p hp).2.2.2
    have h2 : (16 : ℝ) ≤ ((p.1 : ℝ) - 1) * (p.1 - 1) + (p.2 : ℝ) * p.2 := by exact_mod_cast h1
    unfold dist2 intPt
    norm_num
    nlinarith
  · refine ⟨intPt (5, 0), intPt (4, 3), intPt (4, -3), ?_, ?_, ?_⟩
    · intro x hx
      have hx' : x ∈ intPt (-5, 0) :: discPts.tail.map intPt := by
        simp only [List.mem_cons, List.not_mem_nil, or_false] at hx
        rcases hx with rfl | rfl | rfl <;> exact List.mem_map_of_mem (f := intPt) (l := discPts) (by decide)
      refine ⟨hx', on x hx', ?_⟩
      simp only [List.mem_cons, List.not_mem_nil, or_false] at hx
      rcases hx with rfl | rfl | rfl <;> norm_num [dist2, intPt]
    · simp only [List.pairwise_cons, List.mem_cons, List.not_mem_nil, or_false, forall_eq_or_imp, forall_eq]
      norm_num [dist2, intPt]
    · intro q hq
      exact .inl (on q hq)

theorem disc_point : ((gridPt 1 0).mulM matZP).xy = (gridPt 1 0).xy := by decide +kernel

theorem grid_toFl (p : ℤ × ℤ) : (gridPt p.1 p.2).xy.map (X64.fl R64) = V2.toFl R64 (intPt p) := by
  simp [gridPt, V2.map, V3.xy, X64.fl, Ext.real, V2.toFl, intPt]

/-- the hypotheses of the theorems hold for the drawing of the disc from above with a radius at (1, 0): it shows 5, but for 1/40000 -/
theorem disc_case (l : ℕ → ℕ) (b : ℕ) : ∃ (file : STLFile F64) (c : _), make discText = .ok (some file) ∧
    content flEnv [(c!"m", some file)] (.draw c!"m" [] [ringRad 1 0 l] b) = .ok c ∧ c.1 = true ∧
    ∃ item ∈ c.2.1.text, ∃ z : F64, Fl.Near z 5 (1 / 40000) ∧ item.str = c!"R" ++ FP.g6 z := by
  have hc := disc_check
  unfold discCheck at hc
  split at hc
  · rename_i s hs
    rw [Bool.and_eq_true, List.all_eq_true, decide_eq_true_iff] at hc
    obtain ⟨hok, hseen⟩ := hc
    obtain ⟨file, hfile, hfac⟩ := top_file hs hok
    have hbd := sane_bd (α := F64) (by norm_num) disc_sane file hfile
    have hM : Models.Bd 3 [(c!"m", some file)] := by
      intro e he
      simp only [List.mem_singleton] at he
      subst he
      exact ⟨_, rfl, hbd⟩
    obtain ⟨c, hc⟩ := content_bd flEnv insSorter_ok rfl [(c!"m", some file)] (by norm_num) hM (.draw c!"m" [] [ringRad 1 0 l] b) (by simp [Drawable.LocBd]) (by intro m hm; simp at hm)
    obtain ⟨proj, ls, g1, g2, -, g3, -⟩ := turned_bd (n := 3) (by norm_num) flEnv.sorter insSorter_ok _ hbd matZP (viewOf_bd (none : Option (Meta F64)) (by simp) matZP rfl)
    have hD : Drawn flEnv [(c!"m", some file)] c!"m" [] ((1, 1) : Int × Int) matZP _ file proj ls := ⟨by simp, rfl, rfl, rfl, ⟨_, rfl, rfl⟩, g1, by rw [g2]; exact g3⟩
    have hpts := top_points hfac (index_facets g1)
    have hrim : AtRim flEnv matZP proj.cull.points (ringRad 1 0 l) FP.g6 ⟨0, 0⟩ 5 12 5 1 0 := by
      refine ⟨.inr rfl, ?_, ⟨_, _, _, rfl⟩, ⟨_, _, _, rfl⟩, rfl, ⟨_, ⟨1, 0⟩, intPt (-5, 0), discPts.tail.map intPt, ⟨_, _, rfl⟩, ?_, ?_, disc_rim⟩⟩
      · simp only [ringRad, GoodDim]; rw [exactly_def]; simp
      · rw [← gridPt_fl, mulTop_fl]
        exact (congrArg (fun w : V2 X64 => w.map (X64.fl R64)) disc_point).trans ((grid_toFl (1, 0)).trans (by simp [intPt]))
      · rw [hpts, List.map_map]
        have e1 : (seenTop s.facets).map (V3.xy ∘ V3.fl) = ((seenTop s.facets).map V3.xy).map (V2.map (X64.fl R64)) := by
          rw [List.map_map]
          rfl
        rw [e1, hseen, List.map_map]
        show discPts.map _ = (discPts.map intPt).map (V2.toFl R64)
        rw [List.map_map]
        exact List.map_congr_left (fun p _ => grid_toFl p)
    refine ⟨file, c, hfile, hc, ?_, ?_⟩
    · refine C90_accepted_partial (binary64_accurate _ _ _) flEnv rfl _ _ [] (by simp) (by simp) _ _ c hc _ _ _ _ _ _ hD ?_
      intro d hd
      simp only [List.mem_singleton] at hd
      subst hd
      exact ⟨_, _, _, _, _, _, _, hrim⟩
    · obtain ⟨item, hi, z, hz⟩ := C90_label_partial (binary64_accurate _ _ _) flEnv rfl _ _ [] (by simp) _ _ c hc _ _ _ _ _ _ hD (ringRad 1 0 l) (by simp) _ _ _ _ _ _ _ hrim
      rw [if_neg (by simp [ringRad])] at hz
      exact ⟨item, hi, z, hz.1.mono (by norm_num [rimErr]), hz.2⟩
  · simp at hc

end S2P
