import Verif.Lemmas.HolesDouble
import Verif.Props.HoleDoubleFit

set_option linter.unusedSectionVars false
set_option linter.unusedVariables false
set_option linter.unusedSimpArgs false

/-! # C91: the distance between holes, and between a hole and a corner, is right in double arithmetic -/

namespace S2P

section
variable {R : Rounding} (hR : R.Accurate)
include hR

/-- the label of one dimension -/
theorem label_spots {E : Env (Fl R)} {stl : Models (Fl R)} {n : ℕ} (hn : n ≤ 40) {name : Str} {ms : List (Meta (Fl R))} {sc rot loc file proj ls r kept k p off}
    (F : Framed E stl n name ms sc rot loc file proj ls r kept k p off) {us : List (Tri ℝ)} (hus : List.Forall₂ (Stored (2 ^ n)) file.facets us)
    {η : ℝ} (hη : Fine η) (hm : M3.NearTo rot r η) {v : Vis (Fl R)} (hv : v.rotation = rot) (hp : v.points = proj.points) (hj : v.rotation.eqv E.junkM = false)
    {d : DimN (Fl R)} {u : V3 ℝ} {g : Fl R → Str} {U : ℝ} {f t : V2 ℝ} {εf εt : ℝ} (h : SpotDim E rot r us proj.points (2 ^ n) η d u g f t εf εt) (hu : Largest u U) :
    ∃ P L x, ∃ q : V2 (Fl R), dimContent E v d = .ok (true, P, L) ∧ P.text = [⟨q.moved v.scale v.d, g x, true, false⟩] ∧
      Fl.Near x (|(t - f).dot (u.mulM r).xy| / len3 u) (2 ^ 12 * (2 ^ n * η) + 2 * (εf + εt)) := by
  have h1 : (1 : ℝ) ≤ 2 ^ n := one_le_pow₀ (by norm_num)
  have hM : Wide ((2 : ℝ) ^ n) := ⟨le_trans (by norm_num) h1, pow_le_pow_right₀ (by norm_num) (by omega)⟩
  have hU : Wide U := ⟨hu.2.2.2.2.1, hu.2.2.2.2.2⟩
  have hr := F.rotation
  obtain ⟨s, ε, hs⟩ := h.label
  obtain ⟨A, A', pa, na, la, -, -⟩ := spot_point hR hn F hus hη hm hv hp hs 0
  obtain ⟨Xf, F', pf, nf, lf, fx, fy⟩ := spot_point hR hn F hus hη hm hv hp h.start 2
  obtain ⟨Xt, T', pt, nt, lt, tx, ty⟩ := spot_point hR hn F hus hη hm hv hp h.stop 3
  have nu := mulM_near' (R := R) hR hU hη (v := (u.fin : V3 (Ext ℝ))) ⟨Fl.near_fin _, Fl.near_fin _, Fl.near_fin _⟩ ⟨hu.1, hu.2.1, hu.2.2.1⟩ hm hr
  have lu := hu.len
  have lu0 : 0 < len3 u := lt_of_lt_of_le (lt_of_lt_of_le (by positivity) hU.lo) lu.1
  obtain ⟨hz', nn⟩ := unit_near hR hU hη nu (by rw [rot_len hr]; exact lu.1) (by rw [rot_len hr]; exact lu.2)
  have hN : len3 ((u.mulM r).sdiv (len3 (u.mulM r))) = 1 := by
    have e : (u.mulM r).sdiv (len3 (u.mulM r)) = (u.mulM r).smul (1 / len3 (u.mulM r)) := by
      ext <;> simp [V3.sdiv, V3.smul] <;> ring
    rw [e, len3_scaled, rot_len hr, abs_of_pos (by positivity)]
    field_simp
  have nv := value_near hR hM hη nn hN na nf nt la lf lt
  have hs : |((u.mulM r).sdiv (len3 (u.mulM r))).x * (t.x - f.x) + ((u.mulM r).sdiv (len3 (u.mulM r))).y * (t.y - f.y)| = |(t - f).dot (u.mulM r).xy| / len3 u := by
    have e : ((u.mulM r).sdiv (len3 (u.mulM r))).x * (t.x - f.x) + ((u.mulM r).sdiv (len3 (u.mulM r))).y * (t.y - f.y) = (t - f).dot (u.mulM r).xy / len3 u := by
      simp [V3.sdiv, V2.dot, V3.xy, rot_len hr]; ring
    rw [e, abs_div, abs_of_pos lu0]
  obtain ⟨wx, wy, -⟩ := within_len hN.le
  have Nz : ((u.mulM r).sdiv (len3 (u.mulM r))).z = 0 := by simp [V3.sdiv, h.square]
  have hdiff : |(|((u.mulM r).sdiv (len3 (u.mulM r))).dot (T' - F')| - |(t - f).dot (u.mulM r).xy| / len3 u)| ≤ 2 * (εf + εt) := by
    rw [← hs]
    generalize (u.mulM r).sdiv (len3 (u.mulM r)) = N at *
    refine (abs_abs_sub_abs_le _ _).trans ?_
    have e : N.dot (T' - F') - (N.x * (t.x - f.x) + N.y * (t.y - f.y)) =
        N.x * (T'.x - t.x) - N.x * (F'.x - f.x) + (N.y * (T'.y - t.y) - N.y * (F'.y - f.y)) := by
      simp only [V3.dot, V3.sub_x, V3.sub_y, V3.sub_z, Nz]
      ring
    rw [e]
    have go : ∀ {a b c : ℝ}, |a| ≤ 1 → |b| ≤ εt → |c| ≤ εf → |a * b - a * c| ≤ εf + εt := by
      intro a b c ha hb hc
      refine (abs_sub _ _).trans ?_
      rw [abs_mul, abs_mul]
      have := mul_le_mul ha hb (abs_nonneg _) (by norm_num)
      have := mul_le_mul ha hc (abs_nonneg _) (by norm_num)
      linarith
    refine (abs_add_le _ _).trans ?_
    have := go wx tx fx
    have := go wy ty fy
    linarith
  have hi : drawnItems E v d.kind d.metas = some (dimItems g v.scale A (V3.mulM (α := Fl R) (u.fin : V3 (Ext ℝ)) rot).normalized Xf Xt) := by
    have pu := literal_rot (E := E) (v := v) h.dir 1
    rw [hv] at pu
    rw [h.kind]
    simp only [drawnItems, pa, pu, pf, pt, h.fmt, bind, Option.bind, hz']
    rfl
  obtain ⟨L, eq⟩ := (dimContent_items E v d hj).1 _ h.good hi
  exact ⟨_, L, _, A.xy, eq, rfl, nv.trans hdiff⟩

end

section
variable (I : IntRounding) (range64 range32 : ℚ → Bool)

/-- how such a drawing is framed -/
theorem spots_frame (E : Env (Fl (binary64 I range64 range32))) (hS : SortOK E.sorter) (hJ : E.junkM = ⟨V3.zero, V3.zero, V3.zero⟩)
    (stl : Models (Fl (binary64 I range64 range32))) {n : ℕ} (hn : n ≤ 40) (hM : stl.Bd n) (name : Str)
    (ms : List (Meta (Fl (binary64 I range64 range32)))) (hf : ∀ m ∈ ms, m.val.LocBd) (hnames : ∀ m ∈ ms, m.name ∈ [c!"scale", c!"view", c!"@"])
    (hat : AtLoc ms) (η : ℝ) (hη : ViewError ms η)
    (hs : TameScale ms) (sc rot loc file proj ls) (hD : Drawn E stl name ms sc rot loc file proj ls) :
    ∃ r kept k p off, Framed E stl n name ms sc rot loc file proj ls r kept k p off ∧ Fine η ∧ M3.NearTo rot r η := by
  have hR := binary64_accurate I range64 range32
  obtain ⟨c, hc⟩ := content_bd E hS hJ stl (by omega) hM (.draw name ms [] 0) hf hat
  have h1 : c.1 = true := by
    rcases draw_sum E stl name ms [] 0 c hc with ⟨-, -, -, h1⟩ | ⟨sc', rot', loc', file', proj', ls', cs, hD', hcs, hp, hok, -⟩
    · exact absurd ⟨_, _, _, _, _, _, hD⟩ h1
    · refine hok.2 ⟨?_, hnames⟩
      cases hcs
      simp
  obtain ⟨sc', rot', loc', file', proj', ls', r, kept, k, p, off, F⟩ := draw_frame hR E hS hJ stl (by omega) hM name ms hf hη.tame hs [] 0 c hc h1
  obtain ⟨rfl, rfl, rfl, rfl, rfl, rfl⟩ := drawn_unique hD F.drawn
  obtain ⟨hfine, r', hr', -, hnear⟩ := view_fine hR ms hη rot F.drawn.view
  obtain rfl := askedView_unique hr' F.asked
  exact ⟨r', kept, k, p, off, F, hfine, hnear⟩

/-- **C91.** In IEEE 754 double arithmetic, whatever the direction of rounding: a linear dimension along a literal direction square to the line of sight, each of whose points is
literal, or a corner picked beyond doubt by `near`, or the `center` of a circle that the corners show clearly, has a label, and the number in it is the distance, along the
direction, of the places where the points are seen, but for an error that is bounded by the size of the model, the accuracy of the view and the errors of the circles. -/
theorem C91_label (E : Env (Fl (binary64 I range64 range32))) (hS : SortOK E.sorter) (hJ : E.junkM = ⟨V3.zero, V3.zero, V3.zero⟩)
    (stl : Models (Fl (binary64 I range64 range32))) {n : ℕ} (hn : n ≤ 40) (hM : stl.Bd n) (name : Str)
    (ms : List (Meta (Fl (binary64 I range64 range32)))) (hf : ∀ m ∈ ms, m.val.LocBd) (hnames : ∀ m ∈ ms, m.name ∈ [c!"scale", c!"view", c!"@"])
    (hat : AtLoc ms) (η : ℝ) (hη : ViewError ms η)
    (hs : TameScale ms) (dims : List (DimN (Fl (binary64 I range64 range32)))) (line : Nat) (c) (h : content E stl (.draw name ms dims line) = .ok c)
    (sc rot loc file proj ls) (hD : Drawn E stl name ms sc rot loc file proj ls) (r : M3 ℝ) (hr : AskedView ms r)
    (text us) (hmk : make text = .ok (some file)) (hde : Describes (2 ^ n) text us)
    (d) (hd : d ∈ dims) (u g U f t εf εt) (hA : SpotDim E rot r us proj.cull.points (2 ^ n) η d u g f t εf εt) (hu : Largest u U) :
    ∃ item ∈ c.2.1.text, ∃ x, item.str = g x ∧ item.center = true ∧ Fl.Near x (|(t - f).dot (u.mulM r).xy| / len3 u) (2 ^ 12 * (2 ^ n * η) + 2 * (εf + εt)) := by
  have hR := binary64_accurate I range64 range32
  obtain ⟨r', kept, k, p, off, F, hfine, hnear⟩ := spots_frame I range64 range32 E hS hJ stl hn hM name ms hf hnames hat η hη hs sc rot loc file proj ls hD
  obtain rfl := askedView_unique hr F.asked
  have hus := described_stored hR ⟨one_le_pow₀ (by norm_num), pow_le_pow_right₀ (by norm_num) hn⟩ hde hmk
  rcases draw_sum E stl name ms dims line c h with ⟨-, -, -, h1⟩ | ⟨sc', rot', loc', file', proj', ls', cs, hD', hcs, hp, hok, -⟩
  · exact absurd ⟨_, _, _, _, _, _, hD⟩ h1
  obtain ⟨rfl, rfl, rfl, rfl, rfl, rfl⟩ := drawn_unique hD hD'
  have hj : (drawStart (initVis E) sc rot loc proj.cull ls).rotation.eqv E.junkM = false := by rw [hJ]; exact F.viewBd.2.2.2
  obtain ⟨k', hk, hdk⟩ := forall₂_left_mem hcs hd
  have hpts : (drawStart (initVis E) sc rot loc proj.cull ls).points = proj.points := by
    show proj.cull.points = _
    rw [F.culled]
  rw [F.culled] at hA
  obtain ⟨P, L, x, q, e1, e2, e3⟩ := label_spots hR hn F hus hfine hnear (v := drawStart (initVis E) sc rot loc proj.cull ls) rfl hpts hj hA hu
  rw [hdk] at e1
  injection e1 with e1
  have hm : (⟨q.moved (drawStart (initVis E) sc rot loc proj.cull ls).scale (drawStart (initVis E) sc rot loc proj.cull ls).d, g x, true, false⟩ :
      PsText (Fl (binary64 I range64 range32))) ∈ P.text := by rw [e2]; exact List.mem_singleton_self _
  refine ⟨⟨q.moved (drawStart (initVis E) sc rot loc proj.cull ls).scale (drawStart (initVis E) sc rot loc proj.cull ls).d, g x, true, false⟩, ?_, x, rfl, rfl, e3⟩
  rw [hp]
  simp only [OutPage.app, List.mem_append]
  exact Or.inr ((mem_sum_text _).2 ⟨P, List.mem_map.2 ⟨_, hk, by rw [e1]⟩, hm⟩)

/-- **C91, accepted**: a drawing whose dimensions are such, or radii and diameters at such circles, is not refused. -/
theorem C91_accepted (E : Env (Fl (binary64 I range64 range32))) (hS : SortOK E.sorter) (hJ : E.junkM = ⟨V3.zero, V3.zero, V3.zero⟩)
    (stl : Models (Fl (binary64 I range64 range32))) {n : ℕ} (hn : n ≤ 40) (hM : stl.Bd n) (name : Str)
    (ms : List (Meta (Fl (binary64 I range64 range32)))) (hf : ∀ m ∈ ms, m.val.LocBd) (hnames : ∀ m ∈ ms, m.name ∈ [c!"scale", c!"view", c!"@"])
    (hat : AtLoc ms) (η : ℝ) (hη : ViewError ms η)
    (hs : TameScale ms) (dims : List (DimN (Fl (binary64 I range64 range32)))) (line : Nat) (c) (h : content E stl (.draw name ms dims line) = .ok c)
    (sc rot loc file proj ls) (hD : Drawn E stl name ms sc rot loc file proj ls) (r : M3 ℝ) (hr : AskedView ms r)
    (text us) (hmk : make text = .ok (some file)) (hde : Describes (2 ^ n) text us)
    (hh : ∀ d ∈ dims, (∃ u g U f t εf εt, SpotDim E rot r us proj.cull.points (2 ^ n) η d u g f t εf εt ∧ Largest u U) ∨
      ∃ g m ρ N M A s, AtRim E rot proj.cull.points d g m ρ N M A s) : c.1 = true := by
  have hR := binary64_accurate I range64 range32
  obtain ⟨r', kept, k, p, off, F, hfine, hnear⟩ := spots_frame I range64 range32 E hS hJ stl hn hM name ms hf hnames hat η hη hs sc rot loc file proj ls hD
  obtain rfl := askedView_unique hr F.asked
  have hus := described_stored hR ⟨one_le_pow₀ (by norm_num), pow_le_pow_right₀ (by norm_num) hn⟩ hde hmk
  rcases draw_sum E stl name ms dims line c h with ⟨-, -, -, h1⟩ | ⟨sc', rot', loc', file', proj', ls', cs, hD', hcs, hp, hok, -⟩
  · exact absurd ⟨_, _, _, _, _, _, hD⟩ h1
  obtain ⟨rfl, rfl, rfl, rfl, rfl, rfl⟩ := drawn_unique hD hD'
  have hj : (drawStart (initVis E) sc rot loc proj.cull ls).rotation.eqv E.junkM = false := by rw [hJ]; exact F.viewBd.2.2.2
  have hpts : (drawStart (initVis E) sc rot loc proj.cull ls).points = proj.points := by
    show proj.cull.points = _
    rw [F.culled]
  refine hok.2 ⟨?_, hnames⟩
  intro k' hk
  obtain ⟨d, hd, hdk⟩ := forall₂_right hcs k' hk
  rcases hh d hd with ⟨u, g, U, f, t, εf, εt, hA, hu⟩ | ⟨g, m, ρ, N, M, A, s, ha⟩
  · rw [F.culled] at hA
    obtain ⟨P, L, x, q, e1, -⟩ := label_spots hR hn F hus hfine hnear (v := drawStart (initVis E) sc rot loc proj.cull ls) rfl hpts hj hA hu
    rw [hdk] at e1
    injection e1 with e1
    rw [e1]
  · obtain ⟨P, L, e, -⟩ := rim_dim hR E (drawStart (initVis E) sc rot loc proj.cull ls) hj d g m ρ N M A s ha
    rw [hdk] at e
    injection e with e
    rw [e]

end

/-! ## A case: from the centre of a rim to a corner -/

/-- a triangle with its corners on the circle of radius 5 round the origin, and another one to the left -/
def sideText : Str := c!"solid p\nfacet normal 0 0 1\nouter loop\nvertex 3 -4 0\nvertex 5 0 0\nvertex 3 4 0\nendloop\nendfacet\nfacet normal 0 0 1\nouter loop\nvertex -9 -1 0\nvertex -7 0 0\nvertex -9 1 0\nendloop\nendfacet\nendsolid p\n"

theorem side_sane : SaneFile 4 sideText := saneB_ok _ _ (by decide +kernel)

theorem side_described : Describes (2 ^ 4) sideText [⟨⟨0, 0, 1⟩, ⟨3, -4, 0⟩, ⟨5, 0, 0⟩, ⟨3, 4, 0⟩, 0⟩, ⟨⟨0, 0, 1⟩, ⟨-9, -1, 0⟩, ⟨-7, 0, 0⟩, ⟨-9, 1, 0⟩, 0⟩] := by
  refine ⟨getLines sideText, (getLines sideText).filterMap classify, linesOf_getLines _, ?_, ?_⟩
  · have h : ∀ l ∈ getLines sideText, (classify (α := Ext ℚ) l).isSome = true := by decide +kernel
    generalize getLines sideText = ls at h
    induction ls with
    | nil => exact .nil
    | cons l ls ih =>
      obtain ⟨r, hr⟩ := Option.isSome_iff_exists.1 (h l (by simp))
      rw [List.filterMap_cons, hr]
      exact .cons ((classify_iff l r).1 hr) (ih (fun l hl => h l (by simp [hl])))
  · have e : blocks (α := Ext ℚ) ((getLines sideText).filterMap classify) =
        [(V3.fin ⟨0, 0, 1⟩, [V3.fin ⟨3, -4, 0⟩, V3.fin ⟨5, 0, 0⟩, V3.fin ⟨3, 4, 0⟩]), (V3.fin ⟨0, 0, 1⟩, [V3.fin ⟨-9, -1, 0⟩, V3.fin ⟨-7, 0, 0⟩, V3.fin ⟨-9, 1, 0⟩])] := by
      decide +kernel
    rw [e]
    have l1 : len3 (⟨0, 0, 16⟩ : V3 ℝ) = 16 := by
      simp only [len3, V3.sqNorm, V3.dot]
      rw [show (0 ^ 2 + 0 ^ 2 + 16 ^ 2 : ℝ) = 16 ^ 2 by norm_num]
      exact Real.sqrt_sq (by norm_num)
    have l2 : len3 (⟨0, 0, 4⟩ : V3 ℝ) = 4 := by
      simp only [len3, V3.sqNorm, V3.dot]
      rw [show (0 ^ 2 + 0 ^ 2 + 4 ^ 2 : ℝ) = 4 ^ 2 by norm_num]
      exact Real.sqrt_sq (by norm_num)
    have c1 : ((V3.real ⟨5, 0, 0⟩ - V3.real ⟨3, -4, 0⟩).cross (V3.real ⟨3, 4, 0⟩ - V3.real ⟨3, -4, 0⟩)) = (⟨0, 0, 16⟩ : V3 ℝ) := by
      ext <;> simp [V3.real, V3.cross] <;> norm_num
    have c2 : ((V3.real ⟨-7, 0, 0⟩ - V3.real ⟨-9, -1, 0⟩).cross (V3.real ⟨-9, 1, 0⟩ - V3.real ⟨-9, -1, 0⟩)) = (⟨0, 0, 4⟩ : V3 ℝ) := by
      ext <;> simp [V3.real, V3.cross] <;> norm_num
    have u1 : unitNormal (V3.real ⟨3, -4, 0⟩) (V3.real ⟨5, 0, 0⟩) (V3.real ⟨3, 4, 0⟩) = ⟨0, 0, 1⟩ := by
      unfold unitNormal; rw [c1, l1]; ext <;> simp [V3.sdiv]
    have u2 : unitNormal (V3.real ⟨-9, -1, 0⟩) (V3.real ⟨-7, 0, 0⟩) (V3.real ⟨-9, 1, 0⟩) = ⟨0, 0, 1⟩ := by
      unfold unitNormal; rw [c2, l2]; ext <;> simp [V3.sdiv]
    refine .cons ⟨_, _, _, _, _, rfl, ⟨?_, ?_, ?_, ?_, ?_, ?_⟩, ?_⟩ (.cons ⟨_, _, _, _, _, rfl, ⟨?_, ?_, ?_, ?_, ?_, ?_⟩, ?_⟩ .nil)
    · simp [V3.Within, V3.real]; norm_num
    · simp [V3.Within, V3.real]; norm_num
    · simp [V3.Within, V3.real]; norm_num
    · simp [V3.Within, V3.real]
    · rw [c1, l1]; norm_num
    · rw [u1]; simp [V3.real, V3.dot]; norm_num
    · unfold triOf; rw [u1, if_neg (by simp [V3.real, V3.dot])]; simp [V3.real, V3.dot]
    · simp [V3.Within, V3.real]; norm_num
    · simp [V3.Within, V3.real]; norm_num
    · simp [V3.Within, V3.real]; norm_num
    · simp [V3.Within, V3.real]
    · rw [c2, l2]; norm_num
    · rw [u2]; simp [V3.real, V3.dot]; norm_num
    · unfold triOf; rw [u2, if_neg (by simp [V3.real, V3.dot])]; simp [V3.real, V3.dot]

/-- the corners in the order of the search -/
def sidePts : List (ℤ × ℤ) := [(-9, -1), (-9, 1), (-7, 0), (3, -4), (3, 4), (5, 0)]

def sideCheck : Bool :=
  match makeLoop (α := X64) (getLines sideText) ⟨V3.zero, [], []⟩ with
  | .ok (some s) => s.facets.all Facet.okB && decide ((seenTop s.facets).map V3.xy = sidePts.map (fun p => (gridPt p.1 p.2).xy))
  | _ => false

theorem side_check : sideCheck = true := by decide +kernel

theorem side_rim : RimAt (intPt (-9, -1)) (sidePts.tail.map intPt) ⟨1, 0⟩ ⟨0, 0⟩ 5 6 9 8 0 := by
  have mem : ∀ {P : V2 ℝ → Prop}, (P ⟨-9, -1⟩ ∧ P ⟨-9, 1⟩ ∧ P ⟨-7, 0⟩ ∧ P ⟨3, -4⟩ ∧ P ⟨3, 4⟩ ∧ P ⟨5, 0⟩) → ∀ q, q ∈ intPt (-9, -1) :: sidePts.tail.map intPt → P q := by
    rintro P ⟨h1, h2, h3, h4, h5, h6⟩ q hq
    simp only [sidePts, List.tail_cons, List.map_cons, List.map_nil, List.mem_cons, List.not_mem_nil, or_false, intPt] at hq
    push_cast at hq
    rcases hq with rfl | rfl | rfl | rfl | rfl | rfl <;> assumption
  have on : ∀ q, q ∈ intPt (-9, -1) :: sidePts.tail.map intPt → OnRim ⟨0, 0⟩ 5 0 q → q = ⟨3, -4⟩ ∨ q = ⟨3, 4⟩ ∨ q = ⟨5, 0⟩ := by
    refine mem ⟨?_, ?_, ?_, ?_, ?_, ?_⟩ <;> · intro h; first | (exfalso; norm_num [OnRim, dist2] at h; done) | norm_num
  refine ⟨⟨?_, by norm_num, by norm_num⟩, ⟨by norm_num, by norm_num, ?_⟩, ⟨by norm_num, by norm_num⟩, ⟨le_rfl, by norm_num⟩, ⟨by norm_num, ?_⟩, ?_, ?_, ?_⟩
  · exact (List.length_filter_le _ _).trans (by decide)
  · intro q hq
    simp only [List.mem_cons] at hq
    rcases hq with rfl | rfl | hq
    · norm_num
    · norm_num
    · refine mem (P := fun q => |q.x| ≤ 9 ∧ |q.y| ≤ 9) ?_ q (List.mem_cons.2 hq)
      norm_num [abs_le]
  · intro x hx y hy z hz ox oy oz hxy hxz hyz
    rcases on x hx ox with rfl | rfl | rfl <;> rcases on y hy oy with rfl | rfl | rfl <;> rcases on z hz oz with rfl | rfl | rfl <;>
      first
      | exact absurd rfl hxy
      | exact absurd rfl hxz
      | exact absurd rfl hyz
      | norm_num [twiceArea, abs_of_pos, abs_of_neg]
  · norm_num [rimErr]
  · refine mem ?_
    norm_num [dist2]
  · refine ⟨⟨3, -4⟩, ⟨3, 4⟩, ⟨5, 0⟩, ?_, ?_, ?_⟩
    · intro x hx
      simp only [List.mem_cons, List.not_mem_nil, or_false] at hx
      rcases hx with rfl | rfl | rfl <;> norm_num [dist2, intPt, OnRim, sidePts]
    · simp only [List.pairwise_cons, List.mem_cons, List.not_mem_nil, or_false, forall_eq_or_imp, forall_eq]
      norm_num [dist2]
    · refine mem ?_
      norm_num [dist2, OnRim, OffRim]

/-- from the centre of the circle, given roughly, to the corner next to it -/
noncomputable def sideDim (l : ℕ → ℕ) : DimN F64 :=
  ⟨.dim, [⟨c!"at", .pt (.val ((⟨0, 8, 0⟩ : V3 ℝ).fin : V3 (Ext ℝ)) (l 0)), l 1⟩, ⟨c!"dir", .pt (.val ((⟨2, 0, 0⟩ : V3 ℝ).fin : V3 (Ext ℝ)) (l 2)), l 3⟩,
    ⟨c!"from", .pt (.func c!"center" (.val ((⟨(1 : ℤ), (0 : ℤ), 0⟩ : V3 ℝ).fin : V3 (Ext ℝ)) (l 4)) (l 5)), l 6⟩,
    ⟨c!"to", .pt (.func c!"near" (.val ((⟨-6, 0, 0⟩ : V3 ℝ).fin : V3 (Ext ℝ)) (l 7)) (l 8)), l 9⟩], l 10⟩

/-- the hypotheses of the theorems hold for the drawing of this part from above: it is accepted and the dimension shows 7, but for 10^-6 -/
theorem side_case (l : ℕ → ℕ) (b : ℕ) : ∃ (file : STLFile F64) (c : _), make sideText = .ok (some file) ∧
    content flEnv [(c!"m", some file)] (.draw c!"m" [] [sideDim l] b) = .ok c ∧ c.1 = true ∧
    ∃ item ∈ c.2.1.text, ∃ x : F64, item.str = FP.g6 x ∧ Fl.Near x 7 (1 / 10 ^ 6) := by
  have hc := side_check
  unfold sideCheck at hc
  split at hc
  · rename_i s hs
    rw [Bool.and_eq_true, List.all_eq_true, decide_eq_true_iff] at hc
    obtain ⟨hok, hseen⟩ := hc
    obtain ⟨file, hfile, hfac⟩ := top_file hs hok
    have hbd := sane_bd (α := F64) (by norm_num) side_sane file hfile
    have hM : Models.Bd 4 [(c!"m", some file)] := by
      intro e he
      simp only [List.mem_singleton] at he
      subst he
      exact ⟨_, rfl, hbd⟩
    obtain ⟨c, hc⟩ := content_bd flEnv insSorter_ok rfl [(c!"m", some file)] (by norm_num) hM (.draw c!"m" [] [sideDim l] b) (by simp [Drawable.LocBd]) (by intro m hm; simp at hm)
    obtain ⟨proj, ls, g1, g2, -, g3, -⟩ := turned_bd (n := 4) (by norm_num) flEnv.sorter insSorter_ok _ hbd matZP (viewOf_bd (none : Option (Meta F64)) (by simp) matZP rfl)
    have hD : Drawn flEnv [(c!"m", some file)] c!"m" [] ((1, 1) : Int × Int) matZP _ file proj ls := ⟨by simp, rfl, rfl, rfl, ⟨_, rfl, rfl⟩, g1, by rw [g2]; exact g3⟩
    have hpts := top_points hfac (index_facets g1)
    have hve : ViewError (R := binary64 .nearest (fun _ => true) (fun _ => true)) [] (1 / 2 ^ 50) := Or.inl ⟨by simp [NamedView, look], rfl⟩
    have hts : TameScale (R := binary64 .nearest (fun _ => true) (fun _ => true)) [] := by
      intro a b h
      have : (a, b) = ((1, 1) : Int × Int) := by
        simp only [look, scaleOf] at h
        cases h; rfl
      cases this; norm_num
    have hspot : SpotDim flEnv matZP ⟨⟨1, 0, 0⟩, ⟨0, 1, 0⟩, ⟨0, 0, 1⟩⟩ [⟨⟨0, 0, 1⟩, ⟨3, -4, 0⟩, ⟨5, 0, 0⟩, ⟨3, 4, 0⟩, 0⟩, ⟨⟨0, 0, 1⟩, ⟨-9, -1, 0⟩, ⟨-7, 0, 0⟩, ⟨-9, 1, 0⟩, 0⟩]
        proj.cull.points (2 ^ 4) (1 / 2 ^ 50) (sideDim l) ⟨2, 0, 0⟩ FP.g6 ⟨0, 0⟩ ((⟨-7, 0, 0⟩ : V3 ℝ).mulM ⟨⟨1, 0, 0⟩, ⟨0, 1, 0⟩, ⟨0, 0, 1⟩⟩).xy (rimErr (6 : ℕ) 9 8 0)
        (2 * (2 ^ 4 * (1 / 2 ^ 50))) := by
      refine ⟨rfl, ?_, rfl, ⟨_, _, rfl, rfl⟩, by simp [V3.mulM], ⟨_, _, .corner ⟨0, 8, 0⟩ ⟨⟨0, 8, 0⟩, by simp [V3.Within]; norm_num, Or.inl ⟨_, _, rfl, rfl⟩⟩ (Or.inl ⟨_, _, rfl, rfl⟩)⟩, ?_, ?_⟩
      · simp only [sideDim, GoodDim]; rw [exactly_def]; simp
      · refine .centre _ _ _ _ ⟨1, 0⟩ (intPt (-9, -1)) (sidePts.tail.map intPt) _ 5 6 9 8 0 rfl ?_ ?_ side_rim (by norm_num)
        · rw [← gridPt_fl, mulTop_fl]
          exact (congrArg (fun w : V2 X64 => w.map (X64.fl R64)) disc_point).trans ((grid_toFl (1, 0)).trans (by simp [intPt]))
        · rw [hpts, List.map_map]
          have e1 : (seenTop s.facets).map (V3.xy ∘ V3.fl) = ((seenTop s.facets).map V3.xy).map (V2.map (X64.fl R64)) := by
            rw [List.map_map]
            rfl
          rw [e1, hseen, List.map_map]
          show sidePts.map _ = (sidePts.map intPt).map (V2.toFl R64)
          rw [List.map_map]
          exact List.map_congr_left (fun p _ => grid_toFl p)
      · refine .corner ⟨-7, 0, 0⟩ ⟨⟨-6, 0, 0⟩, by simp [V3.Within]; norm_num, Or.inr ⟨_, _, _, rfl, rfl⟩⟩ (Or.inr ⟨⟨-6, 0, 0⟩, ⟨_, _, _, rfl, rfl⟩, ⟨_, List.mem_cons_of_mem _ List.mem_cons_self, by simp [V3.mulM]; norm_num, by simp [Tri.corners]⟩, ?_⟩)
        rintro c' ⟨t, ht, -, hc'⟩
        simp only [List.mem_cons, List.not_mem_nil, or_false] at ht
        rcases ht with rfl | rfl <;> simp only [Tri.corners, List.mem_cons, List.not_mem_nil, or_false] at hc' <;> rcases hc' with rfl | rfl | rfl <;>
          first
          | (left; rfl)
          | (right; simp [seenDist2, pageDist2, V3.mulM]; norm_num)
    have hlen : len3 (⟨2, 0, 0⟩ : V3 ℝ) = 2 := by
      simp only [len3]
      rw [show (2 ^ 2 + 0 ^ 2 + 0 ^ 2 : ℝ) = 2 ^ 2 by norm_num]
      exact Real.sqrt_sq (by norm_num)
    refine ⟨file, c, hfile, hc, ?_, ?_⟩
    · refine C91_accepted .nearest _ _ flEnv insSorter_ok rfl _ (n := 4) (by norm_num) hM _ [] (by simp) (by simp) (by intro m hm; simp at hm) _ hve hts _ _ c hc _ _ _ _ _ _ hD _ asked_top _ _ hfile side_described ?_
      intro d hd
      simp only [List.mem_singleton] at hd
      subst hd
      exact Or.inl ⟨_, _, _, _, _, _, _, hspot, flDim_largest⟩
    · obtain ⟨item, hi, x, h1, -, h2⟩ := C91_label .nearest _ _ flEnv insSorter_ok rfl _ (n := 4) (by norm_num) hM _ [] (by simp) (by simp) (by intro m hm; simp at hm) _ hve hts _ _ c hc _ _ _ _ _ _ hD _ asked_top _ _ hfile side_described
        (sideDim l) (by simp) _ _ _ _ _ _ _ hspot flDim_largest
      refine ⟨item, hi, x, h1, ?_⟩
      have e : |((((⟨-7, 0, 0⟩ : V3 ℝ).mulM ⟨⟨1, 0, 0⟩, ⟨0, 1, 0⟩, ⟨0, 0, 1⟩⟩).xy : V2 ℝ) - ⟨0, 0⟩).dot ((⟨2, 0, 0⟩ : V3 ℝ).mulM ⟨⟨1, 0, 0⟩, ⟨0, 1, 0⟩, ⟨0, 0, 1⟩⟩).xy| / len3 (⟨2, 0, 0⟩ : V3 ℝ) = 7 := by
        rw [hlen]
        norm_num [V3.mulM, V3.xy, V2.dot]
      rw [e] at h2
      refine h2.mono ?_
      unfold rimErr
      norm_num
  · simp at hc

end S2P
