import Verif.Spec.HoleTurn
import Verif.Props.Hole
import Verif.Props.SnapAngle

set_option linter.unusedSectionVars false
set_option linter.unusedVariables false
set_option linter.unusedSimpArgs false

/-! # C97: which angle is shown, whatever its points are

[exact arithmetic] -/

namespace S2P

/-- the value of a point expression -/
theorem invoke_place {r : M3 ℝ} {file : STLFile (Ext ℝ)} {qs : List (V3 ℝ)} (hq : ∀ q, q ∈ qs ↔ ∃ v, SeenCorner r file v ∧ q = v.mulM r)
    (hloc : ∀ t m R, RoundAt r file t m R → locate (qs.map V3.fin) t.fin = some (m.fin, .fin R) ∧ 3 ≤ (qs.map V3.fin).length) {e : Pt (Ext ℝ)} {p : V3 ℝ}
    (h : Place r file e p) : ∀ (junk : Nat → V3 (Ext ℝ)) (ret : V3 (Ext ℝ)), ∃ ds : List Diag, (e.rot r.fin).invoke junk (qs.map V3.fin) ret = (true, p.fin, ds) := by
  induction h with
  | literal p l =>
    intro junk ret
    exact ⟨[], by simp only [Pt.rot, Pt.invoke, V3.fin_mulM]⟩
  | corner e l t v _ hv hvt ih =>
    intro junk ret
    obtain ⟨ds, h1⟩ := ih (fun n => junk (n + 1)) (junk 0)
    have hm : t ∈ qs := (hq t).2 ⟨v, hv, hvt.symm⟩
    obtain ⟨q, k1, k2, -⟩ := C08_near junk qs (e.rot r.fin) l ret t ds (List.ne_nil_of_mem hm) h1
    rw [k2 hm] at k1
    exact ⟨ds, k1⟩
  | near e l t v _ hnot hv hmin ih =>
    intro junk ret
    obtain ⟨ds, h1⟩ := ih (fun n => junk (n + 1)) (junk 0)
    have hm := (hq (v.mulM r)).2 ⟨v, hv, rfl⟩
    obtain ⟨q, k1, -, k3⟩ := C08_near junk qs (e.rot r.fin) l ret t ds (List.ne_nil_of_mem hm) h1
    obtain ⟨q0, hq0, e0, hle⟩ := k3 (fun hc => by
      obtain ⟨w, hw, e'⟩ := (hq t).1 hc
      exact hnot w hw e'.symm)
    obtain ⟨w, hw, rfl⟩ := (hq q0).1 hq0
    have hwv : w.seenAt r = v.seenAt r := by
      rcases hmin w hw with h3 | h3
      · exact h3
      · exact absurd (Real.sqrt_le_sqrt (hle _ hm)) (not_le.2 h3)
    refine ⟨ds, ?_⟩
    rw [← hwv]
    rw [e0] at k1
    exact k1
  | center e l t m R _ hround ih =>
    intro junk ret
    obtain ⟨ds, h1⟩ := ih (fun n => junk (n + 1)) (junk 0)
    obtain ⟨k1, k2⟩ := hloc t.xy m R hround
    have ht : t.fin.xy = t.xy.fin := rfl
    refine ⟨ds, ?_⟩
    simp only [Pt.rot, Pt.invoke, h1, ht, k1]
    rw [if_neg (by decide), if_pos trivial, if_neg (by omega)]
    simp [V3.fin, V3.map, V2.fin, V2.map]

theorem pointOf_place (E : Env (Ext ℝ)) (v : Vis (Ext ℝ)) {r : M3 ℝ} (hv : v.rotation = r.fin) {file : STLFile (Ext ℝ)} {qs : List (V3 ℝ)} (hp : v.points = qs.map V3.fin)
    (hq : ∀ q, q ∈ qs ↔ ∃ v, SeenCorner r file v ∧ q = v.mulM r)
    (hloc : ∀ t m R, RoundAt r file t m R → locate v.points t.fin = some (m.fin, .fin R) ∧ 3 ≤ v.points.length) {ms : List (Meta (Ext ℝ))} {n : Str} {p : V3 ℝ}
    (h : PlaceOf r file ms n p) (j : Nat) : pointOf E v j ms n = some p.fin := by
  obtain ⟨m, e, h1, h2, h3⟩ := h
  rw [hp] at hloc
  obtain ⟨ds, h4⟩ := invoke_place hq hloc h3 E.junk (E.junk j)
  simp only [pointOf, h1, h2, hv, hp, h4, if_true]

theorem legOf_heads (E : Env (Ext ℝ)) (v : Vis (Ext ℝ)) {r : M3 ℝ} (hv : v.rotation = r.fin) {file : STLFile (Ext ℝ)} {qs : List (V3 ℝ)} (hp : v.points = qs.map V3.fin)
    (hq : ∀ q, q ∈ qs ↔ ∃ v, SeenCorner r file v ∧ q = v.mulM r)
    (hloc : ∀ t m R, RoundAt r file t m R → locate v.points t.fin = some (m.fin, .fin R) ∧ 3 ≤ v.points.length) {ms : List (Meta (Ext ℝ))} {dir point : Str} {x u : V3 ℝ}
    (h : Heads r file ms dir point x u) (j : Nat) : ∃ q, legOf E v j x.fin ms dir point = some (u.fin.normalized, q) := by
  rcases h with h | ⟨h1, q, h2, rfl⟩
  · obtain ⟨m, e, k1, -⟩ := id h
    refine ⟨x.fin, ?_⟩
    unfold legOf
    rw [k1]
    simp only [pointOf_place E v hv hp hq hloc h j, Option.map_some]
  · refine ⟨q.fin, ?_⟩
    unfold legOf
    rw [h1]
    simp only [pointOf_place E v hv hp hq hloc h2 (j + 1), Option.map_some, V3.fin_sub]

/-- what such an angle puts on the page -/
theorem turns_dim (E : Env (Ext ℝ)) (hJ : E.NotAView) (v : Vis (Ext ℝ)) (r : M3 ℝ) (hr : IsRotation r) (hv : v.rotation = r.fin) {file : STLFile (Ext ℝ)}
    {qs : List (V3 ℝ)} (hp : v.points = qs.map V3.fin) (hq : ∀ q, q ∈ qs ↔ ∃ v, SeenCorner r file v ∧ q = v.mulM r)
    (hloc : ∀ t m R, RoundAt r file t m R → locate v.points t.fin = some (m.fin, .fin R) ∧ 3 ≤ v.points.length) (d : DimN (Ext ℝ)) (g : Ext ℝ → Str)
    (a x U W : V3 ℝ) (hh : Turns E r file d g a x U W) :
    (PageAligned U W → ∃ L, dimContent E v d = .ok (false, OutPage.empty, L)) ∧
    (¬ PageAligned U W → ∃ P L, dimContent E v d = .ok (true, P, L) ∧
      P.text = [⟨a.xy.fin.moved v.scale v.d, g (.fin (degrees (angleBetween U W))) ++ c!" deg", true, false⟩] ∧
      ∃ (A B : V3 ℝ) (α β δ : ℝ), ((A = U ∧ B = W) ∨ (A = W ∧ B = U)) ∧
        P.arcs = [⟨x.xy.fin.moved v.scale v.d, .fin (len3 (a - x)) * v.scale, .fin α, .fin β⟩] ∧
        HasAngle A.x A.y α ∧ HasAngle B.x B.y β ∧
        0 < δ ∧ δ < Real.pi ∧ Real.cos β = Real.cos (α + δ) ∧ Real.sin β = Real.sin (α + δ)) := by
  have ha := pointOf_place E v hv hp hq hloc hh.label 0
  have hx := pointOf_place E v hv hp hq hloc hh.apex 1
  obtain ⟨q, hq1⟩ := legOf_heads E v hv hp hq hloc hh.from_ 2
  obtain ⟨q', hq2⟩ := legOf_heads E v hv hp hq hloc hh.to_ 4
  obtain ⟨k, hk0, hkz, hkp⟩ := cross_normalized U W
  have hfmt := hh.fmt
  have hi : drawnItems E v d.kind d.metas =
      if FP.eq (W.fin.normalized.cross U.fin.normalized).z (FP.lit 0) then none
      else if FP.lt (FP.lit 0) (W.fin.normalized.cross U.fin.normalized).z then
        some (angleItems g v.scale a.fin x.fin W.fin.normalized q' U.fin.normalized q)
      else some (angleItems g v.scale a.fin x.fin U.fin.normalized q W.fin.normalized q') := by
    rw [hh.kind]
    simp only [drawnItems, ha, hx, hq1, hq2, hfmt, bind, Option.bind]
  have hrot : v.rotation.eqv E.junkM = false := by rw [hv]; exact hJ r hr
  unfold PageAligned
  constructor
  · intro h0
    refine (dimContent_items E v d hrot).2 (Or.inr ?_)
    rw [hi, hkz, h0]
    simp
  · intro hne
    have hkpos := hkp hne
    have hz : FP.eq (W.fin.normalized.cross U.fin.normalized).z (FP.lit 0 : Ext ℝ) = false := by
      rw [hkz]; simp [hkpos.ne', hne]
    rw [hz, if_neg (by simp)] at hi
    rcases lt_or_gt_of_ne hne with hlt | hgt
    · have hlt' : FP.lt (FP.lit 0 : Ext ℝ) (W.fin.normalized.cross U.fin.normalized).z = true := by
        rw [hkz]; simp only [Ext.lit_eq, Ext.fin_lt, decide_eq_true_eq, Rat.cast_zero]; nlinarith
      rw [if_pos hlt'] at hi
      obtain ⟨L, e⟩ := (dimContent_items E v d hrot).1 _ hh.good hi
      obtain ⟨α, β, δ, k1, k2, k3⟩ := angleItems_real g v.scale a.fin x.fin W.fin.normalized U.fin.normalized q' q a x W U rfl rfl rfl rfl (by linarith)
      refine ⟨_, L, e, ?_, W, U, α, β, δ, Or.inr ⟨rfl, rfl⟩, ?_, k3⟩
      · simp only [OutPage.moved, k1, angleBetween_comm W U]; rfl
      · simp only [OutPage.moved, k2]; rfl
    · have hlt' : FP.lt (FP.lit 0 : Ext ℝ) (W.fin.normalized.cross U.fin.normalized).z = false := by
        rw [hkz]; simp only [Ext.lit_eq, Ext.fin_lt, decide_eq_false_iff_not, Rat.cast_zero]; nlinarith
      rw [hlt', if_neg (by simp)] at hi
      obtain ⟨L, e⟩ := (dimContent_items E v d hrot).1 _ hh.good hi
      obtain ⟨α, β, δ, k1, k2, k3⟩ := angleItems_real g v.scale a.fin x.fin U.fin.normalized W.fin.normalized q q' a x U W rfl rfl rfl rfl (by linarith)
      refine ⟨_, L, e, ?_, U, W, α, β, δ, Or.inl ⟨rfl, rfl⟩, ?_, k3⟩
      · simp only [OutPage.moved, k1]; rfl
      · simp only [OutPage.moved, k2]; rfl

/-- **C97.** An angle of a drawing, whatever its points are (literal, `near`, `center`, nested): if its legs are parallel on the page, the drawing is refused.  Otherwise
its label shows the angle in space between its legs, the places being where `Place` says, at the place asked for; and its arc is around the apex, at the distance
in space of the label, and runs counter-clockwise by less than 180 degrees from the direction of one leg on the page to that of the other. -/
theorem C97_angle (E : Env (Ext ℝ)) (hS : SortOK E.sorter) (hJ : E.NotAView) (stl : Models (Ext ℝ)) (hM : stl.Made) (name : Str) (ms : List (Meta (Ext ℝ)))
    (dims : List (DimN (Ext ℝ))) (line : Nat) (hms : ∀ m ∈ ms, m.val.IsFin) (c) (h : content E stl (.draw name ms dims line) = .ok c) (sc r loc file proj ls)
    (hD : Drawn E stl name ms sc (M3.fin r) loc file proj ls) (d : DimN (Ext ℝ)) (hd : d ∈ dims) (g : Ext ℝ → Str) (a x u w : V3 ℝ) (hh : Turns E r file d g a x u w) :
    (PageAligned u w → c.1 = false) ∧
    (¬ PageAligned u w →
      (⟨a.xy.fin.moved (projScale sc) (projOffset loc proj.cull.limits (projScale sc)), g (.fin (degrees (angleBetween u w))) ++ c!" deg", true, false⟩ : PsText (Ext ℝ)) ∈ c.2.1.text ∧
      ∃ (A B : V3 ℝ) (α β δ : ℝ), ((A = u ∧ B = w) ∨ (A = w ∧ B = u)) ∧
        (⟨x.xy.fin.moved (projScale sc) (projOffset loc proj.cull.limits (projScale sc)), .fin (len3 (a - x)) * projScale sc, .fin α, .fin β⟩ : Arc (Ext ℝ)) ∈ c.2.1.arcs ∧
        HasAngle A.x A.y α ∧ HasAngle B.x B.y β ∧ 0 < δ ∧ δ < Real.pi ∧ Real.cos β = Real.cos (α + δ) ∧ Real.sin β = Real.sin (α + δ)) := by
  obtain ⟨hr, qs, q1, q2, q3⟩ := hole_dims hS hM hms hD
  rcases draw_sum E stl name ms dims line c h with ⟨-, -, -, h1⟩ | ⟨sc', rot', loc', file', proj', ls', cs, hD', hcs, hp, hok, -⟩
  · exact absurd ⟨_, _, _, _, _, _, hD⟩ h1
  obtain ⟨rfl, rfl, rfl, rfl, rfl, rfl⟩ := drawn_unique hD hD'
  obtain ⟨k, hk2, hdk⟩ := forall₂_left_mem hcs hd
  obtain ⟨t1, t2⟩ := turns_dim E hJ (drawStart (initVis E) sc r.fin loc proj.cull ls) r hr rfl q1 q2 q3 d g a x u w hh
  constructor
  · intro hz
    obtain ⟨L, e⟩ := t1 hz
    rw [hdk] at e
    injection e with e
    by_contra hc
    rw [Bool.not_eq_false] at hc
    have := (hok.1 hc).1 k hk2
    rw [e] at this
    cases this
  · intro hz
    obtain ⟨P, L, e, ht, A, B, α, β, δ, hAB, ha, hrest⟩ := t2 hz
    rw [hdk] at e
    injection e with e
    refine ⟨?_, A, B, α, β, δ, hAB, ?_, hrest⟩
    · rw [hp]
      simp only [OutPage.app, List.mem_append]
      refine Or.inr ((mem_sum_text _).2 ⟨P, List.mem_map.2 ⟨_, hk2, by rw [e]⟩, ?_⟩)
      rw [ht]
      exact List.mem_singleton.2 rfl
    · rw [hp]
      simp only [OutPage.app, List.mem_append]
      refine Or.inr ((mem_sum_arcs _).2 ⟨P, List.mem_map.2 ⟨_, hk2, by rw [e]⟩, ?_⟩)
      rw [ha]
      exact List.mem_singleton.2 rfl

/-- **C97**: a drawing all of whose dimensions are such angles, with legs not parallel on the page, or dimensions as in C82, is accepted. -/
theorem C97_accepted (E : Env (Ext ℝ)) (hS : SortOK E.sorter) (hJ : E.NotAView) (stl : Models (Ext ℝ)) (hM : stl.Made) (name : Str) (ms : List (Meta (Ext ℝ)))
    (dims : List (DimN (Ext ℝ))) (line : Nat) (hms : ∀ m ∈ ms, m.val.IsFin) (c) (h : content E stl (.draw name ms dims line) = .ok c) (sc r loc file proj ls)
    (hD : Drawn E stl name ms sc (M3.fin r) loc file proj ls) (hnames : ∀ m ∈ ms, m.name ∈ [c!"scale", c!"view", c!"@"])
    (hh : ∀ d ∈ dims, (∃ g m R, AtHole E r file d g m R) ∨ (∃ g f t u, Across E r file d g f t u) ∨ ∃ g a x u w, Turns E r file d g a x u w ∧ ¬ PageAligned u w) : c.1 = true := by
  obtain ⟨hr, qs, q1, q2, q3⟩ := hole_dims hS hM hms hD
  rcases draw_sum E stl name ms dims line c h with ⟨-, -, -, h1⟩ | ⟨sc', rot', loc', file', proj', ls', cs, hD', hcs, hp, hok, -⟩
  · exact absurd ⟨_, _, _, _, _, _, hD⟩ h1
  obtain ⟨rfl, rfl, rfl, rfl, rfl, rfl⟩ := drawn_unique hD hD'
  refine hok.2 ⟨?_, hnames⟩
  intro k hk
  obtain ⟨d, hd, hdk⟩ := forall₂_right hcs k hk
  rcases hh d hd with ⟨g, m, R, hh⟩ | ⟨g, f, t, u, hh⟩ | ⟨g, a, x, u, w, hh, hne⟩
  · obtain ⟨P, L, e, ht⟩ := round_dim E hJ (drawStart (initVis E) sc r.fin loc proj.cull ls) r hr rfl q1 q2 q3 d g m R hh
    rw [hdk] at e
    injection e with e
    rw [e]
  · obtain ⟨P, L, e, ht⟩ := across_dim E hJ (drawStart (initVis E) sc r.fin loc proj.cull ls) r hr rfl q1 q2 q3 d g f t u hh
    rw [hdk] at e
    injection e with e
    rw [e]
  · obtain ⟨P, L, e, -⟩ := (turns_dim E hJ (drawStart (initVis E) sc r.fin loc proj.cull ls) r hr rfl q1 q2 q3 d g a x u w hh).2 hne
    rw [hdk] at e
    injection e with e
    rw [e]

theorem flat_sweep {A B : V3 ℝ} {α β δ : ℝ} (hA : A.z = 0) (hB : B.z = 0) (h1 : HasAngle A.x A.y α) (h2 : HasAngle B.x B.y β) (d0 : 0 < δ) (d1 : δ < Real.pi)
    (hc : Real.cos β = Real.cos (α + δ)) (hs : Real.sin β = Real.sin (α + δ)) : angleBetween A B = δ := by
  obtain ⟨ρ, hρ, a1, a2⟩ := h1
  obtain ⟨σ, hσ, b1, b2⟩ := h2
  rw [hc] at b1
  rw [hs] at b2
  have l : ∀ k t : ℝ, 0 < k → Real.sqrt ((k * Real.cos t) ^ 2 + (k * Real.sin t) ^ 2 + 0 ^ 2) = k := by
    intro k t hk
    rw [show (k * Real.cos t) ^ 2 + (k * Real.sin t) ^ 2 + 0 ^ 2 = k ^ 2 * (Real.sin t ^ 2 + Real.cos t ^ 2) by ring, Real.sin_sq_add_cos_sq, mul_one]
    exact Real.sqrt_sq hk.le
  have e : (ρ * Real.cos α * (σ * Real.cos (α + δ)) + ρ * Real.sin α * (σ * Real.sin (α + δ)) + 0 * 0) / (ρ * σ) = Real.cos δ := by
    have : Real.cos δ = Real.cos ((α + δ) - α) := by congr 1; ring
    rw [this, Real.cos_sub]
    field_simp
    ring
  unfold angleBetween len3
  rw [hA, hB, a1, a2, b1, b2, l _ _ hρ, l _ _ hσ, e]
  exact Real.arccos_cos d0.le d1.le

/-- **C97**: if the legs are square to the line of sight, so if all points are at one depth, the number is the angle seen on the page, the one that the arc spans. -/
theorem C97_page (E : Env (Ext ℝ)) (hS : SortOK E.sorter) (hJ : E.NotAView) (stl : Models (Ext ℝ)) (hM : stl.Made) (name : Str) (ms : List (Meta (Ext ℝ)))
    (dims : List (DimN (Ext ℝ))) (line : Nat) (hms : ∀ m ∈ ms, m.val.IsFin) (c) (h : content E stl (.draw name ms dims line) = .ok c) (sc r loc file proj ls)
    (hD : Drawn E stl name ms sc (M3.fin r) loc file proj ls) (d : DimN (Ext ℝ)) (hd : d ∈ dims) (g : Ext ℝ → Str) (a x u w : V3 ℝ) (hh : Turns E r file d g a x u w)
    (hne : ¬ PageAligned u w) (hu : u.z = 0) (hw : w.z = 0) :
    ∃ (A B : V3 ℝ) (α β δ : ℝ), ((A = u ∧ B = w) ∨ (A = w ∧ B = u)) ∧ HasAngle A.x A.y α ∧ HasAngle B.x B.y β ∧
      0 < δ ∧ δ < Real.pi ∧ Real.cos β = Real.cos (α + δ) ∧ Real.sin β = Real.sin (α + δ) ∧
      (⟨x.xy.fin.moved (projScale sc) (projOffset loc proj.cull.limits (projScale sc)), .fin (len3 (a - x)) * projScale sc, .fin α, .fin β⟩ : Arc (Ext ℝ)) ∈ c.2.1.arcs ∧
      (⟨a.xy.fin.moved (projScale sc) (projOffset loc proj.cull.limits (projScale sc)), g (.fin (degrees δ)) ++ c!" deg", true, false⟩ : PsText (Ext ℝ)) ∈ c.2.1.text := by
  obtain ⟨t, A, B, α, β, δ, hAB, ha, k1, k2, k3, k4, k5, k6⟩ := (C97_angle E hS hJ stl hM name ms dims line hms c h sc r loc file proj ls hD d hd g a x u w hh).2 hne
  have e : angleBetween u w = δ := by
    rcases hAB with ⟨rfl, rfl⟩ | ⟨rfl, rfl⟩
    · exact flat_sweep hu hw k1 k2 k3 k4 k5 k6
    · rw [angleBetween_comm]; exact flat_sweep hw hu k1 k2 k3 k4 k5 k6
  rw [e] at t
  exact ⟨A, B, α, β, δ, hAB, k1, k2, k3, k4, k5, k6, ha, t⟩

/-! ## The centre of a circle that is not at depth 0 -/

/-- the angle at the centre of the circle through the corners of a triangle, between two of these, written out -/
noncomputable def skewDim : DimN (Ext ℝ) := ⟨.angle, [⟨c!"at", .pt (.val (V3.fin ⟨1, 1, 1⟩) 1), 1⟩,
  ⟨c!"apex", .pt (.func c!"center" (.val (V3.fin ⟨1 / 2, 1 / 2, 1⟩) 1) 1), 1⟩,
  ⟨c!"from_point", .pt (.val (V3.fin ⟨0, 0, 1⟩) 1), 1⟩, ⟨c!"to_point", .pt (.val (V3.fin ⟨1, 0, 1⟩) 1), 1⟩], 1⟩

theorem skew_round {r : M3 ℝ} (hr : r.fin = matZP) {file : STLFile (Ext ℝ)} (hs : ∀ v, SeenCorner r file v ↔ v = ⟨0, 0, 1⟩ ∨ v = ⟨1, 0, 1⟩ ∨ v = ⟨0, 1, 1⟩) :
    RoundAt r file ⟨1 / 2, 1 / 2⟩ ⟨1 / 2, 1 / 2⟩ (Real.sqrt (1 / 2)) := by
  have hon : ∀ v, SeenCorner r file v → dist (v.seenAt r) ⟨1 / 2, 1 / 2⟩ = Real.sqrt (1 / 2) := by
    intro v hv
    unfold dist
    congr 1
    rcases (hs v).1 hv with rfl | rfl | rfl <;> simp only [V3.seenAt, matZP_same hr, V3.xy, dist2] <;> norm_num
  have le : ∀ {a b : V2 ℝ}, 1 ≤ dist2 a b → Real.sqrt (1 / 2) ≤ 5 * dist a b := by
    intro a b h
    have h1 : Real.sqrt (1 / 2) ≤ 1 := Real.sqrt_le_one.2 (by norm_num)
    have h2 : 1 ≤ dist a b := by unfold dist; exact Real.one_le_sqrt.2 h
    linarith
  refine C82_centre_partial r file ⟨1 / 2, 1 / 2⟩ _ (Real.sqrt_pos.2 (by norm_num)) ⟨0, 0, 1⟩ ⟨1, 0, 1⟩ ⟨0, 1, 1⟩ ?_ ?_ (fun w hw _ => hon w hw)
  · intro v hv
    simp only [List.mem_cons, List.not_mem_nil, or_false] at hv
    have := (hs v).2 hv
    exact ⟨this, hon v this⟩
  · simp only [List.pairwise_cons, List.mem_cons, List.not_mem_nil, or_false, forall_eq_or_imp, forall_eq, List.Pairwise.nil, and_true]
    refine ⟨⟨le ?_, le ?_⟩, le ?_, ?_⟩ <;> simp only [V3.seenAt, matZP_same hr, V3.xy, dist2] <;> norm_num

/-- **C97**: an angle at the centre of a circle, between two corners of the body on it written out, may be neither the one in the body nor the one on the page: both
are right angles here, and what is shown is not 90 degrees. -/
theorem C97_neither : ∃ (file : STLFile (Ext ℝ)) (r : M3 ℝ) (u w : V3 ℝ) (c : Bool × OutPage (Ext ℝ) × List Diag), (∀ f ∈ file.facets, f.Made) ∧
    (∀ v, SeenCorner r file v ↔ v = ⟨0, 0, 1⟩ ∨ v = ⟨1, 0, 1⟩ ∨ v = ⟨0, 1, 1⟩) ∧
    content tiltEnv [(c!"m", some file)] (.draw c!"m" [] [skewDim] 1) = .ok c ∧ c.1 = true ∧
    Turns tiltEnv r file skewDim tiltFormat ⟨1, 1, 1⟩ ⟨1 / 2, 1 / 2, 0⟩ u w ∧ ¬ PageAligned u w ∧ (∃ item ∈ c.2.1.text, item.str = tiltFormat (.fin (degrees (angleBetween u w))) ++ c!" deg") ∧
    angleBetween ⟨u.x, u.y, 0⟩ ⟨w.x, w.y, 0⟩ = Real.pi / 2 ∧
    angleBetween ((⟨0, 0, 1⟩ : V3 ℝ) - ⟨1 / 2, 1 / 2, 1⟩) (⟨1, 0, 1⟩ - ⟨1 / 2, 1 / 2, 1⟩) = Real.pi / 2 ∧ angleBetween u w ≠ Real.pi / 2 ∧
    tiltFormat (.fin (degrees (angleBetween u w))) ≠ tiltFormat (.fin (degrees (Real.pi / 2))) := by
  obtain ⟨r, e, hr⟩ := viewOf_rotation none (by simp) matZP rfl
  obtain ⟨file, hmade, hs⟩ := tilt_file r e.symm
  have hM : Models.Made (K := ℝ) [(c!"m", some file)] := by
    intro e he
    simp only [List.mem_singleton] at he
    subst he
    exact ⟨file, rfl, hmade⟩
  have hJ : tiltEnv.NotAView := rEnv_notAView
  have hfin : (Drawable.draw c!"m" [] [skewDim] 1).IsFin := by
    refine ⟨by simp, ?_⟩
    intro d hd m hm
    simp only [List.mem_singleton] at hd
    subst hd
    simp only [skewDim, List.mem_cons, List.not_mem_nil, or_false] at hm
    rcases hm with rfl | rfl | rfl | rfl <;> exact ⟨_, rfl⟩
  have hat : (Drawable.draw c!"m" ([] : List (Meta (Ext ℝ))) [skewDim] 1).AtLoc := by intro m hm; simp at hm
  obtain ⟨c, hc⟩ := content_ok tiltEnv insSorter_ok hJ [(c!"m", some file)] hM (.draw c!"m" [] [skewDim] 1) hfin hat
  obtain ⟨proj, ls, hD⟩ := drawn_exists tiltEnv insSorter_ok [(c!"m", some file)] c!"m" [] (by simp) (by simp) (1, 1) rfl matZP rfl _ rfl file ⟨_, rfl, rfl⟩ hmade
  rw [e] at hD
  have lit : ∀ (p : V3 ℝ) (l : ℕ), Place r file (.val p.fin l) p := by
    intro p l
    have := Place.literal (r := r) (file := file) p l
    rwa [matZP_same e.symm] at this
  have hT : Turns tiltEnv r file skewDim tiltFormat ⟨1, 1, 1⟩ ⟨1 / 2, 1 / 2, 0⟩ ((⟨0, 0, 1⟩ : V3 ℝ) - ⟨1 / 2, 1 / 2, 0⟩) (⟨1, 0, 1⟩ - ⟨1 / 2, 1 / 2, 0⟩) := by
    refine ⟨rfl, ?_, rfl, ⟨_, _, rfl, rfl, lit _ _⟩, ⟨_, _, rfl, rfl, .center _ _ ⟨1 / 2, 1 / 2, 1⟩ ⟨1 / 2, 1 / 2⟩ _ (lit _ _) (skew_round e.symm hs)⟩,
      Or.inr ⟨rfl, _, ⟨_, _, rfl, rfl, lit _ _⟩, rfl⟩, Or.inr ⟨rfl, _, ⟨_, _, rfl, rfl, lit _ _⟩, rfl⟩⟩
    simp only [skewDim, GoodDim]; rw [exactly_def]; simp [Has]
  have hne : ¬ PageAligned ((⟨0, 0, 1⟩ : V3 ℝ) - ⟨1 / 2, 1 / 2, 0⟩) (⟨1, 0, 1⟩ - ⟨1 / 2, 1 / 2, 0⟩) := by
    simp only [PageAligned, V3.sub_x, V3.sub_y]; norm_num
  have hang : angleBetween ((⟨0, 0, 1⟩ : V3 ℝ) - ⟨1 / 2, 1 / 2, 0⟩) (⟨1, 0, 1⟩ - ⟨1 / 2, 1 / 2, 0⟩) ≠ Real.pi / 2 := by
    unfold angleBetween
    rw [ne_eq, Real.arccos_eq_pi_div_two, div_eq_zero_iff, not_or]
    have h0 : ∀ p : V3 ℝ, p.z = 1 → len3 p ≠ 0 := by
      intro p hp
      refine (len3_pos ?_).ne'
      rintro rfl
      norm_num at hp
    refine ⟨by simp only [V3.sub_x, V3.sub_y, V3.sub_z]; norm_num, mul_ne_zero (h0 _ (by simp)) (h0 _ (by simp))⟩
  refine ⟨file, r, _, _, c, hmade, hs, hc, ?_, hT, hne, ⟨_, ((C97_angle tiltEnv insSorter_ok hJ _ hM _ _ _ _ (by simp) c hc _ _ _ _ _ _ hD skewDim (by simp) _ _ _ _ _ hT).2 hne).1, rfl⟩, ?_, ?_, hang, ?_⟩
  · exact C97_accepted tiltEnv insSorter_ok hJ _ hM _ _ _ _ (by simp) c hc _ _ _ _ _ _ hD (by simp) (by
      intro d hd
      simp only [List.mem_singleton] at hd
      subst hd
      exact Or.inr (Or.inr ⟨_, _, _, _, _, hT, hne⟩))
  · unfold angleBetween
    rw [Real.arccos_eq_pi_div_two]
    simp only [V3.sub_x, V3.sub_y]; norm_num
  · unfold angleBetween
    rw [Real.arccos_eq_pi_div_two]
    simp only [V3.sub_x, V3.sub_y, V3.sub_z]; norm_num
  · unfold tiltFormat
    rw [if_pos rfl, if_neg]
    · decide
    · intro h
      rw [Ext.fin_inj] at h
      unfold degrees at h
      apply hang
      linarith

/-- the same with the corners picked by `near`, of points beside them -/
noncomputable def flatDim : DimN (Ext ℝ) := ⟨.angle, [⟨c!"at", .pt (.val (V3.fin ⟨1, 1, 1⟩) 1), 1⟩,
  ⟨c!"apex", .pt (.func c!"center" (.val (V3.fin ⟨1 / 2, 1 / 2, 1⟩) 1) 1), 1⟩,
  ⟨c!"from_point", .pt (.func c!"near" (.val (V3.fin ⟨1 / 10, 1 / 10, 1⟩) 1) 1), 1⟩, ⟨c!"to_point", .pt (.func c!"near" (.val (V3.fin ⟨9 / 10, 1 / 10, 1⟩) 1) 1), 1⟩], 1⟩

/-- Now the legs are square to the line of sight, as C97_page asks. -/
example : ∃ (file : STLFile (Ext ℝ)) (r : M3 ℝ) (u w : V3 ℝ), (∀ f ∈ file.facets, f.Made) ∧ IsRotation r ∧
    Turns tiltEnv r file flatDim tiltFormat ⟨1, 1, 1⟩ ⟨1 / 2, 1 / 2, 0⟩ u w ∧ ¬ PageAligned u w ∧ u.z = 0 ∧ w.z = 0 := by
  obtain ⟨r, e, hr⟩ := viewOf_rotation none (by simp) matZP rfl
  obtain ⟨file, hmade, hs⟩ := tilt_file r e.symm
  have lit : ∀ (p : V3 ℝ) (l : ℕ), Place r file (.val p.fin l) p := by
    intro p l
    have := Place.literal (r := r) (file := file) p l
    rwa [matZP_same e.symm] at this
  have hsee : ∀ v : V3 ℝ, v.seenAt r = ⟨v.x, v.y⟩ := by intro v; simp only [V3.seenAt, matZP_same e.symm, V3.xy]
  have h1 : Place r file (.func c!"near" (.val (V3.fin ⟨1 / 10, 1 / 10, 1⟩) 1) 1) ⟨0, 0, 0⟩ := by
    have := Place.near (.val (V3.fin ⟨1 / 10, 1 / 10, 1⟩) 1) 1 _ ⟨0, 0, 1⟩ (lit ⟨1 / 10, 1 / 10, 1⟩ 1) (by
      intro w hw
      rw [matZP_same e.symm]
      rcases (hs w).1 hw with rfl | rfl | rfl <;> norm_num) ((hs _).2 (Or.inl rfl)) (by
      intro w hw
      rcases (hs w).1 hw with rfl | rfl | rfl
      · exact Or.inl rfl
      · right; apply Real.sqrt_lt_sqrt (dist2_nn _ _); simp only [hsee, dist2, V3.xy]; norm_num
      · right; apply Real.sqrt_lt_sqrt (dist2_nn _ _); simp only [hsee, dist2, V3.xy]; norm_num)
    rwa [hsee] at this
  have h2 : Place r file (.func c!"near" (.val (V3.fin ⟨9 / 10, 1 / 10, 1⟩) 1) 1) ⟨1, 0, 0⟩ := by
    have := Place.near (.val (V3.fin ⟨9 / 10, 1 / 10, 1⟩) 1) 1 _ ⟨1, 0, 1⟩ (lit ⟨9 / 10, 1 / 10, 1⟩ 1) (by
      intro w hw
      rw [matZP_same e.symm]
      rcases (hs w).1 hw with rfl | rfl | rfl <;> norm_num) ((hs _).2 (Or.inr (Or.inl rfl))) (by
      intro w hw
      rcases (hs w).1 hw with rfl | rfl | rfl
      · right; apply Real.sqrt_lt_sqrt (dist2_nn _ _); simp only [hsee, dist2, V3.xy]; norm_num
      · exact Or.inl rfl
      · right; apply Real.sqrt_lt_sqrt (dist2_nn _ _); simp only [hsee, dist2, V3.xy]; norm_num)
    rwa [hsee] at this
  refine ⟨file, r, (⟨0, 0, 0⟩ : V3 ℝ) - ⟨1 / 2, 1 / 2, 0⟩, ⟨1, 0, 0⟩ - ⟨1 / 2, 1 / 2, 0⟩, hmade, hr, ⟨rfl, ?_, rfl, ⟨_, _, rfl, rfl, lit _ _⟩,
    ⟨_, _, rfl, rfl, .center _ _ ⟨1 / 2, 1 / 2, 1⟩ ⟨1 / 2, 1 / 2⟩ _ (lit _ _) (skew_round e.symm hs)⟩, Or.inr ⟨rfl, _, ⟨_, _, rfl, rfl, h1⟩, rfl⟩,
    Or.inr ⟨rfl, _, ⟨_, _, rfl, rfl, h2⟩, rfl⟩⟩, ?_, by simp, by simp⟩
  · simp only [flatDim, GoodDim]; rw [exactly_def]; simp [Has]
  · simp only [PageAligned, V3.sub_x, V3.sub_y]; norm_num

end S2P
