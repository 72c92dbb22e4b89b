import Verif.Props.Labels

set_option linter.unusedSectionVars false
set_option linter.unusedVariables false
set_option linter.unusedSimpArgs false

/-! # C65: the arrows of an angle dimension -/

namespace S2P

/-- the point at distance `l` from `x` in the direction of `A` -/
noncomputable def along (x A : V3 ℝ) (l : ℝ) : V3 ℝ := x + A.smul (l / len3 A)

theorem angleItems_tips (g : Ext ℝ → Str) (s : Ext ℝ) (a x A B : V3 ℝ) (q q' : V3 (Ext ℝ)) (hA : A ≠ ⟨0, 0, 0⟩) (hB : B ≠ ⟨0, 0, 0⟩) :
    ((angleItems g s a.fin x.fin A.fin.normalized q B.fin.normalized q').lines.drop 2).map (fun l => l.o) =
      [(along x A (len3 (a - x))).xy.fin, (along x A (len3 (a - x))).xy.fin, (along x B (len3 (a - x))).xy.fin, (along x B (len3 (a - x))).xy.fin] := by
  have h1 : ∀ C : V3 ℝ, C ≠ ⟨0, 0, 0⟩ → (x.fin + C.fin.normalized.smul (a.fin - x.fin).norm : V3 (Ext ℝ)) = (along x C (len3 (a - x))).fin := by
    intro C hC
    have := len3_pos hC
    rw [normalized_real hC, V3.fin_sub, norm_real, V3.fin_smul, V3.fin_add]
    congr 1
    ext <;> simp [along, V3.smul, V3.sdiv] <;> field_simp
  simp only [angleItems, Line.of3, List.drop_succ_cons, List.drop_zero, List.map_cons, List.map_nil, h1 A hA, h1 B hB, V3.fin_xy]

/-- C65: the four arrowhead lines of an accepted angle start at two points, the points of the two legs at the distance of `at` from the apex.  If a leg is
parallel to the page its point is on the arc: its distance to the arc's centre is the arc's radius (in model units). -/
theorem C65_tips (E : Env (Ext ℝ)) (hJ : E.NotAView) (v : Vis (Ext ℝ)) (r : M3 ℝ) (hr : IsRotation r) (hv : v.rotation = r.fin)
    (d : DimN (Ext ℝ)) (hk : d.kind = .angle) (hg : GoodDim d.kind d.metas) (a x u w : V3 ℝ) (ha : Literal d.metas c!"at" a)
    (hx : Literal d.metas c!"apex" x) (hu : Leg d.metas c!"from_dir" c!"from_point" x u) (hw : Leg d.metas c!"to_dir" c!"to_point" x w)
    (g : Ext ℝ → Str) (hfmt : formatOf E c!"%.1f" d.metas = some g) (hne : (u.mulM r).x * (w.mulM r).y - (u.mulM r).y * (w.mulM r).x ≠ 0) :
    ∃ P L A B, dimContent E v d = .ok (true, P, L) ∧ ((A = u ∧ B = w) ∨ (A = w ∧ B = u)) ∧
      P.arcs.map (fun k => (k.center, k.r)) = [((x.mulM r).xy.fin.moved v.scale v.d, .fin (len3 (a - x)) * v.scale)] ∧
      (P.lines.drop 2).map (fun l => l.o) = [A, A, B, B].map (fun C => ((along x C (len3 (a - x))).mulM r).xy.fin.moved v.scale v.d) ∧
      ∀ C ∈ [A, B], (C.mulM r).z = 0 → dist ((along x C (len3 (a - x))).mulM r).xy (x.mulM r).xy = len3 (a - x) := by
  have nu : u.mulM r ≠ ⟨0, 0, 0⟩ := by intro h; rw [h] at hne; simp at hne
  have nw : w.mulM r ≠ ⟨0, 0, 0⟩ := by intro h; rw [h] at hne; simp at hne
  have hl : ∀ C : V3 ℝ, len3 (C.mulM r) = len3 C := fun C => rot_len hr C
  have hal : ∀ C l, along (x.mulM r) (C.mulM r) l = (along x C l).mulM r := by
    intro C l; unfold along; rw [hl]; ext <;> simp [V3.mulM, V3.smul] <;> ring
  have hdist : ∀ C : V3 ℝ, C.mulM r ≠ ⟨0, 0, 0⟩ → (C.mulM r).z = 0 →
      dist ((along x C (len3 (a - x))).mulM r).xy (x.mulM r).xy = len3 (a - x) := by
    intro C hC hz
    rw [← hal]
    have hp := len3_pos hC
    have h0 : 0 ≤ len3 (a - x) := Real.sqrt_nonneg _
    have hm : len3 (C.mulM r) * len3 (C.mulM r) = (C.mulM r).x ^ 2 + (C.mulM r).y ^ 2 := by
      rw [len3_mul_self]; simp only [V3.sqNorm, V3.dot, hz]; ring
    have : dist2 (along (x.mulM r) (C.mulM r) (len3 (a - x))).xy (x.mulM r).xy = len3 (a - x) ^ 2 := by
      simp only [dist2, along, V3.xy, V3.add_x, V3.add_y, V3.smul, add_sub_cancel_left]
      have e1 : ((C.mulM r).x * (len3 (a - x) / len3 (C.mulM r))) ^ 2 + ((C.mulM r).y * (len3 (a - x) / len3 (C.mulM r))) ^ 2 =
          ((C.mulM r).x ^ 2 + (C.mulM r).y ^ 2) * (len3 (a - x) / len3 (C.mulM r)) ^ 2 := by ring
      rw [e1, ← hm]
      field_simp
    rw [dist, this, Real.sqrt_sq h0]
  have hlen : len3 (a.mulM r - x.mulM r) = len3 (a - x) := by rw [← rot_sub, rot_len hr]
  have hrot : v.rotation.eqv E.junkM = false := by rw [hv]; exact hJ r hr
  obtain ⟨q, hq⟩ := leg_real (E := E) hv hu 2
  obtain ⟨q', hq'⟩ := leg_real (E := E) hv hw 4
  have hi : drawnItems E v d.kind d.metas =
      if FP.eq ((w.mulM r).fin.normalized.cross (u.mulM r).fin.normalized).z (FP.lit 0) then none
      else if FP.lt (FP.lit 0) ((w.mulM r).fin.normalized.cross (u.mulM r).fin.normalized).z then
        some (angleItems g v.scale (a.mulM r).fin (x.mulM r).fin (w.mulM r).fin.normalized q' (u.mulM r).fin.normalized q)
      else some (angleItems g v.scale (a.mulM r).fin (x.mulM r).fin (u.mulM r).fin.normalized q (w.mulM r).fin.normalized q') := by
    rw [hk]
    simp only [drawnItems, literal_point hv ha, literal_point hv hx, hq, hq', hfmt, bind, Option.bind]
  have hz : FP.eq ((w.mulM r).fin.normalized.cross (u.mulM r).fin.normalized).z (FP.lit 0 : Ext ℝ) = false := by
    have p1 := len3_pos nu
    have p2 := len3_pos nw
    rw [normalized_real nu, normalized_real nw]
    simp only [V3.cross, V3.map, V3.sdiv, Ext.fin_mul, Ext.fin_sub, Ext.lit_eq, Ext.fin_eq, decide_eq_false_iff_not, Rat.cast_zero]
    intro hc
    apply hne
    field_simp at hc
    linarith
  rw [hz, if_neg (by simp)] at hi
  have fin : ∀ (A B : V3 ℝ) (p p' : V3 (Ext ℝ)), ((A = u ∧ B = w) ∨ (A = w ∧ B = u)) →
      drawnItems E v d.kind d.metas = some (angleItems g v.scale (a.mulM r).fin (x.mulM r).fin (A.mulM r).fin.normalized p (B.mulM r).fin.normalized p') →
      ∃ P L A B, dimContent E v d = .ok (true, P, L) ∧ ((A = u ∧ B = w) ∨ (A = w ∧ B = u)) ∧
      P.arcs.map (fun k => (k.center, k.r)) = [((x.mulM r).xy.fin.moved v.scale v.d, .fin (len3 (a - x)) * v.scale)] ∧
      (P.lines.drop 2).map (fun l => l.o) = [A, A, B, B].map (fun C => ((along x C (len3 (a - x))).mulM r).xy.fin.moved v.scale v.d) ∧
      ∀ C ∈ [A, B], (C.mulM r).z = 0 → dist ((along x C (len3 (a - x))).mulM r).xy (x.mulM r).xy = len3 (a - x) := by
    intro A B p p' hAB hd
    have nA : A.mulM r ≠ ⟨0, 0, 0⟩ := by rcases hAB with ⟨rfl, -⟩ | ⟨rfl, -⟩ <;> assumption
    have nB : B.mulM r ≠ ⟨0, 0, 0⟩ := by rcases hAB with ⟨-, rfl⟩ | ⟨-, rfl⟩ <;> assumption
    obtain ⟨L, e⟩ := (dimContent_items E v d hrot).1 _ hg hd
    refine ⟨_, L, A, B, e, hAB, ?_, ?_, ?_⟩
    · simp only [OutPage.moved, angleItems, List.map_cons, List.map_nil, Arc.of3, V3.fin_sub, norm_real, hlen]
      rfl
    · have h1 := angleItems_tips g v.scale (a.mulM r) (x.mulM r) (A.mulM r) (B.mulM r) p p' nA nB
      rw [hlen, hal, hal] at h1
      have h2 : ∀ (P : OutPage (Ext ℝ)), ((P.moved v.scale v.d).lines.drop 2).map (fun l => l.o) = ((P.lines.drop 2).map (fun l => l.o)).map (fun p => p.moved v.scale v.d) := by
        intro P
        simp only [OutPage.moved]
        rw [← List.map_drop, List.map_map, List.map_map]
        rfl
      rw [h2, h1]
      rfl
    · intro C hC hz
      simp only [List.mem_cons, List.not_mem_nil, or_false] at hC
      rcases hC with rfl | rfl
      · exact hdist _ nA hz
      · exact hdist _ nB hz
  by_cases hc : FP.lt (FP.lit 0 : Ext ℝ) ((w.mulM r).fin.normalized.cross (u.mulM r).fin.normalized).z = true
  · rw [if_pos hc] at hi; exact fin w u _ _ (Or.inr ⟨rfl, rfl⟩) hi
  · rw [if_neg hc] at hi; exact fin u w _ _ (Or.inl ⟨rfl, rfl⟩) hi

/-- A leg that is tilted out of the page: the arc has radius 5, but the arrow along the leg (0,3,4) starts 3 units from its centre. -/
theorem C65_tilted : ∃ d : DimN (Ext ℚ), d.kind = .angle ∧
    (dimContent exEnv sightVis d).map (fun c => (c.1, c.2.1.arcs.map (fun k => k.center), c.2.1.arcs.map (fun k => k.r))) = .ok (true, [V2.fin ⟨0, 0⟩], [.fin 5]) ∧
    (dimContent exEnv sightVis d).map (fun c => (c.2.1.lines.drop 2).map (fun l => l.o)) =
      .ok [V2.fin ⟨5, 0⟩, V2.fin ⟨5, 0⟩, V2.fin ⟨0, 3⟩, V2.fin ⟨0, 3⟩] := by
  refine ⟨⟨.angle, [⟨c!"apex", pt 0 0 0, 1⟩, ⟨c!"from_dir", pt 1 0 0, 1⟩, ⟨c!"to_dir", pt 0 3 4, 1⟩, ⟨c!"at", pt 3 4 0, 1⟩], 1⟩, rfl, ?_, ?_⟩ <;>
  decide +kernel

/-- the premises occur: the angle of the examples in Props/Labels -/
example : ∃ P L, dimContent rEnv rVis rAngle = .ok (true, P, L) := by
  obtain ⟨r, g, h1, h2, h3, h4, h5, h6, h7, h8, h9, h10⟩ := rAngle_case
  obtain ⟨P, L, -, -, h, -⟩ := C65_tips rEnv h3 rVis r h1 h2 rAngle rfl h4 ⟨2, 2, 0⟩ ⟨1, 1, 0⟩ ⟨1, 0, 0⟩ ⟨0, 2, 2⟩ h5 h6 h7 h8 g h9 h10
  exact ⟨P, L, h⟩

end S2P
