import Verif.Lemmas.Numbers
import Verif.Props.Labels
import Verif.Props.DimLines

set_option linter.unusedSectionVars false
set_option linter.unusedVariables false
set_option linter.unusedSimpArgs false

/-! # C64: the leader of a diameter or radius -/

namespace S2P

/-- The leader of a circle with centre `k`, radius `R`, in the unit direction `n`, to the label's place `a`: it starts at `o`, goes along `n` to an elbow at
distance `m` from the centre, and from there to `a`.  The elbow is on the circle, or level with `a` or straight above or below it. -/
structure Leader (o k n a : V2 ℝ) (R m : ℝ) (ls : List (Line ℝ)) : Prop where
  path : ls = [⟨o, k + n.smul m⟩, ⟨k + n.smul m, a⟩]
  elbow : m = R ∨ (1 < m ∧ (m * n.x = a.x - k.x ∨ m * n.y = a.y - k.y))

/-- the length computed is a number if it is taken, and is one of the two quotients -/
theorem len_is (a b : ℝ) (n : V2 ℝ) (hn : n.x ^ 2 + n.y ^ 2 = 1) (h : FP.lt (FP.lit 1 : Ext ℝ) (FP.min (Ext.fin a / Ext.fin n.x) (Ext.fin b / Ext.fin n.y)) = true) :
    ∃ m : ℝ, FP.min (Ext.fin a / Ext.fin n.x) (Ext.fin b / Ext.fin n.y) = Ext.fin m ∧ 1 < m ∧ (m * n.x = a ∨ m * n.y = b) := by
  obtain ⟨m, hm⟩ := len_fin (Ext.fin a) (Ext.fin b) ⟨_, rfl⟩ ⟨_, rfl⟩ n hn h
  rw [hm, Ext.lit_eq, Ext.fin_lt] at h
  refine ⟨m, hm, by simpa using h, ?_⟩
  unfold FP.min at hm
  split at hm
  · right
    by_cases hy : n.y = 0
    · rw [hy, Ext.fin_div_zero] at hm; unfold Ext.infSign at hm; split_ifs at hm
    · rw [Ext.fin_div _ _ hy, Ext.fin_inj] at hm; rw [← hm]; field_simp
  · left
    by_cases hy : n.x = 0
    · rw [hy, Ext.fin_div_zero] at hm; unfold Ext.infSign at hm; split_ifs at hm
    · rw [Ext.fin_div _ _ hy, Ext.fin_inj] at hm; rw [← hm]; field_simp

/-- the first two strokes of a radius or diameter -/
theorem leader_items (o k n a : V2 ℝ) (R : ℝ) (hn : n.x ^ 2 + n.y ^ 2 = 1) :
    ∃ m ls, Leader o k n a R m ls ∧
      (if FP.lt (FP.lit 1 : Ext ℝ) (FP.min ((a.fin - k.fin).x / n.fin.x) ((a.fin - k.fin).y / n.fin.y)) = true
        then [(⟨o.fin, k.fin + n.fin.smul (FP.min ((a.fin - k.fin).x / n.fin.x) ((a.fin - k.fin).y / n.fin.y))⟩ : Line (Ext ℝ)),
              ⟨k.fin + n.fin.smul (FP.min ((a.fin - k.fin).x / n.fin.x) ((a.fin - k.fin).y / n.fin.y)), a.fin⟩]
        else [⟨o.fin, k.fin + n.fin.smul (.fin R)⟩, ⟨k.fin + n.fin.smul (.fin R), a.fin⟩]) = ls.map (fun l => ⟨l.o.fin, l.t.fin⟩) := by
  split
  · rename_i h
    rw [V2.fin_sub, V2.fin_x, V2.fin_y, V2.fin_x, V2.fin_y] at h ⊢
    obtain ⟨m, e, h1, h2⟩ := len_is _ _ n hn h
    refine ⟨m, _, ⟨rfl, Or.inr ⟨h1, ?_⟩⟩, ?_⟩
    · simpa using h2
    · rw [e]; simp [V2.fin_smul, V2.fin_add]
  · exact ⟨R, _, ⟨rfl, Or.inl rfl⟩, by simp [V2.fin_smul, V2.fin_add]⟩

/-- C64: the leader of an accepted radius (literal `at` and `dir`, `dir` not along the line of sight) goes from the centre to `at` by one elbow; and it
passes through the arrow's tip, unless the elbow is more than one unit from the centre but inside the circle. -/
theorem C64_rad_partial (E : Env (Ext ℝ)) (hJ : E.NotAView) (v : Vis (Ext ℝ)) (r : M3 ℝ) (hr : IsRotation r) (hv : v.rotation = r.fin)
    (d : DimN (Ext ℝ)) (hk : d.kind = .rad) (hg : GoodDim d.kind d.metas) (a u : V3 ℝ) (ha : Literal d.metas c!"at" a)
    (hu : Literal d.metas c!"dir" u) (c : V3 (Ext ℝ)) (hc : pointOf E v 1 d.metas c!"center" = some c) (k : V2 ℝ) (R : ℝ)
    (hl : locate v.points c.xy = some (k.fin, .fin R)) (h3 : 3 ≤ v.points.length) (hne : (u.mulM r).xy ≠ ⟨0, 0⟩)
    (g : Ext ℝ → Str) (hfmt : formatOf E c!"%.3f" d.metas = some g) :
    ∃ P L n m ls, dimContent E v d = .ok (true, P, L) ∧ n.x ^ 2 + n.y ^ 2 = 1 ∧ (∃ q, 0 < q ∧ n = (u.mulM r).xy.smul q) ∧
      Leader k k n (a.mulM r).xy R m ls ∧
      (P.lines.take 2) = ls.map (fun l => ⟨l.o.fin.moved v.scale v.d, l.t.fin.moved v.scale v.d⟩) ∧
      (P.lines.drop 2).map (fun l => l.o) = [k + n.smul R, k + n.smul R].map (fun p => p.fin.moved v.scale v.d) ∧
      (¬ (1 < m ∧ m < R) → ∃ l ∈ ls.take 1, ∃ t, 0 ≤ t ∧ t ≤ 1 ∧ l.at t = k + n.smul R) := by
  obtain ⟨n, hn, hu1, q, hq, hqn⟩ := normalized2_real _ hne
  have hR := locate_nonneg _ _ _ _ hl
  have hi : drawnItems E v d.kind d.metas = some (radItems g v.scale ⟨(a.mulM r).xy.fin, (u.mulM r).xy.fin, k.fin, .fin R⟩) := by
    rw [hk]
    simp only [drawnItems, drawnItems.circ, literal_point hv ha, literal_point hv hu, hc, hl, hfmt, bind, Option.bind]
    rw [if_neg (by omega)]
    rfl
  have hrot : v.rotation.eqv E.junkM = false := by rw [hv]; exact hJ r hr
  obtain ⟨L, e⟩ := (dimContent_items E v d hrot).1 _ hg hi
  obtain ⟨m, ls, hL, hls⟩ := leader_items k k n (a.mulM r).xy R hu1
  refine ⟨_, L, n, m, ls, e, hu1, ⟨q, hq, hqn⟩, hL, ?_, ?_, ?_⟩
  · simp only [OutPage.moved, radItems, hn]
    rw [hls, hL.path]
    rfl
  · simp only [OutPage.moved, radItems, hn]
    split <;> simp [V2.fin_smul, V2.fin_add, V2.fin_sub]
  · intro hm
    rw [hL.path]
    refine ⟨⟨k, k + n.smul m⟩, by simp, ?_⟩
    rcases hL.elbow with rfl | ⟨h1, -⟩
    · exact ⟨1, by norm_num, le_refl _, by ext <;> simp [Line.at, V2.smul]⟩
    · have hRm : R ≤ m := by by_contra hc; exact hm ⟨h1, by linarith⟩
      have hm0 : 0 < m := by linarith
      refine ⟨R / m, by positivity, (div_le_one hm0).mpr hRm, ?_⟩
      ext <;> simp [Line.at, V2.smul] <;> field_simp

/-- C64: the same for a diameter, whose leader starts at the opposite tip. -/
theorem C64_dia_partial (E : Env (Ext ℝ)) (hJ : E.NotAView) (v : Vis (Ext ℝ)) (r : M3 ℝ) (hr : IsRotation r) (hv : v.rotation = r.fin)
    (d : DimN (Ext ℝ)) (hk : d.kind = .dia) (hg : GoodDim d.kind d.metas) (a u : V3 ℝ) (ha : Literal d.metas c!"at" a)
    (hu : Literal d.metas c!"dir" u) (c : V3 (Ext ℝ)) (hc : pointOf E v 1 d.metas c!"center" = some c) (k : V2 ℝ) (R : ℝ)
    (hl : locate v.points c.xy = some (k.fin, .fin R)) (h3 : 3 ≤ v.points.length) (hne : (u.mulM r).xy ≠ ⟨0, 0⟩)
    (g : Ext ℝ → Str) (hfmt : formatOf E c!"%.3f" d.metas = some g) :
    ∃ P L n m ls, dimContent E v d = .ok (true, P, L) ∧ n.x ^ 2 + n.y ^ 2 = 1 ∧ (∃ q, 0 < q ∧ n = (u.mulM r).xy.smul q) ∧
      Leader (k - n.smul R) k n (a.mulM r).xy R m ls ∧
      (P.lines.take 2) = ls.map (fun l => ⟨l.o.fin.moved v.scale v.d, l.t.fin.moved v.scale v.d⟩) ∧
      (P.lines.drop 2).map (fun l => l.o) =
        [k + n.smul R, k + n.smul R, k - n.smul R, k - n.smul R].map (fun p => p.fin.moved v.scale v.d) ∧
      (¬ (1 < m ∧ m < R) → ∃ l ∈ ls.take 1, ∃ t, 0 ≤ t ∧ t ≤ 1 ∧ l.at t = k + n.smul R) := by
  obtain ⟨n, hn, hu1, q, hq, hqn⟩ := normalized2_real _ hne
  have hR := locate_nonneg _ _ _ _ hl
  have hi : drawnItems E v d.kind d.metas = some (diaItems g v.scale ⟨(a.mulM r).xy.fin, (u.mulM r).xy.fin, k.fin, .fin R⟩) := by
    rw [hk]
    simp only [drawnItems, drawnItems.circ, literal_point hv ha, literal_point hv hu, hc, hl, hfmt, bind, Option.bind]
    rw [if_neg (by omega)]
    rfl
  have hrot : v.rotation.eqv E.junkM = false := by rw [hv]; exact hJ r hr
  obtain ⟨L, e⟩ := (dimContent_items E v d hrot).1 _ hg hi
  obtain ⟨m, ls, hL, hls⟩ := leader_items (k - n.smul R) k n (a.mulM r).xy R hu1
  refine ⟨_, L, n, m, ls, e, hu1, ⟨q, hq, hqn⟩, hL, ?_, ?_, ?_⟩
  · simp only [OutPage.moved, diaItems, hn]
    rw [show (k.fin - n.fin.smul (Ext.fin R) : V2 (Ext ℝ)) = (k - n.smul R).fin by rw [V2.fin_smul, V2.fin_sub]]
    rw [hls, hL.path]
    rfl
  · simp only [OutPage.moved, diaItems, hn]
    split <;> simp [V2.fin_smul, V2.fin_add, V2.fin_sub]
  · intro hm
    rw [hL.path]
    refine ⟨⟨k - n.smul R, k + n.smul m⟩, by simp, ?_⟩
    rcases hL.elbow with rfl | ⟨h1, -⟩
    · exact ⟨1, by norm_num, le_refl _, by ext <;> simp [Line.at, V2.smul]⟩
    · have hRm : R ≤ m := by by_contra hc; exact hm ⟨h1, by linarith⟩
      have hm0 : 0 < R + m := by linarith
      refine ⟨2 * R / (R + m), by positivity, (div_le_one hm0).mpr (by linarith), ?_⟩
      ext <;> simp [Line.at, V2.smul] <;> field_simp <;> ring

/-- C64 is false as stated: the circle with centre (1,1) and radius 5, direction (1,0), `at` (4,3).  The leader turns at (4,1); the arrow's tip (6,1) is not on it. -/
theorem C64_false : ∃ d : DimN (Ext ℚ), d.kind = .rad ∧
    (pointOf exEnv sightVis 1 d.metas c!"center").bind (fun c => locate sightVis.points c.xy) = some (V2.fin ⟨1, 1⟩, .fin 5) ∧
    (dimContent exEnv sightVis d).map (fun c => (c.1, c.2.1.lines.take 2, (c.2.1.lines.drop 2).map (fun l => l.o))) =
      .ok (true, [⟨V2.fin ⟨1, 1⟩, V2.fin ⟨4, 1⟩⟩, ⟨V2.fin ⟨4, 1⟩, V2.fin ⟨4, 3⟩⟩], [V2.fin ⟨6, 1⟩, V2.fin ⟨6, 1⟩]) := by
  refine ⟨⟨.rad, [⟨c!"center", pt 1 1 0, 1⟩, ⟨c!"dir", pt 1 0 0, 1⟩, ⟨c!"at", pt 4 3 0, 1⟩], 1⟩, rfl, ?_, ?_⟩ <;> decide +kernel

/-- the circle of the examples in Props/Labels: the premises are met -/
example : ∃ r n m ls, Leader ⟨1, 1⟩ ⟨1, 1⟩ n ((⟨2, 2, 0⟩ : V3 ℝ).mulM r).xy 5 m ls ∧ ∃ P L, dimContent rEnv rVis (rCirc .rad) = .ok (true, P, L) := by
  obtain ⟨r, g, c, h1, h2, h3, h4, h5, h6, h7, h8, h9, h10, h11⟩ := rCirc_case .rad (Or.inr rfl)
  obtain ⟨P, L, n, m, ls, e, -, -, hL, -⟩ := C64_rad_partial rEnv h3 rVis r h1 h2 (rCirc .rad) rfl h4 ⟨2, 2, 0⟩ ⟨1, 0, 0⟩ h5 h6 c h7 ⟨1, 1⟩ 5 h8 h9 h10 g h11
  exact ⟨r, n, m, ls, hL, P, L, e⟩

end S2P
