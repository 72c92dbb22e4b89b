import Verif.Lemmas.Moved
import Verif.Lemmas.Finite
import Verif.Lemmas.Sample
import Verif.Lemmas.RealSample
import Verif.Props.Circle

set_option linter.unusedSectionVars false
set_option linter.unusedVariables false
set_option linter.unusedSimpArgs false

/-! # C40, C42, C43: what the labels say and where the arrows and arcs are -/

namespace S2P

/-! ## Vectors over the reals -/

theorem len3_sq (u : V3 ℝ) : len3 u = Real.sqrt u.sqNorm := by
  unfold len3 V3.sqNorm V3.dot; congr 1; ring

theorem len3_pos {u : V3 ℝ} (h : u ≠ ⟨0, 0, 0⟩) : 0 < len3 u := by
  rw [len3_sq]
  apply Real.sqrt_pos.mpr
  rcases (V3.sqNorm_nonneg u).lt_or_eq with h' | h'
  · exact h'
  · exfalso
    apply h
    unfold V3.sqNorm V3.dot at h'
    have hx : u.x = 0 := by nlinarith [mul_self_nonneg u.x, mul_self_nonneg u.y, mul_self_nonneg u.z]
    have hy : u.y = 0 := by nlinarith [mul_self_nonneg u.x, mul_self_nonneg u.y, mul_self_nonneg u.z]
    have hz : u.z = 0 := by nlinarith [mul_self_nonneg u.x, mul_self_nonneg u.y, mul_self_nonneg u.z]
    ext <;> assumption

theorem len3_mul_self (u : V3 ℝ) : len3 u * len3 u = u.sqNorm := by
  rw [len3_sq, Real.mul_self_sqrt (V3.sqNorm_nonneg u)]

theorem norm_real (u : V3 ℝ) : (u.fin.norm : Ext ℝ) = .fin (len3 u) := by
  unfold V3.norm
  rw [V3.fin_sqNorm, Ext.fin_sqrt _ (V3.sqNorm_nonneg u), len3_sq]
  rfl

theorem normalized_real {u : V3 ℝ} (h : u ≠ ⟨0, 0, 0⟩) : (u.fin.normalized : V3 (Ext ℝ)) = (u.sdiv (len3 u)).fin := by
  have hp := len3_pos h
  have hs : 0 < u.sqNorm := by rw [← len3_mul_self]; positivity
  unfold V3.normalized
  rw [V3.fin_sqNorm, Ext.lit_eq, Ext.fin_lt]
  rw [if_pos (by simpa using hs), norm_real, V3.fin_sdiv _ _ hp.ne']

theorem normalized_zero : ((V3.fin (⟨0, 0, 0⟩ : V3 ℝ)).normalized : V3 (Ext ℝ)) = V3.fin ⟨0, 0, 0⟩ := by
  unfold V3.normalized; rw [V3.fin_sqNorm]; simp [V3.sqNorm, V3.dot]

theorem rot_dot {r : M3 ℝ} (hr : IsRotation r) (u w : V3 ℝ) : (u.mulM r).dot (w.mulM r) = u.dot w := hr.1 u w

theorem rot_len {r : M3 ℝ} (hr : IsRotation r) (u : V3 ℝ) : len3 (u.mulM r) = len3 u := by
  rw [len3_sq, len3_sq]; congr 1; exact hr.1 u u

theorem rot_sub (r : M3 ℝ) (u w : V3 ℝ) : (u - w).mulM r = u.mulM r - w.mulM r := by
  ext <;> simp [V3.mulM] <;> ring

theorem rot_ne {r : M3 ℝ} (hr : IsRotation r) {u : V3 ℝ} (h : u ≠ ⟨0, 0, 0⟩) : u.mulM r ≠ ⟨0, 0, 0⟩ := by
  intro h'
  have h1 := rot_len hr u
  rw [h'] at h1
  have := len3_pos h
  rw [← h1] at this
  simp [len3] at this

theorem rot_zero (r : M3 ℝ) : (⟨0, 0, 0⟩ : V3 ℝ).mulM r = ⟨0, 0, 0⟩ := by ext <;> simp [V3.mulM]

theorem len3_scaled (d : V3 ℝ) (k : ℝ) : len3 (d.smul k) = |k| * len3 d := by
  unfold len3
  have : (d.smul k).x ^ 2 + (d.smul k).y ^ 2 + (d.smul k).z ^ 2 = k ^ 2 * (d.x ^ 2 + d.y ^ 2 + d.z ^ 2) := by
    simp only [V3.smul]; ring
  rw [this, Real.sqrt_mul (sq_nonneg _), Real.sqrt_sq_eq_abs]

/-! ## Literal points -/

theorem literal_point {E : Env (Ext ℝ)} {v : Vis (Ext ℝ)} {r : M3 ℝ} (hv : v.rotation = r.fin) {ms : List (Meta (Ext ℝ))} {n : Str}
    {p : V3 ℝ} (h : Literal ms n p) (j : Nat) : pointOf E v j ms n = some (p.mulM r).fin := by
  obtain ⟨m, l, h1, h2⟩ := h
  unfold pointOf
  simp only [h1, h2, hv, Pt.rot, Pt.invoke, V3.fin_mulM, if_true]

/-- C40: for literal points, in any view that is a rotation and at any scale, an accepted `dim` has one label, centred at `at`, whose
text is the format applied to `|(to-from).dir| / |dir|` in model coordinates. -/
theorem C40_label (E : Env (Ext ℝ)) (hJ : E.NotAView) (v : Vis (Ext ℝ)) (r : M3 ℝ) (hr : IsRotation r) (hv : v.rotation = r.fin)
    (d : DimN (Ext ℝ)) (hk : d.kind = .dim) (hg : GoodDim d.kind d.metas) (a u f t : V3 ℝ) (ha : Literal d.metas c!"at" a)
    (hu : Literal d.metas c!"dir" u) (hf : Literal d.metas c!"from" f) (ht : Literal d.metas c!"to" t) (g : Ext ℝ → Str)
    (hfmt : formatOf E c!"%.3f" d.metas = some g) (hne : u ≠ ⟨0, 0, 0⟩) :
    ∃ P L, dimContent E v d = .ok (true, P, L) ∧
      P.text = [⟨(a.mulM r).xy.fin.moved v.scale v.d, g (.fin (|(t - f).dot u| / len3 u)), true, false⟩] := by
  have hne' := rot_ne hr hne
  have hz : (u.mulM r).fin.eqv (V3.zero : V3 (Ext ℝ)) = false := by
    by_contra hc
    rw [Bool.not_eq_false] at hc
    apply hne'
    simp [V3.eqv, V3.zero, V3.map] at hc
    obtain ⟨⟨h1, h2⟩, h3⟩ := hc
    ext <;> assumption
  have hi : drawnItems E v d.kind d.metas = some (dimItems g v.scale (a.mulM r).fin (u.mulM r).fin.normalized (f.mulM r).fin (t.mulM r).fin) := by
    rw [hk]
    simp only [drawnItems, literal_point hv ha, literal_point hv hu, literal_point hv hf, literal_point hv ht, hfmt, bind, Option.bind, hz]
    rfl
  obtain ⟨L, e⟩ := (dimContent_items E v d (by rw [hv]; exact hJ r hr)).1 _ hg hi
  refine ⟨_, L, e, ?_⟩
  have hval : ((((a.mulM r).fin + (u.mulM r).fin.normalized.smul ((u.mulM r).fin.normalized.dot ((t.mulM r).fin - (a.mulM r).fin))) -
      ((a.mulM r).fin + (u.mulM r).fin.normalized.smul ((u.mulM r).fin.normalized.dot ((f.mulM r).fin - (a.mulM r).fin)))).norm : Ext ℝ) =
      .fin (|(t - f).dot u| / len3 u) := by
    have hp := len3_pos hne
    rw [normalized_real hne', rot_len hr]
    simp only [V3.fin_sub, V3.fin_dot, V3.fin_smul, V3.fin_add]
    rw [norm_real, Ext.fin_inj]
    have key : ∀ (A U F T : V3 ℝ) (l : ℝ), (A + (U.sdiv l).smul ((U.sdiv l).dot (T - A))) - (A + (U.sdiv l).smul ((U.sdiv l).dot (F - A))) =
        U.smul ((T - F).dot U / l / l) := by
      intro A U F T l
      ext <;> simp [V3.sdiv, V3.smul, V3.dot] <;> ring
    rw [key, len3_scaled, ← rot_sub, rot_dot hr, rot_len hr, abs_div, abs_div, abs_of_pos hp]
    field_simp
  show [_] = [_]
  simp only [List.cons.injEq, and_true]
  rw [← hval]
  rfl

/-- C40: the label is the same in any two views, at any two scales, for any `at`, for any length and sense of `dir`, with `from` and
`to` exchanged or not. -/
theorem C40_independent (E : Env (Ext ℝ)) (hJ : E.NotAView) (v v' : Vis (Ext ℝ)) (r r' : M3 ℝ) (hr : IsRotation r) (hr' : IsRotation r')
    (hv : v.rotation = r.fin) (hv' : v'.rotation = r'.fin) (d d' : DimN (Ext ℝ)) (hk : d.kind = .dim) (hk' : d'.kind = .dim)
    (hg : GoodDim d.kind d.metas) (hg' : GoodDim d'.kind d'.metas) (a a' u f t : V3 ℝ) (k : ℝ) (hk0 : k ≠ 0)
    (ha : Literal d.metas c!"at" a) (ha' : Literal d'.metas c!"at" a')
    (hu : Literal d.metas c!"dir" u) (hu' : Literal d'.metas c!"dir" (u.smul k)) (hf : Literal d.metas c!"from" f) (ht : Literal d.metas c!"to" t)
    (hft : (Literal d'.metas c!"from" f ∧ Literal d'.metas c!"to" t) ∨ (Literal d'.metas c!"from" t ∧ Literal d'.metas c!"to" f))
    (g : Ext ℝ → Str) (hfmt : formatOf E c!"%.3f" d.metas = some g) (hfmt' : formatOf E c!"%.3f" d'.metas = some g) (hne : u ≠ ⟨0, 0, 0⟩) :
    ∃ P P' L L', dimContent E v d = .ok (true, P, L) ∧ dimContent E v' d' = .ok (true, P', L') ∧
      P.text.map (fun x => x.str) = P'.text.map (fun x => x.str) := by
  have hne' : u.smul k ≠ ⟨0, 0, 0⟩ := by
    intro h
    apply hne
    simp only [V3.smul, V3.mk.injEq, mul_eq_zero, hk0, or_false] at h
    ext
    · exact h.1
    · exact h.2.1
    · exact h.2.2
  obtain ⟨P, L, e1, e2⟩ := C40_label E hJ v r hr hv d hk hg a u f t ha hu hf ht g hfmt hne
  have hval : ∀ s : V3 ℝ, |s.dot (u.smul k)| / len3 (u.smul k) = |s.dot u| / len3 u := by
    intro s
    have hp := len3_pos hne
    have : s.dot (u.smul k) = k * s.dot u := by simp [V3.dot, V3.smul]; ring
    rw [len3_scaled, this, abs_mul, mul_div_mul_left _ _ (abs_pos.mpr hk0).ne']
  rcases hft with ⟨h1, h2⟩ | ⟨h1, h2⟩
  · obtain ⟨P', L', k1, k2⟩ := C40_label E hJ v' r' hr' hv' d' hk' hg' a' (u.smul k) f t ha' hu' h1 h2 g hfmt' hne'
    refine ⟨P, P', L, L', e1, k1, ?_⟩
    rw [e2, k2, hval]
    rfl
  · obtain ⟨P', L', k1, k2⟩ := C40_label E hJ v' r' hr' hv' d' hk' hg' a' (u.smul k) t f ha' hu' h1 h2 g hfmt' hne'
    refine ⟨P, P', L, L', e1, k1, ?_⟩
    rw [e2, k2, hval]
    have : |(f - t).dot u| = |(t - f).dot u| := by
      rw [← abs_neg]; congr 1; simp [V3.dot]; ring
    rw [this]
    rfl

/-! ## Angles -/

theorem leg_real {E : Env (Ext ℝ)} {v : Vis (Ext ℝ)} {r : M3 ℝ} (hv : v.rotation = r.fin) {ms : List (Meta (Ext ℝ))} {a b : Str}
    {x u : V3 ℝ} (h : Leg ms a b x u) (j : Nat) : ∃ q, legOf E v j (x.mulM r).fin ms a b = some ((u.mulM r).fin.normalized, q) := by
  rcases h with h | ⟨h, p, hp, rfl⟩
  · have hl := literal_point (E := E) hv h j
    obtain ⟨m, l, h1, h2⟩ := h
    exact ⟨_, by unfold legOf; rw [h1]; simp only [hl]; rfl⟩
  · have hl := literal_point (E := E) hv hp (j + 1)
    exact ⟨_, by unfold legOf; rw [h]; simp only [hl]; rw [rot_sub, ← V3.fin_sub]; rfl⟩

theorem hasAngle_arg (x y : ℝ) (h : ¬ (x = 0 ∧ y = 0)) : HasAngle x y (Complex.arg ⟨x, y⟩) := by
  have hz : (⟨x, y⟩ : ℂ) ≠ 0 := by
    intro h'
    exact h ⟨by simpa using congrArg Complex.re h', by simpa using congrArg Complex.im h'⟩
  refine ⟨‖(⟨x, y⟩ : ℂ)‖, norm_pos_iff.mpr hz, ?_, ?_⟩
  · rw [Complex.cos_arg hz]; field_simp [norm_ne_zero_iff.mpr hz]
  · rw [Complex.sin_arg]; field_simp [norm_ne_zero_iff.mpr hz]

/-- an angle of positive sine is a turn by less than half -/
theorem sweep_of_sin {s t : ℝ} (h : 0 < Real.sin (t - s)) :
    ∃ δ, 0 < δ ∧ δ < Real.pi ∧ Real.cos t = Real.cos (s + δ) ∧ Real.sin t = Real.sin (s + δ) := by
  have hc : Real.cos (Real.arccos (Real.cos (t - s))) = Real.cos (t - s) :=
    Real.cos_arccos (Real.neg_one_le_cos _) (Real.cos_le_one _)
  have hs : Real.sin (Real.arccos (Real.cos (t - s))) = Real.sin (t - s) := by
    rw [Real.sin_arccos, ← Real.abs_sin_eq_sqrt_one_sub_cos_sq, abs_of_pos h]
  have h1 : Real.cos (t - s) < 1 := by
    rcases (Real.cos_le_one (t - s)).lt_or_eq with h' | h'
    · exact h'
    · have := Real.sin_sq_add_cos_sq (t - s); rw [h'] at this; nlinarith
  have h2 : -1 < Real.cos (t - s) := by
    rcases (Real.neg_one_le_cos (t - s)).lt_or_eq with h' | h'
    · exact h'
    · have := Real.sin_sq_add_cos_sq (t - s); rw [← h'] at this; nlinarith
  refine ⟨Real.arccos (Real.cos (t - s)), Real.arccos_pos.mpr h1, ?_, ?_, ?_⟩
  · rcases (Real.arccos_le_pi (Real.cos (t - s))).lt_or_eq with h' | h'
    · exact h'
    · rw [h'] at hs; simp at hs; rw [← hs] at h; exact absurd h (lt_irrefl _)
  · rw [Real.cos_add, hc, hs, ← Real.cos_add]; congr 1; ring
  · rw [Real.sin_add, hc, hs, ← Real.sin_add]; congr 1; ring

theorem unit_len {u : V3 ℝ} (h : u ≠ ⟨0, 0, 0⟩) : len3 (u.sdiv (len3 u)) = 1 := by
  have hp := len3_pos h
  have e : u.sdiv (len3 u) = u.smul (1 / len3 u) := by ext <;> simp [V3.sdiv, V3.smul, div_eq_mul_inv]
  rw [e, len3_scaled, abs_of_pos (by positivity)]
  field_simp

theorem unit_ne {u : V3 ℝ} (h : u ≠ ⟨0, 0, 0⟩) : u.sdiv (len3 u) ≠ ⟨0, 0, 0⟩ := by
  intro h'
  have := unit_len h
  rw [h'] at this
  simp [len3] at this

theorem cauchy (u w : V3 ℝ) : |u.dot w| ≤ len3 u * len3 w := by
  rw [len3_sq, len3_sq, ← Real.sqrt_mul (V3.sqNorm_nonneg u)]
  apply Real.abs_le_sqrt
  unfold V3.sqNorm V3.dot
  nlinarith [sq_nonneg (u.x * w.y - u.y * w.x), sq_nonneg (u.y * w.z - u.z * w.y), sq_nonneg (u.z * w.x - u.x * w.z)]

/-- the label of an angle drawn between the directions of `A` and `B` -/
theorem angle_value {A B : V3 ℝ} (hA : A ≠ ⟨0, 0, 0⟩) (hB : B ≠ ⟨0, 0, 0⟩) :
    (FP.acos (A.fin.normalized.dot B.fin.normalized.normalized) * FP.lit 180 / piLit : Ext ℝ) = .fin (degrees (angleBetween A B)) := by
  have pA := len3_pos hA
  have pB := len3_pos hB
  rw [normalized_real hA, normalized_real hB, normalized_real (unit_ne hB), unit_len hB]
  have e1 : (B.sdiv (len3 B)).sdiv 1 = B.sdiv (len3 B) := by ext <;> simp [V3.sdiv]
  rw [e1, V3.fin_dot]
  have e2 : (A.sdiv (len3 A)).dot (B.sdiv (len3 B)) = A.dot B / (len3 A * len3 B) := by
    simp only [V3.dot, V3.sdiv]; field_simp
  rw [e2]
  have hc := cauchy A B
  rw [abs_le] at hc
  have hpos : 0 < len3 A * len3 B := by positivity
  have e3 : (FP.acos (.fin (A.dot B / (len3 A * len3 B))) : Ext ℝ) = .fin (Real.arccos (A.dot B / (len3 A * len3 B))) := by
    show (if _ then _ else _) = _
    rw [if_neg]
    · rfl
    · rw [not_or, not_lt, not_lt]
      constructor
      · rw [le_div_iff₀ hpos]; linarith
      · rw [div_le_iff₀ hpos]; linarith
  rw [e3]
  simp only [piLit, Ext.lit_eq, Ext.fin_mul]
  rw [Ext.fin_div _ _ (by norm_num)]
  simp [degrees, angleBetween, V3.dot]

/-- what is drawn from the direction of `A` to that of `B`, when that is counter-clockwise on the page -/
theorem angleItems_real (g : Ext ℝ → Str) (s : Ext ℝ) (a x A B fp tp : V3 (Ext ℝ)) (a' x' A' B' : V3 ℝ) (ha : a = a'.fin) (hx : x = x'.fin)
    (hA : A = A'.fin.normalized) (hB : B = B'.fin.normalized) (hccw : 0 < A'.x * B'.y - A'.y * B'.x) :
    ∃ α β δ, (angleItems g s a x A fp B tp).text = [⟨a'.xy.fin, g (.fin (degrees (angleBetween A' B'))) ++ c!" deg", true, false⟩] ∧
      (angleItems g s a x A fp B tp).arcs = [⟨x'.xy.fin, .fin (len3 (a' - x')), .fin α, .fin β⟩] ∧
      HasAngle A'.x A'.y α ∧ HasAngle B'.x B'.y β ∧ 0 < δ ∧ δ < Real.pi ∧ Real.cos β = Real.cos (α + δ) ∧ Real.sin β = Real.sin (α + δ) := by
  have nA : ¬ (A'.x = 0 ∧ A'.y = 0) := by rintro ⟨h1, h2⟩; rw [h1, h2] at hccw; simp at hccw
  have nB : ¬ (B'.x = 0 ∧ B'.y = 0) := by rintro ⟨h1, h2⟩; rw [h1, h2] at hccw; simp at hccw
  have zA : A' ≠ ⟨0, 0, 0⟩ := by rintro rfl; exact nA ⟨rfl, rfl⟩
  have zB : B' ≠ ⟨0, 0, 0⟩ := by rintro rfl; exact nB ⟨rfl, rfl⟩
  have pA := len3_pos zA
  have pB := len3_pos zB
  have scaleAngle : ∀ (x y l t : ℝ), 0 < l → HasAngle (x / l) (y / l) t → HasAngle x y t := by
    rintro x y l t hl ⟨ρ, h1, h2, h3⟩
    refine ⟨ρ * l, by positivity, ?_, ?_⟩
    · rw [div_eq_iff hl.ne'] at h2; rw [h2]; ring
    · rw [div_eq_iff hl.ne'] at h3; rw [h3]; ring
  have hα := scaleAngle A'.x A'.y _ _ pA (hasAngle_arg (A'.x / len3 A') (A'.y / len3 A') (by
    rintro ⟨h1, h2⟩; exact nA ⟨by simpa [pA.ne'] using h1, by simpa [pA.ne'] using h2⟩))
  have hβ := scaleAngle B'.x B'.y _ _ pB (hasAngle_arg (B'.x / len3 B') (B'.y / len3 B') (by
    rintro ⟨h1, h2⟩; exact nB ⟨by simpa [pB.ne'] using h1, by simpa [pB.ne'] using h2⟩))
  have hsin : 0 < Real.sin (Complex.arg ⟨B'.x / len3 B', B'.y / len3 B'⟩ - Complex.arg ⟨A'.x / len3 A', A'.y / len3 A'⟩) := by
    generalize Complex.arg ⟨A'.x / len3 A', A'.y / len3 A'⟩ = α at hα
    generalize Complex.arg ⟨B'.x / len3 B', B'.y / len3 B'⟩ = β at hβ
    obtain ⟨ρ, h1, h2, h3⟩ := hα
    obtain ⟨σ, k1, k2, k3⟩ := hβ
    rw [h2, h3, k2, k3] at hccw
    rw [Real.sin_sub]
    have hp : 0 < ρ * σ := by positivity
    have e : ρ * Real.cos α * (σ * Real.sin β) - ρ * Real.sin α * (σ * Real.cos β) =
        ρ * σ * (Real.sin β * Real.cos α - Real.cos β * Real.sin α) := by ring
    rw [e] at hccw
    exact (mul_pos_iff_of_pos_left hp).mp hccw
  obtain ⟨δ, d1, d2, d3, d4⟩ := sweep_of_sin hsin
  subst ha hx hA hB
  refine ⟨_, _, δ, ?_, ?_, hα, hβ, d1, d2, d3, d4⟩
  · show [_] = [_]
    rw [← angle_value zA zB]
    rfl
  · show [Arc.of3 _ _ _ _] = [_]
    rw [V3.fin_sub, norm_real, normalized_real zA, normalized_real zB]
    rfl

/-- C42: an angle with literal points, in any view that is a rotation.  If the two directions are parallel on the page (which includes a
direction that is a point on the page) it is rejected and draws nothing.  Otherwise its one label, at `at`, is the angle in degrees
between the two model-space directions; its one arc is centred at the apex, has as radius the distance from the apex to `at`, and runs
counter-clockwise by less than 180 degrees from the direction of one leg on the page to that of the other. -/
theorem C42_angle (E : Env (Ext ℝ)) (hJ : E.NotAView) (v : Vis (Ext ℝ)) (r : M3 ℝ) (hr : IsRotation r) (hv : v.rotation = r.fin)
    (d : DimN (Ext ℝ)) (hk : d.kind = .angle) (hg : GoodDim d.kind d.metas) (a x u w : V3 ℝ) (ha : Literal d.metas c!"at" a)
    (hx : Literal d.metas c!"apex" x) (hu : Leg d.metas c!"from_dir" c!"from_point" x u) (hw : Leg d.metas c!"to_dir" c!"to_point" x w)
    (g : Ext ℝ → Str) (hfmt : formatOf E c!"%.1f" d.metas = some g) :
    ((u.mulM r).x * (w.mulM r).y - (u.mulM r).y * (w.mulM r).x = 0 → ∃ L, dimContent E v d = .ok (false, OutPage.empty, L)) ∧
    ((u.mulM r).x * (w.mulM r).y - (u.mulM r).y * (w.mulM r).x ≠ 0 → ∃ P L, dimContent E v d = .ok (true, P, L) ∧
      P.text = [⟨(a.mulM r).xy.fin.moved v.scale v.d, g (.fin (degrees (angleBetween u w))) ++ c!" deg", true, false⟩] ∧
      ∃ (A B : V3 ℝ) (α β δ : ℝ), ((A = u.mulM r ∧ B = w.mulM r) ∨ (A = w.mulM r ∧ B = u.mulM r)) ∧
        P.arcs = [⟨(x.mulM r).xy.fin.moved v.scale v.d, .fin (len3 (a - x)) * v.scale, .fin α, .fin β⟩] ∧
        HasAngle A.x A.y α ∧ HasAngle B.x B.y β ∧
        0 < δ ∧ δ < Real.pi ∧ Real.cos β = Real.cos (α + δ) ∧ Real.sin β = Real.sin (α + δ)) := by
  obtain ⟨q, hq⟩ := leg_real (E := E) hv hu 2
  obtain ⟨q', hq'⟩ := leg_real (E := E) hv hw 4
  generalize hU : u.mulM r = U at *
  generalize hW : w.mulM r = W at *
  have hcz : ∃ k, 0 ≤ k ∧ (W.fin.normalized.cross U.fin.normalized).z = Ext.fin (-(k * (U.x * W.y - U.y * W.x))) ∧
      (U.x * W.y - U.y * W.x ≠ 0 → 0 < k) := by
    by_cases h1 : U = ⟨0, 0, 0⟩
    · subst h1
      refine ⟨0, le_refl _, ?_, by simp⟩
      rw [normalized_zero]
      by_cases h2 : W = ⟨0, 0, 0⟩
      · subst h2; rw [normalized_zero]; simp [V3.cross, V3.map]
      · rw [normalized_real h2]; simp [V3.cross, V3.map]
    · by_cases h2 : W = ⟨0, 0, 0⟩
      · subst h2
        refine ⟨0, le_refl _, ?_, by simp⟩
        rw [normalized_zero, normalized_real h1]; simp [V3.cross, V3.map]
      · have p1 := len3_pos h1
        have p2 := len3_pos h2
        refine ⟨1 / (len3 U * len3 W), by positivity, ?_, fun _ => by positivity⟩
        rw [normalized_real h1, normalized_real h2]
        simp only [V3.cross, V3.map, V3.sdiv, Ext.fin_mul, Ext.fin_sub, Ext.fin_inj]
        field_simp
        ring
  obtain ⟨k, hk0, hkz, hkp⟩ := hcz
  have hi : drawnItems E v d.kind d.metas =
      if FP.eq (W.fin.normalized.cross U.fin.normalized).z (FP.lit 0) then none
      else if FP.lt (FP.lit 0) (W.fin.normalized.cross U.fin.normalized).z then
        some (angleItems g v.scale (a.mulM r).fin (x.mulM r).fin W.fin.normalized q' U.fin.normalized q)
      else some (angleItems g v.scale (a.mulM r).fin (x.mulM r).fin U.fin.normalized q W.fin.normalized q') := by
    rw [hk]
    simp only [drawnItems, literal_point hv ha, literal_point hv hx, hq, hq', hfmt, bind, Option.bind]
  have hrot : v.rotation.eqv E.junkM = false := by rw [hv]; exact hJ r hr
  constructor
  · intro h0
    refine (dimContent_items E v d hrot).2 (Or.inr ?_)
    rw [hi, hkz, h0]
    simp
  · intro hne
    have hkpos := hkp hne
    have hz : FP.eq (W.fin.normalized.cross U.fin.normalized).z (FP.lit 0 : Ext ℝ) = false := by
      rw [hkz]; simp [hkpos.ne', hne]
    rw [hz, if_neg (by simp)] at hi
    have hlen : len3 (a.mulM r - x.mulM r) = len3 (a - x) := by rw [← rot_sub, rot_len hr]
    have hang : angleBetween u w = angleBetween U W := by
      unfold angleBetween
      have := rot_dot hr u w
      rw [hU, hW] at this
      have l1 := rot_len hr u
      have l2 := rot_len hr w
      rw [hU] at l1; rw [hW] at l2
      rw [l1, l2]
      simp only [V3.dot] at this
      rw [this]
    rcases lt_or_gt_of_ne hne with hlt | hgt
    · have hlt' : FP.lt (FP.lit 0 : Ext ℝ) (W.fin.normalized.cross U.fin.normalized).z = true := by
        rw [hkz]; simp only [Ext.lit_eq, Ext.fin_lt, decide_eq_true_eq, Rat.cast_zero]; nlinarith
      rw [if_pos hlt'] at hi
      obtain ⟨L, e⟩ := (dimContent_items E v d hrot).1 _ hg hi
      obtain ⟨α, β, δ, k1, k2, k3⟩ := angleItems_real g v.scale (a.mulM r).fin (x.mulM r).fin W.fin.normalized U.fin.normalized q' q
        (a.mulM r) (x.mulM r) W U rfl rfl rfl rfl (by linarith)
      have hsym : angleBetween W U = angleBetween U W := by
        unfold angleBetween; congr 1; ring
      refine ⟨_, L, e, ?_, W, U, α, β, δ, Or.inr ⟨rfl, rfl⟩, ?_, k3⟩
      · simp only [OutPage.moved, k1, hang, hsym]; rfl
      · simp only [OutPage.moved, k2, hlen]; rfl
    · have hlt' : FP.lt (FP.lit 0 : Ext ℝ) (W.fin.normalized.cross U.fin.normalized).z = false := by
        rw [hkz]; simp only [Ext.lit_eq, Ext.fin_lt, decide_eq_false_iff_not, Rat.cast_zero]; nlinarith
      rw [hlt', if_neg (by simp)] at hi
      obtain ⟨L, e⟩ := (dimContent_items E v d hrot).1 _ hg hi
      obtain ⟨α, β, δ, k1, k2, k3⟩ := angleItems_real g v.scale (a.mulM r).fin (x.mulM r).fin U.fin.normalized W.fin.normalized q q'
        (a.mulM r) (x.mulM r) U W rfl rfl rfl rfl (by linarith)
      refine ⟨_, L, e, ?_, U, W, α, β, δ, Or.inl ⟨rfl, rfl⟩, ?_, k3⟩
      · simp only [OutPage.moved, k1, hang]; rfl
      · simp only [OutPage.moved, k2, hlen]; rfl

/-! ## Diameters and radii -/

theorem normalized2_real (u : V2 ℝ) (h : u ≠ ⟨0, 0⟩) :
    ∃ n : V2 ℝ, (u.fin.normalized : V2 (Ext ℝ)) = n.fin ∧ n.x ^ 2 + n.y ^ 2 = 1 ∧ ∃ k, 0 < k ∧ n = u.smul k := by
  have hs : 0 < u.sqNorm := by
    rcases (V2.sqNorm_nonneg u).lt_or_eq with h' | h'
    · exact h'
    · exfalso
      apply h
      unfold V2.sqNorm V2.dot at h'
      have hx : u.x = 0 := by nlinarith [mul_self_nonneg u.x, mul_self_nonneg u.y]
      have hy : u.y = 0 := by nlinarith [mul_self_nonneg u.x, mul_self_nonneg u.y]
      ext <;> assumption
  have hl : 0 < Real.sqrt u.sqNorm := Real.sqrt_pos.mpr hs
  have hll : Real.sqrt u.sqNorm * Real.sqrt u.sqNorm = u.sqNorm := Real.mul_self_sqrt hs.le
  refine ⟨u.sdiv (Real.sqrt u.sqNorm), ?_, ?_, 1 / Real.sqrt u.sqNorm, by positivity, ?_⟩
  · unfold V2.normalized V2.norm
    rw [V2.fin_sqNorm, Ext.lit_eq, Ext.fin_lt, if_pos (by simpa using hs), Ext.fin_sqrt _ hs.le]
    exact V2.fin_sdiv _ _ hl.ne'
  · simp only [V2.sdiv]
    rw [div_pow, div_pow, ← add_div, div_eq_one_iff_eq (by positivity), sq (Real.sqrt _), hll]
    simp [V2.sqNorm, V2.dot]; ring
  · ext <;> simp [V2.sdiv, V2.smul, div_eq_mul_inv]

/-- the radius of a located circle is not negative -/
theorem locate_nonneg (ps : List (V3 (Ext ℝ))) (c k : V2 (Ext ℝ)) (R : ℝ) (h : locate ps c = some (k, .fin R)) : 0 ≤ R := by
  have key : ∀ qs : List (V2 (Ext ℝ)), findCircle qs = some (k, .fin R) → 0 ≤ R := by
    intro qs hq
    have hsq : ∀ y : Ext ℝ, FP.sqrt y = Ext.fin R → 0 ≤ R := by
      intro y hy
      cases y with
      | fin a =>
        by_cases ha : a < 0
        · have : (FP.sqrt (Ext.fin a) : Ext ℝ) = .nan := by show (if a < 0 then _ else _) = _; rw [if_pos ha]
          rw [this] at hy; cases hy
        · rw [Ext.fin_sqrt a (not_lt.mp ha)] at hy
          injection hy with hy
          rw [← hy]; exact Real.sqrt_nonneg a
      | pinf => cases hy
      | ninf => cases hy
      | nan => cases hy
    unfold findCircle at hq
    simp only [] at hq
    split_ifs at hq
    · injection hq with hq
      exact hsq _ (congrArg Prod.snd hq)
  unfold locate at h
  simp only [] at h
  split at h
  · cases h
  · exact key _ h

/-- C43 [any FP]: the label of every accepted `dia` is the diameter sign and the format applied to twice the radius of the circle
located near `center`; that of every accepted `rad` is "R" and the format applied to the radius. -/
theorem C43_label {α : Type} [FP α] (E : Env α) (v : Vis α) (d : DimN α) (hr : v.rotation.eqv E.junkM = false) (hk : d.kind = .dia ∨ d.kind = .rad)
    (P L) (h : dimContent E v d = .ok (true, P, L)) :
    ∃ c k R g, pointOf E v 1 d.metas c!"center" = some c ∧ locate v.points c.xy = some (k, R) ∧ formatOf E c!"%.3f" d.metas = some g ∧
      P.text.map (fun t => t.str) = [if d.kind = .dia then c!"\\351" ++ g (R * FP.lit 2) else c!"R" ++ g R] := by
  obtain ⟨h1, h2⟩ := dimContent_items E v d hr
  cases hi : drawnItems E v d.kind d.metas with
  | none =>
    obtain ⟨L', e⟩ := h2 (.inr hi)
    rw [e] at h; simp at h
  | some Q =>
    by_cases hg : GoodDim d.kind d.metas
    swap
    · obtain ⟨L', e⟩ := h2 (.inl hg)
      rw [e] at h; simp at h
    obtain ⟨L', e⟩ := h1 Q hg hi
    rw [e] at h
    simp only [Except.ok.injEq, Prod.mk.injEq, true_and] at h
    obtain ⟨rfl, -⟩ := h
    have key : ∀ it, drawnItems.circ E v d.metas it = some Q → ∃ a c u k R g, pointOf E v 1 d.metas c!"center" = some c ∧
        locate v.points c.xy = some (k, R) ∧ formatOf E c!"%.3f" d.metas = some g ∧ Q = it g v.scale ⟨a, u, k, R⟩ := by
      intro it hq
      simp only [drawnItems.circ, bind, Option.bind] at hq
      cases e1 : pointOf E v 0 d.metas c!"at" <;> rw [e1] at hq <;> simp only [reduceCtorEq] at hq
      cases e2 : pointOf E v 1 d.metas c!"center" <;> rw [e2] at hq <;> simp only [reduceCtorEq] at hq
      cases e3 : pointOf E v 2 d.metas c!"dir" <;> rw [e3] at hq <;> simp only [reduceCtorEq] at hq
      cases e4 : formatOf E c!"%.3f" d.metas <;> rw [e4] at hq <;> simp only [reduceCtorEq] at hq
      split at hq
      · cases hq
      rename_i c _ _ _
      cases e5 : locate v.points c.xy <;> rw [e5] at hq <;> simp only [reduceCtorEq] at hq
      injection hq with hq
      exact ⟨_, _, _, _, _, _, rfl, e5, rfl, hq.symm⟩
    rcases hk with hk | hk <;> rw [hk] at hi
    · obtain ⟨a, c, u, k, R, g, k1, k2, k3, rfl⟩ := key _ hi
      exact ⟨c, k, R, g, k1, k2, k3, by rw [hk]; rfl⟩
    · obtain ⟨a, c, u, k, R, g, k1, k2, k3, rfl⟩ := key _ hi
      exact ⟨c, k, R, g, k1, k2, k3, by rw [hk]; rfl⟩

/-- the vertices of the witness below -/
def sightVis : Vis (Ext ℚ) :=
  ⟨.empty, ([⟨-4, 1, 0⟩, ⟨1, 6, 0⟩, ⟨6, 1, 0⟩] : List (V3 ℚ)).map V3.fin, matZP, .fin 1, ⟨.fin 0, .fin 0⟩, []⟩

/-- C43 fails for a direction along the line of sight: the `rad` is accepted, the circle around (1,1) has radius 5, and the arrow
starts at the centre of the circle. -/
theorem C43_false : ∃ d : DimN (Ext ℚ), d.kind = .rad ∧
    (dimContent exEnv sightVis d).map (fun c => c.1) = .ok true ∧
    (pointOf exEnv sightVis 1 d.metas c!"center").bind (fun c => locate sightVis.points c.xy) = some (V2.fin ⟨1, 1⟩, .fin 5) ∧
    (dimContent exEnv sightVis d).map (fun c => (c.2.1.lines.drop 2).map (fun l => l.o)) = .ok [V2.fin ⟨1, 1⟩, V2.fin ⟨1, 1⟩] := by
  refine ⟨⟨.rad, [⟨c!"center", pt 1 1 0, 1⟩, ⟨c!"dir", pt 0 0 1, 1⟩, ⟨c!"at", pt 2 2 0, 1⟩], 1⟩, rfl, ?_, ?_, ?_⟩ <;> decide +kernel

/-- C43, except for directions along the line of sight: a diameter whose direction is not along the line of sight, with the circle located at centre `k` with radius `R`: one label,
the diameter sign and the format applied to twice the radius; the four arrowhead lines start at the two ends of a diameter of that circle
in the given direction. -/
theorem C43_dia_partial (E : Env (Ext ℝ)) (hJ : E.NotAView) (v : Vis (Ext ℝ)) (r : M3 ℝ) (hr : IsRotation r) (hv : v.rotation = r.fin)
    (d : DimN (Ext ℝ)) (hk : d.kind = .dia) (hg : GoodDim d.kind d.metas) (a u : V3 ℝ) (ha : Literal d.metas c!"at" a)
    (hu : Literal d.metas c!"dir" u) (c : V3 (Ext ℝ)) (hc : pointOf E v 1 d.metas c!"center" = some c) (k : V2 ℝ) (R : ℝ)
    (hl : locate v.points c.xy = some (k.fin, .fin R)) (h3 : 3 ≤ v.points.length) (hne : (u.mulM r).xy ≠ ⟨0, 0⟩)
    (g : Ext ℝ → Str) (hfmt : formatOf E c!"%.3f" d.metas = some g) :
    ∃ P L, dimContent E v d = .ok (true, P, L) ∧ P.text.map (fun t => t.str) = [c!"\\351" ++ g (.fin (2 * R))] ∧ P.arcs = [] ∧
      ∃ tip tip' : V2 ℝ, dist tip k = R ∧ dist tip' k = R ∧ tip.x + tip'.x = 2 * k.x ∧ tip.y + tip'.y = 2 * k.y ∧
        (∃ q, 0 ≤ q ∧ tip = k + (u.mulM r).xy.smul q) ∧
        (P.lines.drop 2).map (fun l => l.o) = [tip, tip, tip', tip'].map (fun p => p.fin.moved v.scale v.d) := by
  obtain ⟨n, hn, hu1, q, hq, hqn⟩ := normalized2_real _ hne
  have hR := locate_nonneg _ _ _ _ hl
  have hi : drawnItems E v d.kind d.metas = some (diaItems g v.scale ⟨(a.mulM r).xy.fin, (u.mulM r).xy.fin, k.fin, .fin R⟩) := by
    rw [hk]
    simp only [drawnItems, drawnItems.circ, literal_point hv ha, literal_point hv hu, hc, hl, hfmt, bind, Option.bind]
    rw [if_neg (by omega)]
    rfl
  have hrot : v.rotation.eqv E.junkM = false := by rw [hv]; exact hJ r hr
  obtain ⟨L, e⟩ := (dimContent_items E v d hrot).1 _ hg hi
  refine ⟨_, L, e, ?_, rfl, k + n.smul R, k - n.smul R, ?_, ?_, ?_, ?_, ⟨q * R, by positivity, ?_⟩, ?_⟩
  · simp only [OutPage.moved, diaItems, List.map_cons, List.map_nil, Ext.lit_eq, Ext.fin_mul]
    congr 3
    rw [Ext.fin_inj]; push_cast; ring
  · have : dist2 (k + n.smul R) k = R ^ 2 := by
      simp only [dist2, V2.smul, V2.add_x, V2.add_y]
      linear_combination R ^ 2 * hu1
    rw [dist, this, Real.sqrt_sq hR]
  · have : dist2 (k - n.smul R) k = R ^ 2 := by
      simp only [dist2, V2.smul, V2.sub_x, V2.sub_y]
      linear_combination R ^ 2 * hu1
    rw [dist, this, Real.sqrt_sq hR]
  · simp [V2.smul]; ring
  · simp [V2.smul]; ring
  · rw [hqn]; ext <;> simp [V2.smul] <;> ring
  · simp only [OutPage.moved, diaItems, hn]
    split <;> simp [V2.fin_smul, V2.fin_add, V2.fin_sub]

/-- C43: a radius likewise: the label is "R" and the format applied to the radius; both arrowhead lines start at one point of the circle. -/
theorem C43_rad_partial (E : Env (Ext ℝ)) (hJ : E.NotAView) (v : Vis (Ext ℝ)) (r : M3 ℝ) (hr : IsRotation r) (hv : v.rotation = r.fin)
    (d : DimN (Ext ℝ)) (hk : d.kind = .rad) (hg : GoodDim d.kind d.metas) (a u : V3 ℝ) (ha : Literal d.metas c!"at" a)
    (hu : Literal d.metas c!"dir" u) (c : V3 (Ext ℝ)) (hc : pointOf E v 1 d.metas c!"center" = some c) (k : V2 ℝ) (R : ℝ)
    (hl : locate v.points c.xy = some (k.fin, .fin R)) (h3 : 3 ≤ v.points.length) (hne : (u.mulM r).xy ≠ ⟨0, 0⟩)
    (g : Ext ℝ → Str) (hfmt : formatOf E c!"%.3f" d.metas = some g) :
    ∃ P L, dimContent E v d = .ok (true, P, L) ∧ P.text.map (fun t => t.str) = [c!"R" ++ g (.fin R)] ∧ P.arcs = [] ∧
      ∃ tip : V2 ℝ, dist tip k = R ∧ (∃ q, 0 ≤ q ∧ tip = k + (u.mulM r).xy.smul q) ∧
        (P.lines.drop 2).map (fun l => l.o) = [tip, tip].map (fun p => p.fin.moved v.scale v.d) := by
  obtain ⟨n, hn, hu1, q, hq, hqn⟩ := normalized2_real _ hne
  have hR := locate_nonneg _ _ _ _ hl
  have hi : drawnItems E v d.kind d.metas = some (radItems g v.scale ⟨(a.mulM r).xy.fin, (u.mulM r).xy.fin, k.fin, .fin R⟩) := by
    rw [hk]
    simp only [drawnItems, drawnItems.circ, literal_point hv ha, literal_point hv hu, hc, hl, hfmt, bind, Option.bind]
    rw [if_neg (by omega)]
    rfl
  have hrot : v.rotation.eqv E.junkM = false := by rw [hv]; exact hJ r hr
  obtain ⟨L, e⟩ := (dimContent_items E v d hrot).1 _ hg hi
  refine ⟨_, L, e, rfl, rfl, k + n.smul R, ?_, ⟨q * R, by positivity, ?_⟩, ?_⟩
  · have : dist2 (k + n.smul R) k = R ^ 2 := by
      simp only [dist2, V2.smul, V2.add_x, V2.add_y]
      linear_combination R ^ 2 * hu1
    rw [dist, this, Real.sqrt_sq hR]
  · rw [hqn]; ext <;> simp [V2.smul] <;> ring
  · simp only [OutPage.moved, radItems, hn]
    split <;> simp [V2.fin_smul, V2.fin_add, V2.fin_sub]

/-! ## The premises occur -/

theorem exactly_def {α : Type} (ms : List (Meta α)) (req opt : List Str) : Exactly ms req opt ↔
    (ms.map (fun m => m.name)).Nodup ∧ (∀ m ∈ ms, m.name ∈ req ++ opt) ∧ ∀ n ∈ req, ∃ m ∈ ms, m.name = n :=
  ⟨fun h => ⟨h.1, h.2, h.3⟩, fun h => ⟨h.1, h.2.1, h.2.2⟩⟩

/-- a property holding a literal point -/
def litProp (n : Str) (p : V3 ℝ) : Meta (Ext ℝ) := ⟨n, .pt (.val p.fin 1), 1⟩

/-- the front view of three points, at half scale -/
noncomputable def rVis : Vis (Ext ℝ) :=
  ⟨OutPage.empty, ([⟨-4, 1, 0⟩, ⟨1, 6, 0⟩, ⟨6, 1, 0⟩] : List (V3 ℝ)).map V3.fin, matZP, .fin (1 / 2), V2.fin ⟨10, 20⟩, []⟩

noncomputable def rLabel : DimN (Ext ℝ) :=
  ⟨.dim, [litProp c!"from" ⟨0, 0, 0⟩, litProp c!"to" ⟨3, 4, 0⟩, litProp c!"dir" ⟨0, -2, 0⟩, litProp c!"at" ⟨1, 1, 1⟩], 1⟩

example : ∃ (r : M3 ℝ) (g : Ext ℝ → Str), IsRotation r ∧ rVis.rotation = r.fin ∧ rEnv.NotAView ∧ GoodDim rLabel.kind rLabel.metas ∧
    Literal rLabel.metas c!"at" ⟨1, 1, 1⟩ ∧ Literal rLabel.metas c!"dir" ⟨0, -2, 0⟩ ∧ Literal rLabel.metas c!"from" ⟨0, 0, 0⟩ ∧
    Literal rLabel.metas c!"to" ⟨3, 4, 0⟩ ∧ formatOf rEnv c!"%.3f" rLabel.metas = some g ∧ (⟨0, -2, 0⟩ : V3 ℝ) ≠ ⟨0, 0, 0⟩ := by
  obtain ⟨r, ax, e, hr, -⟩ := C30_named_views (K := ℝ) c!"Z+" matZP rfl
  refine ⟨r, _, hr, e, rEnv_notAView, ?_, ⟨_, _, rfl, rfl⟩, ⟨_, _, rfl, rfl⟩, ⟨_, _, rfl, rfl⟩, ⟨_, _, rfl, rfl⟩, rfl, by simp⟩
  simp [rLabel, GoodDim, exactly_def, Has, litProp]

/-- an angle between a direction and a point -/
noncomputable def rAngle : DimN (Ext ℝ) :=
  ⟨.angle, [litProp c!"apex" ⟨1, 1, 0⟩, litProp c!"from_dir" ⟨1, 0, 0⟩, litProp c!"to_point" ⟨1, 3, 2⟩, litProp c!"at" ⟨2, 2, 0⟩], 1⟩

theorem rAngle_case : ∃ (r : M3 ℝ) (g : Ext ℝ → Str), IsRotation r ∧ rVis.rotation = r.fin ∧ rEnv.NotAView ∧ GoodDim rAngle.kind rAngle.metas ∧
    Literal rAngle.metas c!"at" ⟨2, 2, 0⟩ ∧ Literal rAngle.metas c!"apex" ⟨1, 1, 0⟩ ∧
    Leg rAngle.metas c!"from_dir" c!"from_point" ⟨1, 1, 0⟩ ⟨1, 0, 0⟩ ∧ Leg rAngle.metas c!"to_dir" c!"to_point" ⟨1, 1, 0⟩ ⟨0, 2, 2⟩ ∧
    formatOf rEnv c!"%.1f" rAngle.metas = some g ∧
    (V3.mulM ⟨1, 0, 0⟩ r).x * (V3.mulM ⟨0, 2, 2⟩ r).y - (V3.mulM ⟨1, 0, 0⟩ r).y * (V3.mulM ⟨0, 2, 2⟩ r).x ≠ 0 := by
  obtain ⟨r, ax, e, hr, hs, -⟩ := C30_named_views (K := ℝ) c!"Z+" matZP rfl
  refine ⟨r, _, hr, e, rEnv_notAView, ?_, ⟨_, _, rfl, rfl⟩, ⟨_, _, rfl, rfl⟩, .inl ⟨_, _, rfl, rfl⟩,
    .inr ⟨rfl, _, ⟨_, _, rfl, rfl⟩, by ext <;> norm_num⟩, rfl, ?_⟩
  · simp [rAngle, GoodDim, exactly_def, Has, litProp]
  · simp only [specView] at hs
    obtain ⟨rfl, -⟩ := hs
    norm_num [V3.mulM]

/-- the circle through the three points is found, whatever is asked for near its centre -/
theorem rVis_circle : locate rVis.points (V2.fin ⟨1, 1⟩) = some (V2.fin ⟨1, 1⟩, .fin 5) := by
  have hd : ∀ p ∈ flat ([⟨-4, 1, 0⟩, ⟨1, 6, 0⟩, ⟨6, 1, 0⟩] : List (V3 ℝ)), dist p ⟨1, 1⟩ = 5 := by
    intro p hp
    apply circle_example.1
    simp [flat] at hp
    rcases hp with rfl | rfl | rfl <;> simp [V3.xy]
  have hnear : closest ((flat ([⟨-4, 1, 0⟩, ⟨1, 6, 0⟩, ⟨6, 1, 0⟩] : List (V3 ℝ))).map V2.fin) 3 (V2.fin ⟨1, 1⟩) =
      ([⟨-4, 1⟩, ⟨1, 6⟩, ⟨6, 1⟩] : List (V2 ℝ)).map V2.fin := by
    norm_num [flat, V3.xy, closest, closestStep, show Int.toNat 3 = 3 from rfl, Ext.lit_eq, mmInsert, V2.fin_sub, V2.fin_sqNorm, V2.sqNorm, V2.dot]
  have hl : ¬ OnOneLine ([⟨-4, 1⟩, ⟨1, 6⟩, ⟨6, 1⟩] : List (V2 ℝ)) := by
    rintro ⟨a, b, c, hab, h⟩
    have h1 := h ⟨6, 1⟩ (by simp)
    have h2 := h ⟨1, 6⟩ (by simp)
    have h3 := h ⟨-4, 1⟩ (by simp)
    simp only at h1 h2 h3
    rcases hab with hab | hab <;> apply hab <;> linarith
  obtain ⟨c, r, h⟩ := (C13_succeeds_iff _ _ _ hnear).mpr hl
  obtain ⟨c', r', rfl, rfl, -, near, c1, r1, -, -, -, -, hs⟩ := C13_sound _ _ _ _ h
  obtain ⟨rfl, rfl⟩ := (hs _ rfl).2 ⟨1, 1⟩ 5 (fun p hp => hd p (List.mem_of_mem_filter hp))
  exact h

noncomputable def rCirc (k : DimKind) : DimN (Ext ℝ) :=
  ⟨k, [litProp c!"center" ⟨1, 1, 0⟩, litProp c!"dir" ⟨1, 0, 0⟩, litProp c!"at" ⟨2, 2, 0⟩], 1⟩

theorem rCirc_case (k : DimKind) (hk : k = .dia ∨ k = .rad) : ∃ (r : M3 ℝ) (g : Ext ℝ → Str) (c : V3 (Ext ℝ)), IsRotation r ∧ rVis.rotation = r.fin ∧
    rEnv.NotAView ∧ GoodDim (rCirc k).kind (rCirc k).metas ∧
    Literal (rCirc k).metas c!"at" ⟨2, 2, 0⟩ ∧ Literal (rCirc k).metas c!"dir" ⟨1, 0, 0⟩ ∧
    pointOf rEnv rVis 1 (rCirc k).metas c!"center" = some c ∧ locate rVis.points c.xy = some (V2.fin ⟨1, 1⟩, .fin 5) ∧
    3 ≤ rVis.points.length ∧ (V3.mulM ⟨1, 0, 0⟩ r).xy ≠ ⟨0, 0⟩ ∧ formatOf rEnv c!"%.3f" (rCirc k).metas = some g := by
  obtain ⟨r, ax, e, hr, hs, -⟩ := C30_named_views (K := ℝ) c!"Z+" matZP rfl
  have hc : pointOf rEnv rVis 1 (rCirc k).metas c!"center" = some (V3.fin ⟨1, 1, 0⟩) := by
    rw [literal_point (p := ⟨1, 1, 0⟩) e ⟨_, _, rfl, rfl⟩]
    simp only [specView] at hs
    obtain ⟨rfl, -⟩ := hs
    norm_num [V3.mulM]
  refine ⟨r, _, _, hr, e, rEnv_notAView, ?_, ⟨_, _, rfl, rfl⟩, ⟨_, _, rfl, rfl⟩, hc, rVis_circle, by simp [rVis], ?_, rfl⟩
  · rcases hk with rfl | rfl <;> simp [rCirc, GoodDim, exactly_def, Has, litProp]
  · simp only [specView] at hs
    obtain ⟨rfl, -⟩ := hs
    norm_num [V3.mulM, V3.xy]

end S2P
