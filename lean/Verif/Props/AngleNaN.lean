import Verif.Spec.AngleNaN
import Verif.Lemmas.AngleNaN
import Verif.Props.AccuracyAngle

set_option linter.unusedSectionVars false
set_option linter.unusedVariables false
set_option linter.unusedSimpArgs false

/-! # C79: angles with both legs on one line, in double arithmetic -/

namespace S2P

/-! ## Where it goes wrong -/

/-- the straight angle at the origin between the directions (2,5) and (-6,-15) -/
noncomputable def straightDim : DimN (Fl Near64) :=
  ⟨.angle, [⟨c!"at", .pt (.val ((⟨2, 2, 0⟩ : V3 ℝ).fin : V3 (Ext ℝ)) 1), 1⟩, ⟨c!"apex", .pt (.val ((⟨0, 0, 0⟩ : V3 ℝ).fin : V3 (Ext ℝ)) 1), 1⟩,
    ⟨c!"from_dir", .pt (.val ((⟨2, 5, 0⟩ : V3 ℝ).fin : V3 (Ext ℝ)) 1), 1⟩, ⟨c!"to_dir", .pt (.val ((⟨-6, -15, 0⟩ : V3 ℝ).fin : V3 (Ext ℝ)) 1), 1⟩], 1⟩

theorem straight_says : AngleSays flEnv straightDim ⟨0, 0, 0⟩ ⟨2, 5, 0⟩ ⟨-6, -15, 0⟩ FP.g6 1 where
  kind := rfl
  apex := ⟨_, _, rfl, rfl⟩
  from_ := ⟨5, ⟨by norm_num, by norm_num, by norm_num, Or.inr (Or.inl (by norm_num)), by norm_num, by
    exact (by norm_num : (5 : ℝ) ≤ 2 ^ 3).trans (pow_le_pow_right₀ (by norm_num) (by norm_num))⟩, Or.inl ⟨_, _, rfl, rfl⟩⟩
  to_ := ⟨15, ⟨by norm_num, by norm_num, by norm_num, Or.inr (Or.inl (by norm_num)), by norm_num, by
    exact (by norm_num : (15 : ℝ) ≤ 2 ^ 4).trans (pow_le_pow_right₀ (by norm_num) (by norm_num))⟩, Or.inl ⟨_, _, rfl, rfl⟩⟩
  fmt := rfl
  size := by norm_num

/-- integers -/
theorem small_fl {x : ℝ} (h : |x| < 2 ^ 20) : |x| < 2 ^ 1023 := h.trans_le (pow_le_pow_right₀ (by norm_num) (by norm_num))

theorem imul {a b c : ℤ} (h : a * b = c) (hc : |c| ≤ 2 ^ 10) : fl Near64 a * fl Near64 b = fl Near64 c := by
  have h1 : |c| ≤ 2 ^ 53 := hc.trans (by norm_num)
  refine fl_mul ?_ (small_fl ?_)
  · rw [← Int.cast_mul, h]; exact near64_int c h1
  · have : |(c : ℝ)| ≤ 2 ^ 10 := by exact_mod_cast hc
    norm_num at this ⊢; linarith
theorem iadd {a b c : ℤ} (h : a + b = c) (hc : |c| ≤ 2 ^ 10) : fl Near64 a + fl Near64 b = fl Near64 c := by
  have h1 : |c| ≤ 2 ^ 53 := hc.trans (by norm_num)
  refine fl_add ?_ (small_fl ?_)
  · rw [← Int.cast_add, h]; exact near64_int c h1
  · have : |(c : ℝ)| ≤ 2 ^ 10 := by exact_mod_cast hc
    norm_num at this ⊢; linarith

theorem zp_fl : (matZP : M3 (Fl Near64)) = ⟨⟨fl Near64 (1 : ℤ), fl Near64 (0 : ℤ), fl Near64 (0 : ℤ)⟩, ⟨fl Near64 (0 : ℤ), fl Near64 (1 : ℤ), fl Near64 (0 : ℤ)⟩,
    ⟨fl Near64 (0 : ℤ), fl Near64 (0 : ℤ), fl Near64 (1 : ℤ)⟩⟩ := by
  unfold matZP ptX ptY ptZ fl
  rw [lit_one_fl, lit_zero]
  simp

theorem seen_zp (a b c : ℤ) (ha : |a| ≤ 500) (hb : |b| ≤ 500) (hc : |c| ≤ 500) :
    V3.mulM (⟨fl Near64 a, fl Near64 b, fl Near64 c⟩ : V3 (Fl Near64)) matZP = ⟨fl Near64 a, fl Near64 b, fl Near64 c⟩ := by
  rw [zp_fl]
  have m0 : ∀ k : ℤ, |k| ≤ 500 → fl Near64 k * fl Near64 (0 : ℤ) = fl Near64 (0 : ℤ) := fun k hk => imul (by simp) (by norm_num)
  have m1 : ∀ k : ℤ, |k| ≤ 500 → fl Near64 k * fl Near64 (1 : ℤ) = fl Near64 k := fun k hk => imul (by simp) (hk.trans (by norm_num))
  have z0 : fl Near64 (0 : ℤ) + fl Near64 (0 : ℤ) = fl Near64 (0 : ℤ) := iadd (by simp) (by norm_num)
  have l0 : ∀ k : ℤ, |k| ≤ 500 → fl Near64 (0 : ℤ) + fl Near64 k = fl Near64 k := fun k hk => iadd (by simp) (hk.trans (by norm_num))
  have r0 : ∀ k : ℤ, |k| ≤ 500 → fl Near64 k + fl Near64 (0 : ℤ) = fl Near64 k := fun k hk => iadd (by simp) (hk.trans (by norm_num))
  simp only [V3.mulM, m0 a ha, m0 b hb, m0 c hc, m1 a ha, m1 b hb, m1 c hc, z0, l0 a ha, l0 b hb, l0 c hc, r0 a ha, r0 b hb, r0 c hc]

/-- the unit vectors computed for the two legs -/
noncomputable def uF : V3 (Fl Near64) := ⟨fl _ (6690379646548872 * 2 ^ (-54 : ℤ)), fl _ (8362974558186091 * 2 ^ (-53 : ℤ)), fl _ 0⟩
noncomputable def uT : V3 (Fl Near64) := ⟨fl _ (-6690379646548873 * 2 ^ (-54 : ℤ)), fl _ (-8362974558186091 * 2 ^ (-53 : ℤ)), fl _ 0⟩

theorem near64_zero : Near64.rnd 0 = 0 := Near64.zero

theorem from_unit : V3.normalized (⟨fl Near64 (2 : ℤ), fl Near64 (5 : ℤ), fl Near64 (0 : ℤ)⟩ : V3 (Fl Near64)) = uF := by
  have sq : V3.sqNorm (⟨fl Near64 (2 : ℤ), fl Near64 (5 : ℤ), fl Near64 (0 : ℤ)⟩ : V3 (Fl Near64)) = fl Near64 29 := by
    simp only [V3.sqNorm, V3.dot]
    rw [imul (a := 2) (b := 2) (c := 4) (by norm_num) (by norm_num), imul (a := 5) (b := 5) (c := 25) (by norm_num) (by norm_num),
      imul (a := 0) (b := 0) (c := 0) (by norm_num) (by norm_num), iadd (a := 4) (b := 25) (c := 29) (by norm_num) (by norm_num),
      iadd (a := 29) (b := 0) (c := 29) (by norm_num) (by norm_num)]
    norm_num
  unfold V3.normalized V3.norm
  rw [sq, if_pos (fl_pos (by norm_num)), fl_sqrt (by norm_num) w_s1 (small_fl (by norm_num [abs_of_pos]))]
  simp only [V3.sdiv, uF]
  rw [fl_div (by norm_num) (by push_cast; exact w_f0) (small_fl (by norm_num [abs_of_pos])), fl_div (by norm_num) (by push_cast; exact w_f1) (small_fl (by norm_num [abs_of_pos])),
    fl_div (y := 0) (by norm_num) (by rw [Int.cast_zero, zero_div]; exact near64_zero) (small_fl (by norm_num))]

theorem to_unit : V3.normalized (⟨fl Near64 (-6 : ℤ), fl Near64 (-15 : ℤ), fl Near64 (0 : ℤ)⟩ : V3 (Fl Near64)) = uT := by
  have sq : V3.sqNorm (⟨fl Near64 (-6 : ℤ), fl Near64 (-15 : ℤ), fl Near64 (0 : ℤ)⟩ : V3 (Fl Near64)) = fl Near64 261 := by
    simp only [V3.sqNorm, V3.dot]
    rw [imul (a := -6) (b := -6) (c := 36) (by norm_num) (by norm_num), imul (a := -15) (b := -15) (c := 225) (by norm_num) (by norm_num),
      imul (a := 0) (b := 0) (c := 0) (by norm_num) (by norm_num), iadd (a := 36) (b := 225) (c := 261) (by norm_num) (by norm_num),
      iadd (a := 261) (b := 0) (c := 261) (by norm_num) (by norm_num)]
    norm_num
  unfold V3.normalized V3.norm
  rw [sq, if_pos (fl_pos (by norm_num)), fl_sqrt (by norm_num) w_s2 (small_fl (by norm_num [abs_of_pos]))]
  simp only [V3.sdiv, uT]
  rw [fl_div (by norm_num) (by push_cast; exact w_t0) (small_fl (by norm_num [abs_of_neg])), fl_div (by norm_num) (by push_cast; exact w_t1) (small_fl (by norm_num [abs_of_neg])),
    fl_div (y := 0) (by norm_num) (by rw [Int.cast_zero, zero_div]; exact near64_zero) (small_fl (by norm_num))]

/-- the cross product comes out as -2^-54 -/
theorem straight_cross : (uT.cross uF).z = fl Near64 (-4503599627370496 * 2 ^ (-106 : ℤ)) := by
  simp only [V3.cross, uF, uT]
  rw [fl_mul w_p (small_fl (by norm_num [abs_of_neg])), fl_mul w_q (small_fl (by norm_num [abs_of_neg])), fl_sub w_c (small_fl (by norm_num [abs_of_neg]))]

/-- the computed unit vector counts as one: normalising again leaves it -/
theorem to_again : uT.normalized = uT := by
  have sq : uT.sqNorm = fl Near64 (4503599627370497 * 2 ^ (-52 : ℤ)) := by
    simp only [V3.sqNorm, V3.dot, uT]
    rw [fl_mul w_a (small_fl (by norm_num [abs_of_pos])), fl_mul w_b (small_fl (by norm_num [abs_of_pos])), fl_mul (a := 0) (b := 0) (y := 0) (by simpa using near64_zero) (small_fl (by norm_num)),
      fl_add w_n (small_fl (by norm_num [abs_of_pos])), fl_add (b := 0) (y := 4503599627370497 * 2 ^ (-52 : ℤ)) (by rw [add_zero]; exact w_n') (small_fl (by norm_num [abs_of_pos]))]
  unfold V3.normalized V3.norm
  rw [sq, if_pos (fl_pos (by norm_num)), fl_sqrt (by norm_num) w_r (small_fl (by norm_num))]
  simp only [V3.sdiv, uT]
  rw [fl_div (by norm_num) w_u0 (small_fl (by norm_num [abs_of_neg])), fl_div (by norm_num) w_u1 (small_fl (by norm_num [abs_of_neg])),
    fl_div (y := 0) (by norm_num) (by rw [zero_div]; exact near64_zero) (small_fl (by norm_num))]

/-- the cosine comes out as -1-2^-52 -/
theorem straight_dot : uF.dot uT = fl Near64 (-4503599627370497 * 2 ^ (-52 : ℤ)) := by
  simp only [V3.dot, uF, uT]
  rw [fl_mul w_d0 (small_fl (by norm_num [abs_of_neg])), fl_mul w_d1 (small_fl (by norm_num [abs_of_neg])), fl_mul (a := 0) (b := 0) (y := 0) (by simpa using near64_zero) (small_fl (by norm_num)),
    fl_add w_d (small_fl (by norm_num [abs_of_neg])), fl_add (b := 0) (y := -4503599627370497 * 2 ^ (-52 : ℤ)) (by rw [add_zero]; exact w_d') (small_fl (by norm_num [abs_of_neg]))]

theorem straight_nan : FP.acos (uF.dot uT.normalized) * FP.lit 180 / piLit = (Ext.nan : Ext ℝ) := by
  rw [to_again, straight_dot]
  have : FP.acos (fl Near64 (-4503599627370497 * 2 ^ (-52 : ℤ))) = (Ext.nan : Ext ℝ) := by
    show Near64.fix (if (-4503599627370497 * 2 ^ (-52 : ℤ) : ℝ) < -1 ∨ _ then .nan else _) = _
    rw [if_pos (Or.inl (by norm_num))]
    rfl
  rw [this]
  rfl

/-- a drawing of the sample model with one dimension whose items can be computed succeeds -/
theorem fl_draws (d : DimN (Fl Near64)) (hg : GoodDim d.kind d.metas) (P : Vis (Fl Near64) → OutPage (Fl Near64))
    (hP : ∀ v, v.rotation = matZP → drawnItems flEnv v d.kind d.metas = some (P v)) :
    ∃ c, content flEnv [(c!"m", some ⟨[flTri], [], [], 0⟩)] (.draw c!"m" [] [d] 1) = .ok c ∧ c.1 = true ∧
      ∃ v : Vis (Fl Near64), v.rotation = matZP ∧ c.2.1.text = ((P v).moved v.scale v.d).text := by
  have hM : Models.Bd 2 [(c!"m", some (⟨[flTri], [], [], 0⟩ : STLFile (Fl Near64)))] := by
    intro e he
    simp only [List.mem_singleton] at he
    subst he
    exact ⟨_, rfl, flTri_bd⟩
  obtain ⟨c, hc⟩ := content_bd flEnv insSorter_ok rfl [(c!"m", some ⟨[flTri], [], [], 0⟩)] (k := 2) (by norm_num) hM (.draw c!"m" [] [d] 1)
    (by simp [Drawable.LocBd]) (by intro m hm; simp at hm)
  refine ⟨c, hc, ?_⟩
  obtain ⟨proj, ls, g1, g2, -, g3, -⟩ := turned_bd (n := 2) (by norm_num) flEnv.sorter insSorter_ok _ flTri_bd matZP
    (viewOf_bd (none : Option (Meta (Fl Near64))) (by simp) matZP rfl)
  rcases draw_sum _ _ _ _ _ _ c hc with ⟨-, -, -, h⟩ | ⟨sc, rot, loc, file, pr, ls', cs, hD, hcs, hp, h, -⟩
  · exact absurd ⟨_, _, _, _, _, _, ⟨by simp, rfl, rfl, rfl, ⟨_, rfl, rfl⟩, g1, by rw [g2]; exact g3⟩⟩ h
  have hrot : rot = matZP := by have := hD.view; cases this; rfl
  have hvb := viewOf_bd _ (fun m hm => by simp [look] at hm) _ hD.view
  set v := drawStart (initVis flEnv) sc rot loc pr.cull ls' with hv
  have hvr : v.rotation = matZP := hrot
  obtain ⟨L, e⟩ := (dimContent_items flEnv v d (by exact hvb.2.2.2)).1 _ hg (hP v hvr)
  cases hcs with
  | cons h1 h2 =>
    cases h2
    rw [e] at h1
    injection h1 with h1
    subst h1
    refine ⟨h.2 ⟨by simp, by simp⟩, v, hvr, ?_⟩
    rw [hp]
    simp [OutPage.app, OutPage.sum, OutPage.empty, hv, drawStart, initVis, Vis.addLines]

/-- what the program draws for the straight angle -/
theorem straight_items (v : Vis (Fl Near64)) (hv : v.rotation = matZP) :
    drawnItems flEnv v straightDim.kind straightDim.metas = some (angleItems FP.g6 v.scale ⟨fl _ (2 : ℤ), fl _ (2 : ℤ), fl _ (0 : ℤ)⟩
      ⟨fl _ (0 : ℤ), fl _ (0 : ℤ), fl _ (0 : ℤ)⟩ uF ⟨fl _ (0 : ℤ), fl _ (0 : ℤ), fl _ (0 : ℤ)⟩ uT ⟨fl _ (0 : ℤ), fl _ (0 : ℤ), fl _ (0 : ℤ)⟩) := by
  have ha : Literal (K := ℝ) straightDim.metas c!"at" ⟨2, 2, 0⟩ := ⟨_, _, rfl, rfl⟩
  have hx : Literal (K := ℝ) straightDim.metas c!"apex" ⟨0, 0, 0⟩ := ⟨_, _, rfl, rfl⟩
  have hf : Literal (K := ℝ) straightDim.metas c!"from_dir" ⟨2, 5, 0⟩ := ⟨_, _, rfl, rfl⟩
  have ht : Literal (K := ℝ) straightDim.metas c!"to_dir" ⟨-6, -15, 0⟩ := ⟨_, _, rfl, rfl⟩
  have see : ∀ (n : Str) (a b c : ℤ) (j : Nat), |a| ≤ 500 → |b| ≤ 500 → |c| ≤ 500 → Literal (K := ℝ) straightDim.metas n ⟨a, b, c⟩ →
      pointOf flEnv v j straightDim.metas n = some ⟨fl _ a, fl _ b, fl _ c⟩ := by
    intro n a b c j h1 h2 h3 hl
    rw [literal_rot hl, hv]
    exact congrArg some (seen_zp a b c h1 h2 h3)
  have sa := see c!"at" 2 2 0 0 (by norm_num) (by norm_num) (by norm_num) (by exact_mod_cast ha)
  have sx := see c!"apex" 0 0 0 1 (by norm_num) (by norm_num) (by norm_num) (by exact_mod_cast hx)
  have sf := see c!"from_dir" 2 5 0 2 (by norm_num) (by norm_num) (by norm_num) (by exact_mod_cast hf)
  have st := see c!"to_dir" (-6) (-15) 0 4 (by norm_num) (by norm_num) (by norm_num) (by exact_mod_cast ht)
  have lf : legOf flEnv v 2 ⟨fl _ (0 : ℤ), fl _ (0 : ℤ), fl _ (0 : ℤ)⟩ straightDim.metas c!"from_dir" c!"from_point" =
      some (uF, ⟨fl _ (0 : ℤ), fl _ (0 : ℤ), fl _ (0 : ℤ)⟩) := by
    unfold legOf
    rw [show look straightDim.metas c!"from_dir" = some ⟨c!"from_dir", .pt (.val ((⟨2, 5, 0⟩ : V3 ℝ).fin : V3 (Ext ℝ)) 1), 1⟩ from rfl]
    simp only [sf]
    exact congrArg (fun z => some (z, _)) from_unit
  have lt : legOf flEnv v 4 ⟨fl _ (0 : ℤ), fl _ (0 : ℤ), fl _ (0 : ℤ)⟩ straightDim.metas c!"to_dir" c!"to_point" =
      some (uT, ⟨fl _ (0 : ℤ), fl _ (0 : ℤ), fl _ (0 : ℤ)⟩) := by
    unfold legOf
    rw [show look straightDim.metas c!"to_dir" = some ⟨c!"to_dir", .pt (.val ((⟨-6, -15, 0⟩ : V3 ℝ).fin : V3 (Ext ℝ)) 1), 1⟩ from rfl]
    simp only [st]
    exact congrArg (fun z => some (z, _)) to_unit
  have z1 : FP.eq (uT.cross uF).z (FP.lit 0) = false := by
    rw [straight_cross, lit_zero]
    show Ext.eq (.fin _) (.fin 0) = false
    simp only [Ext.eq, decide_eq_false_iff_not]
    norm_num
  have z2 : FP.lt (FP.lit 0) (uT.cross uF).z = false := by
    rw [straight_cross, lit_zero]
    show Ext.lt (.fin 0) (.fin _) = false
    simp only [Ext.lt, decide_eq_false_iff_not]
    norm_num
  rw [show straightDim.kind = .angle from rfl]
  simp only [drawnItems, bind, Option.bind, sa, sx, lf, lt, z1, z2, show formatOf flEnv c!"%.1f" straightDim.metas = some FP.g6 from rfl]
  rfl

/-- **C79**, the case that fails: the model is drawn with an angle whose legs point in opposite directions, and the text at it is "nan deg". -/
theorem C79_nan : ∃ c, content flEnv [(c!"m", some ⟨[flTri], [], [], 0⟩)] (.draw c!"m" [] [straightDim] 1) = .ok c ∧ c.1 = true ∧
    c.2.1.text.map (·.str) = [c!"nan deg"] := by
  obtain ⟨c, h1, h2, v, hv, h3⟩ := fl_draws straightDim (by simp only [straightDim, GoodDim]; rw [exactly_def]; simp [Has]) _ straight_items
  refine ⟨c, h1, h2, ?_⟩
  rw [h3]
  simp only [OutPage.moved, angleItems, List.map_cons, List.map_nil]
  rw [straight_nan]
  rfl

/-- **C79**, first half, does not hold: such an angle is drawn. -/
theorem C79_straight_false : ¬ StraightRejected Near64 := by
  intro h
  obtain ⟨c, h1, h2, h3⟩ := C79_nan
  have := h flEnv _ _ _ _ _ c rfl h1 straightDim (List.mem_singleton_self _) _ _ _ _ _ straight_says ⟨-3, by norm_num⟩
  rw [h2] at this
  cases this

/-- **C79**, second half, does not hold: what it shows is no number. -/
theorem C79_number_false : ¬ AnglesNumbers Near64 := by
  intro h
  obtain ⟨c, h1, h2, h3⟩ := C79_nan
  obtain ⟨item, hi, y, hy⟩ := h flEnv _ _ _ _ _ c rfl h1 h2 straightDim (List.mem_singleton_self _) _ _ _ _ _ straight_says
  have : item.str ∈ c.2.1.text.map (·.str) := List.mem_map.2 ⟨item, hi, rfl⟩
  rw [h3, List.mem_singleton, hy] at this
  have e : FP.g6 (Ext.fin y : Ext ℝ) = c!"nan" := List.append_cancel_right (show FP.g6 (Ext.fin y : Ext ℝ) ++ c!" deg" = c!"nan" ++ c!" deg" from this)
  obtain ⟨q, hq, -⟩ := PS.show6_reads (K := ℝ) y
  rw [show Ext.show6 y = c!"nan" from e] at hq
  have : PS.readNum c!"nan" = none := by decide +kernel
  rw [this] at hq
  cases hq

/-! ## What holds -/

section
variable {R : Rounding}

/-- a vector with finite coordinates -/
def V3.AllFin (n : V3 (Fl R)) : Prop := ∃ a b c : ℝ, n = ⟨fl R a, fl R b, fl R c⟩

theorem V3.NearTo.fin {n : V3 (Fl R)} {p : V3 ℝ} {ε : ℝ} (h : V3.NearTo n p ε) : n.AllFin := by
  obtain ⟨⟨a, h1, -⟩, ⟨b, h2, -⟩, ⟨c, h3, -⟩⟩ := h
  obtain ⟨x, y, z⟩ := n
  exact ⟨a, b, c, by simp only at h1 h2 h3; rw [h1, h2, h3]; rfl⟩

theorem same_cross (hR : R.Accurate) {n : V3 (Fl R)} {p : V3 ℝ} (h : V3.NearTo n p 1) (hx : |p.x| ≤ 1) (hy : |p.y| ≤ 1) : FP.eq (n.cross n).z (FP.lit 0) = true := by
  obtain ⟨⟨a, h1, h1'⟩, ⟨b, h2, h2'⟩, -⟩ := h
  simp only [V3.cross]
  rw [h1, h2]
  have ha : |a| ≤ 2 := by
    rw [abs_le] at *
    constructor <;> linarith
  have hb : |b| ≤ 2 := by
    rw [abs_le] at *
    constructor <;> linarith
  have hab : |a * b| ≤ 2 ^ 2 := by rw [abs_mul]; nlinarith [abs_nonneg a, abs_nonneg b]
  obtain ⟨y, hy1, -⟩ := fix_bd R (n := 2) (by norm_num) hab
  have e1 : fl R a * fl R b = fl R y := hy1
  have e2 : fl R b * fl R a = fl R y := by show R.fix (.fin (b * a)) = _; rw [mul_comm]; exact hy1
  change FP.eq (fl R a * fl R b - fl R b * fl R a) _ = true
  rw [e1, e2, fl_sub (y := 0) (by rw [sub_self]; exact R.zero) (by simp), lit_zero]
  show Ext.eq (.fin 0) (.fin 0) = true
  simp [Ext.eq]

theorem zero_cross {n m : V3 (Fl R)} (hn : n.AllFin) (hm : m.AllFin) (h : (n.x = fl R 0 ∧ m.x = fl R 0) ∨ (n.y = fl R 0 ∧ m.y = fl R 0)) :
    FP.eq (m.cross n).z (FP.lit 0) = true := by
  obtain ⟨a, b, c, rfl⟩ := hn
  obtain ⟨a', b', c', rfl⟩ := hm
  have z : fl R 0 - fl R 0 = fl R 0 := fl_sub (by rw [sub_self]; exact R.zero) (by simp)
  have l : ∀ t, fl R 0 * fl R t = fl R 0 := fun t => fl_mul (by rw [zero_mul]; exact R.zero) (by simp)
  have r : ∀ t, fl R t * fl R 0 = fl R 0 := fun t => fl_mul (by rw [mul_zero]; exact R.zero) (by simp)
  have fin : FP.eq (fl R 0) (FP.lit 0) = true := by
    rw [lit_zero]
    show Ext.eq (.fin 0) (.fin 0) = true
    simp [Ext.eq]
  simp only at h
  simp only [V3.cross]
  rcases h with ⟨h1, h2⟩ | ⟨h1, h2⟩ <;> rw [h1, h2, l, r, z, fin]

/-- a zero coordinate stays zero -/
theorem keeps_zero {v : V3 (Fl R)} (h : v.normalized.AllFin) : (v.x = fl R 0 → v.normalized.x = fl R 0) ∧ (v.y = fl R 0 → v.normalized.y = fl R 0) := by
  have key : ∀ z t : Fl R, z = fl R 0 → (∃ a, z / t = fl R a) → z / t = fl R 0 := by
    rintro z t rfl ⟨a, ha⟩
    change Ext ℝ at t
    change R.fix (Ext.div (.fin 0) t) = .fin a at ha
    show R.fix (Ext.div (.fin 0) t) = .fin 0
    have z0 : R.fix (.fin 0) = .fin 0 := fl_fix R.zero (by simp)
    cases t with
    | fin b =>
      simp only [Ext.div] at ha ⊢
      split at ha
      · simp [Ext.infSign, Rounding.fix] at ha
      · rename_i hb; rw [if_neg hb, zero_div, z0]
    | pinf => exact z0
    | ninf => exact z0
    | nan => simp [Ext.div, Rounding.fix] at ha
  obtain ⟨a, b, c, e⟩ := h
  unfold V3.normalized at e ⊢
  split
  · rename_i hl
    rw [if_pos hl] at e
    simp only [V3.sdiv, V3.mk.injEq] at e ⊢
    exact ⟨fun hz => key _ _ hz ⟨_, e.1⟩, fun hz => key _ _ hz ⟨_, e.2.1⟩⟩
  · exact ⟨id, id⟩

/-- an axis of the model is on an axis of the page, or along the line of sight, in the named views -/
theorem named_rows (mV : Option (Meta (Ext ℝ))) (hn : ∀ m l, mV = some m → m.val ≠ .loc l) (r : M3 ℝ) (h : viewOf mV = .ok r.fin) :
    (r.r0.x = 0 ∨ r.r0.y = 0) ∧ (r.r1.x = 0 ∨ r.r1.y = 0) ∧ (r.r2.x = 0 ∨ r.r2.y = 0) := by
  have key : ∀ n, getMatrixByName (α := Ext ℝ) n = some r.fin → (r.r0.x = 0 ∨ r.r0.y = 0) ∧ (r.r1.x = 0 ∨ r.r1.y = 0) ∧ (r.r2.x = 0 ∨ r.r2.y = 0) := by
    intro n hn
    have q : ∀ (x : ℝ) (y : Ext ℝ), y = Ext.fin x → (y = FP.lit 0 ∨ y = -FP.lit 0) → x = 0 := by
      rintro x y rfl (h | h)
      · injection h with h; simpa using h
      · injection h with h; simpa using h
    unfold getMatrixByName at hn
    split_ifs at hn <;>
    · have hn := Option.some.inj hn
      refine ⟨?_, ?_, ?_⟩
      · first
          | exact Or.inl (q _ _ (congrArg (fun m : M3 (Ext ℝ) => m.r0.x) hn) (Or.inl rfl))
          | exact Or.inl (q _ _ (congrArg (fun m : M3 (Ext ℝ) => m.r0.x) hn) (Or.inr rfl))
          | exact Or.inr (q _ _ (congrArg (fun m : M3 (Ext ℝ) => m.r0.y) hn) (Or.inl rfl))
          | exact Or.inr (q _ _ (congrArg (fun m : M3 (Ext ℝ) => m.r0.y) hn) (Or.inr rfl))
      · first
          | exact Or.inl (q _ _ (congrArg (fun m : M3 (Ext ℝ) => m.r1.x) hn) (Or.inl rfl))
          | exact Or.inl (q _ _ (congrArg (fun m : M3 (Ext ℝ) => m.r1.x) hn) (Or.inr rfl))
          | exact Or.inr (q _ _ (congrArg (fun m : M3 (Ext ℝ) => m.r1.y) hn) (Or.inl rfl))
          | exact Or.inr (q _ _ (congrArg (fun m : M3 (Ext ℝ) => m.r1.y) hn) (Or.inr rfl))
      · first
          | exact Or.inl (q _ _ (congrArg (fun m : M3 (Ext ℝ) => m.r2.x) hn) (Or.inl rfl))
          | exact Or.inl (q _ _ (congrArg (fun m : M3 (Ext ℝ) => m.r2.x) hn) (Or.inr rfl))
          | exact Or.inr (q _ _ (congrArg (fun m : M3 (Ext ℝ) => m.r2.y) hn) (Or.inl rfl))
          | exact Or.inr (q _ _ (congrArg (fun m : M3 (Ext ℝ) => m.r2.y) hn) (Or.inr rfl))
  cases mV with
  | none => exact key c!"Z+" (by injection h with h; rw [← h]; rfl)
  | some m =>
    unfold viewOf at h
    cases hv : m.val with
    | loc l => exact absurd hv (hn m l rfl)
    | str n =>
      simp only [hv] at h
      cases hg : getMatrixByName (α := Ext ℝ) n with
      | none => rw [hg] at h; cases h
      | some q => rw [hg] at h; injection h with h; exact key n (by rw [hg, h])
    | pt p => simp only [hv] at h; cases h
    | num p => simp only [hv] at h; cases h
    | scale a b => simp only [hv] at h; cases h

/-- a coordinate that is zero in exact arithmetic because all its terms are -/
theorem sees_zero (u : V3 ℝ) (r : M3 ℝ) : (u.x * r.r0.x = 0 → u.y * r.r1.x = 0 → u.z * r.r2.x = 0 → (V3.mulM (α := Fl R) (u.fin : V3 (Ext ℝ)) (r.fin : M3 (Ext ℝ))).x = fl R 0) ∧
    (u.x * r.r0.y = 0 → u.y * r.r1.y = 0 → u.z * r.r2.y = 0 → (V3.mulM (α := Fl R) (u.fin : V3 (Ext ℝ)) (r.fin : M3 (Ext ℝ))).y = fl R 0) := by
  have z : fl R 0 + fl R 0 = fl R 0 := fl_add (by rw [add_zero]; exact R.zero) (by simp)
  have m : ∀ a b : ℝ, a * b = 0 → fl R a * fl R b = fl R 0 := fun a b h => fl_mul (by rw [h]; exact R.zero) (by simp)
  constructor
  · intro h1 h2 h3
    show fl R u.x * fl R r.r0.x + fl R u.y * fl R r.r1.x + fl R u.z * fl R r.r2.x = _
    rw [m _ _ h1, m _ _ h2, m _ _ h3, z, z]
  · intro h1 h2 h3
    show fl R u.x * fl R r.r0.y + fl R u.y * fl R r.r1.y + fl R u.z * fl R r.r2.y = _
    rw [m _ _ h1, m _ _ h2, m _ _ h3, z, z]

theorem unit_coord {p : V3 ℝ} (h : p ≠ ⟨0, 0, 0⟩) : |(p.sdiv (len3 p)).x| ≤ 1 ∧ |(p.sdiv (len3 p)).y| ≤ 1 := by
  have h0 : 0 < p.x ^ 2 + p.y ^ 2 + p.z ^ 2 := by
    by_contra hc
    apply h
    have := sq_nonneg p.x
    have := sq_nonneg p.y
    have := sq_nonneg p.z
    ext <;> nlinarith
  have hl : 0 < len3 p := Real.sqrt_pos.2 h0
  have sq : len3 p ^ 2 = p.x ^ 2 + p.y ^ 2 + p.z ^ 2 := Real.sq_sqrt h0.le
  simp only [V3.sdiv]
  constructor <;> rw [abs_div, abs_of_pos hl, div_le_one hl] <;> apply abs_le_of_sq_le_sq _ hl.le <;> nlinarith [sq_nonneg p.x, sq_nonneg p.y, sq_nonneg p.z]
end

section
variable (I : IntRounding) (range64 range32 : ℚ → Bool)

/-- legs whose cross product is computed as zero are not drawn -/
theorem crossed_zero {α : Type} [FP α] (E : Env α) (v : Vis α) (d : DimN α) (hd : d.kind = .angle) (n m q q' : V3 α) (X : V3 α)
    (hx : pointOf E v 1 d.metas c!"apex" = some X) (h1 : legOf E v 2 X d.metas c!"from_dir" c!"from_point" = some (n, q))
    (h2 : legOf E v 4 X d.metas c!"to_dir" c!"to_point" = some (m, q')) (h : FP.eq (m.cross n).z (FP.lit 0) = true) :
    drawnItems E v d.kind d.metas = none := by
  rw [hd]
  simp only [drawnItems, bind, Option.bind]
  cases pointOf E v 0 d.metas c!"at" with
  | none => rfl
  | some a =>
    simp only [hx, h1, h2]
    cases formatOf E c!"%.1f" d.metas with
    | none => rfl
    | some g => simp only [h, if_true]

/-- **C79**, partly: an angle whose legs are written in the same way is rejected, in double arithmetic with any rounding and in every view. -/
theorem C79_same_partial (E : Env (Fl (binary64 I range64 range32))) (hJ : E.junkM = ⟨V3.zero, V3.zero, V3.zero⟩)
    (stl : Models (Fl (binary64 I range64 range32))) (name : Str) (ms : List (Meta (Fl (binary64 I range64 range32)))) (hf : ∀ m ∈ ms, m.val.LocBd)
    (dims : List (DimN (Fl (binary64 I range64 range32)))) (line : Nat) (c) (h : content E stl (.draw name ms dims line) = .ok c)
    (η : ℝ) (hη : ViewError ms η) (d) (hd : d ∈ dims) (x u w : V3 ℝ) (g) (K : ℝ) (hs : AngleSays E d x u w g K) (hK : K * η ≤ 1 / 2 ^ 24)
    (hsame : SameLegs d.metas) : c.1 = false := by
  by_contra hc
  rw [Bool.not_eq_false] at hc
  obtain ⟨sc, rot, loc, file, proj, ls, hD, hdr⟩ := dim_drawn E stl name ms dims line c h hc
  have hvb := viewOf_bd _ (fun m hm => hf m (look_mem hm)) _ hD.view
  obtain ⟨P, hP, -⟩ := hdr (by rw [hJ]; exact hvb.2.2.2) d hd
  have hR := binary64_accurate I range64 range32
  obtain ⟨hfine, r, -, hr, hnear⟩ := view_fine hR ms hη rot hD.view
  obtain ⟨nu, n, q, e1, k1⟩ := leg_near hR (E := E) (v := drawStart (initVis E) sc rot loc proj.cull ls) hr hfine hnear hs.size hK hs.from_ 2
  obtain ⟨nw, m, q', e2, k2⟩ := leg_near hR (E := E) (v := drawStart (initVis E) sc rot loc proj.cull ls) hr hfine hnear hs.size hK hs.to_ 4
  have same : n = m := by
    unfold legOf at e1 e2
    rcases hsame with ⟨y, l1, l2⟩ | ⟨n1, n2, p, l1, l2⟩
    · have a1 := literal_rot (E := E) (v := drawStart (initVis E) sc rot loc proj.cull ls) l1 2
      have a2 := literal_rot (E := E) (v := drawStart (initVis E) sc rot loc proj.cull ls) l2 4
      obtain ⟨m1, _, b1, -⟩ := l1
      obtain ⟨m2, _, b2, -⟩ := l2
      change look (α := Fl (binary64 I range64 range32)) _ _ = _ at b1
      change look (α := Fl (binary64 I range64 range32)) _ _ = _ at b2
      rw [b1] at e1; rw [b2] at e2
      simp only [a1] at e1
      simp only [a2] at e2
      injection e1 with e1; injection e1 with e1 _
      injection e2 with e2; injection e2 with e2 _
      rw [← e1, ← e2]
    · have a1 := literal_rot (E := E) (v := drawStart (initVis E) sc rot loc proj.cull ls) l1 3
      have a2 := literal_rot (E := E) (v := drawStart (initVis E) sc rot loc proj.cull ls) l2 5
      rw [n1] at e1; rw [n2] at e2
      simp only [a1] at e1
      simp only [a2] at e2
      injection e1 with e1; injection e1 with e1 _
      injection e2 with e2; injection e2 with e2 _
      rw [← e1, ← e2]
  subst same
  have b := unit_coord (rot_ne hr nu)
  have mono : 5 * (19 * (K * η)) ≤ 1 := by norm_num at hK ⊢; linarith
  have := crossed_zero E _ d hs.kind n n q q' _ (literal_rot hs.apex 1) e1 e2
    (same_cross hR ⟨k1.1.mono mono, k1.2.1.mono mono, k1.2.2.mono mono⟩ b.1 b.2)
  rw [this] at hP
  cases hP

/-- **C79**, partly: an angle whose legs are directions on the same axis of the model is rejected in the named views, in double arithmetic with any rounding. -/
theorem C79_axis_partial (E : Env (Fl (binary64 I range64 range32))) (hJ : E.junkM = ⟨V3.zero, V3.zero, V3.zero⟩)
    (stl : Models (Fl (binary64 I range64 range32))) (name : Str) (ms : List (Meta (Fl (binary64 I range64 range32)))) (hf : ∀ m ∈ ms, m.val.LocBd)
    (dims : List (DimN (Fl (binary64 I range64 range32)))) (line : Nat) (c) (h : content E stl (.draw name ms dims line) = .ok c)
    (hv : NamedView ms) (d) (hd : d ∈ dims) (x u w : V3 ℝ) (g) (K : ℝ) (hs : AngleSays E d x u w g K) (hK : K * (1 / 2 ^ 50) ≤ 1 / 2 ^ 24)
    (h1 : Literal (K := ℝ) d.metas c!"from_dir" u) (h2 : Literal (K := ℝ) d.metas c!"to_dir" w) (hax : OnAxis u w) : c.1 = false := by
  by_contra hc
  rw [Bool.not_eq_false] at hc
  obtain ⟨sc, rot, loc, file, proj, ls, hD, hdr⟩ := dim_drawn E stl name ms dims line c h hc
  have hvb := viewOf_bd _ (fun m hm => hf m (look_mem hm)) _ hD.view
  obtain ⟨P, hP, -⟩ := hdr (by rw [hJ]; exact hvb.2.2.2) d hd
  have hR := binary64_accurate I range64 range32
  obtain ⟨r, hvr, hr, hrot⟩ := view_named_eq hR _ hv rot hD.view
  have hnear : M3.NearTo rot r (1 / 2 ^ 50) := by rw [hrot]; exact nearTo_fin r (by norm_num)
  have hfine : Fine (1 / 2 ^ 50) := ⟨le_rfl, by norm_num⟩
  obtain ⟨nu, n, q, e1, k1⟩ := leg_near hR (E := E) (v := drawStart (initVis E) sc rot loc proj.cull ls) hr hfine hnear hs.size hK hs.from_ 2
  obtain ⟨nw, m, q', e2, k2⟩ := leg_near hR (E := E) (v := drawStart (initVis E) sc rot loc proj.cull ls) hr hfine hnear hs.size hK hs.to_ 4
  have hn : n = (V3.mulM (α := Fl (binary64 I range64 range32)) (u.fin : V3 (Ext ℝ)) rot).normalized := by
    have a1 := literal_rot (E := E) (v := drawStart (initVis E) sc rot loc proj.cull ls) h1 2
    obtain ⟨m1, _, b1, -⟩ := h1
    change look (α := Fl (binary64 I range64 range32)) _ _ = _ at b1
    unfold legOf at e1
    rw [b1] at e1
    simp only [a1] at e1
    injection e1 with e1; injection e1 with e1 _
    exact e1.symm
  have hm : m = (V3.mulM (α := Fl (binary64 I range64 range32)) (w.fin : V3 (Ext ℝ)) rot).normalized := by
    have a2 := literal_rot (E := E) (v := drawStart (initVis E) sc rot loc proj.cull ls) h2 4
    obtain ⟨m2, _, b2, -⟩ := h2
    change look (α := Fl (binary64 I range64 range32)) _ _ = _ at b2
    unfold legOf at e2
    rw [b2] at e2
    simp only [a2] at e2
    injection e2 with e2; injection e2 with e2 _
    exact e2.symm
  have fn := k1.fin
  have fm := k2.fin
  have rows := named_rows _ hv r hvr
  have hz : (n.x = fl _ 0 ∧ m.x = fl _ 0) ∨ (n.y = fl _ 0 ∧ m.y = fl _ 0) := by
    rw [hn] at fn ⊢
    rw [hm] at fm ⊢
    rw [hrot] at fn fm ⊢
    have su := sees_zero (R := binary64 I range64 range32) u r
    have sw := sees_zero (R := binary64 I range64 range32) w r
    obtain ⟨nx, ny⟩ := keeps_zero fn
    obtain ⟨mx, my⟩ := keeps_zero fm
    rcases hax with ⟨a1, a2, a3, a4⟩ | ⟨a1, a2, a3, a4⟩ | ⟨a1, a2, a3, a4⟩
    · rcases rows.1 with k | k
      · exact Or.inl ⟨nx (su.1 (by simp [k]) (by simp [a1]) (by simp [a2])), mx (sw.1 (by simp [k]) (by simp [a3]) (by simp [a4]))⟩
      · exact Or.inr ⟨ny (su.2 (by simp [k]) (by simp [a1]) (by simp [a2])), my (sw.2 (by simp [k]) (by simp [a3]) (by simp [a4]))⟩
    · rcases rows.2.1 with k | k
      · exact Or.inl ⟨nx (su.1 (by simp [a1]) (by simp [k]) (by simp [a2])), mx (sw.1 (by simp [a3]) (by simp [k]) (by simp [a4]))⟩
      · exact Or.inr ⟨ny (su.2 (by simp [a1]) (by simp [k]) (by simp [a2])), my (sw.2 (by simp [a3]) (by simp [k]) (by simp [a4]))⟩
    · rcases rows.2.2 with k | k
      · exact Or.inl ⟨nx (su.1 (by simp [a1]) (by simp [a2]) (by simp [k])), mx (sw.1 (by simp [a3]) (by simp [a4]) (by simp [k]))⟩
      · exact Or.inr ⟨ny (su.2 (by simp [a1]) (by simp [a2]) (by simp [k])), my (sw.2 (by simp [a3]) (by simp [a4]) (by simp [k]))⟩
  have := crossed_zero E _ d hs.kind n m q q' _ (literal_rot hs.apex 1) e1 e2 (zero_cross fn fm hz)
  rw [this] at hP
  cases hP

/-- **C79**, partly: an angle that is not next to 0° or 180° shows a number. -/
theorem C79_apart_partial (E : Env (Fl (binary64 I range64 range32))) (hJ : E.junkM = ⟨V3.zero, V3.zero, V3.zero⟩)
    (stl : Models (Fl (binary64 I range64 range32))) (name : Str) (ms : List (Meta (Fl (binary64 I range64 range32)))) (hf : ∀ m ∈ ms, m.val.LocBd)
    (dims : List (DimN (Fl (binary64 I range64 range32)))) (line : Nat) (c) (h : content E stl (.draw name ms dims line) = .ok c) (hc : c.1 = true)
    (η : ℝ) (hη : ViewError ms η) (d) (hd : d ∈ dims) (x u w : V3 ℝ) (g) (K : ℝ) (hs : AngleSays E d x u w g K)
    (h0 : 0 < Real.sin (angleBetween u w)) (hK : 2 ^ 24 * (K * η) ≤ Real.sin (angleBetween u w) ^ 2) :
    ∃ item ∈ c.2.1.text, ∃ y : ℝ, item.str = g (Ext.fin y : Ext ℝ) ++ c!" deg" := by
  obtain ⟨item, hi, y, e, -, z, hz, -⟩ := C75_label I range64 range32 E hJ stl name ms hf dims line c h hc η hη d hd x u w g K hs h0 hK
  exact ⟨item, hi, z, by rw [e, hz]⟩
end

/-! ## The premises occur -/

/-- an angle at the origin between two directions -/
noncomputable def legsDim (u w : V3 ℝ) : DimN (Fl Near64) :=
  ⟨.angle, [⟨c!"at", .pt (.val ((⟨2, 2, 0⟩ : V3 ℝ).fin : V3 (Ext ℝ)) 1), 1⟩, ⟨c!"apex", .pt (.val ((⟨0, 0, 0⟩ : V3 ℝ).fin : V3 (Ext ℝ)) 1), 1⟩,
    ⟨c!"from_dir", .pt (.val (u.fin : V3 (Ext ℝ)) 1), 1⟩, ⟨c!"to_dir", .pt (.val (w.fin : V3 (Ext ℝ)) 1), 1⟩], 1⟩

theorem legs_says (u w : V3 ℝ) (U W : ℝ) (hu : Largest u U) (hw : Largest w W) : AngleSays flEnv (legsDim u w) ⟨0, 0, 0⟩ u w FP.g6 1 where
  kind := rfl
  apex := ⟨_, _, rfl, rfl⟩
  from_ := ⟨U, hu, Or.inl ⟨_, _, rfl, rfl⟩⟩
  to_ := ⟨W, hw, Or.inl ⟨_, _, rfl, rfl⟩⟩
  fmt := rfl
  size := by norm_num

theorem legs_content (u w : V3 ℝ) : ∃ c, content flEnv [(c!"m", some ⟨[flTri], [], [], 0⟩)] (.draw c!"m" [] [legsDim u w] 1) = .ok c :=
  content_bd flEnv insSorter_ok rfl [(c!"m", some ⟨[flTri], [], [], 0⟩)] (k := 2) (by norm_num)
    (by intro e he; simp only [List.mem_singleton] at he; subst he; exact ⟨_, rfl, flTri_bd⟩) (.draw c!"m" [] [legsDim u w] 1)
    (by simp [Drawable.LocBd]) (by intro m hm; simp at hm)

/-- the direction (2,5) twice: rejected, by `C79_same_partial` -/
example : ∃ c, content flEnv [(c!"m", some ⟨[flTri], [], [], 0⟩)] (.draw c!"m" [] [legsDim ⟨2, 5, 0⟩ ⟨2, 5, 0⟩] 1) = .ok c ∧ c.1 = false := by
  obtain ⟨c, hc⟩ := legs_content ⟨2, 5, 0⟩ ⟨2, 5, 0⟩
  have h25 : Largest ⟨2, 5, 0⟩ 5 := ⟨by norm_num, by norm_num, by norm_num, Or.inr (Or.inl (by norm_num)), by norm_num,
    (by norm_num : (5 : ℝ) ≤ 2 ^ 3).trans (pow_le_pow_right₀ (by norm_num) (by norm_num))⟩
  exact ⟨c, hc, C79_same_partial .nearest _ _ flEnv rfl _ _ _ (by simp) _ _ c hc (1 / 2 ^ 50) (Or.inl ⟨by simp [NamedView, look], rfl⟩) _
    (List.mem_singleton_self _) _ _ _ _ 1 (legs_says _ _ 5 5 h25 h25) (by norm_num) (Or.inl ⟨_, ⟨_, _, rfl, rfl⟩, ⟨_, _, rfl, rfl⟩⟩)⟩

/-- the directions (3,0) and (-7,0): rejected, by `C79_axis_partial` -/
example : ∃ c, content flEnv [(c!"m", some ⟨[flTri], [], [], 0⟩)] (.draw c!"m" [] [legsDim ⟨3, 0, 0⟩ ⟨-7, 0, 0⟩] 1) = .ok c ∧ c.1 = false := by
  obtain ⟨c, hc⟩ := legs_content ⟨3, 0, 0⟩ ⟨-7, 0, 0⟩
  have h3 : Largest ⟨3, 0, 0⟩ 3 := ⟨by norm_num, by norm_num, by norm_num, Or.inl (by norm_num), by norm_num,
    (by norm_num : (3 : ℝ) ≤ 2 ^ 3).trans (pow_le_pow_right₀ (by norm_num) (by norm_num))⟩
  have h7 : Largest ⟨-7, 0, 0⟩ 7 := ⟨by norm_num, by norm_num, by norm_num, Or.inl (by norm_num), by norm_num,
    (by norm_num : (7 : ℝ) ≤ 2 ^ 3).trans (pow_le_pow_right₀ (by norm_num) (by norm_num))⟩
  exact ⟨c, hc, C79_axis_partial .nearest _ _ flEnv rfl _ _ _ (by simp) _ _ c hc (by simp [NamedView, look]) _
    (List.mem_singleton_self _) _ _ _ _ 1 (legs_says _ _ 3 7 h3 h7) (by norm_num) ⟨_, _, rfl, rfl⟩ ⟨_, _, rfl, rfl⟩ (Or.inl ⟨rfl, rfl, rfl, rfl⟩)⟩

/-- the premises of `C79_apart_partial` are those of `C75_label`, see the right angle in Props/AccuracyAngle -/
example : AngleSays flEnv flAngle ⟨1, 1, 0⟩ ⟨1, 0, 0⟩ ⟨0, 2, 0⟩ FP.g6 2 ∧ 0 < Real.sin (angleBetween ⟨1, 0, 0⟩ ⟨0, 2, 0⟩) ∧
    (2 : ℝ) ^ 24 * (2 * (1 / 2 ^ 50)) ≤ Real.sin (angleBetween ⟨1, 0, 0⟩ ⟨0, 2, 0⟩) ^ 2 := by
  refine ⟨flAngle_says, ?_, ?_⟩ <;> rw [flAngle_right, Real.sin_pi_div_two] <;> norm_num

end S2P
