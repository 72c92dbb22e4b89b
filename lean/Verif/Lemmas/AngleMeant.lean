import Verif.Lemmas.AngleInk
import Verif.Lemmas.StrokeMeant2

set_option linter.unusedSectionVars false
set_option linter.unusedVariables false
set_option linter.unusedSimpArgs false

/-! # An angle dimension as drawn, in rounded arithmetic -/

namespace S2P

/-- the unit vector along a leg -/
theorem legDir_unit {r : M3 ℝ} {u : V3 ℝ} {e : V2 ℝ} (h : LegDir r u e) (hz : (u.mulM r).z = 0) :
    (u.mulM r).sdiv (len3 (u.mulM r)) = ⟨e.x, e.y, 0⟩ ∧ len3 (⟨e.x, e.y, 0⟩ : V3 ℝ) = 1 ∧ u.mulM r ≠ ⟨0, 0, 0⟩ := by
  obtain ⟨h1, c, hc, h2⟩ := h
  have hx : (u.mulM r).x = e.x * c := congrArg V2.x h2
  have hy : (u.mulM r).y = e.y * c := congrArg V2.y h2
  have h1' : e.x ^ 2 + e.y ^ 2 = 1 := by simp only [V2.dot] at h1; linarith
  have hl : len3 (u.mulM r) = c := by
    have : len3 (u.mulM r) = Real.sqrt (c ^ 2) := by
      unfold len3
      congr 1
      rw [hx, hy, hz]
      linear_combination c ^ 2 * h1'
    rw [this, Real.sqrt_sq hc.le]
  refine ⟨?_, ?_, ?_⟩
  · rw [hl]
    ext
    · simp only [V3.sdiv, V3.map, hx]; field_simp
    · simp only [V3.sdiv, V3.map, hy]; field_simp
    · simp only [V3.sdiv, V3.map, hz]; simp
  · have : len3 (⟨e.x, e.y, 0⟩ : V3 ℝ) = Real.sqrt 1 := by
      unfold len3
      congr 1
      simp only
      linarith
    rw [this, Real.sqrt_one]
  · intro h0
    rw [h0] at hl
    simp [len3] at hl
    linarith

/-- the sine of the angle between two legs -/
theorem sin_legs {r : M3 ℝ} (hr : IsRotation r) {u w : V3 ℝ} {e e' : V2 ℝ} (h : LegDir r u e) (h' : LegDir r w e') (hz : (u.mulM r).z = 0) (hz' : (w.mulM r).z = 0) :
    Real.sin (angleBetween u w) = |e.x * e'.y - e.y * e'.x| := by
  have hang : angleBetween (u.mulM r) (w.mulM r) = angleBetween u w := by
    have := rot_dot hr u w
    simp only [V3.dot] at this
    unfold angleBetween
    rw [rot_len hr, rot_len hr, this]
  obtain ⟨e1, -, n1⟩ := legDir_unit h hz
  obtain ⟨e2, -, n2⟩ := legDir_unit h' hz'
  have l1 := len3_pos n1
  have l2 := len3_pos n2
  have x1 := congrArg V3.x e1
  have y1 := congrArg V3.y e1
  have x2 := congrArg V3.x e2
  have y2 := congrArg V3.y e2
  simp only [V3.sdiv, V3.map] at x1 y1 x2 y2
  have hd : ((u.mulM r).x * (w.mulM r).x + (u.mulM r).y * (w.mulM r).y + (u.mulM r).z * (w.mulM r).z) / (len3 (u.mulM r) * len3 (w.mulM r)) = e.x * e'.x + e.y * e'.y := by
    rw [← x1, ← y1, ← x2, ← y2, hz]
    field_simp
    ring
  rw [← hang]
  unfold angleBetween
  rw [hd, Real.sin_arccos, ← Real.sqrt_sq_eq_abs]
  congr 1
  have h1 := h.1
  have h2 := h'.1
  simp only [V2.dot] at h1 h2
  linear_combination (-(e'.x * e'.x + e'.y * e'.y)) * h1 - h2

section
variable {R : Rounding} (hR : R.Accurate)

omit hR in
/-- where a leg begins -/
theorem leg_start {E : Env (Fl R)} {v : Vis (Fl R)} {ms : List (Meta (Fl R))} {a b : Str} {x p : V3 ℝ} {j : Nat} {n q : V3 (Fl R)} (h : LegStart ms a b x p)
    (hl : legOf E v j (V3.mulM (α := Fl R) (x.fin : V3 (Ext ℝ)) v.rotation) ms a b = some (n, q)) : q = V3.mulM (α := Fl R) (p.fin : V3 (Ext ℝ)) v.rotation := by
  unfold legOf at hl
  rcases h with ⟨rfl, u, hu⟩ | ⟨h, hp⟩
  · have h1 := literal_rot (E := E) (v := v) hu j
    obtain ⟨m, l, h2, h3⟩ := hu
    change look (α := Fl R) ms a = some m at h2
    rw [h2] at hl
    simp only [h1] at hl
    simp only [Option.map_some, Option.some.injEq, Prod.mk.injEq] at hl
    exact hl.2.symm
  · rw [h] at hl
    simp only [literal_rot (E := E) (v := v) hp (j + 1)] at hl
    simp only [Option.map_some, Option.some.injEq, Prod.mk.injEq] at hl
    exact hl.2.symm

include hR

/-- which leg is to the left -/
theorem turn_near {n m : V3 (Fl R)} {A B : V3 ℝ} {δ : ℝ} (hn : V3.NearTo n A δ) (hm : V3.NearTo m B δ) (wA : A.Within 1) (wB : B.Within 1) (h1 : 95 / 2 ^ 50 ≤ δ)
    (h2 : δ ≤ 1 / 2 ^ 21) : Fl.Near (m.cross n).z (B.x * A.y - B.y * A.x) (7 * δ) := by
  norm_num at h1 h2
  have up : ∀ {S : ℝ}, S ≤ 4 → S ≤ 2 ^ 1000 := fun h => h.trans (by
    rw [show (4 : ℝ) = 2 ^ 2 by norm_num]; exact pow_le_pow_right₀ (by norm_num) (by norm_num))
  have one : ∀ {x y : Fl R} {a b : ℝ}, Fl.Near x a δ → |a| ≤ 1 → Fl.Near y b δ → |b| ≤ 1 → Fl.Near (x * y) (a * b) (3 * δ) ∧ |a * b| ≤ 1 := by
    intro x y a b hx ha hy hb
    refine ⟨(hx.mul hR hy ha hb (S := 2) (by nlinarith) (by norm_num) (up (by norm_num))).mono (by norm_num; nlinarith), ?_⟩
    rw [abs_mul]
    have := mul_le_mul ha hb (abs_nonneg _) zero_le_one
    linarith
  obtain ⟨p1, q1⟩ := one hm.1 wB.1 hn.2.1 wA.2.1
  obtain ⟨p2, q2⟩ := one hm.2.1 wB.2.1 hn.1 wA.1
  have t := abs_sub (B.x * A.y) (B.y * A.x)
  exact (p1.sub hR p2 (S := 3) (by linarith) (by norm_num) (up (by norm_num))).mono (by norm_num; linarith)

omit hR in
/-- a leg square to the line of sight has a direction on the page -/
theorem legDir_exists {r : M3 ℝ} {u : V3 ℝ} (hu : u.mulM r ≠ ⟨0, 0, 0⟩) (hz : (u.mulM r).z = 0) : ∃ e, LegDir r u e := by
  have hl := len3_pos hu
  have hs := len3_mul_self (u.mulM r)
  simp only [V3.sqNorm, V3.dot, hz] at hs
  refine ⟨⟨(u.mulM r).x / len3 (u.mulM r), (u.mulM r).y / len3 (u.mulM r)⟩, ?_, len3 (u.mulM r), hl, ?_⟩
  · simp only [V2.dot]
    field_simp
    nlinarith
  · ext
    · simp only [V3.xy, V2.smul]; field_simp
    · simp only [V3.xy, V2.smul]; field_simp

/-- an angle that is not flat is accepted -/
theorem angle_accepts_near {E : Env (Fl R)} {v : Vis (Fl R)} {r : M3 ℝ} (hr : IsRotation r) {η : ℝ} (hη : Fine η) (hm : M3.NearTo v.rotation r η)
    {d : DimN (Fl R)} {a x u w f t : V3 ℝ} {g : Fl R → Str} {K M : ℝ} (h : AngleAsks E d r a x u w f t g K M)
    (hflat : 2 ^ 28 * (K * η) ≤ Real.sin (angleBetween u w) ^ 2) : drawnItems E v d.kind d.metas ≠ none := by
  have hη0 : 0 < η := lt_of_lt_of_le (by positivity) hη.lo
  have hK := h.given.size
  have hKη1 : η ≤ K * η := by nlinarith
  have hs1 : Real.sin (angleBetween u w) ≤ 1 := Real.sin_le_one _
  have hs0 : 0 ≤ Real.sin (angleBetween u w) := Real.sin_nonneg_of_nonneg_of_le_pi (Real.arccos_nonneg _) (Real.arccos_le_pi _)
  have hs2 : Real.sin (angleBetween u w) ^ 2 ≤ Real.sin (angleBetween u w) := by nlinarith
  have hKη : K * η ≤ 1 / 2 ^ 24 := by norm_num at hflat ⊢; linarith
  obtain ⟨nu, N, Q, e1, k1⟩ := leg_near hR (E := E) hr hη hm h.given.size hKη h.given.from_ 2
  obtain ⟨nw, N', Q', e2, k2⟩ := leg_near hR (E := E) hr hη hm h.given.size hKη h.given.to_ 4
  obtain ⟨hz, hz'⟩ := h.square
  obtain ⟨e, he⟩ := legDir_exists (rot_ne hr nu) hz
  obtain ⟨e', he'⟩ := legDir_exists (rot_ne hr nw) hz'
  have hsin := sin_legs hr he he' hz hz'
  obtain ⟨u1, u2, -⟩ := legDir_unit he hz
  obtain ⟨w1, w2, -⟩ := legDir_unit he' hz'
  rw [u1] at k1
  rw [w1] at k2
  have k1' : V3.NearTo N (⟨e.x, e.y, 0⟩ : V3 ℝ) (95 * (K * η)) := k1.mono (by linarith)
  have k2' : V3.NearTo N' (⟨e'.x, e'.y, 0⟩ : V3 ℝ) (95 * (K * η)) := k2.mono (by linarith)
  have hηlo := hη.lo
  obtain ⟨b, hb, hb2⟩ := turn_near hR k1' k2' (within_len u2.le) (within_len w2.le) (by norm_num at hηlo ⊢; linarith) (by norm_num at hflat ⊢; linarith)
  simp only at hb2
  have hb0 : b ≠ 0 := by
    rintro rfl
    rw [zero_sub, abs_neg, show e'.x * e.y - e'.y * e.x = -(e.x * e'.y - e.y * e'.x) by ring, abs_neg, ← hsin] at hb2
    norm_num at hflat
    linarith
  have hc : FP.eq (N'.cross N).z (FP.lit 0) = false := by
    rw [hb, lit_zero]
    show Ext.eq (K := ℝ) (.fin b) (.fin 0) = false
    simp [Ext.eq, hb0]
  rw [h.given.kind]
  simp only [drawnItems, literal_rot h.at_, literal_rot h.given.apex, e1, e2, h.given.fmt, bind, Option.bind, hc, Bool.false_eq_true, if_false]
  split <;> simp

/-- one angle -/
theorem angle_meant {E : Env (Fl R)} {stl : Models (Fl R)} {n : ℕ} (hn : n ≤ 40) {name : Str} {ms : List (Meta (Fl R))} {sc rot loc file proj ls r kept k p off}
    (F : Framed E stl n name ms sc rot loc file proj ls r kept k p off) {η : ℝ} (hη : Fine η) (hm : M3.NearTo rot r η) (hk1 : 1 / 2 ^ 40 ≤ k) (hne : kept ≠ [])
    {v : Vis (Fl R)} (hv : v.rotation = rot) (hvs : v.scale = projScale sc)
    (hvd : v.d = projOffset loc proj.limits (projScale sc)) (hj : v.rotation.eqv E.junkM = false)
    {d : DimN (Fl R)} (hg : GoodDim d.kind d.metas) {a x u w f t : V3 ℝ} {g : Fl R → Str} {K : ℝ} (h : AngleAsks E d r a x u w f t g K (2 ^ n))
    (hflat : 2 ^ 28 * (K * η) ≤ Real.sin (angleBetween u w) ^ 2) :
    ∃ P L, dimContent E v d = .ok (true, P, L) ∧ AngleDone (2 ^ n) η K r k p off a x u w f t g P := by
  have h1 : (1 : ℝ) ≤ 2 ^ n := one_le_pow₀ (by norm_num)
  have hSm : Small ((2 : ℝ) ^ n) := ⟨h1, pow_le_pow_right₀ (by norm_num) hn⟩
  have hM : Wide ((2 : ℝ) ^ n) := ⟨le_trans (by norm_num) h1, pow_le_pow_right₀ (by norm_num) (by omega)⟩
  have hr := F.rotation
  have hη0 : 0 < η := lt_of_lt_of_le (by positivity) hη.lo
  have hK := h.given.size
  have hKη1 : η ≤ K * η := by nlinarith
  have hs0 : 0 < Real.sin (angleBetween u w) := by
    have h0 : 0 ≤ Real.sin (angleBetween u w) := Real.sin_nonneg_of_nonneg_of_le_pi (Real.arccos_nonneg _) (Real.arccos_le_pi _)
    rcases h0.lt_or_eq with h0 | h0
    · exact h0
    · rw [← h0] at hflat
      norm_num at hflat
      nlinarith
  have hs1 : Real.sin (angleBetween u w) ≤ 1 := Real.sin_le_one _
  have hs2 : Real.sin (angleBetween u w) ^ 2 ≤ 1 := by nlinarith
  have hKη : K * η ≤ 1 / 2 ^ 24 := by norm_num at hflat ⊢; linarith
  rw [← hv] at hm
  have hsome := angle_accepts_near hR hr hη hm h hflat
  obtain ⟨P, hP⟩ := Option.ne_none_iff_exists'.1 hsome
  obtain ⟨L, eq⟩ := (dimContent_items E v d hj).1 _ hg hP
  refine ⟨_, L, eq, ?_⟩
  obtain ⟨y, q, hy1, hy2⟩ := angle_label_near hR hr hη hm h.given hs0 (by norm_num at hflat ⊢; linarith) P hP
  obtain ⟨hoff, o1, o2⟩ := F.offset hne
  have hk0 : 0 < k := lt_of_lt_of_le (by positivity) hk1
  have hkk : |k| = k := abs_of_pos hk0
  have hk2 : k ≤ 2 ^ 40 := by have := F.mid.scale; rwa [hkk] at this
  have hMk : (2 : ℝ) ^ n * k ≤ 2 ^ 40 * 2 ^ 40 := mul_le_mul hSm.top hk2 hk0.le (by positivity)
  have big : 4 * ((2 : ℝ) ^ n * |k|) + 2 * (|p.x| + |p.y|) + 1 ≤ 2 ^ 200 := by
    have := F.mid.loc
    rw [hkk]
    norm_num at this hMk ⊢
    linarith
  have ex : ∀ z : V3 ℝ, V3.NearTo (R := R) (z.fin : V3 (Ext ℝ)) z 0 := fun z => ⟨Fl.near_fin _, Fl.near_fin _, Fl.near_fin _⟩
  obtain ⟨wa, wx, wf, wt⟩ := h.within
  have na := mulM_near' hR hM hη (ex a) wa hm hr
  have nx := mulM_near' hR hM hη (ex x) wx hm hr
  have nf := mulM_near' hR hM hη (ex f) wf hm hr
  have nt := mulM_near' hR hM hη (ex t) wt hm hr
  have len : ∀ {z : V3 ℝ}, z.Within (2 ^ n) → len3 (z.mulM r) ≤ 7 / 4 * 2 ^ n := fun hz => by rw [rot_len hr]; exact len_within (by linarith) hz
  obtain ⟨nu, N, Q, e1, k1⟩ := leg_near hR (E := E) hr hη hm h.given.size hKη h.given.from_ 2
  obtain ⟨nw, N', Q', e2, k2⟩ := leg_near hR (E := E) hr hη hm h.given.size hKη h.given.to_ 4
  have hQ := leg_start h.start e1
  have hQ' := leg_start h.start' e2
  subst hQ hQ'
  have hpt : q = (V3.mulM (α := Fl R) (a.fin : V3 (Ext ℝ)) v.rotation).xy ∧
      (FP.eq (N'.cross N).z (FP.lit 0) = false) ∧
      P = if FP.lt (FP.lit 0) (N'.cross N).z then angleItems g v.scale (V3.mulM (α := Fl R) (a.fin : V3 (Ext ℝ)) v.rotation) (V3.mulM (α := Fl R) (x.fin : V3 (Ext ℝ)) v.rotation)
          N' (V3.mulM (α := Fl R) (t.fin : V3 (Ext ℝ)) v.rotation) N (V3.mulM (α := Fl R) (f.fin : V3 (Ext ℝ)) v.rotation)
        else angleItems g v.scale (V3.mulM (α := Fl R) (a.fin : V3 (Ext ℝ)) v.rotation) (V3.mulM (α := Fl R) (x.fin : V3 (Ext ℝ)) v.rotation)
          N (V3.mulM (α := Fl R) (f.fin : V3 (Ext ℝ)) v.rotation) N' (V3.mulM (α := Fl R) (t.fin : V3 (Ext ℝ)) v.rotation) := by
    rw [h.given.kind] at hP
    simp only [drawnItems, literal_rot h.at_, literal_rot h.given.apex, e1, e2, h.given.fmt, bind, Option.bind] at hP
    cases hc : FP.eq (N'.cross N).z (FP.lit 0) with
    | true => rw [hc, if_pos rfl] at hP; cases hP
    | false =>
      rw [hc, if_neg (by simp)] at hP
      cases hd : FP.lt (FP.lit 0) (N'.cross N).z with
      | true =>
        rw [hd, if_pos rfl] at hP
        simp only [Option.some.injEq] at hP
        subst hP
        refine ⟨?_, rfl, by simp⟩
        have := congrArg (fun l => l.map (fun i : PsText (Fl R) => i.at_)) hy1
        exact (List.cons.inj this).1.symm
      | false =>
        rw [hd, if_neg (by simp)] at hP
        simp only [Option.some.injEq] at hP
        subst hP
        refine ⟨?_, rfl, by simp⟩
        have := congrArg (fun l => l.map (fun i : PsText (Fl R) => i.at_)) hy1
        exact (List.cons.inj this).1.symm
  obtain ⟨hq, -, hPe⟩ := hpt
  refine ⟨⟨q.moved v.scale v.d, y, ?_, hy2, ?_⟩, ?_⟩
  · show P.text.map _ = _
    rw [hy1]; rfl
  · rw [hvs, hvd, hoff, F.scale, hq]
    have go : ∀ {x : Fl R} {z o : ℝ}, Fl.Near x z (8 * (2 ^ n * η)) → |z| ≤ 7 / 4 * 2 ^ n →
        |o| ≤ 4 * (2 ^ n * |k|) + 2 * (|p.x| + |p.y|) + 1 →
        Fl.Near (x * (show Fl R from (Ext.fin k : Ext ℝ)) + (show Fl R from (Ext.fin o : Ext ℝ))) (z * k + o) (inkError (2 ^ n) k p) := by
      intro x z o g1 g3 g4
      have e1 : (2 : ℝ) ^ n * η ≤ 2 ^ n / 1099511627776 := by
        have := mul_le_mul_of_nonneg_left hη.hi (show (0 : ℝ) ≤ 2 ^ n by linarith)
        rwa [show (2 : ℝ) ^ n * (1 / 2 ^ 40) = 2 ^ n / 1099511627776 by norm_num; ring] at this
      refine page_near hR F.mid g4 (g1.mono ?_) (by linarith)
      norm_num; linarith
    have la' := within_len (len wa)
    exact ⟨go na.1 la'.1 o1, go na.2.1 la'.2.1 o2⟩
  · intro e e' he he'
    obtain ⟨hz, hz'⟩ := h.square
    have hsin := sin_legs hr he he' hz hz'
    obtain ⟨u1, u2, -⟩ := legDir_unit he hz
    obtain ⟨w1, w2, -⟩ := legDir_unit he' hz'
    rw [u1] at k1
    rw [w1] at k2
    rw [hsin] at hflat hs0 hs1
    rw [sq_abs] at hflat
    have k1' : V3.NearTo N (⟨e.x, e.y, 0⟩ : V3 ℝ) (95 * (K * η)) := k1.mono (by linarith)
    have k2' : V3.NearTo N' (⟨e'.x, e'.y, 0⟩ : V3 ℝ) (95 * (K * η)) := k2.mono (by linarith)
    have hηlo := hη.lo
    have d1 : 95 / 2 ^ 50 ≤ 95 * (K * η) := by norm_num at hηlo ⊢; linarith
    have d2 : 95 * (K * η) ≤ 1 / 2 ^ 21 := by
      rw [hsin, sq_abs] at hs2
      norm_num at hflat ⊢; linarith
    have hcr := turn_near hR k1' k2' (within_len u2.le) (within_len w2.le) d1 d2
    simp only at hcr
    have l0 : Fl.Near (FP.lit 0 : Fl R) 0 0 := by rw [lit_zero R]; exact Fl.near_fin 0
    have size : ∀ s, 0 < s → s ≤ 1 → 2 ^ 28 * (K * η) ≤ s ^ 2 → AngleSize (2 ^ n) k (1 / k) η (95 * (K * η)) s off := by
      intro s s0 s1 s2
      exact ⟨hSm, unit_of hk1 hk2, hη, by linarith, s0, s1, by norm_num at s2 ⊢; linarith, o1.trans big, o2.trans big⟩
    have fin : ∀ {s : ℝ} {X P1 P2 E1 E2 : V2 ℝ} {L : ℝ} {b : OutPage (Fl R)}, 0 < s →
        AngleInk (8 * (2 ^ n * k) * (95 * (K * η)) + 600 * (95 * (K * η) / s) + (|off.x| + |off.y|) / 2 ^ 45 + 1 / 2 ^ 14) (5 * (95 * (K * η))) X P1 P2 E1 E2 L b →
        AngleInk (angleError (2 ^ n) k (K * η) s off) (2 ^ 9 * (K * η)) X P1 P2 E1 E2 L b := by
      intro s X P1 P2 E1 E2 L b s0 hb
      have hKη0 : 0 ≤ K * η := by linarith
      have hMkη : 0 ≤ 2 ^ n * k * (K * η) := mul_nonneg (mul_nonneg (by linarith) hk0.le) hKη0
      have hdiv : 0 ≤ K * η / s := div_nonneg hKη0 s0.le
      have hle : 8 * (2 ^ n * k) * (95 * (K * η)) + 600 * (95 * (K * η) / s) + (|off.x| + |off.y|) / 2 ^ 45 + 1 / 2 ^ 14 ≤ angleError (2 ^ n) k (K * η) s off := by
        unfold angleError
        rw [mul_div_assoc 95]
        generalize K * η / s = ζ at *
        generalize (|off.x| + |off.y|) / 2 ^ 45 = ω at *
        nlinarith
      have hle2 : 5 * (95 * (K * η)) ≤ 2 ^ 9 * (K * η) := by norm_num; linarith
      obtain ⟨b1, c, b2, b3, b4, b5, b6⟩ := hb
      refine ⟨b1.imp (fun _ _ hl => ⟨⟨hl.1.1.mono hle, hl.1.2.mono hle⟩, ⟨hl.2.1.mono hle, hl.2.2.mono hle⟩⟩), c, b2, ⟨b3.1.mono hle, b3.2.mono hle⟩, b4.mono hle, ?_, ?_⟩
      · obtain ⟨z, z1, z4, z2, z3⟩ := b5; exact ⟨z, z1, z4, z2.trans hle2, z3.trans hle2⟩
      · obtain ⟨z, z1, z4, z2, z3⟩ := b6; exact ⟨z, z1, z4, z2.trans hle2, z3.trans hle2⟩
    have hL : len3 (a - x) = len3 (a.mulM r - x.mulM r) := by rw [← rot_sub, rot_len hr]
    constructor
    · intro hp
      have hsm := size _ hp (by rw [abs_of_pos hp] at hs1; exact hs1) hflat
      have hlt : FP.lt (FP.lit 0) (N'.cross N).z = false := by
        cases hc : FP.lt (FP.lit 0) (N'.cross N).z with
        | false => rfl
        | true =>
          have := near_lt l0 hcr hc
          have hcl := hsm.clear
          have hone := hsm.one
          norm_num at hcl
          nlinarith
      rw [hPe, hlt, if_neg (by simp), hL]
      refine fin hp ?_
      exact angle_ink hR hsm (hvs.trans F.scale) (hvd.trans hoff) k1' k2' u2 w2 rfl rfl rfl na nx nf nt (len wa) (len wx) (len wf) (len wt) g
    · intro hp
      have e3 : e.x * e'.y - e.y * e'.x = -(e'.x * e.y - e'.y * e.x) := by ring
      rw [e3] at hflat hs1
      rw [abs_neg, abs_of_pos hp] at hs1
      rw [neg_sq] at hflat
      have hsm := size _ hp hs1 hflat
      have hlt : FP.lt (FP.lit 0) (N'.cross N).z = true := by
        cases hc : FP.lt (FP.lit 0) (N'.cross N).z with
        | true => rfl
        | false =>
          have := not_lt_near l0 hcr hc
          have hcl := hsm.clear
          have hone := hsm.one
          norm_num at hcl
          nlinarith
      rw [hPe, hlt, if_pos rfl, hL]
      refine fin hp ?_
      exact angle_ink hR hsm (hvs.trans F.scale) (hvd.trans hoff) k2' k1' w2 u2 rfl rfl rfl na nx nt nf (len wa) (len wx) (len wt) (len wf) g

end

end S2P
