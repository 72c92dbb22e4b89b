import Verif.Lemmas.StrokeMeant
import Verif.Spec.DimDone

set_option linter.unusedSectionVars false
set_option linter.unusedVariables false
set_option linter.unusedSimpArgs false

/-! # The dimensions of a drawing, in double arithmetic -/

namespace S2P

/-- the unit vector on the page, by the direction in the view -/
theorem pageDir_sign {r : M3 ℝ} (hr : IsRotation r) {u f t : V3 ℝ} {e : V2 ℝ} (hz : (u.mulM r).z = 0) (hu : 0 < len3 u) (h : PageDir r u f t e) {F' T' : V3 ℝ} {N : V3 ℝ}
    (hN : N = (u.mulM r).sdiv (len3 (u.mulM r))) {b : ℝ} (hd : |N.dot (T' - F') - N.dot (t.mulM r - f.mulM r)| ≤ b) (hb : b < shown u f t)
    (hs : |N.dot (t.mulM r - f.mulM r)| = shown u f t) :
    e = ⟨N.x * (N.dot (T' - F') / |N.dot (T' - F')|), N.y * (N.dot (T' - F') / |N.dot (T' - F')|)⟩ ∧ e.x ^ 2 + e.y ^ 2 = 1 := by
  obtain ⟨he, ⟨c, hc⟩, hpos⟩ := h
  have he' : e.x ^ 2 + e.y ^ 2 = 1 := by rw [← he]; simp [V2.dot]; ring
  refine ⟨?_, he'⟩
  have cx : (u.mulM r).x = e.x * c := congrArg V2.x hc
  have cy : (u.mulM r).y = e.y * c := congrArg V2.y hc
  have hl : len3 (u.mulM r) = |c| := by
    have h1 := len3_mul_self (u.mulM r)
    have h2 : len3 (u.mulM r) * len3 (u.mulM r) = |c| * |c| := by
      rw [abs_mul_abs_self]
      have : (u.mulM r).x ^ 2 + (u.mulM r).y ^ 2 + (u.mulM r).z ^ 2 = c * c := by
        rw [cx, cy, hz]
        calc (e.x * c) ^ 2 + (e.y * c) ^ 2 + 0 ^ 2 = (e.x ^ 2 + e.y ^ 2) * (c * c) := by ring
          _ = c * c := by rw [he', one_mul]
      rw [h1, ← this]
      simp [V3.sqNorm, V3.dot]; ring
    exact mul_self_inj_of_nonneg (Real.sqrt_nonneg _) (abs_nonneg _) |>.1 h2
  have hc0 : c ≠ 0 := by
    rintro rfl
    rw [rot_len hr] at hl
    simp at hl
    linarith
  have Nz : N.z = 0 := by rw [hN]; simp [V3.sdiv, hz]
  have hD : N.dot (t.mulM r - f.mulM r) = N.x * ((t.mulM r).x - (f.mulM r).x) + N.y * ((t.mulM r).y - (f.mulM r).y) := by
    simp [V3.dot, Nz]
  have hP : ((t.mulM r).x - (f.mulM r).x) * e.x + ((t.mulM r).y - (f.mulM r).y) * e.y > 0 := by
    simpa [V2.dot, V3.xy] using hpos
  rcases lt_or_gt_of_ne hc0 with hc1 | hc1
  · have ac : |c| = -c := abs_of_neg hc1
    have Nx : N.x = -e.x := by rw [hN]; simp only [V3.sdiv]; rw [hl, ac, cx]; field_simp
    have Ny : N.y = -e.y := by rw [hN]; simp only [V3.sdiv]; rw [hl, ac, cy]; field_simp
    have hneg : N.dot (t.mulM r - f.mulM r) < 0 := by rw [hD, Nx, Ny]; nlinarith
    rw [abs_of_neg hneg] at hs
    have : N.dot (T' - F') < 0 := by have := (abs_le.1 hd).2; linarith
    rw [abs_of_neg this, div_neg, div_self (ne_of_lt this), Nx, Ny]
    ext <;> simp
  · have ac : |c| = c := abs_of_pos hc1
    have Nx : N.x = e.x := by rw [hN]; simp only [V3.sdiv]; rw [hl, ac, cx]; field_simp
    have Ny : N.y = e.y := by rw [hN]; simp only [V3.sdiv]; rw [hl, ac, cy]; field_simp
    have hp : 0 < N.dot (t.mulM r - f.mulM r) := by rw [hD, Nx, Ny]; nlinarith
    rw [abs_of_pos hp] at hs
    have : 0 < N.dot (T' - F') := by have := (abs_le.1 hd).1; linarith
    rw [abs_of_pos this, div_self (ne_of_gt this), Nx, Ny]
    ext <;> simp

section
variable {R : Rounding} (hR : R.Accurate)
include hR

/-- one dimension -/
theorem strokes_meant {E : Env (Fl R)} {stl : Models (Fl R)} {n : ℕ} (hn : n ≤ 40) {name : Str} {ms : List (Meta (Fl R))} {sc rot loc file proj ls r kept k p off}
    (F : Framed E stl n name ms sc rot loc file proj ls r kept k p off) {us : List (Tri ℝ)} (hus : List.Forall₂ (Stored (2 ^ n)) file.facets us)
    {η : ℝ} (hη : Fine η) (hm : M3.NearTo rot r η) (hk1 : 1 / 2 ^ 40 ≤ k) (hne : kept ≠ [])
    {v : Vis (Fl R)} (hv : v.rotation = rot) (hp : v.points = proj.points) (hvs : v.scale = projScale sc)
    (hvd : v.d = projOffset loc proj.limits (projScale sc)) (hj : v.rotation.eqv E.junkM = false)
    {d : DimN (Fl R)} (hg : GoodDim d.kind d.metas) {u : V3 ℝ} {g : Fl R → Str} {U : ℝ} (h : DimAsks E d u g (2 ^ n)) (hu : Largest u U)
    (hz : (u.mulM r).z = 0) (hlen : ShortLabels g (2 ^ n)) (ha : pointOf E v 0 d.metas c!"at" ≠ none) (hf : pointOf E v 2 d.metas c!"from" ≠ none)
    (ht : pointOf E v 3 d.metas c!"to" ≠ none) :
    ∃ P L, dimContent E v d = .ok (true, P, L) ∧ DimDone (2 ^ n) η r us k p off d u g P := by
  have h1 : (1 : ℝ) ≤ 2 ^ n := one_le_pow₀ (by norm_num)
  have hSm : Small ((2 : ℝ) ^ n) := ⟨h1, pow_le_pow_right₀ (by norm_num) hn⟩
  have hM : Wide ((2 : ℝ) ^ n) := ⟨le_trans (by norm_num) h1, pow_le_pow_right₀ (by norm_num) (by omega)⟩
  have hU : Wide U := ⟨hu.2.2.2.2.1, hu.2.2.2.2.2⟩
  have hr := F.rotation
  have hη0 : 0 ≤ η := le_trans (by positivity) hη.lo
  have hMη : 0 ≤ (2 : ℝ) ^ n * η := mul_nonneg (by linarith) hη0
  obtain ⟨A, ca, A', pa, ma, na, la, ax, ay⟩ := point_meant hR hn F hus hη hm hv hp h.at_ 0 ha
  obtain ⟨Xf, f, F', pf, mf, nf, lf, fx, fy⟩ := point_meant hR hn F hus hη hm hv hp h.from_ 2 hf
  obtain ⟨Xt, t, T', pt, mt, nt, lt, tx, ty⟩ := point_meant hR hn F hus hη hm hv hp h.to_ 3 ht
  have nu := mulM_near' (R := R) hR hU hη (v := (u.fin : V3 (Ext ℝ))) ⟨Fl.near_fin _, Fl.near_fin _, Fl.near_fin _⟩ ⟨hu.1, hu.2.1, hu.2.2.1⟩ hm hr
  have lu := hu.len
  have lu0 : 0 < len3 u := lt_of_lt_of_le (lt_of_lt_of_le (by positivity) hU.lo) lu.1
  obtain ⟨hz', nn⟩ := unit_near hR hU hη nu (by rw [rot_len hr]; exact lu.1) (by rw [rot_len hr]; exact lu.2)
  have hN : len3 ((u.mulM r).sdiv (len3 (u.mulM r))) = 1 := by
    have e : (u.mulM r).sdiv (len3 (u.mulM r)) = (u.mulM r).smul (1 / len3 (u.mulM r)) := by
      ext <;> simp [V3.sdiv, V3.smul] <;> ring
    rw [e, len3_scaled, rot_len hr, abs_of_pos (by positivity)]
    field_simp
  have hs : |((u.mulM r).sdiv (len3 (u.mulM r))).dot (t.mulM r - f.mulM r)| = shown u f t := by
    rw [shown, ← rot_sub]
    have e : ((u.mulM r).sdiv (len3 (u.mulM r))).dot ((t - f).mulM r) = (u.mulM r).dot ((t - f).mulM r) / len3 (u.mulM r) := by
      simp [V3.dot, V3.sdiv]; ring
    rw [e, rot_dot hr, rot_len hr, abs_div, abs_of_pos lu0]
    congr 2
    simp [V3.dot]; ring
  have Nz : ((u.mulM r).sdiv (len3 (u.mulM r))).z = 0 := by simp [V3.sdiv, hz]
  have hi : drawnItems E v d.kind d.metas = some (dimItems g v.scale A (V3.mulM (α := Fl R) (u.fin : V3 (Ext ℝ)) rot).normalized Xf Xt) := by
    have pu := literal_rot (E := E) (v := v) h.dir 1
    rw [hv] at pu
    rw [h.kind]
    simp only [drawnItems, pa, pu, pf, pt, h.fmt, bind, Option.bind, hz']
    rfl
  obtain ⟨L, eq⟩ := (dimContent_items E v d hj).1 _ hg hi
  obtain ⟨wx, wy, -⟩ := within_len hN.le
  generalize hNN : (u.mulM r).sdiv (len3 (u.mulM r)) = N at *
  have hdiff0 : |N.dot (T' - F') - N.dot (t.mulM r - f.mulM r)| ≤ 8 * (2 ^ n * η) := by
    have e : N.dot (T' - F') - N.dot (t.mulM r - f.mulM r) =
        N.x * (T'.x - (t.mulM r).x) - N.x * (F'.x - (f.mulM r).x) + (N.y * (T'.y - (t.mulM r).y) - N.y * (F'.y - (f.mulM r).y)) := by
      simp only [V3.dot, V3.sub_x, V3.sub_y, V3.sub_z, Nz]
      ring
    rw [e]
    have go : ∀ {a b c : ℝ}, |a| ≤ 1 → |b| ≤ 2 * (2 ^ n * η) → |c| ≤ 2 * (2 ^ n * η) → |a * b - a * c| ≤ 4 * (2 ^ n * η) := by
      intro a b c ha hb hc
      refine (abs_sub _ _).trans ?_
      rw [abs_mul, abs_mul]
      have := mul_le_mul ha hb (abs_nonneg _) (by norm_num)
      have := mul_le_mul ha hc (abs_nonneg _) (by norm_num)
      linarith
    refine (abs_add_le _ _).trans ?_
    have := go wx tx fx
    have := go wy ty fy
    linarith
  have hdiff : |(|N.dot (T' - F')| - shown u f t)| ≤ 8 * (2 ^ n * η) := by
    rw [← hs]
    exact (abs_abs_sub_abs_le _ _).trans hdiff0
  have nv := value_near hR hM hη nn hN na nf nt la lf lt
  obtain ⟨hoff, o1, o2⟩ := F.offset hne
  have hk0 : 0 < k := lt_of_lt_of_le (by positivity) hk1
  have hkk : |k| = k := abs_of_pos hk0
  have hk2 : k ≤ 2 ^ 40 := by have := F.mid.scale; rwa [hkk] at this
  have hMk : (2 : ℝ) ^ n * k ≤ 2 ^ 40 * 2 ^ 40 := mul_le_mul hSm.top hk2 hk0.le (by positivity)
  have big : 4 * ((2 : ℝ) ^ n * |k|) + 2 * (|p.x| + |p.y|) + 1 ≤ 2 ^ 200 := by
    have := F.mid.loc
    rw [hkk]
    norm_num at this hMk ⊢
    linarith
  refine ⟨_, L, eq, rfl, ca, f, t, ma, mf, mt, A.xy.moved v.scale v.d, _, rfl, (nv.trans hdiff).mono (by linarith), ?_, ?_⟩
  · rw [hvs, hvd, hoff, F.scale]
    have go : ∀ {x : Fl R} {y z o : ℝ}, Fl.Near x y (8 * (2 ^ n * η)) → |y - z| ≤ 2 * (2 ^ n * η) → |y| ≤ 7 / 4 * 2 ^ n →
        |o| ≤ 4 * (2 ^ n * |k|) + 2 * (|p.x| + |p.y|) + 1 →
        Fl.Near (x * (show Fl R from (Ext.fin k : Ext ℝ)) + (show Fl R from (Ext.fin o : Ext ℝ))) (z * k + o) (inkError (2 ^ n) k p) := by
      intro x y z o g1 g2 g3 g4
      have e1 : (2 : ℝ) ^ n * η ≤ 2 ^ n / 1099511627776 := by
        have := mul_le_mul_of_nonneg_left hη.hi (show (0 : ℝ) ≤ 2 ^ n by linarith)
        rwa [show (2 : ℝ) ^ n * (1 / 2 ^ 40) = 2 ^ n / 1099511627776 by norm_num; ring] at this
      refine page_near hR F.mid g4 ((g1.trans g2).mono ?_) ?_
      · norm_num; linarith
      · have := abs_add_le (z - y) y
        rw [abs_sub_comm] at g2
        rw [sub_add_cancel] at this
        linarith
    have la' := within_len la
    exact ⟨go na.1 ax la'.1 o1, go na.2.1 ay la'.2.1 o2⟩
  · intro hlong e he
    have e1 : (2 : ℝ) ^ n * η ≤ 2 ^ n / 1099511627776 := by
        have := mul_le_mul_of_nonneg_left hη.hi (show (0 : ℝ) ≤ 2 ^ n by linarith)
        rwa [show (2 : ℝ) ^ n * (1 / 2 ^ 40) = 2 ^ n / 1099511627776 by norm_num; ring] at this
    obtain ⟨ee, e2⟩ := pageDir_sign hr hz lu0 he hNN.symm hdiff0 (by norm_num at hlong ⊢; linarith) hs
    have hD : 2 ^ n / 2 ^ 10 ≤ |N.dot (T' - F')| := by
      have := (abs_le.1 hdiff).1
      norm_num at hlong ⊢
      linarith
    have lTF : len3 (T' - F') ≤ 7 / 2 * 2 ^ n := by linarith [len3_tri T' F']
    have hdot : |N.dot (T' - F')| ≤ 7 / 2 * 2 ^ n := (dot_le_len N (T' - F') hN).trans lTF
    have hlen' : ∀ x, Fl.Near x |N.dot (T' - F')| (2 ^ 12 * (2 ^ n * η)) → (g x).length ≤ 64 := by
      rintro x ⟨y, rfl, hy⟩
      have := abs_le.1 hy
      have := (abs_le.1 hdiff).1
      refine hlen y ?_ ?_
      · norm_num at hlong this ⊢; linarith
      · norm_num at this ⊢; linarith
    obtain ⟨x, G, -, q2, q3⟩ := dim_ink hR hSm (unit_of hk1 hk2) rfl hη (o1.trans big) (o2.trans big) (hvs.trans F.scale) (hvd.trans hoff) nn hN Nz na nf nt la lf lt hD g hlen'
    rw [← ee] at q3
    have cl : ∀ {Y : V3 ℝ} {c : V3 ℝ}, |Y.x - (c.mulM r).x| ≤ 2 * (2 ^ n * η) → |Y.y - (c.mulM r).y| ≤ 2 * (2 ^ n * η) →
        V2.Close (2 * (2 ^ n * η) * k) (Y.placed k off) (onPage r k off c) := by
      intro Y c c1 c2
      constructor
      · show |Y.x * k + off.x - ((c.mulM r).x * k + off.x)| ≤ _
        rw [show Y.x * k + off.x - ((c.mulM r).x * k + off.x) = (Y.x - (c.mulM r).x) * k by ring, abs_mul, hkk]
        exact mul_le_mul_of_nonneg_right c1 hk0.le
      · show |Y.y * k + off.y - ((c.mulM r).y * k + off.y)| ≤ _
        rw [show Y.y * k + off.y - ((c.mulM r).y * k + off.y) = (Y.y - (c.mulM r).y) * k by ring, abs_mul, hkk]
        exact mul_le_mul_of_nonneg_right c2 hk0.le
    have fin := q3.shift e2 (cl ax ay) (cl fx fy) (cl tx ty)
    have hpos : 0 ≤ 2 ^ n * k * η := mul_nonneg (mul_nonneg (by linarith) hk0.le) hη0
    refine ⟨G, ?_⟩
    have hlab : (g x).length = _ := congrArg List.length (congrArg PsText.str (List.cons.inj (q2.symm.trans (rfl : _ = [(⟨A.xy.moved v.scale v.d, _, true, false⟩ : PsText (Fl R))]))).1)
    rw [hlab] at fin
    refine fin.mono ?_ ?_
    · unfold strokeError dimError
      nlinarith
    · unfold choiceError dimDoubt
      nlinarith

end

end S2P
