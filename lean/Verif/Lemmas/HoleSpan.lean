import Verif.Lemmas.HoleFile
import Verif.Lemmas.HolesDouble
import Verif.Lemmas.StrokeMeant2

set_option linter.unusedSectionVars false
set_option linter.unusedVariables false
set_option linter.unusedSimpArgs false

/-! # Linear dimensions between centres of holes that a file describes -/

namespace S2P

/-- the unit vector on the page, by the direction in the view -/
theorem spanDir_sign {r : M3 ℝ} (hr : IsRotation r) {u : V3 ℝ} {f t e : V2 ℝ} (hz : (u.mulM r).z = 0) (hu : 0 < len3 u) (h : SpanDir r u f t e) {F' T' : V3 ℝ} {N : V3 ℝ}
    (hN : N = (u.mulM r).sdiv (len3 (u.mulM r))) {b : ℝ} (hd : |N.dot (T' - F') - (N.x * (t.x - f.x) + N.y * (t.y - f.y))| ≤ b) (hb : b < spanAlong r u f t)
    (hs : |N.x * (t.x - f.x) + N.y * (t.y - f.y)| = spanAlong r u f t) :
    e = ⟨N.x * (N.dot (T' - F') / |N.dot (T' - F')|), N.y * (N.dot (T' - F') / |N.dot (T' - F')|)⟩ ∧ e.x ^ 2 + e.y ^ 2 = 1 := by
  obtain ⟨he, ⟨c, hc⟩, hpos⟩ := h
  have he' : e.x ^ 2 + e.y ^ 2 = 1 := by rw [← he]; simp [V2.dot]; ring
  refine ⟨?_, he'⟩
  have cx : (u.mulM r).x = e.x * c := congrArg V2.x hc
  have cy : (u.mulM r).y = e.y * c := congrArg V2.y hc
  have hl : len3 (u.mulM r) = |c| := by
    have h1 := len3_mul_self (u.mulM r)
    have h2 : len3 (u.mulM r) * len3 (u.mulM r) = |c| * |c| := by
      rw [abs_mul_abs_self]
      have : (u.mulM r).x ^ 2 + (u.mulM r).y ^ 2 + (u.mulM r).z ^ 2 = c * c := by
        rw [cx, cy, hz]
        calc (e.x * c) ^ 2 + (e.y * c) ^ 2 + 0 ^ 2 = (e.x ^ 2 + e.y ^ 2) * (c * c) := by ring
          _ = c * c := by rw [he', one_mul]
      rw [h1, ← this]
      simp [V3.sqNorm, V3.dot]; ring
    exact mul_self_inj_of_nonneg (Real.sqrt_nonneg _) (abs_nonneg _) |>.1 h2
  have hc0 : c ≠ 0 := by
    rintro rfl
    rw [rot_len hr] at hl
    simp at hl
    linarith
  have hP : (t.x - f.x) * e.x + (t.y - f.y) * e.y > 0 := by
    simpa [V2.dot] using hpos
  rcases lt_or_gt_of_ne hc0 with hc1 | hc1
  · have ac : |c| = -c := abs_of_neg hc1
    have Nx : N.x = -e.x := by rw [hN]; simp only [V3.sdiv]; rw [hl, ac, cx]; field_simp
    have Ny : N.y = -e.y := by rw [hN]; simp only [V3.sdiv]; rw [hl, ac, cy]; field_simp
    have hneg : N.x * (t.x - f.x) + N.y * (t.y - f.y) < 0 := by rw [Nx, Ny]; nlinarith
    rw [abs_of_neg hneg] at hs
    have : N.dot (T' - F') < 0 := by have := (abs_le.1 hd).2; linarith
    rw [abs_of_neg this, div_neg, div_self (ne_of_lt this), Nx, Ny]
    ext <;> simp
  · have ac : |c| = c := abs_of_pos hc1
    have Nx : N.x = e.x := by rw [hN]; simp only [V3.sdiv]; rw [hl, ac, cx]; field_simp
    have Ny : N.y = e.y := by rw [hN]; simp only [V3.sdiv]; rw [hl, ac, cy]; field_simp
    have hp : 0 < N.x * (t.x - f.x) + N.y * (t.y - f.y) := by rw [Nx, Ny]; nlinarith
    rw [abs_of_pos hp] at hs
    have : 0 < N.dot (T' - F') := by have := (abs_le.1 hd).1; linarith
    rw [abs_of_pos this, div_self (ne_of_gt this), Nx, Ny]
    ext <;> simp

section
variable {R : Rounding} (hR : R.Accurate)
include hR

/-- a place that the body shows is one that the corners as computed show -/
theorem place_spot {E : Env (Fl R)} {stl : Models (Fl R)} {n : ℕ} (hn : n ≤ 40) {name : Str} {ms : List (Meta (Fl R))} {sc rot loc file proj ls r kept k p off}
    (F : Framed E stl n name ms sc rot loc file proj ls r kept k p off) {us : List (Tri ℝ)} (hu : List.Forall₂ (Stored (2 ^ n)) file.facets us)
    {η : ℝ} (hη : Fine η) (hm : M3.NearTo rot r η) {ds : List (Meta (Fl R))} {nm : Str} {s : V2 ℝ} {ε : ℝ}
    (h : PlaceSeen (NamedView ms) r us (2 ^ n) η ds nm s ε) : SeenSpot rot r us proj.points (2 ^ n) η ds nm s ε := by
  cases h with
  | corner c h1 h2 => exact .corner c h1 h2
  | centre q l l' line m ρ N B A s hl hq hB hs =>
    obtain ⟨t, p0, ps, e1, e2, hrim⟩ := hole_rim hR hn F hu hη hm hq hB hs
    exact .centre _ l l' line t p0 ps _ ρ N B A _ hl e1 e2 hrim hB

/-- one dimension -/
theorem span_meant {E : Env (Fl R)} {stl : Models (Fl R)} {n : ℕ} (hn : n ≤ 40) {name : Str} {ms : List (Meta (Fl R))} {sc rot loc file proj ls r kept k p off}
    (F : Framed E stl n name ms sc rot loc file proj ls r kept k p off) {us : List (Tri ℝ)} (hus : List.Forall₂ (Stored (2 ^ n)) file.facets us)
    {η : ℝ} (hη : Fine η) (hm : M3.NearTo rot r η) (hk1 : 1 / 2 ^ 40 ≤ k) (hne : kept ≠ [])
    {v : Vis (Fl R)} (hv : v.rotation = rot) (hp : v.points = proj.points) (hvs : v.scale = projScale sc)
    (hvd : v.d = projOffset loc proj.limits (projScale sc)) (hj : v.rotation.eqv E.junkM = false)
    {d : DimN (Fl R)} {u : V3 ℝ} {g : Fl R → Str} {a f t : V2 ℝ} {εa εf εt : ℝ} (h : SpanAsks E (NamedView ms) r us (2 ^ n) η d u g a f t εa εf εt) :
    ∃ P L, dimContent E v d = .ok (true, P, L) ∧ SpanDone (2 ^ n) η r k p off u g a f t εa εf εt P := by
  have h1 : (1 : ℝ) ≤ 2 ^ n := one_le_pow₀ (by norm_num)
  have hSm : Small ((2 : ℝ) ^ n) := ⟨h1, pow_le_pow_right₀ (by norm_num) hn⟩
  have hM : Wide ((2 : ℝ) ^ n) := ⟨le_trans (by norm_num) h1, pow_le_pow_right₀ (by norm_num) (by omega)⟩
  obtain ⟨U, hu⟩ := h.largest
  have hU : Wide U := ⟨hu.2.2.2.2.1, hu.2.2.2.2.2⟩
  have hr := F.rotation
  have hz := h.square
  have hη0 : 0 ≤ η := le_trans (by positivity) hη.lo
  have hMη : 0 ≤ (2 : ℝ) ^ n * η := mul_nonneg (by linarith) hη0
  obtain ⟨A, A', pa, na, la, ax, ay⟩ := spot_point hR hn F hus hη hm hv hp (place_spot hR hn F hus hη hm h.label) 0
  obtain ⟨Xf, F', pf, nf, lf, fx, fy⟩ := spot_point hR hn F hus hη hm hv hp (place_spot hR hn F hus hη hm h.start) 2
  obtain ⟨Xt, T', pt, nt, lt, tx, ty⟩ := spot_point hR hn F hus hη hm hv hp (place_spot hR hn F hus hη hm h.stop) 3
  have nu := mulM_near' (R := R) hR hU hη (v := (u.fin : V3 (Ext ℝ))) ⟨Fl.near_fin _, Fl.near_fin _, Fl.near_fin _⟩ ⟨hu.1, hu.2.1, hu.2.2.1⟩ hm hr
  have lu := hu.len
  have lu0 : 0 < len3 u := lt_of_lt_of_le (lt_of_lt_of_le (by positivity) hU.lo) lu.1
  obtain ⟨hz', nn⟩ := unit_near hR hU hη nu (by rw [rot_len hr]; exact lu.1) (by rw [rot_len hr]; exact lu.2)
  have hN : len3 ((u.mulM r).sdiv (len3 (u.mulM r))) = 1 := by
    have e : (u.mulM r).sdiv (len3 (u.mulM r)) = (u.mulM r).smul (1 / len3 (u.mulM r)) := by
      ext <;> simp [V3.sdiv, V3.smul] <;> ring
    rw [e, len3_scaled, rot_len hr, abs_of_pos (by positivity)]
    field_simp
  have hs : |((u.mulM r).sdiv (len3 (u.mulM r))).x * (t.x - f.x) + ((u.mulM r).sdiv (len3 (u.mulM r))).y * (t.y - f.y)| = spanAlong r u f t := by
    have e : ((u.mulM r).sdiv (len3 (u.mulM r))).x * (t.x - f.x) + ((u.mulM r).sdiv (len3 (u.mulM r))).y * (t.y - f.y) = (t - f).dot (seenAt r u) / len3 u := by
      simp [V3.sdiv, V2.dot, V3.xy, rot_len hr, seenAt]; ring
    rw [e, abs_div, abs_of_pos lu0]
    rfl
  have Nz : ((u.mulM r).sdiv (len3 (u.mulM r))).z = 0 := by simp [V3.sdiv, hz]
  have hi : drawnItems E v d.kind d.metas = some (dimItems g v.scale A (V3.mulM (α := Fl R) (u.fin : V3 (Ext ℝ)) rot).normalized Xf Xt) := by
    have pu := literal_rot (E := E) (v := v) h.dir 1
    rw [hv] at pu
    rw [h.kind]
    simp only [drawnItems, pa, pu, pf, pt, h.fmt, bind, Option.bind, hz']
    rfl
  obtain ⟨L, eq⟩ := (dimContent_items E v d hj).1 _ h.good hi
  obtain ⟨wx, wy, -⟩ := within_len hN.le
  generalize hNN : (u.mulM r).sdiv (len3 (u.mulM r)) = N at *
  have hdiff0 : |N.dot (T' - F') - (N.x * (t.x - f.x) + N.y * (t.y - f.y))| ≤ 2 * (εf + εt) := by
    have e : N.dot (T' - F') - (N.x * (t.x - f.x) + N.y * (t.y - f.y)) =
        N.x * (T'.x - t.x) - N.x * (F'.x - f.x) + (N.y * (T'.y - t.y) - N.y * (F'.y - f.y)) := by
      simp only [V3.dot, V3.sub_x, V3.sub_y, V3.sub_z, Nz]
      ring
    rw [e]
    have go : ∀ {a b c : ℝ}, |a| ≤ 1 → |b| ≤ εt → |c| ≤ εf → |a * b - a * c| ≤ εf + εt := by
      intro a b c ha hb hc
      refine (abs_sub _ _).trans ?_
      rw [abs_mul, abs_mul]
      have := mul_le_mul ha hb (abs_nonneg _) (by norm_num)
      have := mul_le_mul ha hc (abs_nonneg _) (by norm_num)
      linarith
    refine (abs_add_le _ _).trans ?_
    have := go wx tx fx
    have := go wy ty fy
    linarith
  have hdiff : |(|N.dot (T' - F')| - spanAlong r u f t)| ≤ 2 * (εf + εt) := by
    rw [← hs]
    exact (abs_abs_sub_abs_le _ _).trans hdiff0
  have nv := value_near hR hM hη nn hN na nf nt la lf lt
  obtain ⟨hoff, o1, o2⟩ := F.offset hne
  have hk0 : 0 < k := lt_of_lt_of_le (by positivity) hk1
  have hkk : |k| = k := abs_of_pos hk0
  have hk2 : k ≤ 2 ^ 40 := by have := F.mid.scale; rwa [hkk] at this
  have hMk : (2 : ℝ) ^ n * k ≤ 2 ^ 40 * 2 ^ 40 := mul_le_mul hSm.top hk2 hk0.le (by positivity)
  have big : 4 * ((2 : ℝ) ^ n * |k|) + 2 * (|p.x| + |p.y|) + 1 ≤ 2 ^ 200 := by
    have := F.mid.loc
    rw [hkk]
    norm_num at this hMk ⊢
    linarith
  have e1 : (2 : ℝ) ^ n * η ≤ 2 ^ n / 1099511627776 := by
    have := mul_le_mul_of_nonneg_left hη.hi (show (0 : ℝ) ≤ 2 ^ n by linarith)
    rwa [show (2 : ℝ) ^ n * (1 / 2 ^ 40) = 2 ^ n / 1099511627776 by norm_num; ring] at this
  have εa0 : 0 ≤ εa := (abs_nonneg _).trans ax
  have εf0 : 0 ≤ εf := (abs_nonneg _).trans fx
  have εt0 : 0 ≤ εt := (abs_nonneg _).trans tx
  have cl : ∀ {Y : V3 ℝ} {c : V2 ℝ} {ε : ℝ}, |Y.x - c.x| ≤ ε → |Y.y - c.y| ≤ ε → V2.Close (ε * k) (Y.placed k off) (c.onPage k off) := by
    intro Y c ε c1 c2
    constructor
    · show |Y.x * k + off.x - (c.x * k + off.x)| ≤ _
      rw [show Y.x * k + off.x - (c.x * k + off.x) = (Y.x - c.x) * k by ring, abs_mul, hkk]
      exact mul_le_mul_of_nonneg_right c1 hk0.le
    · show |Y.y * k + off.y - (c.y * k + off.y)| ≤ _
      rw [show Y.y * k + off.y - (c.y * k + off.y) = (Y.y - c.y) * k by ring, abs_mul, hkk]
      exact mul_le_mul_of_nonneg_right c2 hk0.le
  refine ⟨_, L, eq, rfl, A.xy.moved v.scale v.d, _, rfl, nv.trans hdiff, ?_, ?_⟩
  · rw [hvs, hvd, hoff, F.scale]
    have go : ∀ {x : Fl R} {y o : ℝ}, Fl.Near x y (8 * (2 ^ n * η)) → |y| ≤ 7 / 4 * 2 ^ n →
        |o| ≤ 4 * (2 ^ n * |k|) + 2 * (|p.x| + |p.y|) + 1 →
        Fl.Near (x * (show Fl R from (Ext.fin k : Ext ℝ)) + (show Fl R from (Ext.fin o : Ext ℝ))) (y * k + o) (inkError (2 ^ n) k p) := by
      intro x y o g1 g3 g4
      refine page_near hR F.mid g4 (g1.mono ?_) ?_
      · norm_num; linarith
      · linarith
    have la' := within_len la
    have ca := cl ax ay
    exact ⟨(go na.1 la'.1 o1).trans ca.1, (go na.2.1 la'.2.1 o2).trans ca.2⟩
  · intro hlen hlong e he
    have h9 : (0 : ℝ) < 2 ^ n / 2 ^ 9 := by positivity
    obtain ⟨ee, e2⟩ := spanDir_sign hr hz lu0 he hNN.symm hdiff0 (by linarith) hs
    have hD : 2 ^ n / 2 ^ 9 ≤ |N.dot (T' - F')| := by
      have := (abs_le.1 hdiff).1
      linarith
    have hD' : 2 ^ n / 2 ^ 10 ≤ |N.dot (T' - F')| := by
      refine le_trans ?_ hD
      norm_num
      linarith
    have lTF : len3 (T' - F') ≤ 7 / 2 * 2 ^ n := by linarith [len3_tri T' F']
    have hdot : |N.dot (T' - F')| ≤ 7 / 2 * 2 ^ n := (dot_le_len N (T' - F') hN).trans lTF
    have hlen' : ∀ x, Fl.Near x |N.dot (T' - F')| (2 ^ 12 * (2 ^ n * η)) → (g x).length ≤ 64 := by
      rintro x ⟨y, rfl, hy⟩
      have := abs_le.1 hy
      refine hlen y ?_ ?_
      · norm_num at hD this ⊢; linarith
      · norm_num at this ⊢; linarith
    obtain ⟨x, G, -, q2, q3⟩ := dim_ink hR hSm (unit_of hk1 hk2) rfl hη (o1.trans big) (o2.trans big) (hvs.trans F.scale) (hvd.trans hoff) nn hN Nz na nf nt la lf lt hD' g hlen'
    rw [← ee] at q3
    have up : ∀ {x y : V2 ℝ} {ε : ℝ}, 0 ≤ ε → ε ≤ εa + εf + εt → V2.Close (ε * k) x y → V2.Close ((εa + εf + εt) * k) x y := by
      intro x y ε _ h hc
      have := mul_le_mul_of_nonneg_right h hk0.le
      exact ⟨hc.1.trans this, hc.2.trans this⟩
    have fin := q3.shift e2 (up εa0 (by linarith) (cl ax ay)) (up εf0 (by linarith) (cl fx fy)) (up εt0 (by linarith) (cl tx ty))
    have hpos : 0 ≤ 2 ^ n * k * η := mul_nonneg (mul_nonneg (by linarith) hk0.le) hη0
    refine ⟨G, ?_⟩
    have hlab : (g x).length = _ := congrArg List.length (congrArg PsText.str (List.cons.inj (q2.symm.trans (rfl : _ = [(⟨A.xy.moved v.scale v.d, _, true, false⟩ : PsText (Fl R))]))).1)
    rw [hlab] at fin
    refine fin.mono ?_ ?_
    · unfold strokeError dimError
      nlinarith
    · unfold choiceError dimDoubt
      nlinarith

end
end S2P
