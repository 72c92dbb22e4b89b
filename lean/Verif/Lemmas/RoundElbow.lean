import Verif.Lemmas.RoundInk
import Verif.Lemmas.CircleNear

set_option linter.unusedSectionVars false
set_option linter.unusedVariables false
set_option linter.unusedSimpArgs false

/-! # The elbow of a leader, in rounded arithmetic -/

namespace S2P

section
variable {R : Rounding} (hR : R.Accurate)

omit hR in
theorem unit_big {e : V2 ℝ} (he : e.x ^ 2 + e.y ^ 2 = 1) : 7 / 10 ≤ |e.x| ∨ 7 / 10 ≤ |e.y| := by
  by_contra hc
  push Not at hc
  have h1 := pow_lt_pow_left₀ hc.1 (abs_nonneg _) (n := 2) (by norm_num)
  have h2 := pow_lt_pow_left₀ hc.2 (abs_nonneg _) (n := 2) (by norm_num)
  rw [sq_abs] at h1 h2
  norm_num at h1 h2
  linarith

omit hR in
/-- a quotient that is a number -/
theorem quot_fin {d n m : ℝ} (h : R.fix (Ext.div (.fin d) (.fin n)) = .fin m) : n ≠ 0 ∧ m = R.rnd (d / n) := by
  by_cases hn : n = 0
  · subst hn
    exfalso
    by_cases hd : d = 0
    · subst hd
      simp [Ext.div, Rounding.fix, Ext.infSign] at h
    · simp only [Ext.div, Ext.infSign, if_pos] at h
      split_ifs at h <;> simp [Rounding.fix] at h
  · refine ⟨hn, ?_⟩
    have e : (Ext.div (.fin d) (.fin n) : Ext ℝ) = .fin (d / n) := by simp [Ext.div, hn]
    rw [e] at h
    exact (overflow_of_fin (a := m) (t := 2 ^ 1024) (y := R.rnd (d / n)) h).1

include hR

/-- the unit vector of the line -/
theorem dir2_near {U η c : ℝ} (hU : Wide U) (hη : Fine η) {v : V2 (Fl R)} {e : V2 ℝ} (he : e.x ^ 2 + e.y ^ 2 = 1) (h1 : U ≤ c) (h2 : c ≤ 7 / 4 * U)
    (hv : V2.NearTo v (e.smul c) (8 * (U * η))) : V2.NearTo v.normalized e (100 * η) := by
  have hU0 : 0 < U := lt_of_lt_of_le (by positivity) hU.lo
  have hc0 : 0 < c := by linarith
  obtain ⟨e1, e2⟩ := unit_le he
  have hη0 : 0 < η := lt_of_lt_of_le (by positivity) hη.lo
  have hηhi := hη.hi
  have hηlo := hη.lo
  have u2 : 0 < U ^ 2 := by positivity
  have g1 : U ^ 2 * (1 / 2 ^ 50) ≤ U ^ 2 * η := mul_le_mul_of_nonneg_left hη.lo u2.le
  have g2 : U ^ 2 * η ≤ U ^ 2 * (1 / 2 ^ 40) := mul_le_mul_of_nonneg_left hη.hi u2.le
  have g3 : U * (1 / 2 ^ 50) ≤ U * η := mul_le_mul_of_nonneg_left hη.lo hU0.le
  have g4 : U * η ≤ U * (1 / 2 ^ 40) := mul_le_mul_of_nonneg_left hη.hi hU0.le
  have g5 : U ^ 2 * η * η ≤ U ^ 2 * η * (1 / 2 ^ 40) := mul_le_mul_of_nonneg_left hη.hi (by positivity)
  have low : 1 / 2 ^ 100 ≤ 4 * U ^ 2 := by
    have := pow_le_pow_left₀ (by positivity) hU.lo 2
    norm_num at this ⊢
    linarith
  have top : 4 * U ^ 2 ≤ 2 ^ 1000 := by
    have : U ^ 2 ≤ (2 ^ 200) ^ 2 := pow_le_pow_left₀ hU0.le hU.hi 2
    calc 4 * U ^ 2 ≤ 2 ^ 2 * (2 ^ 200) ^ 2 := by norm_num at this ⊢; linarith
      _ = 2 ^ 402 := by rw [← pow_mul, ← pow_add]
      _ ≤ 2 ^ 1000 := pow_le_pow_right₀ (by norm_num) (by norm_num)
  norm_num at g1 g2 g3 g4 g5 hηhi hηlo
  have bnd : ∀ {a : ℝ}, |a| ≤ 1 → |a * c| ≤ 7 / 4 * U := by
    intro a ha
    rw [abs_mul, abs_of_pos hc0]
    have := mul_le_mul ha h2 hc0.le zero_le_one
    linarith
  have sq : ∀ {x : Fl R} {a : ℝ}, |a| ≤ 1 → Fl.Near x (a * c) (8 * (U * η)) → Fl.Near (x * x) (a * c * (a * c)) (31 * (U ^ 2 * η)) := by
    intro x a ha hx
    refine (hx.mul hR hx (bnd ha) (bnd ha) (S := 4 * U ^ 2) ?_ low top).mono ?_
    · have : (7 / 4 * U + 8 * (U * η)) * (7 / 4 * U + 8 * (U * η)) = 49 / 16 * U ^ 2 + 28 * (U ^ 2 * η) + 64 * (U ^ 2 * η * η) := by ring
      rw [this]; linarith
    · have : 7 / 4 * U * (8 * (U * η)) + 7 / 4 * U * (8 * (U * η)) + 8 * (U * η) * (8 * (U * η)) = 28 * (U ^ 2 * η) + 64 * (U ^ 2 * η * η) := by ring
      rw [this]; norm_num; linarith
  have sx := sq e1 hv.1
  have sy := sq e2 hv.2
  have hcc : e.x * c * (e.x * c) + e.y * c * (e.y * c) = c ^ 2 := by linear_combination c ^ 2 * he
  have c2 : c ^ 2 ≤ 49 / 16 * U ^ 2 := by nlinarith
  have c1 : U ^ 2 ≤ c ^ 2 := by nlinarith
  have hs : Fl.Near v.sqNorm (c ^ 2) (65 * (U ^ 2 * η)) := by
    refine ((sx.add hR sy (S := 4 * U ^ 2) ?_ low top).mono ?_).congr hcc
    · rw [hcc, abs_of_pos (by positivity)]; linarith
    · norm_num; linarith
  have hn : Fl.Near v.norm c (66 * (U * η)) := by
    have hd : 65 * (U ^ 2 * η) / c ≤ 65 * (U * η) := by
      rw [div_le_iff₀ hc0]
      have : U * η * U ≤ U * η * c := mul_le_mul_of_nonneg_left h1 (by positivity)
      nlinarith
    refine (Fl.Near.sqrt hR hc0 hs (by linarith) (S := 2 * U) (by linarith) (hU.bot (by linarith)) (hU.top (by norm_num; linarith))).mono ?_
    norm_num; linarith
  have hpos : FP.lt (FP.lit 0) v.sqNorm = true := by
    have l0 : Fl.Near (FP.lit 0 : Fl R) 0 0 := by rw [lit_zero R]; exact Fl.near_fin 0
    cases hc : FP.lt (FP.lit 0) v.sqNorm with
    | true => rfl
    | false =>
      have := not_lt_near l0 hs hc
      linarith
  unfold V2.normalized
  rw [if_pos hpos]
  have one : ∀ {x : Fl R} {a : ℝ}, |a| ≤ 1 → Fl.Near x (a * c) (8 * (U * η)) → Fl.Near (x / v.norm) a (100 * η) := by
    intro x a ha hx
    have e0 : a * c / c = a := by field_simp
    have ac : |c| = c := abs_of_pos hc0
    have q : (8 * (U * η) + |a * c / c| * (66 * (U * η))) / (|c| - 66 * (U * η)) ≤ 75 * η := by
      rw [e0, ac, div_le_iff₀ (by linarith)]
      have i1 : |a| * (66 * (U * η)) ≤ 1 * (66 * (U * η)) := mul_le_mul_of_nonneg_right ha (by positivity)
      have i2 : η * (U * (999 / 1000)) ≤ η * (c - 66 * (U * η)) := mul_le_mul_of_nonneg_left (by linarith) hη0.le
      nlinarith
    have two : (2 : ℝ) ≤ 2 ^ 1000 := by
      calc (2 : ℝ) = 2 ^ 1 := by norm_num
        _ ≤ 2 ^ 1000 := pow_le_pow_right₀ (by norm_num) (by norm_num)
    refine ((hx.div hR hn ?_ (S := 2) ?_ (by norm_num) two).mono ?_).congr e0
    · rw [ac]; linarith
    · rw [e0] at q ⊢; linarith
    · norm_num; linarith
  exact ⟨one e1 hv.1, one e2 hv.2⟩

omit hR in
theorem lt_one_fin {x : Fl R} (h : FP.lt (FP.lit 1) x = true) : x = (Ext.pinf : Ext ℝ) ∨ ∃ m : ℝ, x = (Ext.fin m : Ext ℝ) ∧ 1 < m := by
  rw [lit_one_fl] at h
  cases x with
  | fin m => exact Or.inr ⟨m, rfl, by simpa [FP.lt, Ext.lt] using h⟩
  | pinf => exact Or.inl rfl
  | ninf => simp [FP.lt, Ext.lt] at h
  | nan => simp [FP.lt, Ext.lt] at h

omit hR in
theorem min_pick {X Y : Fl R} : (FP.lt Y X = true ∧ FP.min X Y = Y) ∨ (FP.lt Y X = false ∧ FP.min X Y = X) := by
  cases hc : FP.lt Y X with
  | true => exact Or.inl ⟨rfl, by simp [FP.min, hc]⟩
  | false => exact Or.inr ⟨rfl, by simp [FP.min, hc]⟩

omit hR in
theorem lt_fin2 {x y : ℝ} : FP.lt (α := Fl R) (Ext.fin x : Ext ℝ) (Ext.fin y : Ext ℝ) = decide (x < y) := by
  simp [FP.lt, Ext.lt]

omit hR in
theorem lt_pinf {X : Fl R} : FP.lt (α := Fl R) (Ext.pinf : Ext ℝ) X = false := by
  cases X <;> simp [FP.lt, Ext.lt]

omit hR in
theorem fin_lt_pinf {x : ℝ} : FP.lt (α := Fl R) (Ext.fin x : Ext ℝ) (Ext.pinf : Ext ℝ) = true := by
  simp [FP.lt, Ext.lt]

omit hR in
/-- the smaller of two quotients, at least one of which is a number -/
theorem elbow_pick {X Y : Fl R} {B : ℝ} {P Q : ℝ → Prop} (hlt : FP.lt (FP.lit 1) (FP.min X Y) = true)
    (k1 : ∀ m : ℝ, X = (Ext.fin m : Ext ℝ) → 1 < m → m ≤ B → P m) (k2 : ∀ m : ℝ, Y = (Ext.fin m : Ext ℝ) → 1 < m → m ≤ B → Q m)
    (hb : (∃ m : ℝ, X = (Ext.fin m : Ext ℝ) ∧ m ≤ B) ∨ (∃ m : ℝ, Y = (Ext.fin m : Ext ℝ) ∧ m ≤ B)) :
    ∃ m : ℝ, FP.min X Y = (Ext.fin m : Ext ℝ) ∧ 1 < m ∧ m ≤ B ∧ (P m ∨ Q m) := by
  rcases min_pick (X := X) (Y := Y) with ⟨hc, hm⟩ | ⟨hc, hm⟩ <;> rw [hm] at hlt ⊢ <;> rcases lt_one_fin hlt with h | ⟨m, h, hm1⟩
  · rw [h, lt_pinf] at hc; cases hc
  · have hmB : m ≤ B := by
      rcases hb with ⟨x, hx, hxB⟩ | ⟨x, hx, hxB⟩
      · rw [h, hx, lt_fin2, decide_eq_true_eq] at hc
        linarith
      · rw [h] at hx
        injection hx with hx
        rw [hx]; exact hxB
    exact ⟨m, h, hm1, hmB, Or.inr (k2 m h hm1 hmB)⟩
  · rcases hb with ⟨x, hx, hxB⟩ | ⟨x, hx, hxB⟩
    · rw [h] at hx; cases hx
    · rw [h, hx, fin_lt_pinf] at hc; cases hc
  · have hmB : m ≤ B := by
      rcases hb with ⟨x, hx, hxB⟩ | ⟨x, hx, hxB⟩
      · rw [h] at hx
        injection hx with hx
        rw [hx]; exact hxB
      · rw [h, hx, lt_fin2, decide_eq_false_iff_not] at hc
        linarith
    exact ⟨m, h, hm1, hmB, Or.inl (k1 m h hm1 hmB)⟩

/-- where the line is level with the label -/
theorem elbow_near {M k κ η ζ : ℝ} {o : V2 ℝ} (h : RoundSize M k κ η ζ o) {dx dy nx ny : Fl R} {DX DY : ℝ} {e : V2 ℝ} (he : e.x ^ 2 + e.y ^ 2 = 1)
    (hx : Fl.Near dx DX (ζ + 10 * (M * η))) (hy : Fl.Near dy DY (ζ + 10 * (M * η))) (bx : |DX| ≤ 11 / 4 * M) (by_ : |DY| ≤ 11 / 4 * M)
    (hnx : Fl.Near nx e.x (100 * η)) (hny : Fl.Near ny e.y (100 * η)) (hlt : FP.lt (FP.lit 1) (FP.min (dx / nx) (dy / ny)) = true) :
    ∃ m : ℝ, FP.min (dx / nx) (dy / ny) = (Ext.fin m : Ext ℝ) ∧ 1 < m ∧ m ≤ 5 * M ∧
      (|e.x * m - DX| ≤ ζ + 600 * (M * η) ∨ |e.y * m - DY| ≤ ζ + 600 * (M * η)) := by
  obtain ⟨d1, d2, d3, -, -⟩ := h.nums
  have hM := h.small.one
  have hMt := h.small.top
  have hcl := h.clear
  have hη0 : 0 ≤ η := le_trans (by positivity) h.fine.lo
  have hη := h.fine.hi
  norm_num at d1 d2 hη
  obtain ⟨a, rfl, ha⟩ := hx
  obtain ⟨b, rfl, hb⟩ := hy
  obtain ⟨p, rfl, hp⟩ := hnx
  obtain ⟨q, rfl, hq⟩ := hny
  have size : ∀ {x y : ℝ}, |x - y| ≤ ζ + 10 * (M * η) → |y| ≤ 11 / 4 * M → |x| ≤ 14 / 5 * M := by
    intro x y h1 h2
    have := abs_add_le (x - y) y
    rw [sub_add_cancel] at this
    linarith
  have sa := size ha bx
  have sb := size hb by_
  have big : ∀ {n f : ℝ}, |n - f| ≤ 100 * η → 7 / 10 ≤ |f| → 69 / 100 ≤ |n| := by
    intro n f h1 h2
    have := abs_add_le (f - n) n
    rw [sub_add_cancel, abs_sub_comm] at this
    linarith
  have err : ∀ x, |R.rnd x - x| ≤ |x| / 2 ^ 52 + 1 / 2 ^ 200 := hR.err
  -- a quotient with a large denominator is a number
  have fine : ∀ {d n : ℝ}, |d| ≤ 14 / 5 * M → 69 / 100 ≤ |n| → ∃ m, R.fix (Ext.div (.fin d) (.fin n)) = .fin m ∧ m ≤ 5 * M := by
    intro d n h1 h2
    have hn : n ≠ 0 := by rintro rfl; norm_num at h2
    have hdn : |d / n| ≤ 9 / 2 * M := by
      rw [abs_div, div_le_iff₀ (by linarith)]
      nlinarith
    have e : (Ext.div (.fin d) (.fin n) : Ext ℝ) = .fin (d / n) := by simp [Ext.div, hn]
    obtain ⟨m, hm, hm2⟩ := fix_near hR (x := d / n) (a := d / n) (ε := 0) (S := 9 / 2 * M) (by simp) (by linarith) (h.wide.bot (by linarith)) (h.wide.top (by linarith))
    refine ⟨m, by rw [e]; exact hm, ?_⟩
    have := abs_add_le (m - d / n) (d / n)
    rw [sub_add_cancel] at this
    have := le_abs_self m
    norm_num at hm2
    linarith
  -- what is known of a quotient that is taken
  have back : ∀ {d n f D m : ℝ}, R.fix (Ext.div (.fin d) (.fin n)) = .fin m → |n - f| ≤ 100 * η → |f| ≤ 1 → |d - D| ≤ ζ + 10 * (M * η) → |d| ≤ 14 / 5 * M → 1 < m → m ≤ 5 * M →
      |f * m - D| ≤ ζ + 600 * (M * η) := by
    intro d n f D m h1 h2 h3 h4 h5 h6 h7
    obtain ⟨hn, rfl⟩ := quot_fin h1
    have hn1 : |n| ≤ 2 := by
      have := abs_add_le (n - f) f
      rw [sub_add_cancel] at this
      linarith
    have e1 := mul_le_mul_of_nonneg_left (err (d / n)) (abs_nonneg n)
    rw [← abs_mul] at e1
    have e2 : n * (R.rnd (d / n) - d / n) = n * R.rnd (d / n) - d := by field_simp
    have e3 : |n| * (|d / n| / 2 ^ 52 + 1 / 2 ^ 200) = |d| / 2 ^ 52 + |n| / 2 ^ 200 := by
      rw [abs_div]
      have : |n| ≠ 0 := abs_ne_zero.2 hn
      field_simp
    rw [e2, e3] at e1
    set m := R.rnd (d / n)
    have e4 : |(f - n) * m| ≤ 100 * η * (5 * M) := by
      rw [abs_mul, abs_sub_comm]
      exact mul_le_mul h2 (by rw [abs_of_pos (by linarith)]; exact h7) (abs_nonneg _) (by positivity)
    have e5 : f * m - D = (f - n) * m + (n * m - d) + (d - D) := by ring
    rw [e5]
    refine (abs_add_three _ _ _).trans ?_
    norm_num at e1
    nlinarith
  obtain ⟨e1, e2⟩ := unit_le he
  have hX : ((show Fl R from (Ext.fin a : Ext ℝ)) / (show Fl R from (Ext.fin p : Ext ℝ))) = R.fix (Ext.div (.fin a) (.fin p)) := rfl
  have hY : ((show Fl R from (Ext.fin b : Ext ℝ)) / (show Fl R from (Ext.fin q : Ext ℝ))) = R.fix (Ext.div (.fin b) (.fin q)) := rfl
  change FP.lt (FP.lit 1) (FP.min (α := Fl R) (R.fix (Ext.div (.fin a) (.fin p))) (R.fix (Ext.div (.fin b) (.fin q)))) = true at hlt
  show ∃ m : ℝ, FP.min (α := Fl R) (R.fix (Ext.div (.fin a) (.fin p))) (R.fix (Ext.div (.fin b) (.fin q))) = _ ∧ _
  have f1 := fun hn => fine (d := a) (n := p) sa hn
  have f2 := fun hn => fine (d := b) (n := q) sb hn
  have k1 := fun m hm => back (d := a) (n := p) (f := e.x) (D := DX) (m := m) hm hp e1 ha sa
  have k2 := fun m hm => back (d := b) (n := q) (f := e.y) (D := DY) (m := m) hm hq e2 hb sb
  exact elbow_pick hlt (fun m hm h1 h2 => k1 m hm h1 h2) (fun m hm h1 h2 => k2 m hm h1 h2)
    ((unit_big he).imp (fun hb => f1 (big hp hb)) (fun hb => f2 (big hq hb)))

/-- the nearer of the two places level with the label, along a line not too nearly parallel to an axis -/
theorem clear_near {M k κ η ζ : ℝ} {o : V2 ℝ} (h : RoundSize M k κ η ζ o) {dx dy nx ny : Fl R} {DX DY : ℝ} {e : V2 ℝ} {θ : ℝ} (hθ : 2 ^ 7 * η ≤ θ) (hθ1 : θ ≤ 1)
    (tx : θ ≤ |e.x|) (ty : θ ≤ |e.y|)
    (hx : Fl.Near dx DX (ζ + 10 * (M * η))) (hy : Fl.Near dy DY (ζ + 10 * (M * η))) (bx : |DX| ≤ 11 / 4 * M) (by_ : |DY| ≤ 11 / 4 * M)
    (hnx : Fl.Near nx e.x (100 * η)) (hny : Fl.Near ny e.y (100 * η)) :
    Fl.Near (FP.min (dx / nx) (dy / ny)) (min (DX / e.x) (DY / e.y)) (5 * ζ / θ + 2 ^ 11 * (M * η) / θ ^ 2) := by
  obtain ⟨d1, d2, d3, -, -⟩ := h.nums
  have hM := h.small.one
  have hMt := h.small.top
  have hcl := h.clear
  have hζ := h.pos
  have hη0 : 0 < η := lt_of_lt_of_le (by positivity) h.fine.lo
  have hη := h.fine.hi
  have hηlo := h.fine.lo
  norm_num at d1 d2 hη hηlo hθ
  have hθ0 : 0 < θ := by linarith
  have hMη : 0 < M * η := by positivity
  have div : ∀ {d n : Fl R} {D f : ℝ}, Fl.Near d D (ζ + 10 * (M * η)) → |D| ≤ 11 / 4 * M → Fl.Near n f (100 * η) → θ ≤ |f| →
      Fl.Near (d / n) (D / f) (5 * ζ / θ + 2 ^ 11 * (M * η) / θ ^ 2) := by
    intro d n D f h1 h2 h3 h4
    have hf0 : 0 < |f| := by linarith
    have a1 : |D / f| ≤ 11 / 4 * M / θ := by
      rw [abs_div]
      exact div_le_div₀ (by linarith) h2 hθ0 h4
    have den : 7 / 32 * θ ≤ |f| - 100 * η := by linarith
    have num : (ζ + 10 * (M * η) + |D / f| * (100 * η)) / (|f| - 100 * η) ≤ (ζ + 10 * (M * η) + 11 / 4 * M / θ * (100 * η)) / (7 / 32 * θ) := by
      refine div_le_div₀ (by positivity) ?_ (by positivity) den
      have := mul_le_mul_of_nonneg_right a1 (show 0 ≤ 100 * η by positivity)
      linarith
    have e1 : (ζ + 10 * (M * η) + 11 / 4 * M / θ * (100 * η)) / (7 / 32 * θ) = 32 / 7 * (ζ / θ) + 320 / 7 * (M * η / θ) + 8800 / 7 * (M * η / θ ^ 2) := by
      field_simp
      ring
    have i1 : M * η / θ ≤ M * η / θ ^ 2 := by
      rw [div_le_div_iff₀ hθ0 (by positivity)]
      have : θ ^ 2 ≤ θ := by nlinarith
      exact mul_le_mul_of_nonneg_left this hMη.le
    have i2 : M * η / θ ^ 2 * 128 ≤ M / θ := by
      rw [div_mul_eq_mul_div, div_le_div_iff₀ (by positivity) hθ0]
      have : M * θ * (128 * η) ≤ M * θ * θ := mul_le_mul_of_nonneg_left hθ (by positivity)
      nlinarith
    have i3 : ζ / θ ≤ M / 100 / θ := by gcongr
    have i3' : M / 100 / θ = M / θ / 100 := by ring
    have i4 : M / θ ≤ 2 ^ 50 * (M * η / θ ^ 2) := by
      rw [div_le_iff₀ hθ0]
      have : 2 ^ 50 * (M * η / θ ^ 2) * θ = 2 ^ 50 * (M * η) / θ := by field_simp
      rw [this, le_div_iff₀ hθ0]
      norm_num
      nlinarith
    have hz : 0 ≤ ζ / θ := by positivity
    have hMθ : M ≤ M / θ := by
      rw [le_div_iff₀ hθ0]; nlinarith
    have top : 32 * (M / θ) ≤ 2 ^ 1000 := by
      have : M / θ ≤ 2 ^ 100 := by
        rw [div_le_iff₀ hθ0]
        have : (2 : ℝ) ^ 40 ≤ 2 ^ 100 * (128 * (1 / 2 ^ 50)) := by norm_num
        have : (2 : ℝ) ^ 100 * (128 * (1 / 2 ^ 50)) ≤ 2 ^ 100 * θ := mul_le_mul_of_nonneg_left (by norm_num; linarith) (by positivity)
        linarith
      have : 32 * (M / θ) ≤ 2 ^ 105 := by norm_num at this ⊢; linarith
      exact this.trans (pow_le_pow_right₀ (by norm_num) (by norm_num))
    have a1' : |D / f| ≤ 11 / 4 * (M / θ) := a1.trans (le_of_eq (by ring))
    rw [e1] at num
    refine (h1.div hR h3 (by linarith) (S := 32 * (M / θ)) ?_ (le_trans (by norm_num) (show (1 : ℝ) ≤ 32 * (M / θ) by linarith)) top).mono ?_
    · linarith
    · have e2 : 5 * ζ / θ + 2 ^ 11 * (M * η) / θ ^ 2 = 5 * (ζ / θ) + 2 ^ 11 * (M * η / θ ^ 2) := by ring
      rw [e2]
      norm_num at i4 ⊢
      linarith
  have p := div hx bx hnx tx
  have q := div hy by_ hny ty
  obtain ⟨x, ex, hx⟩ := p
  obtain ⟨y, ey, hy⟩ := q
  rw [ex, ey]
  refine ⟨if y < x then y else x, ?_, ?_⟩
  · rcases min_pick (R := R) (X := (show Fl R from (Ext.fin x : Ext ℝ))) (Y := (show Fl R from (Ext.fin y : Ext ℝ))) with ⟨hc, hm⟩ | ⟨hc, hm⟩
    · have : y < x := by simpa [FP.lt, Ext.lt] using hc
      rw [if_pos this]; exact hm
    · have : ¬ y < x := by simpa [FP.lt, Ext.lt] using hc
      rw [if_neg this]; exact hm
  · rw [abs_le] at hx hy ⊢
    rcases min_cases (DX / e.x) (DY / e.y) with ⟨hm, hm2⟩ | ⟨hm, hm2⟩ <;> rw [hm] <;> split_ifs <;> constructor <;> linarith

end
end S2P
