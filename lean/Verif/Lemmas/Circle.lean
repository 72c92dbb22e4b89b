import Verif.Lemmas.Nearest
import Mathlib.LinearAlgebra.Matrix.ToLinearEquiv
import Mathlib.LinearAlgebra.Matrix.Notation

set_option linter.unusedSectionVars false
set_option linter.unusedVariables false
set_option linter.unusedSimpArgs false

namespace S2P
variable {K : Type} [Field K] [LinearOrder K] [IsStrictOrderedRing K]

/-! ## Linear algebra over the field -/

/-- matrix times column vector -/
def M3.mulV (m : M3 K) (v : V3 K) : V3 K := ⟨m.r0.dot v, m.r1.dot v, m.r2.dot v⟩

/-- determinant as expanded by `inv3` -/
def det3 (m : M3 K) : K :=
  (m.r1.y * m.r2.z - m.r1.z * m.r2.y) * m.r0.x + (m.r2.y * m.r0.z - m.r2.z * m.r0.y) * m.r1.x +
    (m.r0.y * m.r1.z - m.r0.z * m.r1.y) * m.r2.x

/-- the inverse -/
def invK (m : M3 K) : M3 K :=
  let i := 1 / det3 m
  ⟨⟨(m.r1.y * m.r2.z - m.r1.z * m.r2.y) * i, (m.r2.y * m.r0.z - m.r2.z * m.r0.y) * i, (m.r0.y * m.r1.z - m.r0.z * m.r1.y) * i⟩,
   ⟨(m.r1.z * m.r2.x - m.r1.x * m.r2.z) * i, (m.r2.z * m.r0.x - m.r2.x * m.r0.z) * i, (m.r0.z * m.r1.x - m.r0.x * m.r1.z) * i⟩,
   ⟨(m.r1.x * m.r2.y - m.r1.y * m.r2.x) * i, (m.r2.x * m.r0.y - m.r2.y * m.r0.x) * i, (m.r0.x * m.r1.y - m.r0.y * m.r1.x) * i⟩⟩

theorem invK_right (m : M3 K) (h : det3 m ≠ 0) (w : V3 K) : m.mulV ((invK m).mulV w) = w := by
  have hi : det3 m * (1 / det3 m) = 1 := by field_simp
  obtain ⟨i, hI⟩ : ∃ i, 1 / det3 m = i := ⟨_, rfl⟩
  simp only [invK, hI] at hi ⊢
  unfold det3 at hi
  ext
  · simp only [M3.mulV, V3.dot]; linear_combination w.x * hi
  · simp only [M3.mulV, V3.dot]; linear_combination w.y * hi
  · simp only [M3.mulV, V3.dot]; linear_combination w.z * hi

theorem invK_left (m : M3 K) (h : det3 m ≠ 0) (v : V3 K) : (invK m).mulV (m.mulV v) = v := by
  have hi : det3 m * (1 / det3 m) = 1 := by field_simp
  obtain ⟨i, hI⟩ : ∃ i, 1 / det3 m = i := ⟨_, rfl⟩
  simp only [invK, hI] at hi ⊢
  unfold det3 at hi
  ext
  · simp only [M3.mulV, V3.dot]; linear_combination v.x * hi
  · simp only [M3.mulV, V3.dot]; linear_combination v.y * hi
  · simp only [M3.mulV, V3.dot]; linear_combination v.z * hi

theorem det3_eq_zero_iff (m : M3 K) : det3 m = 0 ↔ ∃ v : V3 K, v ≠ ⟨0, 0, 0⟩ ∧ m.mulV v = ⟨0, 0, 0⟩ := by
  have hd : det3 m = Matrix.det !![m.r0.x, m.r0.y, m.r0.z; m.r1.x, m.r1.y, m.r1.z; m.r2.x, m.r2.y, m.r2.z] := by
    rw [Matrix.det_fin_three]; simp [det3]; ring
  rw [hd, ← Matrix.exists_mulVec_eq_zero_iff]
  constructor
  · rintro ⟨v, hv, h⟩
    refine ⟨⟨v 0, v 1, v 2⟩, ?_, ?_⟩
    · intro hc
      apply hv
      simp only [V3.mk.injEq] at hc
      funext i; fin_cases i <;> simp [hc]
    · have h0 := congrFun h 0
      have h1 := congrFun h 1
      have h2 := congrFun h 2
      simp [Matrix.mulVec, dotProduct, Fin.sum_univ_three] at h0 h1 h2
      ext <;> simp [M3.mulV, V3.dot, *]
  · rintro ⟨v, hv, h⟩
    refine ⟨![v.x, v.y, v.z], ?_, ?_⟩
    · intro hc
      apply hv
      have h0 := congrFun hc 0
      have h1 := congrFun hc 1
      have h2 := congrFun hc 2
      simp at h0 h1 h2
      ext <;> simp [*]
    · simp only [M3.mulV, V3.mk.injEq, V3.dot] at h
      funext i; fin_cases i <;> simp [Matrix.mulVec, dotProduct, Fin.sum_univ_three, h]

/-! ## Sums -/

theorem sum_map_add' {β : Type} (l : List β) (f g : β → K) : (l.map (fun p => f p + g p)).sum = (l.map f).sum + (l.map g).sum := by
  induction l with
  | nil => simp
  | cons a l ih => simp only [List.map_cons, List.sum_cons, ih]; ring

theorem sum_map_mul' {β : Type} (l : List β) (c : K) (f : β → K) : (l.map (fun p => c * f p)).sum = c * (l.map f).sum := by
  induction l with
  | nil => simp
  | cons a l ih => simp only [List.map_cons, List.sum_cons, ih]; ring

theorem sum_map_const' {β : Type} (l : List β) (c : K) : (l.map (fun _ => c)).sum = l.length * c := by
  induction l with
  | nil => simp
  | cons a l ih => simp only [List.map_cons, List.sum_cons, ih, List.length_cons]; push_cast; ring

theorem sum_map_nonneg' {β : Type} (l : List β) (f : β → K) (h : ∀ p ∈ l, 0 ≤ f p) : 0 ≤ (l.map f).sum := by
  induction l with
  | nil => simp
  | cons a l ih =>
    simp only [List.map_cons, List.sum_cons]
    exact add_nonneg (h a (by simp)) (ih (fun p hp => h p (by simp [hp])))

theorem sum_map_sq_zero {β : Type} (l : List β) (f : β → K) (h : (l.map (fun p => f p ^ 2)).sum = 0) : ∀ p ∈ l, f p = 0 := by
  induction l with
  | nil => simp
  | cons a l ih =>
    simp only [List.map_cons, List.sum_cons] at h
    have h1 := sum_map_nonneg' l (fun p => f p ^ 2) (fun p _ => sq_nonneg _)
    have h2 := sq_nonneg (f a)
    intro p hp
    rcases List.mem_cons.mp hp with rfl | hp
    · exact pow_eq_zero_iff (two_ne_zero) |>.mp (by linarith)
    · exact ih (by linarith) p hp

theorem sum_map_congr' {β : Type} (l : List β) (f g : β → K) (h : ∀ p ∈ l, f p = g p) : (l.map f).sum = (l.map g).sum := by
  rw [List.map_congr_left h]

/-- normal matrix -/
def gram (ps : List (V2 K)) : M3 K :=
  ⟨⟨(ps.map (fun p => p.x * p.x)).sum, (ps.map (fun p => p.x * p.y)).sum, (ps.map (fun p => p.x * (1 / 2))).sum⟩,
   ⟨(ps.map (fun p => p.y * p.x)).sum, (ps.map (fun p => p.y * p.y)).sum, (ps.map (fun p => p.y * (1 / 2))).sum⟩,
   ⟨(ps.map (fun p => 1 / 2 * p.x)).sum, (ps.map (fun p => 1 / 2 * p.y)).sum, (ps.map (fun p : V2 K => (1 / 2 * (1 / 2) : K))).sum⟩⟩

/-- right-hand side of the normal equations -/
def grhs (ps : List (V2 K)) : V3 K :=
  ⟨(ps.map (fun p => p.x * (p.dot p / 2))).sum, (ps.map (fun p => p.y * (p.dot p / 2))).sum,
   (ps.map (fun p => 1 / 2 * (p.dot p / 2))).sum⟩

/-- the linear form of a row -/
def rowV (v : V3 K) (p : V2 K) : K := p.x * v.x + p.y * v.y + 1 / 2 * v.z

theorem gram_mulV (ps : List (V2 K)) (v : V3 K) :
    (gram ps).mulV v = ⟨(ps.map (fun p => p.x * rowV v p)).sum, (ps.map (fun p => p.y * rowV v p)).sum,
      (ps.map (fun p => 1 / 2 * rowV v p)).sum⟩ := by
  induction ps with
  | nil => ext <;> simp [gram, M3.mulV, V3.dot]
  | cons a l ih =>
    simp only [M3.mulV, V3.mk.injEq] at ih
    obtain ⟨h0, h1, h2⟩ := ih
    simp only [gram, V3.dot] at h0 h1 h2
    have ha : rowV v a = a.x * v.x + a.y * v.y + 1 / 2 * v.z := rfl
    ext
    · simp only [M3.mulV, V3.dot, gram, List.map_cons, List.sum_cons, ha]; linear_combination h0
    · simp only [M3.mulV, V3.dot, gram, List.map_cons, List.sum_cons, ha]; linear_combination h1
    · simp only [M3.mulV, V3.dot, gram, List.map_cons, List.sum_cons, ha]; linear_combination h2

theorem gram_quad (ps : List (V2 K)) (v : V3 K) : v.dot ((gram ps).mulV v) = (ps.map (fun p => rowV v p ^ 2)).sum := by
  rw [gram_mulV]
  simp only [V3.dot]
  induction ps with
  | nil => simp
  | cons a l ih =>
    have ha : rowV v a = a.x * v.x + a.y * v.y + 1 / 2 * v.z := rfl
    simp only [List.map_cons, List.sum_cons, ha]; linear_combination ih

theorem gram_singular_iff (ps : List (V2 K)) (hne : ps ≠ []) : det3 (gram ps) = 0 ↔ OnOneLine ps := by
  rw [det3_eq_zero_iff]
  constructor
  · rintro ⟨v, hv, h⟩
    have hq := gram_quad ps v
    rw [h] at hq
    simp only [V3.dot, mul_zero, add_zero] at hq
    have hz := sum_map_sq_zero ps _ hq.symm
    refine ⟨v.x, v.y, -(1 / 2 * v.z), ?_, ?_⟩
    · by_contra hc
      push Not at hc
      apply hv
      obtain ⟨p, hp⟩ := List.exists_mem_of_ne_nil ps hne
      have := hz p hp
      simp only [rowV, hc.1, hc.2, mul_zero, zero_add] at this
      have hz' : v.z = 0 := by linarith
      ext <;> simp [hc, hz']
    · intro p hp
      have := hz p hp
      simp only [rowV] at this
      linarith
  · rintro ⟨a, b, c, hab, h⟩
    refine ⟨⟨a, b, -2 * c⟩, ?_, ?_⟩
    · intro hc
      simp only [V3.mk.injEq] at hc
      rcases hab with h1 | h1
      · exact h1 hc.1
      · exact h1 hc.2.1
    · rw [gram_mulV]
      have hz : ∀ p ∈ ps, rowV ⟨a, b, -2 * c⟩ p = 0 := by
        intro p hp
        have := h p hp
        simp only [rowV]; linarith
      ext
      · show (ps.map (fun p => p.x * rowV ⟨a, b, -2 * c⟩ p)).sum = 0
        rw [sum_map_congr' ps _ (fun _ => 0) (fun p hp => by rw [hz p hp, mul_zero])]; simp
      · show (ps.map (fun p => p.y * rowV ⟨a, b, -2 * c⟩ p)).sum = 0
        rw [sum_map_congr' ps _ (fun _ => 0) (fun p hp => by rw [hz p hp, mul_zero])]; simp
      · show (ps.map (fun p => 1 / 2 * rowV ⟨a, b, -2 * c⟩ p)).sum = 0
        rw [sum_map_congr' ps _ (fun _ => 0) (fun p hp => by rw [hz p hp, mul_zero])]; simp

theorem onOneLine_short (ps : List (V2 K)) (h : ps.length < 3) : OnOneLine ps := by
  match ps, h with
  | [], _ => exact ⟨1, 0, 0, by simp, by simp⟩
  | [p], _ => exact ⟨1, 0, p.x, by simp, by simp⟩
  | [p, q], _ =>
    by_cases hpq : p = q
    · subst hpq; exact ⟨1, 0, p.x, by simp, by simp⟩
    · refine ⟨p.y - q.y, q.x - p.x, (p.y - q.y) * p.x + (q.x - p.x) * p.y, ?_, ?_⟩
      · by_contra hc
        push Not at hc
        apply hpq
        ext
        · linarith [hc.2]
        · linarith [hc.1]
      · intro r hr
        simp at hr
        rcases hr with rfl | rfl
        · rfl
        · ring

/-! ## The fit in residual form -/

/-- the residuals of the circle are orthogonal to `1`, `x` and `y` -/
structure IsFit (ps : List (V2 K)) (c : V2 K) (s : K) : Prop where
  one : (ps.map (residual c s)).sum = 0
  x : (ps.map (fun p => residual c s p * p.x)).sum = 0
  y : (ps.map (fun p => residual c s p * p.y)).sum = 0

theorem residual_row (c : V2 K) (s : K) (p : V2 K) :
    residual c s p = -2 * (rowV ⟨c.x, c.y, s - (c.x ^ 2 + c.y ^ 2)⟩ p - p.dot p / 2) := by
  simp only [residual, rowV, V2.dot]; ring

theorem isFit_iff_normal (ps : List (V2 K)) (c : V2 K) (s : K) :
    IsFit ps c s ↔ (gram ps).mulV ⟨c.x, c.y, s - (c.x ^ 2 + c.y ^ 2)⟩ = grhs ps := by
  rw [gram_mulV]
  obtain ⟨v, hv⟩ : ∃ v : V3 K, (⟨c.x, c.y, s - (c.x ^ 2 + c.y ^ 2)⟩ : V3 K) = v := ⟨_, rfl⟩
  have hr : ∀ p, residual c s p = -2 * (rowV v p - p.dot p / 2) := by
    intro p; rw [residual_row, hv]
  have e1 : (ps.map (residual c s)).sum = -4 * ((ps.map (fun p => 1 / 2 * rowV v p)).sum - (grhs ps).z) := by
    rw [sum_map_congr' ps _ (fun p => -4 * (1 / 2 * rowV v p + -1 * (1 / 2 * (p.dot p / 2)))) (fun p _ => by rw [hr]; ring),
      sum_map_mul', sum_map_add', sum_map_mul' (c := -1)]
    simp only [grhs]; ring
  have e2 : (ps.map (fun p => residual c s p * p.x)).sum = -2 * ((ps.map (fun p => p.x * rowV v p)).sum - (grhs ps).x) := by
    rw [sum_map_congr' ps _ (fun p => -2 * (p.x * rowV v p + -1 * (p.x * (p.dot p / 2)))) (fun p _ => by rw [hr]; ring),
      sum_map_mul', sum_map_add', sum_map_mul' (c := -1)]
    simp only [grhs]; ring
  have e3 : (ps.map (fun p => residual c s p * p.y)).sum = -2 * ((ps.map (fun p => p.y * rowV v p)).sum - (grhs ps).y) := by
    rw [sum_map_congr' ps _ (fun p => -2 * (p.y * rowV v p + -1 * (p.y * (p.dot p / 2)))) (fun p _ => by rw [hr]; ring),
      sum_map_mul', sum_map_add', sum_map_mul' (c := -1)]
    simp only [grhs]; ring
  simp only [hv]
  constructor
  · rintro ⟨h1, h2, h3⟩
    rw [e1] at h1; rw [e2] at h2; rw [e3] at h3
    ext
    · show (ps.map (fun p => p.x * rowV v p)).sum = (grhs ps).x
      linarith
    · show (ps.map (fun p => p.y * rowV v p)).sum = (grhs ps).y
      linarith
    · show (ps.map (fun p => 1 / 2 * rowV v p)).sum = (grhs ps).z
      linarith
  · intro h
    have hx := congrArg V3.x h
    have hy := congrArg V3.y h
    have hz := congrArg V3.z h
    simp only at hx hy hz
    exact ⟨by rw [e1, hz]; ring, by rw [e2, hx]; ring, by rw [e3, hy]; ring⟩

/-- the solution of the normal equations -/
def solve (ps : List (V2 K)) : V3 K := (invK (gram ps)).mulV (grhs ps)

/-- centre of the fit -/
def fitC (ps : List (V2 K)) : V2 K := ⟨(solve ps).x, (solve ps).y⟩
/-- squared radius of the fit -/
def fitS (ps : List (V2 K)) : K := (solve ps).z + (solve ps).x ^ 2 + (solve ps).y ^ 2

theorem fit_isFit (ps : List (V2 K)) (h : ¬ OnOneLine ps) : IsFit ps (fitC ps) (fitS ps) := by
  have hne : ps ≠ [] := by rintro rfl; exact h (onOneLine_short _ (by simp))
  have hd : det3 (gram ps) ≠ 0 := fun hc => h ((gram_singular_iff ps hne).mp hc)
  rw [isFit_iff_normal]
  have : (⟨(fitC ps).x, (fitC ps).y, fitS ps - ((fitC ps).x ^ 2 + (fitC ps).y ^ 2)⟩ : V3 K) = solve ps := by
    ext
    · rfl
    · rfl
    · simp only [fitC, fitS]; ring
  rw [this]
  exact invK_right _ hd _

theorem isFit_unique (ps : List (V2 K)) (h : ¬ OnOneLine ps) (c : V2 K) (s : K) (hf : IsFit ps c s) :
    c = fitC ps ∧ s = fitS ps := by
  have hne : ps ≠ [] := by rintro rfl; exact h (onOneLine_short _ (by simp))
  have hd : det3 (gram ps) ≠ 0 := fun hc => h ((gram_singular_iff ps hne).mp hc)
  rw [isFit_iff_normal] at hf
  have : solve ps = ⟨c.x, c.y, s - (c.x ^ 2 + c.y ^ 2)⟩ := by
    unfold solve; rw [← hf, invK_left _ hd]
  constructor
  · ext <;> simp [fitC, this]
  · simp only [fitS, this]; ring

theorem fit_mean (ps : List (V2 K)) (c : V2 K) (s : K) (hf : IsFit ps c s) :
    ps.length * s = (ps.map (fun p => dist2 p c)).sum := by
  have h := hf.one
  rw [sum_map_congr' ps _ (fun p => dist2 p c + -s) (fun p _ => by simp only [residual, dist2]; ring), sum_map_add',
    sum_map_const'] at h
  linarith

theorem residual_diff (c c' : V2 K) (s s' : K) (p : V2 K) :
    residual c' s' p = residual c s p +
      ((c.x ^ 2 + c.y ^ 2) * -1 + s + (c'.x ^ 2 + c'.y ^ 2) - s' + 2 * (c.x - c'.x) * p.x + 2 * (c.y - c'.y) * p.y) := by
  simp only [residual]; ring

theorem fit_cost (ps : List (V2 K)) (c c' : V2 K) (s s' : K) (hf : IsFit ps c s) :
    cost ps c' s' = cost ps c s + (ps.map (fun p => (residual c' s' p - residual c s p) ^ 2)).sum := by
  obtain ⟨k, hk⟩ : ∃ k, (c.x ^ 2 + c.y ^ 2) * -1 + s + (c'.x ^ 2 + c'.y ^ 2) - s' = k := ⟨_, rfl⟩
  have hr := fun p => residual_diff c c' s s' p
  simp only [hk] at hr
  have cross : (ps.map (fun p => 2 * residual c s p * (residual c' s' p - residual c s p))).sum = 0 := by
    rw [sum_map_congr' ps _ (fun p => 2 * k * residual c s p + (4 * (c.x - c'.x) * (residual c s p * p.x) +
      4 * (c.y - c'.y) * (residual c s p * p.y))) (fun p _ => by rw [hr p]; ring), sum_map_add', sum_map_add', sum_map_mul',
      sum_map_mul', sum_map_mul', hf.x, hf.y, hf.one]
    ring
  unfold cost
  rw [sum_map_congr' ps (fun p => residual c' s' p ^ 2) (fun p => residual c s p ^ 2 +
    (2 * residual c s p * (residual c' s' p - residual c s p) + (residual c' s' p - residual c s p) ^ 2)) (fun p _ => by ring),
    sum_map_add', sum_map_add', cross]
  ring

/-! moving and scaling -/

/-- multiplication of all coordinates -/
def V2.times (k : K) (p : V2 K) : V2 K := ⟨k * p.x, k * p.y⟩

theorem isFit_move (ps : List (V2 K)) (t c : V2 K) (s : K) (hf : IsFit ps c s) : IsFit (ps.map (· + t)) (c + t) s := by
  have hr : ∀ p, residual (c + t) s (p + t) = residual c s p := by intro p; simp only [residual, V2.add_x, V2.add_y]; ring
  refine ⟨?_, ?_, ?_⟩
  · rw [List.map_map]
    have : ((residual (c + t) s) ∘ fun x => x + t) = residual c s := by funext p; exact hr p
    rw [this]; exact hf.one
  · rw [List.map_map]
    have : ((fun p => residual (c + t) s p * p.x) ∘ fun x => x + t) = fun p => residual c s p * p.x + t.x * residual c s p := by
      funext p; simp only [Function.comp, hr, V2.add_x]; ring
    rw [this, sum_map_add', sum_map_mul', hf.x, hf.one]; ring
  · rw [List.map_map]
    have : ((fun p => residual (c + t) s p * p.y) ∘ fun x => x + t) = fun p => residual c s p * p.y + t.y * residual c s p := by
      funext p; simp only [Function.comp, hr, V2.add_y]; ring
    rw [this, sum_map_add', sum_map_mul', hf.y, hf.one]; ring

theorem isFit_scale (ps : List (V2 K)) (k : K) (c : V2 K) (s : K) (hf : IsFit ps c s) :
    IsFit (ps.map (V2.times k)) (c.times k) (k ^ 2 * s) := by
  have hr : ∀ p, residual (c.times k) (k ^ 2 * s) (p.times k) = k ^ 2 * residual c s p := by
    intro p; simp only [residual, V2.times]; ring
  refine ⟨?_, ?_, ?_⟩
  · rw [List.map_map]
    have : ((residual (c.times k) (k ^ 2 * s)) ∘ V2.times k) = fun p => k ^ 2 * residual c s p := by funext p; exact hr p
    rw [this, sum_map_mul', hf.one, mul_zero]
  · rw [List.map_map]
    have : ((fun p => residual (c.times k) (k ^ 2 * s) p * p.x) ∘ V2.times k) = fun p => k ^ 3 * (residual c s p * p.x) := by
      funext p; simp only [Function.comp, hr]; simp only [V2.times]; ring
    rw [this, sum_map_mul', hf.x, mul_zero]
  · rw [List.map_map]
    have : ((fun p => residual (c.times k) (k ^ 2 * s) p * p.y) ∘ V2.times k) = fun p => k ^ 3 * (residual c s p * p.y) := by
      funext p; simp only [Function.comp, hr]; simp only [V2.times]; ring
    rw [this, sum_map_mul', hf.y, mul_zero]

theorem onOneLine_move (ps : List (V2 K)) (t : V2 K) : OnOneLine (ps.map (· + t)) ↔ OnOneLine ps := by
  constructor
  · rintro ⟨a, b, c, hab, h⟩
    refine ⟨a, b, c - a * t.x - b * t.y, hab, fun p hp => ?_⟩
    have := h (p + t) (List.mem_map.mpr ⟨p, hp, rfl⟩)
    simp only [V2.add_x, V2.add_y] at this
    linarith
  · rintro ⟨a, b, c, hab, h⟩
    refine ⟨a, b, c + a * t.x + b * t.y, hab, fun p hp => ?_⟩
    obtain ⟨q, hq, rfl⟩ := List.mem_map.mp hp
    have := h q hq
    simp only [V2.add_x, V2.add_y]
    linarith

theorem onOneLine_scale (ps : List (V2 K)) (k : K) (hk : k ≠ 0) : OnOneLine (ps.map (V2.times k)) ↔ OnOneLine ps := by
  constructor
  · rintro ⟨a, b, c, hab, h⟩
    refine ⟨a * k, b * k, c, ?_, fun p hp => ?_⟩
    · rcases hab with h1 | h1
      · exact Or.inl (mul_ne_zero h1 hk)
      · exact Or.inr (mul_ne_zero h1 hk)
    · have := h (p.times k) (List.mem_map.mpr ⟨p, hp, rfl⟩)
      simp only [V2.times] at this
      linarith
  · rintro ⟨a, b, c, hab, h⟩
    refine ⟨a, b, k * c, hab, fun p hp => ?_⟩
    obtain ⟨q, hq, rfl⟩ := List.mem_map.mp hp
    have := h q hq
    simp only [V2.times]
    linear_combination k * this

theorem isFit_circle (ps : List (V2 K)) (c : V2 K) (s : K) (h : ∀ p ∈ ps, dist2 p c = s) : IsFit ps c s := by
  have hr : ∀ p ∈ ps, residual c s p = 0 := by
    intro p hp
    have := h p hp
    simp only [dist2] at this
    simp only [residual]; linear_combination this
  refine ⟨?_, ?_, ?_⟩
  · rw [sum_map_congr' ps _ (fun _ => 0) hr]; simp
  · rw [sum_map_congr' ps _ (fun _ => 0) (fun p hp => by rw [hr p hp, zero_mul])]; simp
  · rw [sum_map_congr' ps _ (fun _ => 0) (fun p hp => by rw [hr p hp, zero_mul])]; simp

/-- three points not on a line: the fit passes through them -/
theorem fit_three (a b d : V2 K) (h : ¬ OnOneLine [a, b, d]) :
    ∀ p ∈ [a, b, d], dist2 p (fitC [a, b, d]) = fitS [a, b, d] := by
  have hf := fit_isFit _ h
  obtain ⟨c, hc⟩ : ∃ c, fitC [a, b, d] = c := ⟨_, rfl⟩
  obtain ⟨s, hs⟩ : ∃ s, fitS [a, b, d] = s := ⟨_, rfl⟩
  rw [hc, hs] at hf ⊢
  obtain ⟨h1, h2, h3⟩ := hf
  simp only [List.map_cons, List.map_nil, List.sum_cons, List.sum_nil, add_zero] at h1 h2 h3
  have hD : (b.x - a.x) * (d.y - a.y) - (d.x - a.x) * (b.y - a.y) ≠ 0 := by
    intro h0
    apply h
    by_cases hab : a = b
    · subst hab
      have hs := onOneLine_short [a, d] (by simp)
      obtain ⟨u, v, w, huv, hh⟩ := hs
      exact ⟨u, v, w, huv, fun p hp => hh p (by simp at hp ⊢; tauto)⟩
    · refine ⟨b.y - a.y, a.x - b.x, (b.y - a.y) * a.x + (a.x - b.x) * a.y, ?_, ?_⟩
      · by_contra hcc
        push Not at hcc
        apply hab
        ext
        · linarith [hcc.2]
        · linarith [hcc.1]
      · intro p hp
        simp at hp
        rcases hp with rfl | rfl | rfl
        · rfl
        · ring
        · linear_combination -h0
  have key : ∀ x : K, ((b.x - a.x) * (d.y - a.y) - (d.x - a.x) * (b.y - a.y)) * x = 0 → x = 0 := by
    intro x hx
    rcases mul_eq_zero.mp hx with h0 | h0
    · exact absurd h0 hD
    · exact h0
  obtain ⟨ra, hra⟩ : ∃ r, residual c s a = r := ⟨_, rfl⟩
  obtain ⟨rb, hrb⟩ : ∃ r, residual c s b = r := ⟨_, rfl⟩
  obtain ⟨rd, hrd⟩ : ∃ r, residual c s d = r := ⟨_, rfl⟩
  rw [hra, hrb, hrd] at h1 h2 h3
  have hrb0 : rb = 0 := key _ (by linear_combination (d.y - a.y) * h2 - (d.x - a.x) * h3 + (a.y * d.x - a.x * d.y) * h1)
  have hrd0 : rd = 0 := key _ (by linear_combination (b.x - a.x) * h3 - (b.y - a.y) * h2 + (a.x * b.y - a.y * b.x) * h1)
  have hra0 : ra = 0 := by linarith
  intro p hp
  have hz : residual c s p = 0 := by
    simp at hp
    rcases hp with rfl | rfl | rfl
    · rw [hra, hra0]
    · rw [hrb, hrb0]
    · rw [hrd, hrd0]
  simp only [residual] at hz
  simp only [dist2]; linear_combination hz

theorem dist2_nonneg (p c : V2 K) : 0 ≤ dist2 p c := by
  unfold dist2; positivity

/-- the squared radius of a fit is positive -/
theorem fit_pos (ps : List (V2 K)) (h : ¬ OnOneLine ps) : 0 < fitS ps := by
  have hf := fit_isFit ps h
  have hm := fit_mean ps _ _ hf
  have hlen : 3 ≤ ps.length := by
    by_contra hc
    exact h (onOneLine_short ps (by omega))
  have hlK : (0 : K) < ps.length := by exact_mod_cast (show 0 < ps.length by omega)
  have hn := sum_map_nonneg' ps (fun p => dist2 p (fitC ps)) (fun p _ => dist2_nonneg _ _)
  rcases lt_trichotomy (fitS ps) 0 with h0 | h0 | h0
  · have := mul_neg_of_pos_of_neg hlK h0
    linarith
  · exfalso
    rw [h0, mul_zero] at hm
    apply h
    have hx : ∀ p ∈ ps, p.x - (fitC ps).x = 0 := by
      apply sum_map_sq_zero
      have h1 := sum_map_nonneg' ps (fun p => (p.x - (fitC ps).x) ^ 2) (fun p _ => sq_nonneg _)
      have h2 := sum_map_nonneg' ps (fun p => (p.y - (fitC ps).y) ^ 2) (fun p _ => sq_nonneg _)
      have h3 := sum_map_add' ps (fun p => (p.x - (fitC ps).x) ^ 2) (fun p => (p.y - (fitC ps).y) ^ 2)
      have h4 : (ps.map (fun p => dist2 p (fitC ps))).sum = (ps.map (fun p => (p.x - (fitC ps).x) ^ 2 + (p.y - (fitC ps).y) ^ 2)).sum := rfl
      linarith
    exact ⟨1, 0, (fitC ps).x, by simp, fun p hp => by have := hx p hp; linarith⟩
  · exact h0

/-! ## The code's computation on finite points -/

section
variable [FloorRing K] [Trans K]

theorem foldl_add_fin {β : Type} (f : β → K) (l : List β) (a : K) :
    (l.map (fun p => Ext.fin (f p))).foldl (· + ·) (Ext.fin a) = Ext.fin (a + (l.map f).sum) := by
  induction l generalizing a with
  | nil => simp
  | cons x l ih =>
    simp only [List.map_cons, List.foldl_cons, List.sum_cons, Ext.fin_add, ih, Ext.fin_inj]; ring

theorem sumL_fin {β : Type} (f : β → K) (l : List β) : sumL (l.map (fun p => Ext.fin (f p))) = Ext.fin ((l.map f).sum) := by
  unfold sumL
  rw [Ext.lit_eq, foldl_add_fin]
  simp

theorem fitMat_fin (ps : List (V2 K)) : fitMat (ps.map V2.fin) = (gram ps).fin := by
  have half : ((1 / 2 : ℚ) : K) = 1 / 2 := by norm_num
  simp only [fitMat, List.map_map, Function.comp_def, fitRow, V2.fin_x, V2.fin_y, Ext.lit_eq, Ext.fin_mul, half]
  simp only [gram, sumL_fin]
  rfl

theorem inv3_fin (m : M3 K) (h : det3 m ≠ 0) : inv3 m.fin = (invK m).fin := by
  have one : ((1 : ℚ) : K) = 1 := by norm_num
  simp only [inv3, M3.map, V3.map, Ext.fin_mul, Ext.fin_sub, Ext.fin_add, Ext.lit_eq, one]
  simp only [show (m.r1.y * m.r2.z - m.r1.z * m.r2.y) * m.r0.x + (m.r2.y * m.r0.z - m.r2.z * m.r0.y) * m.r1.x +
    (m.r0.y * m.r1.z - m.r0.z * m.r1.y) * m.r2.x = det3 m from rfl, Ext.fin_div _ _ h, Ext.fin_mul]
  rfl

theorem sum_dot (r : V3 K) (ps : List (V2 K)) :
    (ps.map (fun p => (r.x * p.x + r.y * p.y + r.z * (1 / 2)) * (p.dot p / 2))).sum = r.dot (grhs ps) := by
  simp only [grhs, V3.dot]
  induction ps with
  | nil => simp
  | cons a l ih =>
    simp only [List.map_cons, List.sum_cons]; linear_combination ih

theorem fitRes_fin (ps : List (V2 K)) (h : ¬ OnOneLine ps) : fitRes (ps.map V2.fin) = (solve ps).fin := by
  have hne : ps ≠ [] := by rintro rfl; exact h (onOneLine_short _ (by simp))
  have hd : det3 (gram ps) ≠ 0 := fun hc => h ((gram_singular_iff ps hne).mp hc)
  have half : ((1 / 2 : ℚ) : K) = 1 / 2 := by norm_num
  have two : ((2 : ℚ) : K) = 2 := by norm_num
  have key : ∀ r : V3 K, sumL ((ps.map V2.fin).map (fun p => r.fin.dot (fitRow p) * fitRhs p)) = Ext.fin (r.dot (grhs ps)) := by
    intro r
    rw [List.map_map]
    have : ((fun p => r.fin.dot (fitRow p) * fitRhs p) ∘ (V2.fin : V2 K → V2 (Ext K))) =
        fun p : V2 K => Ext.fin ((r.x * p.x + r.y * p.y + r.z * (1 / 2)) * (p.dot p / 2)) := by
      funext p
      simp only [Function.comp, fitRow, fitRhs, V3.dot, V3.fin_x, V3.fin_y, V3.fin_z, V2.fin_x, V2.fin_y, Ext.lit_eq, half, two,
        V2.fin_dot, Ext.fin_div _ _ (two_ne_zero : (2 : K) ≠ 0), Ext.fin_mul, Ext.fin_add]
    rw [this, sumL_fin, sum_dot]
  simp only [fitRes, fitMat_fin, inv3_fin _ hd]
  ext
  · exact key (invK (gram ps)).r0
  · exact key (invK (gram ps)).r1
  · exact key (invK (gram ps)).r2

/-! on points of one line every entry of the result is infinite or NaN -/

theorem Ext.isFin_add (a b : Ext K) : (a + b).isFin = (a.isFin && b.isFin) := by
  cases a <;> cases b <;> rfl
theorem Ext.isFin_sub (a b : Ext K) : (a - b).isFin = (a.isFin && b.isFin) := by
  cases a <;> cases b <;> rfl
theorem Ext.isFin_infSign (a : K) : (Ext.infSign a).isFin = false := by
  unfold Ext.infSign; split_ifs <;> rfl
theorem Ext.isFin_neg (a : Ext K) : (-a).isFin = a.isFin := by cases a <;> rfl
theorem Ext.isFin_mul (a b : Ext K) : (a * b).isFin = (a.isFin && b.isFin) := by
  cases a <;> cases b <;> first | rfl | exact Ext.isFin_infSign _ | (show (Ext.neg _).isFin = _; exact (Ext.isFin_neg _).trans (Ext.isFin_infSign _))

theorem foldl_notFin (l : List (Ext K)) (a : Ext K) (h : a.isFin = false) : (l.foldl (· + ·) a).isFin = false := by
  induction l generalizing a with
  | nil => exact h
  | cons x l ih => exact ih _ (by rw [Ext.isFin_add, h]; rfl)

theorem sumL_notFin (l : List (Ext K)) (hne : l ≠ []) (h : ∀ x ∈ l, x.isFin = false) : (sumL l).isFin = false := by
  cases l with
  | nil => exact absurd rfl hne
  | cons x l =>
    unfold sumL
    exact foldl_notFin l _ (by rw [Ext.isFin_add, h x (by simp)]; simp)

theorem fitRes_notFin (ps : List (V2 K)) (hne : ps ≠ []) (h : OnOneLine ps) :
    (fitRes (ps.map V2.fin)).x.isFin = false ∧ (fitRes (ps.map V2.fin)).y.isFin = false ∧ (fitRes (ps.map V2.fin)).z.isFin = false := by
  have hd : det3 (gram ps) = 0 := (gram_singular_iff ps hne).mpr h
  have one : ((1 : ℚ) : K) = 1 := by norm_num
  have hi : ∀ m : M3 K, det3 m = 0 → (inv3 m.fin).r0.x.isFin = false ∧ (inv3 m.fin).r1.x.isFin = false ∧ (inv3 m.fin).r2.x.isFin = false := by
    intro m hm
    simp only [inv3, M3.map, V3.map, Ext.fin_mul, Ext.fin_sub, Ext.fin_add, Ext.lit_eq, one]
    simp only [show (m.r1.y * m.r2.z - m.r1.z * m.r2.y) * m.r0.x + (m.r2.y * m.r0.z - m.r2.z * m.r0.y) * m.r1.x +
      (m.r0.y * m.r1.z - m.r0.z * m.r1.y) * m.r2.x = det3 m from rfl, hm, Ext.fin_div_zero, Ext.isFin_mul, Ext.isFin_infSign,
      Bool.and_false, and_self]
  obtain ⟨h0, h1, h2⟩ := hi _ hd
  have key : ∀ r : V3 (Ext K), r.x.isFin = false →
      (sumL ((ps.map V2.fin).map (fun p => r.dot (fitRow p) * fitRhs p))).isFin = false := by
    intro r hr
    apply sumL_notFin
    · simpa using hne
    · intro x hx
      obtain ⟨q, _, rfl⟩ := List.mem_map.mp hx
      simp only [V3.dot, Ext.isFin_mul, Ext.isFin_add, hr, Bool.false_and]
  simp only [fitRes, fitMat_fin]
  exact ⟨key _ h0, key _ h1, key _ h2⟩

end

theorem findCircle_fin (ps : List (V2 ℝ)) (h : ¬ OnOneLine ps) :
    findCircle (ps.map V2.fin) = some ((fitC ps).fin, Ext.fin (Real.sqrt (fitS ps))) := by
  have hlen : ¬ ps.length < 3 := fun hc => h (onOneLine_short ps hc)
  unfold findCircle
  rw [if_neg (by simpa using hlen), fitRes_fin ps h]
  have hp := fit_pos ps h
  simp only [V3.fin_x, V3.fin_y, V3.fin_z, Ext.fin_mul, Ext.fin_add]
  have e : (solve ps).z + (solve ps).x * (solve ps).x + (solve ps).y * (solve ps).y = fitS ps := by unfold fitS; ring
  rw [e, Ext.fin_sqrt _ hp.le]
  rfl

/-! ## between -/

theorem between_fin (ps : List (V2 ℝ)) (mn mx : ℝ) (h0 : 0 ≤ mn) (c : V2 ℝ) :
    between (ps.map V2.fin) (Ext.fin mn) (Ext.fin mx) c.fin =
      (ps.filter (fun p => decide (mn < dist p c ∧ dist p c < mx))).map V2.fin := by
  have hd : ∀ p : V2 ℝ, 0 ≤ dist p c := fun p => Real.sqrt_nonneg _
  have hd2 : ∀ p : V2 ℝ, dist p c * dist p c = dist2 p c := fun p => Real.mul_self_sqrt (dist2_nonneg p c)
  have zero : ((0 : ℚ) : ℝ) = 0 := by norm_num
  unfold between
  simp only [Ext.lit_eq, Ext.fin_lt, zero]
  by_cases hc : mx < 0 ∨ mx < mn
  · rw [if_pos (by simpa using hc)]
    symm
    rw [List.map_eq_nil_iff, List.filter_eq_nil_iff]
    intro p _
    simp only [decide_eq_true_eq, not_and, not_lt]
    intro h1
    have := hd p
    rcases hc with h2 | h2 <;> linarith
  · rw [if_neg (by simpa using hc)]
    push Not at hc
    rw [List.filter_map]
    congr 1
    apply List.filter_congr
    intro p _
    have e : (p.fin - c.fin).sqNorm = Ext.fin (dist2 p c) := by
      rw [V2.fin_sub, V2.fin_sqNorm]
      simp only [V2.sqNorm, V2.dot, V2.sub_x, V2.sub_y, dist2, Ext.fin_inj]; ring
    simp only [Function.comp, e, Ext.fin_mul, Ext.fin_lt]
    rw [← Bool.decide_and]
    congr 1
    apply propext
    rw [← hd2 p]
    constructor
    · rintro ⟨h1, h2⟩
      exact ⟨lt_of_mul_self_lt_mul_self₀ (hd p) h1, lt_of_mul_self_lt_mul_self₀ hc.1 h2⟩
    · rintro ⟨h1, h2⟩
      exact ⟨mul_self_lt_mul_self h0 h1, mul_self_lt_mul_self (hd p) h2⟩

/-- with a centre or radius that is not a number nothing is selected -/
theorem between_notFin (ps : List (V2 (Ext ℝ))) (c : V2 (Ext ℝ)) (r k1 k2 : Ext ℝ)
    (h : c.x.isFin = false) : between ps (r * k1) (r * k2) c = [] := by
  unfold between
  split_ifs
  · rfl
  · rw [List.filter_eq_nil_iff]
    intro p _
    have hx : ((p - c).x).isFin = false := by simp [Ext.isFin_sub, h]
    have hs : ((p - c).sqNorm) = Ext.nan ∨ ((p - c).sqNorm) = Ext.pinf := by
      obtain ⟨u, hu⟩ : ∃ u, (p - c).x = u := ⟨_, rfl⟩
      obtain ⟨v, hv⟩ : ∃ v, (p - c).y = v := ⟨_, rfl⟩
      simp only [V2.sqNorm, V2.dot, hu, hv]
      rw [hu] at hx
      have sq : ∀ w : Ext ℝ, w * w = Ext.nan ∨ w * w = Ext.pinf ∨ ∃ z, w * w = Ext.fin z := by
        intro w; cases w
        · exact Or.inr (Or.inr ⟨_, rfl⟩)
        · exact Or.inr (Or.inl rfl)
        · exact Or.inr (Or.inl rfl)
        · exact Or.inl rfl
      have su : u * u = Ext.nan ∨ u * u = Ext.pinf := by
        cases u
        · cases hx
        · exact Or.inr rfl
        · exact Or.inr rfl
        · exact Or.inl rfl
      rcases su with h1 | h1 <;> rcases sq v with h2 | h2 | ⟨z, h2⟩ <;> rw [h1, h2] <;> first | exact Or.inl rfl | exact Or.inr rfl
    rcases hs with h1 | h1 <;> simp only [h1, FP.lt, Ext.lt]
    · cases (r * k1 * (r * k1)) <;> simp
    · cases (r * k2 * (r * k2)) <;> simp

end S2P
