import Verif.Spec.Numbers
import Verif.Lemmas.Junk
import Verif.Props.Labels
import Verif.Props.Circle
import Verif.Props.Hidden

set_option linter.unusedSectionVars false
set_option linter.unusedVariables false
set_option linter.unusedSimpArgs false

/-! # What keeps numbers finite -/

namespace S2P

section
variable {K : Type} [Field K] [LinearOrder K] [IsStrictOrderedRing K] [FloorRing K] [Trans K]

theorem Ext.okFin_fin (a : K) : (Ext.fin a).IsFin := ⟨a, rfl⟩
theorem Ext.okFin_lit (q : Rat) : (FP.lit q : Ext K).IsFin := ⟨_, rfl⟩
theorem Ext.okFin_add {x y : Ext K} (hx : x.IsFin) (hy : y.IsFin) : (x + y).IsFin := by
  obtain ⟨a, rfl⟩ := hx; obtain ⟨b, rfl⟩ := hy; exact ⟨_, rfl⟩
theorem Ext.okFin_sub {x y : Ext K} (hx : x.IsFin) (hy : y.IsFin) : (x - y).IsFin := by
  obtain ⟨a, rfl⟩ := hx; obtain ⟨b, rfl⟩ := hy; exact ⟨_, Ext.fin_sub _ _⟩
theorem Ext.okFin_mul {x y : Ext K} (hx : x.IsFin) (hy : y.IsFin) : (x * y).IsFin := by
  obtain ⟨a, rfl⟩ := hx; obtain ⟨b, rfl⟩ := hy; exact ⟨_, rfl⟩
theorem Ext.okFin_neg {x : Ext K} (hx : x.IsFin) : (-x).IsFin := by
  obtain ⟨a, rfl⟩ := hx; exact ⟨_, rfl⟩
theorem Ext.okFin_div {x : Ext K} (hx : x.IsFin) {b : K} (hb : b ≠ 0) : (x / Ext.fin b).IsFin := by
  obtain ⟨a, rfl⟩ := hx; exact ⟨_, Ext.fin_div _ _ hb⟩
theorem Ext.okFin_f32 {x : Ext K} (hx : x.IsFin) : (FP.f32 x : Ext K).IsFin := hx

theorem V2.okFin_mk {x y : Ext K} (hx : x.IsFin) (hy : y.IsFin) : (⟨x, y⟩ : V2 (Ext K)).IsFin := by
  obtain ⟨a, rfl⟩ := hx; obtain ⟨b, rfl⟩ := hy; exact ⟨⟨a, b⟩, rfl⟩
theorem V2.okFin_x {p : V2 (Ext K)} (h : p.IsFin) : p.x.IsFin := by obtain ⟨a, rfl⟩ := h; exact ⟨a.x, rfl⟩
theorem V2.okFin_y {p : V2 (Ext K)} (h : p.IsFin) : p.y.IsFin := by obtain ⟨a, rfl⟩ := h; exact ⟨a.y, rfl⟩
theorem V2.okFin_add {p q : V2 (Ext K)} (hp : p.IsFin) (hq : q.IsFin) : (p + q).IsFin :=
  V2.okFin_mk (Ext.okFin_add (V2.okFin_x hp) (V2.okFin_x hq)) (Ext.okFin_add (V2.okFin_y hp) (V2.okFin_y hq))
theorem V2.okFin_sub {p q : V2 (Ext K)} (hp : p.IsFin) (hq : q.IsFin) : (p - q).IsFin :=
  V2.okFin_mk (Ext.okFin_sub (V2.okFin_x hp) (V2.okFin_x hq)) (Ext.okFin_sub (V2.okFin_y hp) (V2.okFin_y hq))
theorem V2.okFin_smul {p : V2 (Ext K)} {s : Ext K} (hp : p.IsFin) (hs : s.IsFin) : (p.smul s).IsFin :=
  V2.okFin_mk (Ext.okFin_mul (V2.okFin_x hp) hs) (Ext.okFin_mul (V2.okFin_y hp) hs)
theorem V2.okFin_sdiv {p : V2 (Ext K)} (hp : p.IsFin) {b : K} (hb : b ≠ 0) : (p.sdiv (Ext.fin b)).IsFin :=
  V2.okFin_mk (Ext.okFin_div (V2.okFin_x hp) hb) (Ext.okFin_div (V2.okFin_y hp) hb)
theorem V2.okFin_moved {p d : V2 (Ext K)} {s : Ext K} (hp : p.IsFin) (hs : s.IsFin) (hd : d.IsFin) : (p.moved s d).IsFin := by
  obtain ⟨p, rfl⟩ := hp; obtain ⟨d, rfl⟩ := hd; obtain ⟨s, rfl⟩ := hs
  exact ⟨_, fin_moved _ _ _⟩

theorem V3.okFin_mk {x y z : Ext K} (hx : x.IsFin) (hy : y.IsFin) (hz : z.IsFin) : (⟨x, y, z⟩ : V3 (Ext K)).IsFin := by
  obtain ⟨a, rfl⟩ := hx; obtain ⟨b, rfl⟩ := hy; obtain ⟨c, rfl⟩ := hz; exact ⟨⟨a, b, c⟩, rfl⟩
theorem V3.okFin_x {p : V3 (Ext K)} (h : p.IsFin) : p.x.IsFin := by obtain ⟨a, rfl⟩ := h; exact ⟨a.x, rfl⟩
theorem V3.okFin_y {p : V3 (Ext K)} (h : p.IsFin) : p.y.IsFin := by obtain ⟨a, rfl⟩ := h; exact ⟨a.y, rfl⟩
theorem V3.okFin_z {p : V3 (Ext K)} (h : p.IsFin) : p.z.IsFin := by obtain ⟨a, rfl⟩ := h; exact ⟨a.z, rfl⟩
theorem V3.okFin_xy {p : V3 (Ext K)} (h : p.IsFin) : p.xy.IsFin := V2.okFin_mk (V3.okFin_x h) (V3.okFin_y h)
theorem V3.okFin_add {p q : V3 (Ext K)} (hp : p.IsFin) (hq : q.IsFin) : (p + q).IsFin := by
  obtain ⟨p, rfl⟩ := hp; obtain ⟨q, rfl⟩ := hq; exact ⟨_, V3.fin_add _ _⟩
theorem V3.okFin_sub {p q : V3 (Ext K)} (hp : p.IsFin) (hq : q.IsFin) : (p - q).IsFin := by
  obtain ⟨p, rfl⟩ := hp; obtain ⟨q, rfl⟩ := hq; exact ⟨_, V3.fin_sub _ _⟩
theorem V3.okFin_neg {p : V3 (Ext K)} (hp : p.IsFin) : (-p).IsFin := by
  obtain ⟨p, rfl⟩ := hp; exact ⟨_, V3.fin_neg _⟩
theorem V3.okFin_smul {p : V3 (Ext K)} {s : Ext K} (hp : p.IsFin) (hs : s.IsFin) : (p.smul s).IsFin := by
  obtain ⟨p, rfl⟩ := hp; obtain ⟨s, rfl⟩ := hs; exact ⟨_, V3.fin_smul _ _⟩
theorem V3.okFin_sdiv {p : V3 (Ext K)} (hp : p.IsFin) {b : K} (hb : b ≠ 0) : (p.sdiv (Ext.fin b)).IsFin := by
  obtain ⟨p, rfl⟩ := hp; exact ⟨_, V3.fin_sdiv _ _ hb⟩
theorem V3.okFin_dot {p q : V3 (Ext K)} (hp : p.IsFin) (hq : q.IsFin) : (p.dot q).IsFin := by
  obtain ⟨p, rfl⟩ := hp; obtain ⟨q, rfl⟩ := hq; exact ⟨_, V3.fin_dot _ _⟩

theorem Line.okFin_of3 {p q : V3 (Ext K)} (hp : p.IsFin) (hq : q.IsFin) : (Line.of3 p q).IsFin := ⟨V3.okFin_xy hp, V3.okFin_xy hq⟩
theorem Line.okFin_mk {p q : V2 (Ext K)} (hp : p.IsFin) (hq : q.IsFin) : (⟨p, q⟩ : Line (Ext K)).IsFin := ⟨hp, hq⟩

theorem OutPage.okFin_empty : (OutPage.empty : OutPage (Ext K)).IsFin := by
  refine ⟨?_, ?_, ?_⟩ <;> intro x hx <;> cases hx
theorem OutPage.okFin_app {P Q : OutPage (Ext K)} (hP : P.IsFin) (hQ : Q.IsFin) : (P.app Q).IsFin := by
  refine ⟨?_, ?_, ?_⟩ <;> intro x hx <;> rcases List.mem_append.1 hx with h | h
  · exact hP.1 x h
  · exact hQ.1 x h
  · exact hP.2.1 x h
  · exact hQ.2.1 x h
  · exact hP.2.2 x h
  · exact hQ.2.2 x h
theorem OutPage.okFin_sum : ∀ {Ps : List (OutPage (Ext K))}, (∀ P ∈ Ps, P.IsFin) → (OutPage.sum Ps).IsFin
  | [], _ => OutPage.okFin_empty
  | P :: Ps, h => OutPage.okFin_app (h P (by simp)) (OutPage.okFin_sum (fun Q hQ => h Q (by simp [hQ])))
theorem OutPage.okFin_moved {P : OutPage (Ext K)} (hP : P.IsFin) {s : Ext K} {d : V2 (Ext K)} (hs : s.IsFin) (hd : d.IsFin) : (P.moved s d).IsFin := by
  refine ⟨?_, ?_, ?_⟩ <;> intro x hx <;> obtain ⟨y, hy, rfl⟩ := List.mem_map.1 hx
  · exact ⟨V2.okFin_moved (hP.1 y hy).1 hs hd, V2.okFin_moved (hP.1 y hy).2 hs hd⟩
  · obtain ⟨h1, h2, h3, h4⟩ := hP.2.1 y hy
    exact ⟨V2.okFin_moved h1 hs hd, Ext.okFin_mul h2 hs, h3, h4⟩
  · exact V2.okFin_moved (hP.2.2 y hy) hs hd
end

theorem V3.okFin_norm {p : V3 (Ext ℝ)} (hp : p.IsFin) : p.norm.IsFin := by
  obtain ⟨p, rfl⟩ := hp; exact ⟨_, norm_real p⟩
theorem V3.okFin_normalized {p : V3 (Ext ℝ)} (hp : p.IsFin) : p.normalized.IsFin := by
  obtain ⟨p, rfl⟩ := hp
  by_cases h : p = ⟨0, 0, 0⟩
  · subst h; exact ⟨_, normalized_zero⟩
  · exact ⟨_, normalized_real h⟩

/-- close a goal that a number, point or line is finite -/
macro "fin_tac" : tactic => `(tactic| repeat' first
  | assumption
  | apply Ext.okFin_lit | apply Line.okFin_of3 | apply Line.okFin_mk
  | (refine V3.okFin_sdiv ?_ (by assumption)) | (refine V2.okFin_sdiv ?_ (by assumption)) | (refine Ext.okFin_div ?_ (by assumption))
  | apply V3.okFin_add | apply V3.okFin_sub | apply V3.okFin_neg | apply V3.okFin_smul | apply V3.okFin_xy
  | apply V3.okFin_normalized
  | apply V2.okFin_add | apply V2.okFin_sub | apply V2.okFin_smul
  | apply Ext.okFin_add | apply Ext.okFin_sub | apply Ext.okFin_mul | apply Ext.okFin_neg
  | apply V3.okFin_dot | apply V3.okFin_norm
  | (apply V3.okFin_x; assumption) | (apply V3.okFin_y; assumption) | (apply V3.okFin_z; assumption)
  | (apply V2.okFin_x; assumption) | (apply V2.okFin_y; assumption)
  | apply V3.okFin_mk | apply V2.okFin_mk)

theorem lines_fin {l : List (Line (Ext ℝ))} (h : List.Forall Line.IsFin l) : ∀ x ∈ l, x.IsFin := List.forall_iff_forall_mem.1 h

/-- the smaller of two quotients by the components of a unit vector is finite, or not above 1 -/
theorem len_fin (dx dy : Ext ℝ) (hx : dx.IsFin) (hy : dy.IsFin) (n : V2 ℝ) (hn : n.x ^ 2 + n.y ^ 2 = 1)
    (h : FP.lt (FP.lit 1) (FP.min (dx / Ext.fin n.x) (dy / Ext.fin n.y)) = true) : (FP.min (dx / Ext.fin n.x) (dy / Ext.fin n.y)).IsFin := by
  obtain ⟨a, rfl⟩ := hx
  obtain ⟨b, rfl⟩ := hy
  by_cases h1 : n.x = 0
  · have h2 : n.y ≠ 0 := by intro h2; simp [h1, h2] at hn
    rw [h1, Ext.fin_div_zero, Ext.fin_div _ _ h2] at h ⊢
    unfold FP.min at h ⊢
    rcases lt_trichotomy a 0 with ha | ha | ha
    · simp [Ext.infSign, ha, not_lt.mpr ha.le, FP.lt, Ext.lt, ha.ne] at h
    · subst ha; simp [Ext.infSign, FP.lt, Ext.lt] at h
    · simp [Ext.infSign, ha, FP.lt, Ext.lt, ha.ne', ha.le]; exact ⟨_, rfl⟩
  · by_cases h2 : n.y = 0
    · rw [h2, Ext.fin_div_zero, Ext.fin_div _ _ h1] at h ⊢
      unfold FP.min at h ⊢
      rcases lt_trichotomy b 0 with ha | ha | ha
      · simp [Ext.infSign, ha, not_lt.mpr ha.le, FP.lt, Ext.lt, ha.ne] at h
      · subst ha; simp [Ext.infSign, FP.lt, Ext.lt] at h ⊢; exact ⟨_, rfl⟩
      · simp [Ext.infSign, ha, FP.lt, Ext.lt, ha.ne', ha.le]; exact ⟨_, rfl⟩
    · rw [Ext.fin_div _ _ h1, Ext.fin_div _ _ h2, Ext.fin_min]; exact ⟨_, rfl⟩

theorem diaItems_fin (g : Ext ℝ → Str) (s : ℝ) (hs : s ≠ 0) (c : Circ (Ext ℝ)) (ha : c.at_.IsFin) (d : V2 ℝ) (hd : c.dir = d.fin) (hd0 : d ≠ ⟨0, 0⟩)
    (hc : c.center.IsFin) (hr : c.rad.IsFin) : (diaItems g (Ext.fin s) c).IsFin := by
  obtain ⟨n, hn, hn1, -⟩ := normalized2_real d hd0
  have hnf : V2.IsFin n.fin := ⟨n, rfl⟩
  have hl := len_fin (c.at_ - c.center).x (c.at_ - c.center).y (V2.okFin_x (by fin_tac)) (V2.okFin_y (by fin_tac)) n hn1
  rw [show Ext.fin n.x = n.fin.x from rfl, show Ext.fin n.y = n.fin.y from rfl] at hl
  have hD : (V2.sdiv n.fin (Ext.fin s)).IsFin := by fin_tac
  unfold diaItems
  rw [hd, hn]
  dsimp only
  generalize FP.min ((c.at_ - c.center).x / n.fin.x) ((c.at_ - c.center).y / n.fin.y) = len at hl ⊢
  refine ⟨lines_fin ?_, by simp, ?_⟩
  · rw [List.forall_append]
    constructor
    · split
      · rename_i hlen
        have := hl hlen
        refine ⟨?_, ?_⟩ <;> fin_tac
      · refine ⟨?_, ?_⟩ <;> fin_tac
    · refine ⟨?_, ?_, ?_, ?_⟩ <;> fin_tac
  · intro t ht
    simp only [List.mem_cons, List.not_mem_nil, or_false] at ht
    subst ht
    fin_tac

theorem radItems_fin (g : Ext ℝ → Str) (s : ℝ) (hs : s ≠ 0) (c : Circ (Ext ℝ)) (ha : c.at_.IsFin) (d : V2 ℝ) (hd : c.dir = d.fin) (hd0 : d ≠ ⟨0, 0⟩)
    (hc : c.center.IsFin) (hr : c.rad.IsFin) : (radItems g (Ext.fin s) c).IsFin := by
  obtain ⟨n, hn, hn1, -⟩ := normalized2_real d hd0
  have hnf : V2.IsFin n.fin := ⟨n, rfl⟩
  have hl := len_fin (c.at_ - c.center).x (c.at_ - c.center).y (V2.okFin_x (by fin_tac)) (V2.okFin_y (by fin_tac)) n hn1
  rw [show Ext.fin n.x = n.fin.x from rfl, show Ext.fin n.y = n.fin.y from rfl] at hl
  have hD : (V2.sdiv n.fin (Ext.fin s)).IsFin := by fin_tac
  unfold radItems
  rw [hd, hn]
  dsimp only
  generalize FP.min ((c.at_ - c.center).x / n.fin.x) ((c.at_ - c.center).y / n.fin.y) = len at hl ⊢
  refine ⟨lines_fin ?_, by simp, ?_⟩
  · rw [List.forall_append]
    constructor
    · split
      · rename_i hlen
        have := hl hlen
        refine ⟨?_, ?_⟩ <;> fin_tac
      · refine ⟨?_, ?_⟩ <;> fin_tac
    · refine ⟨?_, ?_⟩ <;> fin_tac
  · intro t ht
    simp only [List.mem_cons, List.not_mem_nil, or_false] at ht
    subst ht
    fin_tac

theorem fin_abs (a : ℝ) : (FP.abs (Ext.fin a) : Ext ℝ) = Ext.fin |a| := by
  unfold FP.abs
  by_cases h : a < 0
  · simp [h, abs_of_neg h]
  · simp [h, abs_of_nonneg (not_lt.mp h)]

/-- the gap left for the label is finite, or the label does not fit -/
theorem gap_fin (w h ax ay x s : ℝ) (hw : 0 < w) (hh : 0 < h) (hs : 0 < s)
    (hfit : FP.lt (FP.min (FP.abs (Ext.fin w / Ext.fin ax)) (FP.abs (Ext.fin h / Ext.fin ay)) / Ext.fin s * FP.lit 2) (Ext.fin x) = true) :
    (FP.min (FP.abs (Ext.fin w / Ext.fin ax)) (FP.abs (Ext.fin h / Ext.fin ay)) / Ext.fin s : Ext ℝ).IsFin := by
  have habs : ∀ a b : ℝ, 0 < a → (b ≠ 0 ∧ FP.abs (Ext.fin a / Ext.fin b) = Ext.fin |a / b|) ∨ (b = 0 ∧ FP.abs (Ext.fin a / Ext.fin b) = (Ext.pinf : Ext ℝ)) := by
    intro a b ha
    by_cases hb : b = 0
    · right; subst hb; rw [Ext.fin_div_zero]; simp [Ext.infSign, ha, ha.ne', FP.abs, FP.lt, Ext.lt]
    · left; rw [Ext.fin_div _ _ hb]; exact ⟨hb, fin_abs _⟩
  rcases habs w ax hw with ⟨_, e1⟩ | ⟨_, e1⟩ <;> rcases habs h ay hh with ⟨_, e2⟩ | ⟨_, e2⟩ <;> rw [e1, e2] at hfit ⊢
  · rw [Ext.fin_min]; exact Ext.okFin_div ⟨_, rfl⟩ hs.ne'
  · simp only [FP.min, FP.lt, Ext.lt]; exact Ext.okFin_div ⟨_, rfl⟩ hs.ne'
  · simp only [FP.min, FP.lt, Ext.lt]; exact Ext.okFin_div ⟨_, rfl⟩ hs.ne'
  · exfalso
    have : (FP.min (Ext.pinf : Ext ℝ) Ext.pinf / Ext.fin s * FP.lit 2 : Ext ℝ) = Ext.pinf := by
      have e : FP.min (Ext.pinf : Ext ℝ) Ext.pinf = Ext.pinf := rfl
      rw [e]
      have e2 : (Ext.pinf / Ext.fin s : Ext ℝ) = Ext.pinf := by
        show (if s < 0 then _ else _) = _
        rw [if_neg (not_lt.mpr hs.le)]
      rw [e2, Ext.lit_eq]
      show Ext.infSign _ = _
      simp [Ext.infSign]
    rw [this] at hfit
    simp [FP.lt, Ext.lt] at hfit

theorem dimItems_fin (g : Ext ℝ → Str) (s : ℝ) (hs : 0 < s) (a d f t : V3 (Ext ℝ)) (ha : a.IsFin) (hd : d.IsFin) (hf : f.IsFin) (ht : t.IsFin) :
    (dimItems g (Ext.fin s) a d f t).IsFin := by
  have hs0 := hs.ne'
  unfold dimItems
  dsimp only
  have h1 : (a + d.smul (d.dot (f - a))).IsFin := by fin_tac
  have h2 : (a + d.smul (d.dot (t - a))).IsFin := by fin_tac
  generalize a + d.smul (d.dot (f - a)) = p at h1 ⊢
  generalize a + d.smul (d.dot (t - a)) = q at h2 ⊢
  have h3 : (q - p).IsFin := by fin_tac
  have h4 : (q - p).norm.IsFin := by fin_tac
  have h5 : ((⟨(q - p).x, (q - p).y, FP.lit 0⟩ : V3 (Ext ℝ)).normalized.sdiv (Ext.fin s)).IsFin := by
    fin_tac
  generalize ((⟨(q - p).x, (q - p).y, FP.lit 0⟩ : V3 (Ext ℝ)).normalized.sdiv (Ext.fin s)) = u at h5 ⊢
  obtain ⟨u, rfl⟩ := h5
  have h5 : V3.IsFin u.fin := ⟨u, rfl⟩
  obtain ⟨x, hx⟩ := h4
  rw [hx]
  generalize hg : (g (Ext.fin x)).length = n
  have hgap := gap_fin (8 * (3 / 10) * n + 1) (8 * (333 / 1000) + 1) u.x u.y (x * s) s (by positivity) (by norm_num) hs
  have e1 : (FP.lit kFontSize * FP.lit (3 / 10) * FP.lit (n : Rat) + FP.lit 1 : Ext ℝ) = Ext.fin (8 * (3 / 10) * (n : ℝ) + 1) := by
    simp [kFontSize]
  have e2 : (FP.lit kFontSize * FP.lit (333 / 1000) + FP.lit 1 : Ext ℝ) = Ext.fin (8 * (333 / 1000) + 1) := by
    simp [kFontSize]
  rw [e1, e2]
  rw [show Ext.fin u.x = u.fin.x from rfl, show Ext.fin u.y = u.fin.y from rfl, ← Ext.fin_mul] at hgap
  generalize FP.min (FP.abs (Ext.fin (8 * (3 / 10) * (n : ℝ) + 1) / u.fin.x)) (FP.abs (Ext.fin (8 * (333 / 1000) + 1) / u.fin.y)) / Ext.fin s = gap at hgap ⊢
  have hsg : ∀ b : Bool, (if b then FP.lit 1 else FP.lit (-1) : Ext ℝ).IsFin := by intro b; cases b <;> exact Ext.okFin_lit _
  have hb : (⟨-u.fin.y, u.fin.x, FP.lit 0⟩ : V3 (Ext ℝ)).IsFin := by fin_tac
  generalize (⟨-u.fin.y, u.fin.x, FP.lit 0⟩ : V3 (Ext ℝ)) = b at hb ⊢
  have s1 := hsg (FP.lt (FP.lit 0) ((f - a).dot b))
  have s2 := hsg (FP.lt (FP.lit 0) ((t - a).dot b))
  generalize (if FP.lt (FP.lit 0) ((f - a).dot b) = true then FP.lit 1 else FP.lit (-1) : Ext ℝ) = x1 at s1 ⊢
  generalize (if FP.lt (FP.lit 0) ((t - a).dot b) = true then FP.lit 1 else FP.lit (-1) : Ext ℝ) = x2 at s2 ⊢
  refine ⟨lines_fin ?_, by simp, ?_⟩
  · rw [List.forall_append]
    split
    · rename_i hfit
      have := hgap hfit
      refine ⟨⟨?_, ?_⟩, ?_, ?_, ?_, ?_, ?_, ?_⟩ <;> fin_tac
    · refine ⟨⟨?_, ?_⟩, ?_, ?_, ?_, ?_, ?_, ?_⟩ <;> fin_tac
  · intro t ht
    simp only [List.mem_cons, List.not_mem_nil, or_false] at ht
    subst ht
    fin_tac

theorem angleItems_fin (g : Ext ℝ → Str) (s : ℝ) (hs : s ≠ 0) (a x fd fp td tp : V3 (Ext ℝ)) (ha : a.IsFin) (hx : x.IsFin)
    (hfd : fd.IsFin) (hfp : fp.IsFin) (htd : td.IsFin) (htp : tp.IsFin) (hne : FP.eq (fd.cross td).z (FP.lit 0) = false) :
    (angleItems g (Ext.fin s) a x fd fp td tp).IsFin := by
  obtain ⟨u, rfl⟩ := hfd
  obtain ⟨w, rfl⟩ := htd
  have hu : u ≠ ⟨0, 0, 0⟩ := by
    rintro rfl
    simp [V3.fin_cross, V3.map, V3.cross] at hne
  have hw : w ≠ ⟨0, 0, 0⟩ := by
    rintro rfl
    simp [V3.fin_cross, V3.map, V3.cross] at hne
  have hlu := (len3_pos hu).ne'
  have hlw := (len3_pos hw).ne'
  have hfd : V3.IsFin u.fin := ⟨u, rfl⟩
  have htd : V3.IsFin w.fin := ⟨w, rfl⟩
  unfold angleItems
  dsimp only
  rw [norm_real u, norm_real w, Ext.f32_eq]
  have hgap : (FP.lit 2 / Ext.fin s : Ext ℝ).IsFin := by fin_tac
  have hl : (a - x).norm.IsFin := by fin_tac
  refine ⟨lines_fin ?_, ?_, ?_⟩
  · refine ⟨?_, ?_, ?_, ?_, ?_, ?_⟩ <;> fin_tac
  · intro y hy
    simp only [List.mem_cons, List.not_mem_nil, or_false] at hy
    subst hy
    exact ⟨V3.okFin_xy hx, hl, ⟨_, rfl⟩, ⟨_, rfl⟩⟩
  · intro t ht
    simp only [List.mem_cons, List.not_mem_nil, or_false] at ht
    subst ht
    fin_tac
end S2P
