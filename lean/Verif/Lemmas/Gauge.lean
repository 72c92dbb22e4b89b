import Verif.Lemmas.Accuracy
import Verif.Model.Ast

set_option linter.unusedSectionVars false
set_option linter.unusedVariables false
set_option linter.unusedSimpArgs false

/-! # Errors counted in units of the last place of a bound -/

namespace S2P

/-- `x` is `a`, which is at most `B` in size, but for `k` units of `B / 2^51` -/
def Gauge {R : Rounding} (x : Fl R) (a B k : ℝ) : Prop := |a| ≤ B ∧ Fl.Near x a (k * B / 2 ^ 51)

/-- a bound in the range where no operation overflows or loses digits -/
def Sized (B : ℝ) : Prop := 1 / 2 ^ 100 ≤ B ∧ B ≤ 2 ^ 200

theorem Sized.big {B : ℝ} (h : Sized B) : 2 * B ≤ 2 ^ 1000 := by
  calc 2 * B ≤ 2 * 2 ^ 200 := by linarith [h.2]
    _ = 2 ^ 201 := by ring
    _ ≤ 2 ^ 1000 := pow_le_pow_right₀ (by norm_num) (by norm_num)

theorem Sized.pos {B : ℝ} (h : Sized B) : 0 < B := lt_of_lt_of_le (by positivity) h.1

section
variable {R : Rounding}

theorem Gauge.mono {x : Fl R} {a B k l : ℝ} (h : Gauge x a B k) (hk : k ≤ l) : Gauge x a B l := by
  refine ⟨h.1, h.2.mono ?_⟩
  have := (abs_nonneg a).trans h.1
  gcongr

theorem Gauge.widen {x : Fl R} {a B C k : ℝ} (h : Gauge x a B k) (hC : B ≤ C) (hk : 0 ≤ k) : Gauge x a C k := by
  refine ⟨h.1.trans hC, h.2.mono ?_⟩
  gcongr

theorem Gauge.to {x : Fl R} {a a' B B' k k' : ℝ} (h : Gauge x a B k) (ha : a = a') (hB : B = B') (hk : k ≤ k') : Gauge x a' B' k' := by
  subst ha hB
  exact h.mono hk

theorem gauge_fin {a B : ℝ} (h : |a| ≤ B) : Gauge (R := R) (Ext.fin a : Ext ℝ) a B 0 := by
  refine ⟨h, ?_⟩
  have := Fl.near_fin (R := R) a
  simpa using this

variable (hR : R.Accurate)
include hR

theorem Gauge.add {x y : Fl R} {a b B C k : ℝ} (hx : Gauge x a B k) (hy : Gauge y b C k) (hs : Sized (B + C)) (hk : 0 ≤ k) (hk' : k ≤ 2 ^ 24) :
    Gauge (x + y) (a + b) (B + C) (k + 2) := by
  have hB := (abs_nonneg a).trans hx.1
  have hC := (abs_nonneg b).trans hy.1
  have hab : |a + b| ≤ B + C := (abs_add_le a b).trans (add_le_add hx.1 hy.1)
  refine ⟨hab, (Fl.Near.add hR hx.2 hy.2 (S := 2 * (B + C)) ?_ ?_ ?_).mono ?_⟩
  · have h1 : k * B / 2 ^ 51 ≤ B := by
      rw [div_le_iff₀ (by positivity)]
      have : k * B ≤ 2 ^ 24 * B := by gcongr
      norm_num at this ⊢; linarith
    have h2 : k * C / 2 ^ 51 ≤ C := by
      rw [div_le_iff₀ (by positivity)]
      have : k * C ≤ 2 ^ 24 * C := by gcongr
      norm_num at this ⊢; linarith
    linarith
  · have := hs.1; have := hs.pos; linarith
  · exact hs.big
  · rw [show k * B / 2 ^ 51 + k * C / 2 ^ 51 + 2 * (B + C) / 2 ^ 51 = (k + 2) * (B + C) / 2 ^ 51 by ring]

theorem Gauge.sub {x y : Fl R} {a b B C k : ℝ} (hx : Gauge x a B k) (hy : Gauge y b C k) (hs : Sized (B + C)) (hk : 0 ≤ k) (hk' : k ≤ 2 ^ 24) :
    Gauge (x - y) (a - b) (B + C) (k + 2) := by
  have hB := (abs_nonneg a).trans hx.1
  have hC := (abs_nonneg b).trans hy.1
  have hab : |a - b| ≤ B + C := (abs_sub a b).trans (add_le_add hx.1 hy.1)
  refine ⟨hab, (Fl.Near.sub hR hx.2 hy.2 (S := 2 * (B + C)) ?_ ?_ ?_).mono ?_⟩
  · have h1 : k * B / 2 ^ 51 ≤ B := by
      rw [div_le_iff₀ (by positivity)]
      have : k * B ≤ 2 ^ 24 * B := by gcongr
      norm_num at this ⊢; linarith
    have h2 : k * C / 2 ^ 51 ≤ C := by
      rw [div_le_iff₀ (by positivity)]
      have : k * C ≤ 2 ^ 24 * C := by gcongr
      norm_num at this ⊢; linarith
    linarith
  · have := hs.1; have := hs.pos; linarith
  · exact hs.big
  · rw [show k * B / 2 ^ 51 + k * C / 2 ^ 51 + 2 * (B + C) / 2 ^ 51 = (k + 2) * (B + C) / 2 ^ 51 by ring]

theorem Gauge.mul {x y : Fl R} {a b B C k l : ℝ} (hx : Gauge x a B k) (hy : Gauge y b C l) (hs : Sized (B * C)) (hk : 0 ≤ k) (hk' : k ≤ 2 ^ 24)
    (hl : 0 ≤ l) (hl' : l ≤ 2 ^ 24) : Gauge (x * y) (a * b) (B * C) (k + l + 2) := by
  have hB := (abs_nonneg a).trans hx.1
  have hC := (abs_nonneg b).trans hy.1
  have hBC := mul_nonneg hB hC
  have hab : |a * b| ≤ B * C := by
    rw [abs_mul]; exact mul_le_mul hx.1 hy.1 (abs_nonneg _) hB
  set p := k / 2 ^ 51 with hp
  set q := l / 2 ^ 51 with hq
  have p0 : 0 ≤ p := by positivity
  have q0 : 0 ≤ q := by positivity
  have p1 : p ≤ 1 / 2 ^ 27 := by rw [hp, div_le_div_iff₀ (by positivity) (by positivity)]; norm_num at hk' ⊢; linarith
  have q1 : q ≤ 1 / 2 ^ 27 := by rw [hq, div_le_div_iff₀ (by positivity) (by positivity)]; norm_num at hl' ⊢; linarith
  have ek : k * B / 2 ^ 51 = p * B := by rw [hp]; ring
  have el : l * C / 2 ^ 51 = q * C := by rw [hq]; ring
  have hpq : k * q ≤ 1 / 8 := by
    calc k * q ≤ 2 ^ 24 * (1 / 2 ^ 27) := mul_le_mul hk' q1 q0 (by positivity)
      _ = 1 / 8 := by norm_num
  refine ⟨hab, (Fl.Near.mul hR hx.2 hy.2 hx.1 hy.1 (S := (1 + 1 / 4) * (B * C)) ?_ ?_ ?_).mono ?_⟩
  · rw [ek, el, show (B + p * B) * (C + q * C) = (1 + p) * (1 + q) * (B * C) by ring]
    refine mul_le_mul_of_nonneg_right ?_ hBC
    norm_num at p1 q1; nlinarith
  · have := hs.1; have := hs.pos; linarith
  · exact le_trans (by have := hs.pos; linarith) hs.big
  · rw [show B * (l * C / 2 ^ 51) + C * (k * B / 2 ^ 51) + k * B / 2 ^ 51 * (l * C / 2 ^ 51) + (1 + 1 / 4) * (B * C) / 2 ^ 51 =
      (k + l + k * q + (1 + 1 / 4)) * (B * C / 2 ^ 51) by rw [hq]; ring,
      show (k + l + 2) * (B * C) / 2 ^ 51 = (k + l + 2) * (B * C / 2 ^ 51) by ring]
    refine mul_le_mul_of_nonneg_right (by linarith) (by positivity)

/-- a sum from the left -/
theorem gauge_foldl {k B : ℝ} (hk : 0 ≤ k) (hB : 0 ≤ B) : ∀ (l : List (Fl R)) (f : List ℝ) (x : Fl R) (a C j : ℝ), List.Forall₂ (fun x a => Gauge x a B k) l f → Gauge x a C j →
    k ≤ j → j + 2 * l.length ≤ 2 ^ 24 → Sized C → Sized (C + l.length * B) → Gauge (l.foldl (· + ·) x) (a + f.sum) (C + l.length * B) (j + 2 * l.length) := by
  intro l
  induction l with
  | nil =>
    intro f x a C j h hx hkj hj hC hS
    cases h
    simpa using hx
  | cons y l ih =>
    intro f x a C j h hx hkj hj hC hS
    cases h with
    | @cons _ b _ f h1 h2 =>
      have hl : (0 : ℝ) ≤ l.length := Nat.cast_nonneg _
      rw [List.length_cons] at hj hS ⊢
      push_cast at hj hS ⊢
      have hm : C + B ≤ C + (l.length + 1) * B := by nlinarith
      have hSz : Sized (C + B) := ⟨by have := hC.1; linarith, hm.trans hS.2⟩
      have s1 := Gauge.add hR hx (h1.mono hkj) hSz (hk.trans hkj) (by linarith)
      have := ih f (x + y) (a + b) (C + B) (j + 2) h2 s1 (by linarith) (by linarith) hSz (by convert hS using 1; ring)
      rw [List.foldl_cons, List.sum_cons]
      convert this using 1 <;> ring

theorem gauge_lit (q : ℚ) {B : ℝ} (h : |(q : ℝ)| ≤ B) (hs : Sized B) : Gauge (R := R) (FP.lit q) q B 1 := by
  refine ⟨h, ?_⟩
  rw [one_mul]
  exact Fl.near_lit hR q h hs.1 (le_trans (by have := hs.pos; linarith) hs.big)

theorem gauge_sumL {k B : ℝ} (hk : 1 ≤ k) (hB : Sized B) (l : List (Fl R)) (f : List ℝ) (h : List.Forall₂ (fun x a => Gauge x a B k) l f)
    (hj : k + 2 * l.length ≤ 2 ^ 24) (hS : Sized ((l.length + 1) * B)) : Gauge (sumL l) f.sum ((l.length + 1) * B) (k + 2 * l.length) := by
  have h0 := gauge_lit hR (q := 0) (B := B) (by simpa using hB.pos.le) hB
  have := gauge_foldl hR (by linarith) hB.pos.le l f (FP.lit 0) ((0 : ℚ) : ℝ) B k h (h0.mono hk) le_rfl hj hB (by convert hS using 1; ring)
  rw [Rat.cast_zero, zero_add] at this
  unfold sumL
  convert this using 1; ring

end
end S2P
