import Verif.Spec.Round
import Verif.Lemmas.Ext
import Mathlib.Analysis.SpecialFunctions.Trigonometric.Basic

set_option linter.unusedSectionVars false
set_option linter.unusedVariables false
set_option linter.unusedSimpArgs false

/-! # Rounded arithmetic satisfies `FPRound`; binary64 is a rounding -/

namespace S2P

/-! ## binary64 and binary32 -/

section
variable (I : IntRounding) (p : ℕ) (emin : ℤ)

theorem two_zpow_pos (k : ℤ) : (0 : ℝ) < 2 ^ k := zpow_pos (by norm_num) k

/-- a multiple of the last place above `x` stays above -/
theorem roundTo_le {x : ℝ} (m : ℤ) (h : x ≤ m * 2 ^ lastPlace p emin x) : roundTo I p emin x ≤ m * 2 ^ lastPlace p emin x := by
  unfold roundTo
  have hu := two_zpow_pos (lastPlace p emin x)
  refine mul_le_mul_of_nonneg_right ?_ hu.le
  have : I.ri (x / 2 ^ lastPlace p emin x) ≤ I.ri (m : ℝ) := I.mono (by rwa [div_le_iff₀ hu])
  rw [I.int] at this
  exact_mod_cast this

theorem le_roundTo {x : ℝ} (m : ℤ) (h : m * 2 ^ lastPlace p emin x ≤ x) : m * 2 ^ lastPlace p emin x ≤ roundTo I p emin x := by
  unfold roundTo
  have hu := two_zpow_pos (lastPlace p emin x)
  refine mul_le_mul_of_nonneg_right ?_ hu.le
  have : I.ri (m : ℝ) ≤ I.ri (x / 2 ^ lastPlace p emin x) := I.mono (by rwa [le_div_iff₀ hu])
  rw [I.int] at this
  exact_mod_cast this

/-- a power of two not below the last place is a multiple of it -/
theorem pow_multiple {a k : ℤ} (h : a ≤ k) : (2 : ℝ) ^ k = ((2 ^ (k - a).toNat : ℤ) : ℝ) * 2 ^ a := by
  push_cast
  rw [← zpow_natCast, ← zpow_add₀ (by norm_num)]
  congr 1
  omega

theorem roundTo_mono (hp : 1 ≤ p) : Monotone (roundTo I p emin) := by
  intro x y hxy
  -- a common multiple between them suffices
  have mid : ∀ (c : ℝ) (m n : ℤ), c = m * 2 ^ lastPlace p emin x → c = n * 2 ^ lastPlace p emin y → x ≤ c → c ≤ y →
      roundTo I p emin x ≤ roundTo I p emin y := by
    intro c m n h1 h2 h3 h4
    calc roundTo I p emin x ≤ c := by rw [h1]; exact roundTo_le I p emin m (h1 ▸ h3)
      _ ≤ roundTo I p emin y := by rw [h2]; exact le_roundTo I p emin n (h2 ▸ h4)
  by_cases he : lastPlace p emin x = lastPlace p emin y
  · unfold roundTo
    rw [he]
    have hu := two_zpow_pos (lastPlace p emin y)
    refine mul_le_mul_of_nonneg_right ?_ hu.le
    exact_mod_cast I.mono ((div_le_div_iff_of_pos_right hu).mpr hxy)
  · have hpz : (1 : ℤ) ≤ p := by exact_mod_cast hp
    rcases le_or_gt x 0 with hx | hx
    · rcases le_or_gt 0 y with hy | hy
      · exact mid 0 0 0 (by simp) (by simp) hx hy
      · -- both negative
        have hab : |y| ≤ |x| := by rw [abs_of_neg hy, abs_of_nonpos hx]; linarith
        have hl : Int.log 2 |y| ≤ Int.log 2 |x| := Int.log_mono_right (abs_pos.mpr hy.ne) hab
        have hx0 : x ≠ 0 := by intro h; rw [h] at hxy; linarith
        have hlt : Int.log 2 |y| < Int.log 2 |x| := by
          rcases hl.lt_or_eq with h | h
          · exact h
          · exact absurd (by unfold lastPlace; rw [h]) he
        have hx1 : (2 : ℝ) ^ Int.log 2 |x| ≤ |x| := by exact_mod_cast Int.zpow_log_le_self (by norm_num) (abs_pos.mpr hx0)
        have hy1 : |y| < (2 : ℝ) ^ (Int.log 2 |y| + 1) := by exact_mod_cast Int.lt_zpow_succ_log_self (b := 2) (by norm_num) |y|
        have hy2 : (2 : ℝ) ^ (Int.log 2 |y| + 1) ≤ 2 ^ Int.log 2 |x| := zpow_le_zpow_right₀ (by norm_num) (by omega)
        have ax := abs_of_nonpos hx
        have ay := abs_of_neg hy
        have hne : emin < Int.log 2 |x| + 1 - p := by
          by_contra hc
          apply he
          unfold lastPlace
          rw [max_eq_right (by omega), max_eq_right (by omega)]
        have k1 : lastPlace p emin x ≤ Int.log 2 |x| := by unfold lastPlace; rw [max_le_iff]; omega
        have k2 : lastPlace p emin y ≤ Int.log 2 |x| := by unfold lastPlace; rw [max_le_iff]; omega
        refine mid (-2 ^ Int.log 2 |x|) (-2 ^ (Int.log 2 |x| - lastPlace p emin x).toNat) (-2 ^ (Int.log 2 |x| - lastPlace p emin y).toNat) ?_ ?_ ?_ ?_
        · rw [pow_multiple k1]; push_cast; ring
        · conv_lhs => rw [pow_multiple k2]
          push_cast; ring
        · linarith
        · linarith
    · have hy : 0 < y := lt_of_lt_of_le hx hxy
      have hab : |x| ≤ |y| := by rw [abs_of_pos hx, abs_of_pos hy]; exact hxy
      have hl : Int.log 2 |x| ≤ Int.log 2 |y| := Int.log_mono_right (abs_pos.mpr hx.ne') hab
      have hlt : Int.log 2 |x| < Int.log 2 |y| := by
        rcases hl.lt_or_eq with h | h
        · exact h
        · exact absurd (by unfold lastPlace; rw [h]) he
      have hy1 : (2 : ℝ) ^ Int.log 2 |y| ≤ |y| := by exact_mod_cast Int.zpow_log_le_self (by norm_num) (abs_pos.mpr hy.ne')
      have hx1 : |x| < (2 : ℝ) ^ (Int.log 2 |x| + 1) := by exact_mod_cast Int.lt_zpow_succ_log_self (b := 2) (by norm_num) |x|
      have hx2 : (2 : ℝ) ^ (Int.log 2 |x| + 1) ≤ 2 ^ Int.log 2 |y| := zpow_le_zpow_right₀ (by norm_num) (by omega)
      have hne : emin < Int.log 2 |y| + 1 - p := by
        by_contra hc
        apply he
        unfold lastPlace
        rw [max_eq_right (by omega), max_eq_right (by omega)]
      have k1 : lastPlace p emin x ≤ Int.log 2 |y| := by unfold lastPlace; rw [max_le_iff]; omega
      have k2 : lastPlace p emin y ≤ Int.log 2 |y| := by unfold lastPlace; rw [max_le_iff]; omega
      rw [abs_of_pos hx] at hx1
      refine mid (2 ^ Int.log 2 |y|) (2 ^ (Int.log 2 |y| - lastPlace p emin x).toNat) (2 ^ (Int.log 2 |y| - lastPlace p emin y).toNat) ?_ ?_ ?_ ?_
      · exact pow_multiple k1
      · exact pow_multiple k2
      · rw [abs_of_pos hx] at hx2; exact hx1.le.trans hx2
      · rw [abs_of_pos hy] at *; exact hy1

theorem roundTo_zero : roundTo I p emin 0 = 0 := by
  unfold roundTo
  rw [zero_div, show (0 : ℝ) = ((0 : ℤ) : ℝ) by simp, I.int]
  simp

theorem log_abs_pow (k : ℤ) : Int.log 2 |(2 : ℝ) ^ k| = k := by
  rw [abs_of_pos (two_zpow_pos k)]
  exact_mod_cast Int.log_zpow (R := ℝ) (b := 2) (by norm_num) k

theorem roundTo_pow (hp : 1 ≤ p) (k : ℤ) (hk : emin ≤ k) : roundTo I p emin (2 ^ k) = 2 ^ k := by
  have hpz : (1 : ℤ) ≤ p := by exact_mod_cast hp
  have h1 : lastPlace p emin (2 ^ k) ≤ k := by unfold lastPlace; rw [log_abs_pow, max_le_iff]; omega
  have e := pow_multiple h1
  apply le_antisymm
  · have := roundTo_le I p emin (x := 2 ^ k) _ e.le; rwa [← e] at this
  · have := le_roundTo I p emin (x := 2 ^ k) _ e.ge; rwa [← e] at this

theorem roundTo_npow (hp : 1 ≤ p) (k : ℤ) (hk : emin ≤ k) : roundTo I p emin (-2 ^ k) = -2 ^ k := by
  have hpz : (1 : ℤ) ≤ p := by exact_mod_cast hp
  have h1 : lastPlace p emin (-2 ^ k) ≤ k := by unfold lastPlace; rw [abs_neg, log_abs_pow, max_le_iff]; omega
  have e : (-2 ^ k : ℝ) = ((-2 ^ (k - lastPlace p emin (-2 ^ k)).toNat : ℤ) : ℝ) * 2 ^ lastPlace p emin (-2 ^ k) := by
    conv_lhs => rw [pow_multiple h1]
    push_cast; ring
  apply le_antisymm
  · have := roundTo_le I p emin (x := -2 ^ k) _ e.le; rwa [← e] at this
  · have := le_roundTo I p emin (x := -2 ^ k) _ e.ge; rwa [← e] at this
end

/-- IEEE 754 binary64 and binary32, rounding in the direction given -/
noncomputable def binary64 (I : IntRounding) (range64 range32 : ℚ → Bool) : Rounding where
  rnd := roundTo I 53 (-1074)
  mono := roundTo_mono I 53 _ (by norm_num)
  zero := roundTo_zero I _ _
  pow k h1 _ := roundTo_pow I 53 _ (by norm_num) k h1
  npow k h1 _ := roundTo_npow I 53 _ (by norm_num) k h1
  rnd32 := roundTo I 24 (-149)
  mono32 := roundTo_mono I 24 _ (by norm_num)
  zero32 := roundTo_zero I _ _
  pow32 k h1 _ := roundTo_pow I 24 _ (by norm_num) k h1
  npow32 k h1 _ := roundTo_npow I 24 _ (by norm_num) k h1
  range64 := range64
  range32 := range32

/-- rounding down, up, and to the nearest -/
noncomputable def IntRounding.down : IntRounding := ⟨Int.floor, Int.floor_mono, Int.floor_intCast⟩
noncomputable def IntRounding.up : IntRounding := ⟨Int.ceil, Int.ceil_mono, Int.ceil_intCast⟩

/-- to nearest, ties to even -/
noncomputable def nearestEven (x : ℝ) : ℤ :=
  if Int.fract x < 1 / 2 then ⌊x⌋ else if 1 / 2 < Int.fract x then ⌊x⌋ + 1 else if Even ⌊x⌋ then ⌊x⌋ else ⌊x⌋ + 1

theorem nearestEven_mono : Monotone nearestEven := by
  intro a b h
  have hf := Int.floor_mono h
  rcases lt_or_eq_of_le hf with h1 | h1
  · have : nearestEven a ≤ ⌊a⌋ + 1 := by unfold nearestEven; split_ifs <;> omega
    have : ⌊b⌋ ≤ nearestEven b := by unfold nearestEven; split_ifs <;> omega
    omega
  · have : Int.fract a ≤ Int.fract b := by
      have e : (⌊a⌋ : ℝ) = ⌊b⌋ := by rw [h1]
      unfold Int.fract; linarith
    unfold nearestEven
    rw [h1]
    split_ifs <;> first | omega | (exfalso; linarith) | skip

noncomputable def IntRounding.nearest : IntRounding := ⟨nearestEven, nearestEven_mono, fun n => by
  unfold nearestEven
  rw [if_pos (by rw [Int.fract_intCast]; norm_num), Int.floor_intCast]⟩

/-! ## `Fl R` -/

section
variable (R : Rounding)

theorem rnd_le {x : ℝ} {n : ℕ} (hn : n ≤ 1023) (h : |x| ≤ 2 ^ n) : |R.rnd x| ≤ 2 ^ n := by
  rw [abs_le] at h ⊢
  have h1 := R.npow n (by omega) (by exact_mod_cast hn)
  have h2 := R.pow n (by omega) (by exact_mod_cast hn)
  rw [zpow_natCast] at h1 h2
  exact ⟨h1 ▸ R.mono h.1, h2 ▸ R.mono h.2⟩

theorem rnd32_le {x : ℝ} {n : ℕ} (hn : n ≤ 127) (h : |x| ≤ 2 ^ n) : |R.rnd32 x| ≤ 2 ^ n := by
  rw [abs_le] at h ⊢
  have h1 := R.npow32 n (by omega) (by exact_mod_cast hn)
  have h2 := R.pow32 n (by omega) (by exact_mod_cast hn)
  rw [zpow_natCast] at h1 h2
  exact ⟨h1 ▸ R.mono32 h.1, h2 ▸ R.mono32 h.2⟩

theorem overflow_fin {t y : ℝ} (h : |y| < t) : overflow t y = .fin y := by
  rw [abs_lt] at h
  unfold overflow
  rw [if_neg (by linarith), if_neg (by linarith)]

theorem overflow_of_fin {t y a : ℝ} (h : overflow t y = .fin a) : a = y ∧ |y| < t := by
  unfold overflow at h
  split_ifs at h with h1 h2
  injection h with h
  exact ⟨h.symm, by rw [abs_lt]; constructor <;> linarith⟩

theorem fix_bd {x : ℝ} {n : ℕ} (hn : n ≤ 1023) (h : |x| ≤ 2 ^ n) : ∃ a, R.fix (.fin x) = .fin a ∧ |a| ≤ 2 ^ n := by
  have h1 := rnd_le R hn h
  refine ⟨R.rnd x, overflow_fin (lt_of_le_of_lt h1 ?_), h1⟩
  exact pow_lt_pow_right₀ (by norm_num) (by omega)

theorem lit_pow {n : ℕ} (hn : n ≤ 1023) : (FP.lit (2 ^ n) : Fl R) = (.fin (2 ^ n) : Ext ℝ) := by
  show R.fix (.fin ((2 ^ n : ℚ) : ℝ)) = _
  have h2 := R.pow n (by omega) (by exact_mod_cast hn)
  rw [zpow_natCast] at h2
  push_cast
  show overflow _ (R.rnd (2 ^ n)) = _
  rw [h2]
  apply overflow_fin
  rw [abs_of_pos (by positivity)]
  exact pow_lt_pow_right₀ (by norm_num) (by omega)

theorem lit_npow {n : ℕ} (hn : n ≤ 1023) : (FP.lit (-2 ^ n) : Fl R) = (.fin (-2 ^ n) : Ext ℝ) := by
  show R.fix (.fin ((-2 ^ n : ℚ) : ℝ)) = _
  have h2 := R.npow n (by omega) (by exact_mod_cast hn)
  rw [zpow_natCast] at h2
  push_cast
  show overflow _ (R.rnd (-2 ^ n)) = _
  rw [h2]
  apply overflow_fin
  rw [abs_neg, abs_of_pos (by positivity)]
  exact pow_lt_pow_right₀ (by norm_num) (by omega)

theorem lit_zero : (FP.lit 0 : Fl R) = (.fin 0 : Ext ℝ) := by
  show overflow _ (R.rnd ((0 : ℚ) : ℝ)) = _
  rw [show ((0 : ℚ) : ℝ) = 0 by simp, R.zero]
  apply overflow_fin
  simp

theorem bd_iff {n : ℕ} (hn : n ≤ 1023) (x : Fl R) : FP.Bd n x ↔ ∃ a : ℝ, x = (Ext.fin a : Ext ℝ) ∧ |a| ≤ 2 ^ n := by
  unfold FP.Bd
  rw [lit_pow R hn, lit_npow R hn]
  constructor
  · rintro ⟨h1, h2⟩
    change Ext.le (.fin (-2 ^ n)) x = true at h1
    change Ext.le x (.fin (2 ^ n)) = true at h2
    change Ext ℝ at x
    cases x with
    | fin a =>
      refine ⟨a, rfl, ?_⟩
      simp [Ext.le] at h1 h2
      rw [abs_le]; exact ⟨h1, h2⟩
    | pinf => simp [Ext.le] at h2
    | ninf => simp [Ext.le] at h1
    | nan => simp [Ext.le] at h2
  · rintro ⟨a, rfl, h⟩
    rw [abs_le] at h
    exact ⟨by show Ext.le (K := ℝ) (.fin _) (.fin _) = true; simpa [Ext.le] using h.1,
      by show Ext.le (K := ℝ) (.fin _) (.fin _) = true; simpa [Ext.le] using h.2⟩

theorem eq_zero_iff (x : Fl R) : FP.eq x (FP.lit 0) = true ↔ x = (.fin 0 : Ext ℝ) := by
  rw [lit_zero]
  show Ext.eq (K := ℝ) x (.fin 0) = true ↔ _
  change Ext ℝ at x
  cases x with
  | fin a =>
    simp only [Ext.eq, decide_eq_true_eq]
    exact ⟨fun h => by rw [h], fun h => Ext.fin.inj h⟩
  | pinf => exact ⟨fun h => (by simp [Ext.eq] at h), fun h => by cases h⟩
  | ninf => exact ⟨fun h => (by simp [Ext.eq] at h), fun h => by cases h⟩
  | nan => exact ⟨fun h => (by simp [Ext.eq] at h), fun h => by cases h⟩

theorem fix_zero : R.fix (.fin 0) = .fin 0 := by
  show overflow _ (R.rnd 0) = _
  rw [R.zero]
  exact overflow_fin (by simp)

theorem rnd_eq_zero {x : ℝ} (h : R.fix (.fin x) = .fin 0) : |x| < 1 / 2 := by
  obtain ⟨e, -⟩ := overflow_of_fin (a := 0) (t := 2 ^ 1024) (y := R.rnd x) h
  by_contra hc
  rw [not_lt, le_abs] at hc
  have h1 := R.npow (-1) (by norm_num) (by norm_num)
  have h2 := R.pow (-1) (by norm_num) (by norm_num)
  norm_num at h1 h2
  rcases hc with hc | hc
  · have := R.mono hc; rw [← e] at this; norm_num at h2 this; rw [h2] at this; linarith
  · have hc' : x ≤ -(1 / 2) := by linarith
    have := R.mono hc'; rw [← e] at this; norm_num at h1 this; rw [h1] at this; linarith

instance instFPOrdFl : FPOrd (Fl R) where
  lt_irrefl := FPOrd.lt_irrefl (α := Ext ℝ)
  lt_trans := FPOrd.lt_trans (α := Ext ℝ)
  lt_cotrans := FPOrd.lt_cotrans (α := Ext ℝ)
  eq_iff := FPOrd.eq_iff (α := Ext ℝ)
  le_iff := FPOrd.le_iff (α := Ext ℝ)
  ok_of_lt := FPOrd.ok_of_lt (α := Ext ℝ)
  ok_of_le := FPOrd.ok_of_le (α := Ext ℝ)
  ok_lit := by
    intro q
    show Ext.eq (K := ℝ) (overflow _ _) (overflow _ _) = true
    unfold overflow
    split_ifs <;> simp [Ext.eq]

/-- Rounded arithmetic on the reals is as IEEE 754 requires. -/
instance instFPRoundFl : FPRound (Fl R) where
  lit_mono := by
    intro p q h
    have h1 : R.rnd (p : ℝ) ≤ R.rnd (q : ℝ) := R.mono (by exact_mod_cast h)
    show Ext.le (K := ℝ) (overflow _ _) (overflow _ _) = true
    have : (0 : ℝ) < 2 ^ 1024 := by positivity
    unfold overflow
    generalize (2 : ℝ) ^ 1024 = t at *
    split_ifs <;> simp [Ext.le] <;> linarith
  zero_lt_one := by
    have e := lit_pow R (n := 0) (by norm_num)
    norm_num at e
    rw [lit_zero, e]
    show Ext.lt (K := ℝ) _ _ = true
    simp [Ext.lt]
  add := by
    intro n x y hn hx hy
    obtain ⟨a, rfl, ha⟩ := (bd_iff R (by omega) x).mp hx
    obtain ⟨b, rfl, hb⟩ := (bd_iff R (by omega) y).mp hy
    rw [bd_iff R (by omega)]
    exact fix_bd R (by omega) ((abs_add_le a b).trans (by rw [pow_succ]; linarith))
  sub := by
    intro n x y hn hx hy
    obtain ⟨a, rfl, ha⟩ := (bd_iff R (by omega) x).mp hx
    obtain ⟨b, rfl, hb⟩ := (bd_iff R (by omega) y).mp hy
    rw [bd_iff R (by omega)]
    exact fix_bd R (by omega) ((abs_add_le a (-b)).trans (by rw [pow_succ, abs_neg]; linarith))
  mul := by
    intro n m x y hn hx hy
    obtain ⟨a, rfl, ha⟩ := (bd_iff R (by omega) x).mp hx
    obtain ⟨b, rfl, hb⟩ := (bd_iff R (by omega) y).mp hy
    rw [bd_iff R (by omega)]
    exact fix_bd R (by omega) (by rw [abs_mul, pow_add]; exact mul_le_mul ha hb (abs_nonneg _) (by positivity))
  neg := by
    intro n x hn hx
    obtain ⟨a, rfl, ha⟩ := (bd_iff R (by omega) x).mp hx
    rw [bd_iff R (by omega)]
    exact ⟨-a, rfl, by rwa [abs_neg]⟩
  div := by
    intro n x q hn hq hq2 hx
    obtain ⟨a, rfl, ha⟩ := (bd_iff R (by omega) x).mp hx
    rw [bd_iff R (by omega)]
    have hq' : (1 : ℝ) ≤ q := by exact_mod_cast hq
    have hq2' : (q : ℝ) ≤ 2 ^ 1023 := by exact_mod_cast hq2
    have hb : |(q : ℝ)| ≤ 2 ^ 1023 := by rw [abs_of_pos (by linarith)]; exact hq2'
    obtain ⟨b, hb1, hb2⟩ := fix_bd R (le_refl 1023) hb
    have h1 : (1 : ℝ) ≤ b := by
      obtain ⟨e, -⟩ := overflow_of_fin (a := b) (t := 2 ^ 1024) (y := R.rnd q) hb1
      have h2 := R.pow 0 (by norm_num) (by norm_num)
      norm_num at h2
      rw [e, ← h2]; exact R.mono hq'
    have hl : (FP.lit q : Fl R) = (.fin b : Ext ℝ) := hb1
    rw [hl]
    have hd : Ext.div (.fin a) (.fin b) = (.fin (a / b) : Ext ℝ) := by
      show (if b = 0 then _ else _) = _
      rw [if_neg (by intro h; rw [h] at h1; linarith)]
    show ∃ c, R.fix (Ext.div (.fin a) (.fin b)) = _ ∧ _
    rw [hd]
    refine fix_bd R hn ?_
    rw [abs_div, abs_of_pos (by linarith : (0:ℝ) < b)]
    exact (div_le_self (abs_nonneg _) h1).trans ha
  sin_le := by
    intro n x hn hx
    obtain ⟨a, rfl, ha⟩ := (bd_iff R (by omega) x).mp hx
    rw [bd_iff R (by omega)]
    exact fix_bd R (by omega) (by rw [pow_zero]; exact Real.abs_sin_le_one a)
  cos_le := by
    intro n x hn hx
    obtain ⟨a, rfl, ha⟩ := (bd_iff R (by omega) x).mp hx
    rw [bd_iff R (by omega)]
    exact fix_bd R (by omega) (by rw [pow_zero]; exact Real.abs_cos_le_one a)
  sin_or_cos := by
    intro n x hn hx
    obtain ⟨a, rfl, ha⟩ := (bd_iff R (by omega) x).mp hx
    by_contra hc
    rw [not_or, Bool.not_eq_false, Bool.not_eq_false, eq_zero_iff, eq_zero_iff] at hc
    have h1 : |Real.sin a| < 1 / 2 := rnd_eq_zero R hc.1
    have h2 : |Real.cos a| < 1 / 2 := rnd_eq_zero R hc.2
    have := Real.sin_sq_add_cos_sq a
    rw [abs_lt] at h1 h2
    nlinarith
  sub_self := by
    intro n x hn hx
    obtain ⟨a, rfl, ha⟩ := (bd_iff R (by omega) x).mp hx
    rw [eq_zero_iff]
    show R.fix (Ext.sub (.fin a) (.fin a)) = _
    rw [show Ext.sub (.fin a) (.fin a) = (.fin (a + -a) : Ext ℝ) from rfl, add_neg_cancel, fix_zero]
  zero_add := by
    intro x y hx hy
    rw [eq_zero_iff] at hx hy ⊢
    subst hx hy
    show R.fix (Ext.add (.fin 0) (.fin 0)) = _
    rw [show Ext.add (.fin 0) (.fin 0) = (.fin (0 + 0) : Ext ℝ) from rfl, add_zero, fix_zero]
  zero_mul := by
    intro x y hx hy
    rw [eq_zero_iff] at hx hy ⊢
    subst hx hy
    show R.fix (Ext.mul (.fin 0) (.fin 0)) = _
    rw [show Ext.mul (.fin 0) (.fin 0) = (.fin (0 * 0) : Ext ℝ) from rfl, mul_zero, fix_zero]
  neg_zero := by
    intro x hx
    rw [eq_zero_iff] at hx ⊢
    change Ext.neg x = _ at hx
    change Ext ℝ at x
    cases x with
    | fin a => simp [Ext.neg] at hx; rw [hx]
    | pinf => cases hx
    | ninf => cases hx
    | nan => cases hx
  read32 := by
    intro q x h
    rw [bd_iff R (by omega)]
    change (match R.fix32 (.fin q) with | .fin x => if R.range32 q then some (.fin x) else none | _ => none) = some x at h
    cases hf : R.fix32 (.fin q) with
    | fin a =>
      rw [hf] at h
      simp only at h
      split_ifs at h
      cases h
      obtain ⟨rfl, e⟩ := overflow_of_fin (t := 2 ^ 128) hf
      exact ⟨_, rfl, e.le⟩
    | _ => rw [hf] at h; cases h
  read64 := by
    intro n q x hn h1 h2 h
    rw [bd_iff R (by omega)]
    change (match R.fix (.fin q) with | .fin x => if R.range64 q then some (.fin x) else none | _ => none) = some x at h
    have hq : |(q : ℝ)| ≤ 2 ^ n := by rw [abs_le]; exact ⟨by exact_mod_cast h1, by exact_mod_cast h2⟩
    obtain ⟨a, ha, hb⟩ := fix_bd R hn hq
    rw [ha] at h
    simp only at h
    split_ifs at h
    cases h
    exact ⟨_, rfl, hb⟩
  conv := by
    intro q x h
    change (match R.fix (.fin q) with | .fin x => if R.range64 q then some (.fin x) else none | _ => none) = some x at h
    cases hf : R.fix (.fin q) with
    | fin a =>
      rw [hf] at h
      simp only at h
      split_ifs at h
      cases h
      exact Ext.ok_fin a
    | _ => rw [hf] at h; cases h
  f32_le := by
    intro n x hn hx
    obtain ⟨a, rfl, ha⟩ := (bd_iff R (by omega) x).mp hx
    rw [bd_iff R (by omega)]
    have h1 := rnd32_le R hn ha
    exact ⟨_, overflow_fin (lt_of_le_of_lt h1 (pow_lt_pow_right₀ (by norm_num) (by omega))), h1⟩

end

end S2P
