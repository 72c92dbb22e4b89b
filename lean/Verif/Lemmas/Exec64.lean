import Verif.Spec.Exec64
import Verif.Lemmas.Round
import Mathlib.Analysis.SpecialFunctions.Pow.NNReal

set_option linter.unusedSectionVars false
set_option linter.unusedVariables false
set_option linter.unusedSimpArgs false

/-! # Binary64 by computation is binary64 -/

namespace S2P

theorem pow2_real (e : ℤ) : ((pow2 e : ℚ) : ℝ) = 2 ^ e := by
  match e with
  | .ofNat j =>
    simp only [pow2, Int.ofNat_eq_natCast, zpow_natCast]
    push_cast; rfl
  | .negSucc j =>
    simp only [pow2, zpow_negSucc, Rat.mkRat_eq_div]
    push_cast; simp

theorem log_unique {x : ℝ} (hx : 0 < x) {k : ℤ} (h1 : (2 : ℝ) ^ k ≤ x) (h2 : x < 2 ^ (k + 1)) : Int.log 2 x = k := by
  have a := (Int.zpow_le_iff_le_log (b := 2) (by norm_num) hx).1 (by exact_mod_cast h1)
  have b := (Int.lt_zpow_iff_log_lt (b := 2) (by norm_num) hx).1 (by exact_mod_cast h2)
  omega

theorem lg_real {x : ℚ} (hx : x ≠ 0) : lg x = Int.log 2 |(x : ℝ)| := by
  symm
  have hn : x.num.natAbs ≠ 0 := by simpa using hx
  have hd : x.den ≠ 0 := x.den_nz
  have hdp : (0 : ℝ) < x.den := by exact_mod_cast Nat.pos_of_ne_zero hd
  have hnp : (0 : ℝ) < x.num.natAbs := by exact_mod_cast Nat.pos_of_ne_zero hn
  have e : |(x : ℝ)| = (x.num.natAbs : ℝ) / (x.den : ℝ) := by
    rw [Rat.cast_def, abs_div, Nat.abs_cast, ← Int.cast_abs, Int.abs_eq_natAbs]; simp
  have hpos : 0 < |(x : ℝ)| := by rw [e]; positivity
  have n1 : ((2 : ℝ) ^ (Nat.log2 x.num.natAbs)) ≤ x.num.natAbs := by exact_mod_cast Nat.log2_self_le hn
  have n2 : (x.num.natAbs : ℝ) < 2 ^ (Nat.log2 x.num.natAbs + 1) := by exact_mod_cast Nat.lt_log2_self
  have d1 : ((2 : ℝ) ^ (Nat.log2 x.den)) ≤ x.den := by exact_mod_cast Nat.log2_self_le hd
  have d2 : (x.den : ℝ) < 2 ^ (Nat.log2 x.den + 1) := by exact_mod_cast Nat.lt_log2_self
  -- between 2^(k-1) and 2^(k+1)
  have lo : (2 : ℝ) ^ ((Nat.log2 x.num.natAbs : ℤ) - (Nat.log2 x.den : ℤ) - 1) ≤ |(x : ℝ)| := by
    rw [e, le_div_iff₀ hdp, sub_sub, zpow_sub₀ (by norm_num), div_mul_eq_mul_div, div_le_iff₀ (by positivity)]
    have : (2 : ℝ) ^ ((Nat.log2 x.den : ℤ) + 1) = 2 ^ (Nat.log2 x.den + 1) := by exact_mod_cast rfl
    rw [this, zpow_natCast]
    exact mul_le_mul n1 d2.le hdp.le hnp.le
  have hi : |(x : ℝ)| < (2 : ℝ) ^ ((Nat.log2 x.num.natAbs : ℤ) - (Nat.log2 x.den : ℤ) + 1) := by
    rw [e, div_lt_iff₀ hdp, sub_add_eq_add_sub, zpow_sub₀ (by norm_num), div_mul_eq_mul_div, lt_div_iff₀ (by positivity)]
    have : (2 : ℝ) ^ ((Nat.log2 x.num.natAbs : ℤ) + 1) = 2 ^ (Nat.log2 x.num.natAbs + 1) := by exact_mod_cast rfl
    rw [this, zpow_natCast]
    exact mul_lt_mul n2 d1 (by positivity) (by positivity)
  generalize hk : (Nat.log2 x.num.natAbs : ℤ) - (Nat.log2 x.den : ℤ) = k at lo hi
  have test : ∀ b : Prop, [Decidable b] → (b ↔ (2 : ℝ) ^ k ≤ |(x : ℝ)|) → Int.log 2 |(x : ℝ)| = if b then k else k - 1 := by
    intro b _ hb
    split_ifs with h
    · exact log_unique hpos (hb.1 h) hi
    · refine log_unique hpos lo ?_
      rw [sub_add_cancel]
      exact lt_of_not_ge fun hc => h (hb.2 hc)
  unfold lg
  simp only [hk]
  match k with
  | .ofNat j =>
    refine test _ ?_
    rw [e, le_div_iff₀ hdp, Int.ofNat_eq_natCast, zpow_natCast]
    constructor
    · intro h
      have : ((x.den * 2 ^ j : ℕ) : ℝ) ≤ x.num.natAbs := by exact_mod_cast h
      push_cast at this; linarith
    · intro h
      have : ((x.den * 2 ^ j : ℕ) : ℝ) ≤ x.num.natAbs := by push_cast; linarith
      exact_mod_cast this
  | .negSucc j =>
    refine test _ ?_
    rw [e, le_div_iff₀ hdp, zpow_negSucc, inv_mul_eq_div, div_le_iff₀ (by positivity)]
    exact_mod_cast Iff.rfl

theorem floor_frac (x : ℚ) : ⌊(x : ℝ)⌋ = x.num / (x.den : ℤ) := by
  rw [Rat.floor_cast]; exact Rat.floor_def'

theorem nearestQ_real (x : ℚ) : nearestQ x = nearestEven (x : ℝ) := by
  have hdp : (0 : ℝ) < x.den := by exact_mod_cast Nat.pos_of_ne_zero x.den_nz
  have hf := floor_frac x
  have hx : (x : ℝ) * x.den = x.num := by
    rw [Rat.cast_def]; field_simp
  have fr : Int.fract (x : ℝ) * x.den = ((x.num - x.num / (x.den : ℤ) * x.den : ℤ) : ℝ) := by
    unfold Int.fract
    rw [sub_mul, hx, hf]; push_cast; ring
  have c1 : (2 * (x.num - x.num / (x.den : ℤ) * x.den) < x.den) ↔ Int.fract (x : ℝ) < 1 / 2 := by
    constructor
    · intro h
      have : ((2 * (x.num - x.num / (x.den : ℤ) * x.den) : ℤ) : ℝ) < ((x.den : ℤ) : ℝ) := by exact_mod_cast h
      rw [Int.cast_mul, ← fr] at this
      push_cast at this
      by_contra hc
      nlinarith
    · intro h
      have : ((2 * (x.num - x.num / (x.den : ℤ) * x.den) : ℤ) : ℝ) < ((x.den : ℤ) : ℝ) := by
        rw [Int.cast_mul, ← fr]; push_cast; nlinarith
      exact_mod_cast this
  have c2 : ((x.den : ℤ) < 2 * (x.num - x.num / (x.den : ℤ) * x.den)) ↔ 1 / 2 < Int.fract (x : ℝ) := by
    constructor
    · intro h
      have : ((x.den : ℤ) : ℝ) < ((2 * (x.num - x.num / (x.den : ℤ) * x.den) : ℤ) : ℝ) := by exact_mod_cast h
      rw [Int.cast_mul, ← fr] at this
      push_cast at this
      by_contra hc
      nlinarith
    · intro h
      have : ((x.den : ℤ) : ℝ) < ((2 * (x.num - x.num / (x.den : ℤ) * x.den) : ℤ) : ℝ) := by
        rw [Int.cast_mul, ← fr]; push_cast; nlinarith
      exact_mod_cast this
  unfold nearestQ nearestEven
  simp only [c1, c2, hf, Int.even_iff]

theorem roundQ_real (p : ℕ) (emin : ℤ) (x : ℚ) : ((roundQ p emin x : ℚ) : ℝ) = roundTo .nearest p emin (x : ℝ) := by
  by_cases hx : x = 0
  · subst hx
    rw [Rat.cast_zero, roundTo_zero]
    simp only [roundQ, zero_mul]
    have : nearestQ 0 = 0 := by decide
    simp [this]
  · unfold roundQ roundTo lastPlace
    rw [← lg_real hx]
    simp only [Rat.cast_mul, Rat.cast_intCast, pow2_real, nearestQ_real, IntRounding.nearest]
    rw [zpow_neg, ← div_eq_mul_inv]

/-- the rounding used: to nearest, ties to even -/
noncomputable abbrev R64 : Rounding := binary64 .nearest (fun _ => true) (fun _ => true)

theorem overflow_real (top : ℕ) (y : ℚ) :
    Ext.real (if ((2 ^ top : ℕ) : ℚ) ≤ y then .pinf else if y ≤ -((2 ^ top : ℕ) : ℚ) then .ninf else .fin y) = overflow (2 ^ top) (y : ℝ) := by
  unfold overflow
  have c1 : (((2 ^ top : ℕ) : ℚ) ≤ y) ↔ (2 : ℝ) ^ top ≤ y := by
    rw [← Rat.cast_le (K := ℝ)]; push_cast; rfl
  have c2 : (y ≤ -((2 ^ top : ℕ) : ℚ)) ↔ (y : ℝ) ≤ -2 ^ top := by
    rw [← Rat.cast_le (K := ℝ)]; push_cast; rfl
  simp only [c1, c2]
  split_ifs <;> rfl

theorem fix64_fl (x : Ext ℚ) : X64.fl R64 (fix64 x) = R64.fix (Ext.real x) := by
  match x with
  | .fin a =>
    show Ext.real (if ((2 ^ 1024 : ℕ) : ℚ) ≤ roundQ 53 (-1074) a then .pinf else if roundQ 53 (-1074) a ≤ -((2 ^ 1024 : ℕ) : ℚ) then .ninf else .fin (roundQ 53 (-1074) a)) = _
    rw [overflow_real, roundQ_real]
    rfl
  | .pinf => rfl
  | .ninf => rfl
  | .nan => rfl

theorem fix32_fl (x : Ext ℚ) : X64.fl R64 (fix32 x) = R64.fix32 (Ext.real x) := by
  match x with
  | .fin a =>
    show Ext.real (if ((2 ^ 128 : ℕ) : ℚ) ≤ roundQ 24 (-149) a then .pinf else if roundQ 24 (-149) a ≤ -((2 ^ 128 : ℕ) : ℚ) then .ninf else .fin (roundQ 24 (-149) a)) = _
    rw [overflow_real, roundQ_real]
    rfl
  | .pinf => rfl
  | .ninf => rfl
  | .nan => rfl

theorem x64_lit (q : ℚ) : X64.fl R64 (FP.lit q) = FP.lit q := fix64_fl (.fin q)

theorem exact_neg (x : Ext ℚ) : Ext.real (Ext.neg x) = Ext.neg (Ext.real x) := by
  match x with
  | .fin a => show (Ext.fin ((-a : ℚ) : ℝ) : Ext ℝ) = Ext.fin (-(a : ℝ)); push_cast; rfl
  | .pinf => rfl
  | .ninf => rfl
  | .nan => rfl

theorem x64_neg (x : X64) : X64.fl R64 (-x) = -(X64.fl R64 x) := exact_neg x

theorem exact_add (x y : Ext ℚ) : Ext.real (Ext.add x y) = Ext.add (Ext.real x) (Ext.real y) := by
  match x, y with
  | .fin a, .fin b => show (Ext.fin ((a + b : ℚ) : ℝ) : Ext ℝ) = Ext.fin ((a : ℝ) + b); push_cast; rfl
  | .fin _, .pinf => rfl
  | .fin _, .ninf => rfl
  | .fin _, .nan => rfl
  | .pinf, .fin _ => rfl
  | .pinf, .pinf => rfl
  | .pinf, .ninf => rfl
  | .pinf, .nan => rfl
  | .ninf, .fin _ => rfl
  | .ninf, .pinf => rfl
  | .ninf, .ninf => rfl
  | .ninf, .nan => rfl
  | .nan, .fin _ => rfl
  | .nan, .pinf => rfl
  | .nan, .ninf => rfl
  | .nan, .nan => rfl

theorem infSign_fl (a : ℚ) : Ext.real (Ext.infSign a) = Ext.infSign (a : ℝ) := by
  unfold Ext.infSign
  have c1 : a = 0 ↔ (a : ℝ) = 0 := by simp
  have c2 : 0 < a ↔ 0 < (a : ℝ) := by simp
  simp only [c1, c2]
  split_ifs <;> rfl

theorem exact_mul (x y : Ext ℚ) : Ext.real (Ext.mul x y) = Ext.mul (Ext.real x) (Ext.real y) := by
  match x, y with
  | .fin a, .fin b => show (Ext.fin ((a * b : ℚ) : ℝ) : Ext ℝ) = Ext.fin ((a : ℝ) * b); push_cast; rfl
  | .fin a, .pinf => exact infSign_fl a
  | .fin a, .ninf => exact (exact_neg _).trans (congrArg _ (infSign_fl a))
  | .fin _, .nan => rfl
  | .pinf, .fin a => exact infSign_fl a
  | .pinf, .pinf => rfl
  | .pinf, .ninf => rfl
  | .pinf, .nan => rfl
  | .ninf, .fin a => exact (exact_neg _).trans (congrArg _ (infSign_fl a))
  | .ninf, .pinf => rfl
  | .ninf, .ninf => rfl
  | .ninf, .nan => rfl
  | .nan, .fin _ => rfl
  | .nan, .pinf => rfl
  | .nan, .ninf => rfl
  | .nan, .nan => rfl

theorem exact_div (x y : Ext ℚ) : Ext.real (Ext.div x y) = Ext.div (Ext.real x) (Ext.real y) := by
  match x, y with
  | .fin a, .fin b =>
    show Ext.real (if b = 0 then Ext.infSign a else .fin (a / b)) = if (b : ℝ) = 0 then Ext.infSign (a : ℝ) else .fin ((a : ℝ) / b)
    have c1 : b = 0 ↔ (b : ℝ) = 0 := by simp
    simp only [← c1]
    split_ifs
    · exact infSign_fl a
    · show (Ext.fin ((a / b : ℚ) : ℝ) : Ext ℝ) = _; push_cast; rfl
  | .fin _, .pinf => show (Ext.fin ((0 : ℚ) : ℝ) : Ext ℝ) = Ext.fin 0; push_cast; rfl
  | .fin _, .ninf => show (Ext.fin ((0 : ℚ) : ℝ) : Ext ℝ) = Ext.fin 0; push_cast; rfl
  | .fin _, .nan => rfl
  | .pinf, .fin b =>
    show Ext.real (if b < 0 then .ninf else .pinf) = if (b : ℝ) < 0 then .ninf else .pinf
    have c1 : b < 0 ↔ (b : ℝ) < 0 := by simp
    simp only [← c1]
    split_ifs <;> rfl
  | .pinf, .pinf => rfl
  | .pinf, .ninf => rfl
  | .pinf, .nan => rfl
  | .ninf, .fin b =>
    show Ext.real (if b < 0 then .pinf else .ninf) = if (b : ℝ) < 0 then .pinf else .ninf
    have c1 : b < 0 ↔ (b : ℝ) < 0 := by simp
    simp only [← c1]
    split_ifs <;> rfl
  | .ninf, .pinf => rfl
  | .ninf, .ninf => rfl
  | .ninf, .nan => rfl
  | .nan, .fin _ => rfl
  | .nan, .pinf => rfl
  | .nan, .ninf => rfl
  | .nan, .nan => rfl

theorem x64_add (x y : X64) : X64.fl R64 (x + y) = X64.fl R64 x + X64.fl R64 y := (fix64_fl _).trans (congrArg _ (exact_add x y))
theorem x64_sub (x y : X64) : X64.fl R64 (x - y) = X64.fl R64 x - X64.fl R64 y :=
  (fix64_fl _).trans (congrArg _ ((exact_add x (Ext.neg (K := ℚ) y)).trans (congrArg _ (exact_neg y))))
theorem x64_mul (x y : X64) : X64.fl R64 (x * y) = X64.fl R64 x * X64.fl R64 y := (fix64_fl _).trans (congrArg _ (exact_mul x y))
theorem x64_div (x y : X64) : X64.fl R64 (x / y) = X64.fl R64 x / X64.fl R64 y := (fix64_fl _).trans (congrArg _ (exact_div x y))

theorem x64_lt (x y : X64) : FP.lt (X64.fl R64 x) (X64.fl R64 y) = FP.lt x y := by
  match x, y with
  | .fin a, .fin b => show decide ((a : ℝ) < b) = decide (a < b); simp
  | .fin _, .pinf => rfl
  | .fin _, .ninf => rfl
  | .fin _, .nan => rfl
  | .pinf, .fin _ => rfl
  | .pinf, .pinf => rfl
  | .pinf, .ninf => rfl
  | .pinf, .nan => rfl
  | .ninf, .fin _ => rfl
  | .ninf, .pinf => rfl
  | .ninf, .ninf => rfl
  | .ninf, .nan => rfl
  | .nan, .fin _ => rfl
  | .nan, .pinf => rfl
  | .nan, .ninf => rfl
  | .nan, .nan => rfl

theorem x64_le (x y : X64) : FP.le (X64.fl R64 x) (X64.fl R64 y) = FP.le x y := by
  match x, y with
  | .fin a, .fin b => show decide ((a : ℝ) ≤ b) = decide (a ≤ b); simp
  | .fin _, .pinf => rfl
  | .fin _, .ninf => rfl
  | .fin _, .nan => rfl
  | .pinf, .fin _ => rfl
  | .pinf, .pinf => rfl
  | .pinf, .ninf => rfl
  | .pinf, .nan => rfl
  | .ninf, .fin _ => rfl
  | .ninf, .pinf => rfl
  | .ninf, .ninf => rfl
  | .ninf, .nan => rfl
  | .nan, .fin _ => rfl
  | .nan, .pinf => rfl
  | .nan, .ninf => rfl
  | .nan, .nan => rfl

theorem x64_eq (x y : X64) : FP.eq (X64.fl R64 x) (X64.fl R64 y) = FP.eq x y := by
  match x, y with
  | .fin a, .fin b => show decide ((a : ℝ) = b) = decide (a = b); simp
  | .fin _, .pinf => rfl
  | .fin _, .ninf => rfl
  | .fin _, .nan => rfl
  | .pinf, .fin _ => rfl
  | .pinf, .pinf => rfl
  | .pinf, .ninf => rfl
  | .pinf, .nan => rfl
  | .ninf, .fin _ => rfl
  | .ninf, .pinf => rfl
  | .ninf, .ninf => rfl
  | .ninf, .nan => rfl
  | .nan, .fin _ => rfl
  | .nan, .pinf => rfl
  | .nan, .ninf => rfl
  | .nan, .nan => rfl

theorem x64_f32 (x : X64) : X64.fl R64 (FP.f32 x) = FP.f32 (X64.fl R64 x) := fix32_fl x

/-! ## Square roots -/

theorem floor_root (x : ℚ) (hx : 0 ≤ x) : ⌊Real.sqrt (x : ℝ)⌋ = (Nat.sqrt (x.num / (x.den : ℤ)).toNat : ℤ) := by
  have hxr : (0 : ℝ) ≤ x := by exact_mod_cast hx
  rw [← floor_frac]
  have h0 : 0 ≤ ⌊(x : ℝ)⌋ := Int.floor_nonneg.2 hxr
  have e : ((⌊(x : ℝ)⌋.toNat : ℕ) : ℤ) = ⌊(x : ℝ)⌋ := Int.toNat_of_nonneg h0
  have a1 : Nat.sqrt ⌊(x : ℝ)⌋.toNat * Nat.sqrt ⌊(x : ℝ)⌋.toNat ≤ ⌊(x : ℝ)⌋.toNat := Nat.sqrt_le _
  have a2 : ⌊(x : ℝ)⌋.toNat < (Nat.sqrt ⌊(x : ℝ)⌋.toNat + 1) * (Nat.sqrt ⌊(x : ℝ)⌋.toNat + 1) := Nat.lt_succ_sqrt _
  generalize Nat.sqrt ⌊(x : ℝ)⌋.toNat = s at *
  rw [Int.floor_eq_iff]
  have b1 : ((s * s : ℕ) : ℤ) ≤ ⌊(x : ℝ)⌋ := by rw [← e]; exact_mod_cast a1
  have b2 : ⌊(x : ℝ)⌋ < (((s + 1) * (s + 1) : ℕ) : ℤ) := by rw [← e]; exact_mod_cast a2
  rw [Int.le_floor] at b1
  rw [Int.floor_lt] at b2
  push_cast at b1 b2 ⊢
  constructor
  · exact Real.le_sqrt_of_sq_le (by nlinarith)
  · rw [Real.sqrt_lt' (by positivity)]; nlinarith

theorem nearestRootQ_real (x : ℚ) (hx : 0 ≤ x) : nearestRootQ x = nearestEven (Real.sqrt (x : ℝ)) := by
  have hxr : (0 : ℝ) ≤ x := by exact_mod_cast hx
  have hdp : (0 : ℝ) < x.den := by exact_mod_cast Nat.pos_of_ne_zero x.den_nz
  have hf := floor_root x hx
  have hx' : (x : ℝ) * x.den = x.num := by
    rw [Rat.cast_def]; field_simp
  have hs := Real.sq_sqrt hxr
  have hsn := Real.sqrt_nonneg (x : ℝ)
  unfold nearestRootQ nearestEven Int.fract
  simp only [hf, Int.even_iff]
  have hfn : (0 : ℤ) ≤ (Nat.sqrt (x.num / (x.den : ℤ)).toNat : ℤ) := by positivity
  generalize ((Nat.sqrt (x.num / (x.den : ℤ)).toNat : ℤ)) = f at *
  have hfr : (0 : ℝ) ≤ f := by exact_mod_cast hfn
  generalize Real.sqrt (x : ℝ) = s at *
  have c1 : (4 * x.num < (2 * f + 1) * (2 * f + 1) * (x.den : ℤ)) ↔ s - f < 1 / 2 := by
    rw [← Int.cast_lt (R := ℝ)]
    push_cast
    rw [← hx', ← hs, show 4 * (s ^ 2 * (x.den : ℝ)) = (2 * s) ^ 2 * x.den by ring, show (2 * (f : ℝ) + 1) * (2 * f + 1) * x.den = (2 * f + 1) ^ 2 * x.den by ring,
      mul_lt_mul_iff_left₀ hdp, pow_lt_pow_iff_left₀ (by positivity) (by positivity) (by norm_num)]
    constructor <;> intro h <;> linarith
  have c2 : ((2 * f + 1) * (2 * f + 1) * (x.den : ℤ) < 4 * x.num) ↔ 1 / 2 < s - f := by
    rw [← Int.cast_lt (R := ℝ)]
    push_cast
    rw [← hx', ← hs, show 4 * (s ^ 2 * (x.den : ℝ)) = (2 * s) ^ 2 * x.den by ring, show (2 * (f : ℝ) + 1) * (2 * f + 1) * x.den = (2 * f + 1) ^ 2 * x.den by ring,
      mul_lt_mul_iff_left₀ hdp, pow_lt_pow_iff_left₀ (by positivity) (by positivity) (by norm_num)]
    constructor <;> intro h <;> linarith
  simp only [c1, c2]

theorem log_root {x : ℝ} (hx : 0 < x) : Int.log 2 (Real.sqrt x) = Int.log 2 x / 2 := by
  have h1 := Int.zpow_log_le_self (b := 2) (by norm_num) hx
  have h2 := Int.lt_zpow_succ_log_self (b := 2) (by norm_num) x
  refine log_unique (Real.sqrt_pos.2 hx) ?_ ?_
  · apply Real.le_sqrt_of_sq_le
    refine le_trans ?_ h1
    rw [← zpow_natCast, ← zpow_mul]
    push_cast
    exact zpow_le_zpow_right₀ (by norm_num) (by omega)
  · rw [Real.sqrt_lt' (by positivity)]
    refine lt_of_lt_of_le h2 ?_
    rw [← zpow_natCast, ← zpow_mul]
    push_cast
    exact zpow_le_zpow_right₀ (by norm_num) (by omega)

theorem rootQ_real (p : ℕ) (emin : ℤ) (x : ℚ) (hx : 0 ≤ x) : ((rootQ p emin x : ℚ) : ℝ) = roundTo .nearest p emin (Real.sqrt (x : ℝ)) := by
  by_cases h0 : x = 0
  · subst h0
    rw [Rat.cast_zero, Real.sqrt_zero, roundTo_zero]
    simp only [rootQ, zero_mul]
    have : nearestRootQ 0 = 0 := by decide
    simp [this]
  · have hp : 0 < x := lt_of_le_of_ne hx (Ne.symm h0)
    have hpr : (0 : ℝ) < x := by exact_mod_cast hp
    unfold rootQ roundTo lastPlace
    rw [abs_of_pos (Real.sqrt_pos.2 hpr), log_root hpr]
    have := lg_real h0
    rw [abs_of_pos hpr] at this
    rw [← this]
    generalize max (lg x / 2 + 1 - p) emin = e
    have he : (0 : ℚ) ≤ x * pow2 (-2 * e) := by
      have : (0 : ℝ) ≤ ((x * pow2 (-2 * e) : ℚ) : ℝ) := by rw [Rat.cast_mul, pow2_real]; positivity
      exact_mod_cast this
    simp only [Rat.cast_mul, Rat.cast_intCast, pow2_real, nearestRootQ_real _ he, IntRounding.nearest]
    have : Real.sqrt ((x : ℝ) * 2 ^ (-2 * e)) = Real.sqrt x / 2 ^ e := by
      rw [Real.sqrt_eq_iff_mul_self_eq (by positivity) (by positivity)]
      rw [div_mul_div_comm, Real.mul_self_sqrt hpr.le, div_eq_mul_inv, ← zpow_add₀ (by norm_num), ← zpow_neg]
      congr 2; ring
    rw [this]

theorem x64_sqrt_neg (a : ℚ) (h : a < 0) : X64.fl R64 (FP.sqrt (Ext.fin a : X64)) = FP.sqrt (X64.fl R64 (Ext.fin a : X64)) := by
  show Ext.real (if a < 0 then Ext.nan (K := ℚ) else _) = R64.fix (if (a : ℝ) < 0 then Ext.nan (K := ℝ) else _)
  rw [if_pos h, if_pos (by exact_mod_cast h)]
  rfl

theorem x64_sqrt (x : X64) (hx : ∀ a : ℚ, x = (Ext.fin a : Ext ℚ) → a < 2 ^ 1024) : X64.fl R64 (FP.sqrt x) = FP.sqrt (X64.fl R64 x) := by
  match x with
  | .pinf => rfl
  | .ninf => rfl
  | .nan => rfl
  | .fin a =>
    rcases lt_or_ge a 0 with h | h
    · exact x64_sqrt_neg a h
    · have hr : (0 : ℝ) ≤ a := by exact_mod_cast h
      have h2 : (a : ℝ) ≤ 2 ^ 1024 := by exact_mod_cast (hx a rfl).le
      have hs : |Real.sqrt (a : ℝ)| ≤ 2 ^ 512 := by
        rw [abs_of_nonneg (Real.sqrt_nonneg _), Real.sqrt_le_left (by positivity)]
        refine h2.trans ?_
        rw [← pow_mul]
      show Ext.real (if a < 0 then Ext.nan (K := ℚ) else Ext.fin (K := ℚ) (rootQ 53 (-1074) a)) = R64.fix (if (a : ℝ) < 0 then Ext.nan (K := ℝ) else Ext.fin (Real.sqrt (a : ℝ)))
      rw [if_neg (not_lt.2 h), if_neg (not_lt.2 hr)]
      show (Ext.fin ((rootQ 53 (-1074) a : ℚ) : ℝ) : Ext ℝ) = overflow (2 ^ 1024) (R64.rnd (Real.sqrt (a : ℝ)))
      have e : R64.rnd (Real.sqrt (a : ℝ)) = ((rootQ 53 (-1074) a : ℚ) : ℝ) := (rootQ_real _ _ _ h).symm
      rw [overflow_fin (lt_of_le_of_lt (rnd_le R64 (by norm_num) hs) (pow_lt_pow_right₀ (by norm_num) (by norm_num))), e]

end S2P
