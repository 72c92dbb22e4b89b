import Verif.Spec.Arith

/-! # Arithmetic with rounding

`FPRound` lists what is used of IEEE 754 arithmetic with rounding and overflow.  `Fl R` is such an arithmetic: exact operations on the reals followed
by rounding, with overflow to infinity; `binary64` is the rounding of the format of that name, in any rounding direction. -/

namespace S2P

/-- `x` is a number (not NaN, not infinite) of size at most 2^n -/
def FP.Bd {α : Type} [FP α] (n : Nat) (x : α) : Prop := FP.le (FP.lit (-(2 ^ n))) x = true ∧ FP.le x (FP.lit (2 ^ n)) = true

/-- What IEEE 754 double arithmetic and the functions of <cmath> guarantee about sizes, whatever the rounding direction: rounding is monotone and
powers of two up to 2^1023 are numbers of the format, so a result of size at most 2^n stays at most 2^n after rounding. -/
class FPRound (α : Type) [FP α] : Prop extends FPOrd α where
  lit_mono : ∀ p q : Rat, p ≤ q → FP.le (FP.lit p : α) (FP.lit q) = true
  zero_lt_one : FP.lt (FP.lit 0 : α) (FP.lit 1) = true
  add : ∀ (n : Nat) (x y : α), n < 1023 → FP.Bd n x → FP.Bd n y → FP.Bd (n + 1) (x + y)
  sub : ∀ (n : Nat) (x y : α), n < 1023 → FP.Bd n x → FP.Bd n y → FP.Bd (n + 1) (x - y)
  mul : ∀ (n m : Nat) (x y : α), n + m ≤ 1023 → FP.Bd n x → FP.Bd m y → FP.Bd (n + m) (x * y)
  neg : ∀ (n : Nat) (x : α), n ≤ 1023 → FP.Bd n x → FP.Bd n (-x)
  div : ∀ (n : Nat) (x : α) (q : Rat), n ≤ 1023 → 1 ≤ q → q ≤ 2 ^ 1023 → FP.Bd n x → FP.Bd n (x / FP.lit q)
  sin_le : ∀ (n : Nat) (x : α), n ≤ 1023 → FP.Bd n x → FP.Bd 0 (FP.sin x)
  cos_le : ∀ (n : Nat) (x : α), n ≤ 1023 → FP.Bd n x → FP.Bd 0 (FP.cos x)
  sin_or_cos : ∀ (n : Nat) (x : α), n ≤ 1023 → FP.Bd n x → FP.eq (FP.sin x) (FP.lit 0) = false ∨ FP.eq (FP.cos x) (FP.lit 0) = false
  sub_self : ∀ (n : Nat) (x : α), n ≤ 1023 → FP.Bd n x → FP.eq (x - x) (FP.lit 0) = true
  zero_add : ∀ x y : α, FP.eq x (FP.lit 0) = true → FP.eq y (FP.lit 0) = true → FP.eq (x + y) (FP.lit 0) = true
  zero_mul : ∀ x y : α, FP.eq x (FP.lit 0) = true → FP.eq y (FP.lit 0) = true → FP.eq (x * y) (FP.lit 0) = true
  neg_zero : ∀ x : α, FP.eq (-x) (FP.lit 0) = true → FP.eq x (FP.lit 0) = true
  /-- `float` has no finite value of size 2^128 or more -/
  read32 : ∀ (q : Rat) (x : α), FP.ofDec32 q = some x → FP.Bd 128 x
  /-- numerals in model files -/
  read64 : ∀ (n : Nat) (q : Rat) (x : α), n ≤ 1023 → -(2 ^ n) ≤ q → q ≤ 2 ^ n → FP.ofDec64 q = some x → FP.Bd n x
  conv : ConvOk α
  f32_le : ∀ (n : Nat) (x : α), n ≤ 127 → FP.Bd n x → FP.Bd n (FP.f32 x)

/-! ## Rounded arithmetic on the reals -/

/-- A way of rounding to `double` and to `float`; and the decision of the C library to report ERANGE for a numeral with a finite value. -/
structure Rounding where
  rnd : ℝ → ℝ
  mono : Monotone rnd
  zero : rnd 0 = 0
  pow : ∀ k : ℤ, -1074 ≤ k → k ≤ 1023 → rnd (2 ^ k) = 2 ^ k
  npow : ∀ k : ℤ, -1074 ≤ k → k ≤ 1023 → rnd (-2 ^ k) = -2 ^ k
  rnd32 : ℝ → ℝ
  mono32 : Monotone rnd32
  zero32 : rnd32 0 = 0
  pow32 : ∀ k : ℤ, -149 ≤ k → k ≤ 127 → rnd32 (2 ^ k) = 2 ^ k
  npow32 : ∀ k : ℤ, -149 ≤ k → k ≤ 127 → rnd32 (-2 ^ k) = -2 ^ k
  range64 : ℚ → Bool
  range32 : ℚ → Bool

/-- the number `y` to which `x` was rounded, unless it is too large for the format -/
noncomputable def overflow (top : ℝ) (y : ℝ) : Ext ℝ := if top ≤ y then .pinf else if y ≤ -top then .ninf else .fin y

/-- rounding with overflow; infinities and NaN stay -/
noncomputable def Rounding.fix (R : Rounding) : Ext ℝ → Ext ℝ
  | .fin x => overflow (2 ^ 1024) (R.rnd x)
  | x => x

/-- the same for `float` -/
noncomputable def Rounding.fix32 (R : Rounding) : Ext ℝ → Ext ℝ
  | .fin x => overflow (2 ^ 128) (R.rnd32 x)
  | x => x

/-- numbers of a format with rounding `R`, infinities and NaN -/
def Fl (_ : Rounding) : Type := Ext ℝ

/-- Each operation is the exact one (`Ext ℝ`) followed by rounding.  Left out, as in `Ext`: the sign of zero. -/
noncomputable instance instFPFl (R : Rounding) : FP (Fl R) where
  add x y := R.fix (Ext.add x y)
  sub x y := R.fix (Ext.sub x y)
  mul x y := R.fix (Ext.mul x y)
  div x y := R.fix (Ext.div x y)
  neg x := Ext.neg x
  lit q := R.fix (.fin q)
  sqrt x := R.fix (FP.sqrt (α := Ext ℝ) x)
  sin x := R.fix (FP.sin (α := Ext ℝ) x)
  cos x := R.fix (FP.cos (α := Ext ℝ) x)
  acos x := R.fix (FP.acos (α := Ext ℝ) x)
  atan2 x y := R.fix (FP.atan2 (α := Ext ℝ) x y)
  lt := Ext.lt (K := ℝ)
  le := Ext.le (K := ℝ)
  eq := Ext.eq (K := ℝ)
  f32 x := R.fix32 x
  dblMax := .fin (2 ^ 1024 - 2 ^ 971)
  ofDec64 q := match R.fix (.fin q) with
    | .fin x => if R.range64 q then some (.fin x) else none
    | _ => none
  ofDec32 q := match R.fix32 (.fin q) with
    | .fin x => if R.range32 q then some (.fin x) else none
    | _ => none
  toInt x := FP.toInt (α := Ext ℝ) x
  g6 x := FP.g6 (α := Ext ℝ) x

/-! ## The formats binary64 and binary32 -/

/-- A way of rounding reals to integers: towards zero, up, down, to nearest with any rule for ties. -/
structure IntRounding where
  ri : ℝ → ℤ
  mono : Monotone ri
  int : ∀ n : ℤ, ri n = n

/-- exponent of the last place of `x`, with `p` digits and smallest exponent `emin` -/
noncomputable def lastPlace (p : ℕ) (emin : ℤ) (x : ℝ) : ℤ := max (Int.log 2 |x| + 1 - p) emin

/-- round to the last place -/
noncomputable def roundTo (I : IntRounding) (p : ℕ) (emin : ℤ) (x : ℝ) : ℝ :=
  I.ri (x / 2 ^ lastPlace p emin x) * 2 ^ lastPlace p emin x

end S2P
