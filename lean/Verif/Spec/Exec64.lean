import Verif.Spec.Round

/-! # Binary64 by computation

`X64` is IEEE 754 binary64, rounding to nearest, ties to even, computed with integers: a finite number is a fraction.  Lemmas/Exec64 proves that its
operations are those of `Fl (binary64 .nearest …)`, so a computation here is one there.  Left out: the sign of zero; the functions sin, cos, acos and
atan2, which give NaN here and about which nothing is proved. -/

namespace S2P

/-- the exponent of the first binary digit of a fraction that is not 0 -/
def lg (x : ℚ) : ℤ :=
  let n := x.num.natAbs
  let k : ℤ := (Nat.log2 n : ℤ) - (Nat.log2 x.den : ℤ)
  match k with
  | .ofNat j => if x.den * 2 ^ j ≤ n then k else k - 1
  | .negSucc j => if x.den ≤ n * 2 ^ (j + 1) then k else k - 1

/-- a power of two -/
def pow2 : ℤ → ℚ
  | .ofNat j => ((2 ^ j : ℕ) : ℚ)
  | .negSucc j => mkRat 1 (2 ^ (j + 1))

/-- nearest integer of a fraction, ties to even -/
def nearestQ (x : ℚ) : ℤ :=
  let f := x.num / (x.den : ℤ)
  let r := 2 * (x.num - f * x.den)
  if r < x.den then f else if (x.den : ℤ) < r then f + 1 else if f % 2 = 0 then f else f + 1

/-- round to `p` binary digits, with smallest exponent `emin` -/
def roundQ (p : ℕ) (emin : ℤ) (x : ℚ) : ℚ :=
  let e := max (lg x + 1 - p) emin
  (nearestQ (x * pow2 (-e)) : ℚ) * pow2 e

/-- rounding with overflow; infinities and NaN stay -/
def fixQ (p : ℕ) (emin : ℤ) (top : ℕ) : Ext ℚ → Ext ℚ
  | .fin x =>
    let y := roundQ p emin x
    if (2 ^ top : ℕ) ≤ y then .pinf else if y ≤ -(2 ^ top : ℕ) then .ninf else .fin y
  | x => x

/-- nearest integer of the square root of a fraction that is not negative, ties to even -/
def nearestRootQ (x : ℚ) : ℤ :=
  let f : ℤ := Nat.sqrt (x.num / (x.den : ℤ)).toNat
  -- the root against f + 1/2
  let l : ℤ := 4 * x.num
  let r : ℤ := (2 * f + 1) * (2 * f + 1) * x.den
  if l < r then f else if r < l then f + 1 else if f % 2 = 0 then f else f + 1

/-- the square root of a fraction that is not negative, rounded to `p` digits -/
def rootQ (p : ℕ) (emin : ℤ) (x : ℚ) : ℚ :=
  let e := max (lg x / 2 + 1 - p) emin
  (nearestRootQ (x * pow2 (-2 * e)) : ℚ) * pow2 e

/-- binary64 -/
def X64 : Type := Ext ℚ

instance : DecidableEq X64 := inferInstanceAs (DecidableEq (Ext ℚ))

/-- rounding to binary64 -/
def fix64 : Ext ℚ → X64 := fixQ 53 (-1074) 1024
/-- rounding to binary32 -/
def fix32 : Ext ℚ → X64 := fixQ 24 (-149) 128

instance : FP X64 where
  add x y := fix64 (Ext.add x y)
  sub x y := fix64 (Ext.sub x y)
  mul x y := fix64 (Ext.mul x y)
  div x y := fix64 (Ext.div x y)
  neg x := Ext.neg (K := ℚ) x
  lit q := fix64 (.fin q)
  sqrt
    | .fin a => if a < 0 then Ext.nan (K := ℚ) else Ext.fin (K := ℚ) (rootQ 53 (-1074) a)
    | .pinf => Ext.pinf (K := ℚ)
    | _ => Ext.nan (K := ℚ)
  sin _ := Ext.nan (K := ℚ)
  cos _ := Ext.nan (K := ℚ)
  acos _ := Ext.nan (K := ℚ)
  atan2 _ _ := Ext.nan (K := ℚ)
  lt := Ext.lt (K := ℚ)
  le := Ext.le (K := ℚ)
  eq := Ext.eq (K := ℚ)
  f32 x := fix32 x
  dblMax := Ext.fin (K := ℚ) (2 ^ 1024 - 2 ^ 971)
  ofDec64 q := match fix64 (.fin q) with
    | .fin x => some (Ext.fin (K := ℚ) x)
    | _ => none
  ofDec32 q := match fix32 (.fin q) with
    | .fin x => some (Ext.fin (K := ℚ) x)
    | _ => none
  toInt x := FP.toInt (α := Ext ℚ) x
  g6 x := FP.g6 (α := Ext ℚ) x

/-- fractions among the reals -/
noncomputable def Ext.real : Ext ℚ → Ext ℝ
  | .fin a => .fin (a : ℝ)
  | .pinf => .pinf
  | .ninf => .ninf
  | .nan => .nan

/-- the number of the format as a number of `Fl R` -/
noncomputable def X64.fl (R : Rounding) (x : X64) : Fl R := Ext.real x

end S2P
