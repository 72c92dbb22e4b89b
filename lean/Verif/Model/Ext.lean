import Verif.Model.FP
import Mathlib.Algebra.Order.Floor.Ring
import Mathlib.Data.Int.Log

/-!
# `Ext K`: exact arithmetic with IEEE special values

The elements of an ordered field `K` together with `+∞`, `-∞` and NaN.  Finite arithmetic is exact; the special
values follow IEEE 754.  Left out: rounding, overflow to infinity, and the sign of zero (`x/0` treats the divisor as `+0`).
-/

namespace S2P

/-- The library functions that are not field operations. -/
class Trans (K : Type) where
  sqrt : K → K
  sin : K → K
  cos : K → K
  acos : K → K
  atan2 : K → K → K

inductive Ext (K : Type) where
  | fin (x : K)
  | pinf
  | ninf
  | nan
  deriving DecidableEq

namespace Ext
variable {K : Type}

/-- is a number, not an infinity and not NaN -/
def isFin : Ext K → Bool
  | fin _ => true
  | _ => false

/-- Decimal digits of a natural number, most significant first. -/
def natDigits (n : Nat) : Str :=
  if h : n < 10 then [Char.ofNat (48 + n)] else natDigits (n / 10) ++ [Char.ofNat (48 + n % 10)]
termination_by n

/-- drop trailing `'0'`s -/
def dropZeros (s : Str) : Str := (s.reverse.dropWhile (· == '0')).reverse

section
variable [Field K] [LinearOrder K]

def add : Ext K → Ext K → Ext K
  | fin a, fin b => fin (a + b)
  | nan, _ => nan
  | _, nan => nan
  | pinf, ninf => nan
  | ninf, pinf => nan
  | pinf, _ => pinf
  | _, pinf => pinf
  | ninf, _ => ninf
  | _, ninf => ninf

def neg : Ext K → Ext K
  | fin a => fin (-a)
  | pinf => ninf
  | ninf => pinf
  | nan => nan

def sub (a b : Ext K) : Ext K := add a (neg b)

/-- infinity with the sign of `a`, NaN for zero -/
def infSign (a : K) : Ext K := if a = 0 then nan else if 0 < a then pinf else ninf

def mul : Ext K → Ext K → Ext K
  | fin a, fin b => fin (a * b)
  | nan, _ => nan
  | _, nan => nan
  | pinf, fin b => infSign b
  | fin a, pinf => infSign a
  | ninf, fin b => neg (infSign b)
  | fin a, ninf => neg (infSign a)
  | pinf, pinf => pinf
  | ninf, ninf => pinf
  | pinf, ninf => ninf
  | ninf, pinf => ninf

def div : Ext K → Ext K → Ext K
  | fin a, fin b => if b = 0 then infSign a else fin (a / b)
  | nan, _ => nan
  | _, nan => nan
  | fin _, pinf => fin 0
  | fin _, ninf => fin 0
  | pinf, fin b => if b < 0 then ninf else pinf
  | ninf, fin b => if b < 0 then pinf else ninf
  | _, _ => nan

def lt : Ext K → Ext K → Bool
  | fin a, fin b => decide (a < b)
  | nan, _ => false
  | _, nan => false
  | ninf, ninf => false
  | ninf, _ => true
  | _, ninf => false
  | pinf, _ => false
  | _, pinf => true

def le : Ext K → Ext K → Bool
  | fin a, fin b => decide (a ≤ b)
  | nan, _ => false
  | _, nan => false
  | ninf, _ => true
  | _, pinf => true
  | _, _ => false

def eq : Ext K → Ext K → Bool
  | fin a, fin b => decide (a = b)
  | pinf, pinf => true
  | ninf, ninf => true
  | _, _ => false

variable [IsStrictOrderedRing K] [FloorRing K]

/-- nearest integer, ties to even -/
def roundEven (y : K) : Int :=
  let q := ⌊y⌋
  if y - q < 1 / 2 then q else if (1 / 2 : K) < y - q then q + 1 else if q % 2 = 0 then q else q + 1

/-- Decimal exponent and six-digit significand of a positive number: `x ≈ m * 10^(e-5)`, `10^5 ≤ m < 10^6`.
Model of the rounding that `absl::Substitute` applies to a `double` argument (six significant digits, as `%g`). -/
def sixDigits (x : K) : Int × Nat :=
  let e := Int.log 10 x
  let m := (roundEven (x / (10 : K) ^ (e - 5))).toNat
  if m = 1000000 then (e + 1, 100000) else (e, m)

/-- `%g`-style layout of significand digits `m` and exponent `e`. -/
def layout6 (e : Int) (m : Nat) : Str :=
  let ds := dropZeros (natDigits m)
  if -4 ≤ e ∧ e ≤ 5 then
    if 0 ≤ e then
      let k := e.toNat + 1
      let ip := (ds ++ List.replicate k '0').take k
      let fp := ds.drop k
      if fp = [] then ip else ip ++ '.' :: fp
    else c!"0." ++ List.replicate (-e - 1).toNat '0' ++ ds
  else
    let man := match ds with
      | [] => []
      | [d] => [d]
      | d :: rest => d :: '.' :: rest
    let ea := natDigits e.natAbs
    man ++ ['e', if e < 0 then '-' else '+'] ++ (if ea.length < 2 then '0' :: ea else ea)

/-- text printed for a finite value -/
def show6 (x : K) : Str :=
  if x = 0 then c!"0"
  else if 0 < x then (fun p => layout6 p.1 p.2) (sixDigits x)
  else '-' :: (fun p => layout6 p.1 p.2) (sixDigits (-x))

variable [Trans K]

instance instFP : FP (Ext K) where
  add := add
  sub := sub
  mul := mul
  div := div
  neg := neg
  lit q := fin (q : K)
  sqrt
    | fin a => if a < 0 then nan else fin (Trans.sqrt a)
    | pinf => pinf
    | _ => nan
  sin
    | fin a => fin (Trans.sin a)
    | _ => nan
  cos
    | fin a => fin (Trans.cos a)
    | _ => nan
  acos
    | fin a => if a < -1 ∨ 1 < a then nan else fin (Trans.acos a)
    | _ => nan
  atan2
    | fin a, fin b => fin (Trans.atan2 a b)
    -- `atan2` of infinities is a finite angle in C++; it is not reached from finite inputs.
    | _, _ => nan
  lt := lt
  le := le
  eq := eq
  f32 x := x
  dblMax := pinf -- simplification: above every finite value
  ofDec64 q := some (fin (q : K))
  ofDec32 q := some (fin (q : K))
  toInt
    | fin a =>
      let t := if 0 ≤ a then ⌊a⌋ else ⌈a⌉
      if -2147483648 ≤ t ∧ t ≤ 2147483647 then some t else none
    | _ => none
  g6
    | fin a => show6 a
    | pinf => c!"inf"
    | ninf => c!"-inf"
    | nan => c!"nan"

end
end Ext
end S2P
