import Verif.Spec.PostScript
import Mathlib.Algebra.Field.Rat
import Mathlib.Algebra.Order.Field.Basic
import Mathlib.Data.Rat.Cast.Order

/-! # PostScript numbers (Language Reference 3.2.2, signed decimal integers and reals; not radix numbers) -/

namespace S2P
namespace PS

def isDec (c : Char) : Bool := 48 ≤ c.toNat && c.toNat ≤ 57

/-- a numeral's value -/
def decVal (s : Str) : Nat := s.foldl (fun n c => n * 10 + (c.toNat - 48)) 0

/-- an optional sign: whether it is `-`, and the rest -/
def signed : Str → Bool × Str
  | '-' :: s => (true, s)
  | '+' :: s => (false, s)
  | s => (false, s)

/-- nothing, or `e`, an optional sign and digits -/
def readExp : Str → Option Int
  | [] => some 0
  | c :: t =>
    if c = 'e' ∨ c = 'E' then
      if (signed t).2 ≠ [] ∧ (signed t).2.all isDec = true then
        some (if (signed t).1 then -(decVal (signed t).2 : Int) else decVal (signed t).2)
      else none
    else none

/-- digits, then possibly a point and digits, and the rest -/
def readDigits (s : Str) : Str × Str × Str :=
  match s.dropWhile isDec with
  | '.' :: t => (s.takeWhile isDec, t.takeWhile isDec, t.dropWhile isDec)
  | r => (s.takeWhile isDec, [], r)

/-- the number a token is, if it is one -/
def readNum (s : Str) : Option ℚ :=
  let neg := (signed s).1
  let d := readDigits (signed s).2
  if d.1 ++ d.2.1 = [] then none
  else (readExp d.2.2).map (fun e : Int => (if neg then -1 else 1) * (decVal (d.1 ++ d.2.1) : ℚ) * (10 : ℚ) ^ (e - (d.2.1.length : Int)))

/-- `q` is `a` to six significant digits: the difference is at most half a unit in the sixth -/
def SixDigits {K : Type} [Field K] [LinearOrder K] (a : K) (q : ℚ) : Prop := |(q : K) - a| ≤ |a| * (5 / 10 ^ 6)

end PS
end S2P
