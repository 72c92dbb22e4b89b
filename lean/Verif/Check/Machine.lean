import Verif.Model.Main


/-! # The model run with the machine's doubles

`Float` is the `double` of the machine Lean runs on.  Its operations are opaque to the kernel: nothing is proved here and no theorem
imports this file.  It exists so that the model can be executed and compared with what the repository's own tests expect (Check/Units, Check/Cases).
Simplification: numerals beyond the range of doubles are not reported as out of range. -/

namespace S2P.Check

/-- the double nearest to a rational, ties to even -/
def ratToFloat (q : Rat) : Float :=
  if q.num = 0 then 0.0
  else
    let n := q.num.natAbs
    let d := q.den
    let e0 : Int := (Nat.log2 n : Int) - (Nat.log2 d : Int) - 52
    let go (e : Int) : Nat × Nat := if 0 ≤ e then (n, d * 2 ^ e.toNat) else (n * 2 ^ (-e).toNat, d)
    let e := if (go e0).1 < 2 ^ 52 * (go e0).2 then e0 - 1 else e0
    let p := go e
    let m := p.1 / p.2
    let r := p.1 % p.2
    let m := if 2 * r > p.2 ∨ (2 * r = p.2 ∧ m % 2 = 1) then m + 1 else m
    let f := Float.scaleB (Float.ofNat m) e
    if q.num < 0 then -f else f

/-- exact value of a finite double -/
def floatToRat (x : Float) : Rat :=
  let p := x.abs.frExp
  let m : Nat := (p.1 * 9007199254740992.0).toUInt64.toNat
  let q : Rat := if 0 ≤ p.2 - 53 then (m : Rat) * 2 ^ (p.2 - 53).toNat else (m : Rat) / 2 ^ (53 - p.2).toNat
  if x < 0 then -q else q

def roundNat (q : Rat) : Nat :=
  let m := q.floor.natAbs
  let r := q - m
  if r > 1 / 2 ∨ (r = 1 / 2 ∧ m % 2 = 1) then m + 1 else m

def pad (n : Nat) (s : Str) : Str := List.replicate (n - s.length) '0' ++ s

def neg (x : Float) : Bool := x.toBits.toNat ≥ 2 ^ 63

def strip0 (s : Str) : Str := (s.reverse.dropWhile (· = '0')).reverse

/-- `%g` -/
def g6 (x : Float) : Str :=
  if x.isNaN then c!"nan" else
  let sg : Str := if neg x then c!"-" else []
  if x.isInf then sg ++ c!"inf" else
  let q := floatToRat x.abs
  if q = 0 then sg ++ c!"0" else
  Id.run do
    let mut e : Int := 0
    let mut v := q
    for _ in [0:400] do
      if v ≥ 10 then v := v / 10; e := e + 1
      else if v < 1 then v := v * 10; e := e - 1
      else break
    let mut m := roundNat (v * 100000)
    if m ≥ 1000000 then m := m / 10; e := e + 1
    let ds := natStr m
    if e < -4 ∨ e ≥ 6 then
      let fr := strip0 (ds.drop 1)
      return sg ++ ds.take 1 ++ (if fr.isEmpty then [] else '.' :: fr) ++ c!"e" ++ (if e < 0 then c!"-" else c!"+") ++
        pad 2 (natStr e.natAbs)
    else if 0 ≤ e then
      let k := e.toNat + 1
      let fr := strip0 (ds.drop k)
      return sg ++ ds.take k ++ (if fr.isEmpty then [] else '.' :: fr)
    else
      let fr := strip0 (List.replicate ((-e).toNat - 1) '0' ++ ds)
      return sg ++ c!"0." ++ fr

/-- `%.<p>f` -/
def fixed (p : Nat) (x : Float) : Str :=
  if x.isNaN then c!"nan" else
  let sg : Str := if neg x then c!"-" else []
  if x.isInf then sg ++ c!"inf" else
  let m := roundNat (floatToRat x.abs * 10 ^ p)
  let ds := pad (p + 1) (natStr m)
  sg ++ ds.take (ds.length - p) ++ (if p = 0 then [] else '.' :: ds.drop (ds.length - p))

instance : FP Float where
  lit := ratToFloat
  sqrt := Float.sqrt
  sin := Float.sin
  cos := Float.cos
  acos := Float.acos
  atan2 := Float.atan2
  lt a b := a < b
  le a b := a ≤ b
  eq a b := a == b
  f32 x := x.toFloat32.toFloat
  dblMax := 1.7976931348623157e308
  ofDec64 q := some (ratToFloat q)
  ofDec32 q := some (ratToFloat q).toFloat32.toFloat
  toInt x := if x.abs < 2147483648.0 then some (if x < 0 then -((-x).toUInt64.toNat : Int) else (x.toUInt64.toNat : Int)) else none
  g6 := g6

/-- formats with one `%f` or `%.<digits>f` -/
def fmtF (s : Str) : Option (Float → Str) :=
  let pre := s.takeWhile (· ≠ '%')
  match s.dropWhile (· ≠ '%') with
  | '%' :: 'f' :: post => if '%' ∈ post then none else some (fun x => pre ++ fixed 6 x ++ post)
  | '%' :: '.' :: r =>
    let ds := r.takeWhile Char.isDigit
    match r.dropWhile Char.isDigit with
    | 'f' :: post => if '%' ∈ post then none else
        some (fun x => pre ++ fixed (ds.foldl (fun n c => 10 * n + (c.toNat - 48)) 0) x ++ post)
    | _ => none
  | _ => none

def env : Env Float where
  junk _ := V3.zero
  junkM := ⟨V3.zero, V3.zero, V3.zero⟩
  fmtF := fmtF
  sorter := ⟨fun lt l => l.mergeSort (fun a b => !lt b a)⟩
  name := c!"test"
  timestamp := true
  numberPages := true
  now := c!"NOW"
  loadPath := []

end S2P.Check
