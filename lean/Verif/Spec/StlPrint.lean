import Verif.Spec.StlText

/-! # Writing triangles as ASCII STL -/

namespace S2P

/-- three numerals -/
structure Num3 where
  x : Numeral
  y : Numeral
  z : Numeral

def Num3.Wf (t : Num3) : Prop := t.x.Wf ∧ t.y.Wf ∧ t.z.Wf
/-- the numerals are representable and denote the coordinates of `v` -/
def Num3.Denotes {α : Type} [FP α] (t : Num3) (v : V3 α) : Prop :=
  FP.ofDec64 t.x.value = some v.x ∧ FP.ofDec64 t.y.value = some v.y ∧ FP.ofDec64 t.z.value = some v.z
/-- the numerals separated by `k+1` spaces -/
def Num3.text (t : Num3) (k : Nat) : Str :=
  sps (k + 1) ++ t.x.text ++ sps (k + 1) ++ t.y.text ++ sps (k + 1) ++ t.z.text

/-- a written triangle: declared normal and three corners, the indentation of its seven lines, the gap between numbers -/
structure TriText where
  n : Num3
  a : Num3
  b : Num3
  c : Num3
  ind : Nat → Nat
  gap : Nat

/-- the seven lines of a triangle -/
def TriText.lines (t : TriText) : List Str :=
  [sps (t.ind 0) ++ c!"facet normal" ++ t.n.text t.gap,
   sps (t.ind 1) ++ c!"outer loop",
   sps (t.ind 2) ++ c!"vertex" ++ t.a.text t.gap,
   sps (t.ind 3) ++ c!"vertex" ++ t.b.text t.gap,
   sps (t.ind 4) ++ c!"vertex" ++ t.c.text t.gap,
   sps (t.ind 5) ++ c!"endloop",
   sps (t.ind 6) ++ c!"endfacet"]

/-- a whole file -/
def stlLines (name : Str) (ts : List TriText) : List Str :=
  (c!"solid " ++ name) :: ts.flatMap TriText.lines ++ [c!"endsolid " ++ name]

def stlText (name : Str) (ts : List TriText) : Str := (stlLines name ts).flatMap (· ++ ['\n'])

/-- the decimal `m / 10^k` written with digits and a negative exponent -/
def decNumeral (neg : Bool) (m k : Nat) : Numeral :=
  ⟨neg, (Nat.toDigits 10 m), none, some (true, Nat.toDigits 10 k)⟩

end S2P
