import Verif.Model.Stl
import Mathlib.Data.Nat.Digits.Defs

/-! # What an ASCII STL file says: numerals, lines, blocks -/

namespace S2P

/-- `k` spaces -/
def sps (k : Nat) : Str := List.replicate k ' '

def IsDigits (s : Str) : Prop := ∀ c ∈ s, c ∈ ['0', '1', '2', '3', '4', '5', '6', '7', '8', '9']

/-- the number a digit string denotes -/
def decVal (s : Str) : Nat := Nat.ofDigits 10 (s.reverse.map (fun c => c.toNat - 48))

/-- the parts of a decimal numeral -/
structure Numeral where
  neg : Bool
  ip : Str
  /-- digits after the point; `none` = no point -/
  fp : Option Str
  /-- exponent: negative?, digits -/
  ex : Option (Bool × Str)

namespace Numeral
/-- digits only, at least one of them in the mantissa, and in the exponent if there is one -/
def Wf (n : Numeral) : Prop :=
  IsDigits n.ip ∧ IsDigits (n.fp.getD []) ∧ n.ip ++ n.fp.getD [] ≠ [] ∧
  ∀ e ∈ n.ex, IsDigits e.2 ∧ e.2 ≠ []
def fracText : Option Str → Str
  | some f => '.' :: f
  | none => []
def expText : Option (Bool × Str) → Str
  | some (true, d) => 'e' :: '-' :: d
  | some (false, d) => 'e' :: d
  | none => []
def expVal : Option (Bool × Str) → ℚ
  | some (true, d) => 1 / 10 ^ decVal d
  | some (false, d) => 10 ^ decVal d
  | none => 1
def text (n : Numeral) : Str := (if n.neg then ['-'] else []) ++ n.ip ++ fracText n.fp ++ expText n.ex
def value (n : Numeral) : ℚ :=
  (if n.neg then -1 else 1) * ((decVal (n.ip ++ n.fp.getD []) : ℚ) / 10 ^ (n.fp.getD []).length) * expVal n.ex
end Numeral

/-- the text `s` is a numeral with value `q` -/
def IsNumeral (s : Str) (q : ℚ) : Prop := ∃ n : Numeral, n.Wf ∧ n.text = s ∧ n.value = q

variable {α : Type} [FP α]

/-- three numerals, each preceded by at least one space, denoting a vector of representable numbers -/
def IsTriple (t : Str) (v : V3 α) : Prop :=
  ∃ a b c sa sb sc qa qb qc, t = sps (a + 1) ++ sa ++ sps (b + 1) ++ sb ++ sps (c + 1) ++ sc ∧
    IsNumeral sa qa ∧ IsNumeral sb qb ∧ IsNumeral sc qc ∧
    FP.ofDec64 qa = some v.x ∧ FP.ofDec64 qb = some v.y ∧ FP.ofDec64 qc = some v.z

/-- the lines of an ASCII STL file -/
inductive LineIs : Str → StlLine α → Prop
  | solid (k : Nat) (kw rest : Str) : kw ∈ [c!"solid", c!"endsolid"] →
      (rest = [] ∨ ∃ t, rest = ' ' :: t ∧ '\n' ∉ t) → LineIs (sps k ++ kw ++ rest) .solid
  | loop (k m : Nat) (kw : Str) : kw ∈ [c!"outer loop", c!"endloop"] → LineIs (sps k ++ kw ++ sps m) .loop
  | facet (k m : Nat) (t : Str) (v : V3 α) : IsTriple t v → LineIs (sps k ++ c!"facet normal" ++ t ++ sps m) (.facet v)
  | endfacet (k m : Nat) : LineIs (sps k ++ c!"endfacet" ++ sps m) .endfacet
  | vertex (k m : Nat) (t : Str) (v : V3 α) : IsTriple t v → LineIs (sps k ++ c!"vertex" ++ t ++ sps m) (.vertex v)

/-- `ls` are the lines of `content`: newline-terminated, except that the last may lack the newline if it is not empty -/
def LinesOf (content : Str) (ls : List Str) : Prop :=
  (∀ l ∈ ls, '\n' ∉ l) ∧
  (content = ls.flatMap (· ++ ['\n']) ∨
   ∃ i l, ls = i ++ [l] ∧ l ≠ [] ∧ content = i.flatMap (· ++ ['\n']) ++ l)

/-- a line that opens or closes a facet -/
def isMark {β : Type} : StlLine β → Bool
  | .facet _ => true
  | .endfacet => true
  | _ => false

/-- the vertices among some lines -/
def vertexOf {β : Type} : StlLine β → Option (V3 β)
  | .vertex v => some v
  | _ => none

/-- If a `facet normal` line with non-zero normal stands at the head and the next facet or endfacet line is an `endfacet`:
the declared normal and the vertices in between. -/
def blockAt : List (StlLine α) → Option (V3 α × List (V3 α))
  | .facet n :: rest =>
    match rest.dropWhile (!isMark ·) with
    | .endfacet :: _ =>
      if n.eqv V3.zero then none else some (n, (rest.takeWhile (!isMark ·)).filterMap vertexOf)
    | _ => none
  | _ => none

/-- the closed facets with non-zero normal, in file order -/
def blocks (ls : List (StlLine α)) : List (V3 α × List (V3 α)) := ls.tails.filterMap blockAt

end S2P
