import Verif.Spec.Layout

/-! # Writing a document as a script

`num` and `int` spell numbers; the lists are the texts of the tokens. -/

namespace S2P
variable {α : Type} [FP α]

/-- the text `w` is a numeral that reads as `x` -/
def SpellNum (x : α) (w : Str) : Prop := (IsNumA w ∨ IsNumB w) ∧ ∃ q, Denotes w q ∧ FP.ofDec32 q = some x

/-- the text `w` is a numeral that reads as a number whose integer value is `i` -/
def SpellInt (α : Type) [FP α] (i : Int) (w : Str) : Prop := ∃ x : α, SpellNum x w ∧ FP.toInt x = some i

/-- a word that is not reserved -/
def IsName (w : Str) : Prop := IsWord w ∧ ∀ k ∈ keywords (α := Unit), w ≠ k.1

section
variable (num : α → Str) (int : Int → Str)

def Pt.print : Pt α → List Str
  | .val p _ => [c!"[", num p.x, c!",", num p.y, c!",", num p.z, c!"]"]
  | .func n p _ => [n, c!"("] ++ p.print ++ [c!")"]

def MetaVal.print : MetaVal α → List Str
  | .str s => [quote s]
  | .pt p => p.print num
  | .num x => [num x]
  | .loc v => [c!"[", num v.x, c!",", num v.y, c!"]"]
  | .scale i j => [int i, c!":", int j]

def Meta.print (m : Meta α) : List Str :=
  if m.name = ['@'] then c!"@" :: m.val.print num int else m.name :: c!"=" :: m.val.print num int

/-- properties, each followed by a semicolon -/
def printParts (ms : List (Meta α)) : List Str := ms.flatMap (fun m => m.print num int ++ [c!";"])

/-- properties separated by commas -/
def printArgs : List (Meta α) → List Str
  | [] => []
  | m :: ms => m.print num int ++ ms.flatMap (fun m => c!"," :: m.print num int)

def DimKind.print : DimKind → Str
  | .angle => c!"angle"
  | .dia => c!"dia"
  | .dim => c!"dim"
  | .rad => c!"rad"

def DimN.print (d : DimN α) : List Str := [d.kind.print, c!"("] ++ printArgs num int d.metas ++ [c!")", c!";"]

def Drawable.print : Drawable α → List Str
  | .draw n ms ds _ => [c!"draw", n, c!"{"] ++ printParts num int ms ++ ds.flatMap (DimN.print num int) ++ [c!"}"]
  | .text s ms _ => [c!"text", c!"[", quote s, c!"]", c!"{"] ++ printParts num int ms ++ [c!"}"]

def PageN.print (p : PageN α) : List Str :=
  [c!"page", c!"{"] ++ printParts num int p.metas ++ p.draws.flatMap (Drawable.print num int) ++ [c!"}"]

def ModelN.print (m : ModelN) : List Str := [c!"load", m.name, c!"=", quote m.source, c!";"]

def Doc.print (d : Doc α) : List Str := d.models.flatMap ModelN.print ++ d.pages.flatMap (PageN.print num int)

/-! ## Documents that can be written: names are identifiers, numbers have a spelling, texts have no NUL -/

def Pt.Good : Pt α → Prop
  | .val p _ => SpellNum p.x (num p.x) ∧ SpellNum p.y (num p.y) ∧ SpellNum p.z (num p.z)
  | .func n p _ => IsName n ∧ p.Good

def MetaVal.Good : MetaVal α → Prop
  | .str s => '\x00' ∉ s
  | .pt p => p.Good num
  | .num x => SpellNum x (num x)
  | .loc v => SpellNum v.x (num v.x) ∧ SpellNum v.y (num v.y)
  | .scale i j => SpellInt α i (int i) ∧ SpellInt α j (int j)

/-- the name `@` only goes with a location -/
def Meta.Good (m : Meta α) : Prop := (IsName m.name ∨ m.name = ['@'] ∧ ∃ v, m.val = .loc v) ∧ m.val.Good num int

def DimN.Good (d : DimN α) : Prop := ∀ m ∈ d.metas, m.Good num int

def Drawable.Good : Drawable α → Prop
  | .draw n ms ds _ => IsName n ∧ (∀ m ∈ ms, m.Good num int) ∧ ∀ d ∈ ds, d.Good num int
  | .text s ms _ => '\x00' ∉ s ∧ ∀ m ∈ ms, m.Good num int

def PageN.Good (p : PageN α) : Prop := (∀ m ∈ p.metas, m.Good num int) ∧ ∀ d ∈ p.draws, d.Good num int

def ModelN.Good (m : ModelN) : Prop := IsName m.name ∧ '\x00' ∉ m.source

def Doc.Good (d : Doc α) : Prop := (∀ m ∈ d.models, m.Good) ∧ ∀ p ∈ d.pages, p.Good num int

end

end S2P
