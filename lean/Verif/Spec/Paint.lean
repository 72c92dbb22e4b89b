import Verif.Spec.PsNumber
import Verif.Model.Geo

/-! # Running PostScript

A machine for the operators that occur in the output (Language Reference, chapter 8), written from the reference.  Anything else, and every
error the reference prescribes for these operators on wrong operands, stops the machine. -/

namespace S2P
namespace PS

/-- What is known of fonts: the extent of a string in a font at a size, and the font's bounding box `llx lly urx ury`.  (As in Type 1
fonts, the name FontBBox is taken to stand for the four numbers, that is, for an executable array.) -/
structure Fonts where
  width : Str → ℚ → Str → V2 ℚ
  bbox : Str → ℚ × ℚ × ℚ × ℚ

inductive Val where
  | num (q : ℚ)
  | str (s : Str)
  | name (s : Str)
  | proc (body : List Tok)
  | font (name : Str) (size : ℚ)
  | mark
  | array
  | dict
  deriving DecidableEq

/-- parts of a path -/
inductive Elem where
  | move (p : V2 ℚ)
  | line (p : V2 ℚ)
  | arc (c : V2 ℚ) (r a b : ℚ)
  deriving DecidableEq

/-- what is put on paper -/
inductive Mark where
  | stroke (path : List Elem)
  | text (at_ : V2 ℚ) (s : Str) (font : Str) (size : ℚ)
  | page
  deriving DecidableEq

structure Mach where
  stack : List Val
  path : List Elem
  /-- the current point; after an arc it is left undefined, since its end need not be rational -/
  cur : Option (V2 ℚ)
  defs : List (Str × List Tok)
  font : Option (Str × ℚ)
  /-- fonts opened with `begin` -/
  dicts : List Str
  /-- the tokens of a procedure being read, and the number of open braces -/
  reading : Option (Nat × List Tok)
  marks : List Mark
  deriving DecidableEq

def Mach.init : Mach := ⟨[], [], none, [], none, [], none, []⟩

/-- pop down to a mark -/
def toMark : List Val → Option (List Val)
  | [] => none
  | .mark :: st => some st
  | _ :: st => toMark st

/-- `n j roll` on the `n` uppermost values, the uppermost first -/
def rollTop (n : Nat) (j : Int) (st : List Val) : List Val :=
  (st.take n).rotate (j % n).toNat ++ st.drop n

def builtin (F : Fonts) (m : Mach) (op : Str) : Option Mach :=
  if op = c!"newpath" then some { m with path := [], cur := none }
  else if op = c!"moveto" then
    match m.stack with
    | .num y :: .num x :: st => some { m with stack := st, path := m.path ++ [.move ⟨x, y⟩], cur := some ⟨x, y⟩ }
    | _ => none
  else if op = c!"rmoveto" then
    match m.stack, m.cur with
    | .num y :: .num x :: st, some p => some { m with stack := st, path := m.path ++ [.move ⟨p.x + x, p.y + y⟩], cur := some ⟨p.x + x, p.y + y⟩ }
    | _, _ => none
  else if op = c!"lineto" then
    match m.stack, m.cur with
    | .num y :: .num x :: st, some _ => some { m with stack := st, path := m.path ++ [.line ⟨x, y⟩], cur := some ⟨x, y⟩ }
    | _, _ => none
  else if op = c!"arc" then
    match m.stack with
    | .num b :: .num a :: .num r :: .num y :: .num x :: st => some { m with stack := st, path := m.path ++ [.arc ⟨x, y⟩ r a b], cur := none }
    | _ => none
  else if op = c!"stroke" then some { m with path := [], cur := none, marks := m.marks ++ [.stroke m.path] }
  else if op = c!"show" then
    match m.stack, m.cur, m.font with
    | .str s :: st, some p, some f =>
      some { m with stack := st, cur := some (p + F.width f.1 f.2 s), path := m.path ++ [.move (p + F.width f.1 f.2 s)],
                    marks := m.marks ++ [.text p s f.1 f.2] }
    | _, _, _ => none
  else if op = c!"showpage" then some { m with path := [], cur := none, marks := m.marks ++ [.page] }
  else if op = c!"setlinewidth" then
    match m.stack with
    | .num _ :: st => some { m with stack := st }
    | _ => none
  else if op = c!"setpagedevice" then
    match m.stack with
    | .dict :: st => some { m with stack := st, path := [], cur := none }
    | _ => none
  else if op = c!"def" then
    match m.stack with
    | .proc body :: .name n :: st => some { m with stack := st, defs := (n, body) :: m.defs }
    | _ => none
  else if op = c!"findfont" then
    match m.stack with
    | .name n :: st => some { m with stack := .font n 1 :: st }
    | _ => none
  else if op = c!"scalefont" then
    match m.stack with
    | .num q :: .font n s :: st => some { m with stack := .font n (s * q) :: st }
    | _ => none
  else if op = c!"setfont" then
    match m.stack with
    | .font n s :: st => some { m with stack := st, font := some (n, s) }
    | _ => none
  else if op = c!"currentfont" then m.font.map (fun f => { m with stack := .font f.1 f.2 :: m.stack })
  else if op = c!"begin" then
    match m.stack with
    | .font n _ :: st => some { m with stack := st, dicts := n :: m.dicts }
    | _ => none
  else if op = c!"end" then
    match m.dicts with
    | _ :: ds => some { m with dicts := ds }
    | [] => none
  else if op = c!"FontBBox" then
    match m.dicts with
    | n :: _ => some { m with stack := .num (F.bbox n).2.2.2 :: .num (F.bbox n).2.2.1 :: .num (F.bbox n).2.1 :: .num (F.bbox n).1 :: m.stack }
    | [] => none
  else if op = c!"stringwidth" then
    match m.stack, m.font with
    | .str s :: st, some f => some { m with stack := .num (F.width f.1 f.2 s).y :: .num (F.width f.1 f.2 s).x :: st }
    | _, _ => none
  else if op = c!"dup" then
    match m.stack with
    | v :: st => some { m with stack := v :: v :: st }
    | _ => none
  else if op = c!"pop" then
    match m.stack with
    | _ :: st => some { m with stack := st }
    | _ => none
  else if op = c!"div" then
    match m.stack with
    | .num b :: .num a :: st => if b = 0 then none else some { m with stack := .num (a / b) :: st }
    | _ => none
  else if op = c!"mul" then
    match m.stack with
    | .num b :: .num a :: st => some { m with stack := .num (a * b) :: st }
    | _ => none
  else if op = c!"roll" then
    match m.stack with
    | .num j :: .num n :: st =>
      if j.den = 1 ∧ n.den = 1 ∧ 0 ≤ n ∧ n.num.toNat ≤ st.length then some { m with stack := rollTop n.num.toNat j.num st } else none
    | _ => none
  else none

/-- One token.  The first argument bounds the depth of calls. -/
def exec (F : Fonts) : Nat → Mach → Tok → Option Mach
  | 0, _, _ => none
  | n + 1, m, t =>
    match m.reading with
    | some (d, body) =>
      match t with
      | .lbrace => some { m with reading := some (d + 1, body ++ [t]) }
      | .rbrace =>
        if d = 0 then some { m with reading := none, stack := .proc body :: m.stack }
        else some { m with reading := some (d - 1, body ++ [t]) }
      | t => some { m with reading := some (d, body ++ [t]) }
    | none =>
      match t with
      | .str s => some { m with stack := .str s :: m.stack }
      | .name s => some { m with stack := .name s :: m.stack }
      | .lbrace => some { m with reading := some (0, []) }
      | .rbrace => none
      | .lbrack => some { m with stack := .mark :: m.stack }
      | .ldict => some { m with stack := .mark :: m.stack }
      | .rbrack => (toMark m.stack).map (fun st => { m with stack := .array :: st })
      | .rdict => (toMark m.stack).map (fun st => { m with stack := .dict :: st })
      | .exec s =>
        match readNum s with
        | some q => some { m with stack := .num q :: m.stack }
        | none =>
          match m.defs.find? (fun d => d.1 = s) with
          | some d => d.2.foldlM (exec F n) m
          | none => builtin F m s

def run (F : Fonts) (n : Nat) (m : Mach) (ts : List Tok) : Option Mach := ts.foldlM (exec F n) m

/-- running the program to its end puts `ms` on paper -/
def Paints (F : Fonts) (text : Str) (ms : List Mark) : Prop :=
  ∃ ts n m, scan text = some ts ∧ run F n Mach.init ts = some m ∧ m.reading = none ∧ m.marks = ms

end PS
end S2P
