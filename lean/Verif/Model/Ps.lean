import Verif.Model.Ast
import Verif.Model.Ext

/-! # ps.h, ps.cc: writing PostScript

Output streams are modelled by the characters written. -/

namespace S2P

/-- `absl::Substitute`: `$k` is replaced by argument `k`, `$$` by `$`; arguments are not scanned again.
Simplification: a malformed format string is not modelled, all format strings here are the literals of ps.cc. -/
def substitute : Str → List Str → Str
  | [], _ => []
  | '$' :: c :: fmt, args =>
    if isDigit c then args.getD (c.toNat - 48) [] ++ substitute fmt args
    else c :: substitute fmt args
  | c :: fmt, args => c :: substitute fmt args

/-- decimal text of a non-negative `int` -/
def natStr (n : Nat) : Str := Ext.natDigits n

/-- ps.h:42-50 `Text` -/
structure PsText (α : Type) where
  at_ : V2 α
  str : Str
  center : Bool
  raw : Bool
  deriving DecidableEq

/-- ps.h:40 `kFontSize` -/
def kFontSize : Nat := 8

/-- ps.cc:56-79, the format string -/
def docFmt : Str :=
  c!"% generated by stl-to-ps\n" ++
  c!"% Name: $0\n" ++
  c!"% Source: $1\n" ++
  c!"% Time: $2\n" ++
  c!"%\n" ++
  c!"% File Header %%%%%%\n" ++
  c!"/FontSize { $3 } def  % a hack to allow reusing the font size\n" ++
  c!"\n" ++
  c!"/CenterText {\n" ++
  c!"  dup stringwidth\n" ++
  c!"  pop     % throw away the \"height\"\n" ++
  c!"  -2 div  % half and negate\n" ++
  c!"\n" ++
  c!"  currentfont begin FontBBox end  % - y_min - y_max\n" ++
  c!"  4 1 roll pop pop pop 2 div      % midline in \"units\"\n" ++
  c!"  -1600 div FontSize mul          % convert to em\n" ++
  c!"\n" ++
  c!"  rmoveto % offset by that\n" ++
  c!"} def\n" ++
  c!"\n" ++
  c!"/Courier findfont\n" ++
  c!"FontSize scalefont setfont\n" ++
  c!"% End File Header %%%%%%\n"

variable {α : Type} [FP α]

/-- ps.cc:55-82 `DocumentHeader` -/
def documentHeader (E : Env α) (src : Str) : Str :=
  substitute docFmt [E.name, src, E.now, natStr kFontSize] ++ ['\n']

/-- ps.cc:136-149: escaping -/
def escapeText (s : Str) : Str :=
  s.flatMap (fun c => if c = '(' ∨ c = ')' ∨ c = '\\' then ['\\', c] else [c])

/-- ps.cc:130-154: one text -/
def textLine (t : PsText α) : Str :=
  let s := if t.raw then t.str else escapeText t.str
  substitute (if t.center then c!"newpath $0 $1 moveto ($2) CenterText show\n"
              else c!"newpath $0 $1 moveto ($2) show\n")
    [FP.g6 t.at_.x, FP.g6 t.at_.y, s]

/-- ps.cc:129-156 `TextToPs` -/
def textToPs (ts : List (PsText α)) : Str := ts.flatMap textLine

/-- ps.cc:85-92, the format string -/
def pageFmt : Str :=
  c!"\n" ++
  c!"%%%%%%%%% Start of page $0 of $1\n" ++
  c!"<< /PageSize [792 612] >> setpagedevice % letter/landscape\n" ++
  c!"\n" ++
  c!".1 setlinewidth\n" ++
  c!"% draw border\n" ++
  c!"newpath 5 5 moveto 5 607 lineto 787 607 lineto 787 5 lineto 5 5 lineto stroke\n"

/-- ps.cc:96-108: the page's own label, if any -/
def pageMeta (E : Env α) (num pages : Nat) : List Str :=
  (if E.timestamp then [E.now] else []) ++
  (if E.numberPages then [c!"page " ++ natStr num ++ c!" of " ++ natStr pages] else [])

/-- `absl::StrJoin` with a space (ps.cc:108) -/
def joinSp : List Str → Str
  | [] => []
  | [s] => s
  | s :: ss => s ++ ' ' :: joinSp ss

/-- ps.cc:84-111 `PageHeader` -/
def pageHeader (E : Env α) (num pages : Nat) : Str :=
  substitute pageFmt [natStr num, natStr pages] ++
  (if pageMeta E num pages = [] then []
   else textToPs [(⟨⟨FP.lit 7, FP.lit 7⟩, joinSp (pageMeta E num pages), false, false⟩ : PsText α)])

/-- ps.cc:115-116: one line -/
def lineLine (l : Line α) : Str :=
  substitute c!"newpath $0 $1 moveto $2 $3 lineto stroke\n" [FP.g6 l.o.x, FP.g6 l.o.y, FP.g6 l.t.x, FP.g6 l.t.y]

/-- ps.cc:113-118 `LinesToPs` -/
def linesToPs (ls : List (Line α)) : Str := ls.flatMap lineLine

/-- ps.cc:122-125: one arc; radians to degrees -/
def arcLine (a : Arc α) : Str :=
  substitute c!"newpath $0 $1 $2 $3 $4 arc stroke\n"
    [FP.g6 a.center.x, FP.g6 a.center.y, FP.g6 a.r,
     FP.g6 (a.start * FP.lit 180 / piLit), FP.g6 (a.stop * FP.lit 180 / piLit)]

/-- ps.cc:120-127 `ArcToPs` -/
def arcToPs (as : List (Arc α)) : Str := as.flatMap arcLine

/-- ps.cc:158-162 `PageFooter` -/
def pageFooter : Str := c!"\nshowpage %%%%%%%%%\n"

end S2P
