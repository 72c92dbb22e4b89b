import Verif.Spec.Paint
import Verif.Spec.Numbers
import Verif.Model.Page

/-! # What the output is meant to be: tokens, and marks on paper -/

namespace S2P
namespace PS

abbrev x (s : Str) : Tok := .exec s

/-- the definitions every document begins with: a font size of 8 and the centring of text -/
def prologue : List Tok :=
  [.name c!"FontSize", .lbrace, x c!"8", .rbrace, x c!"def",
   .name c!"CenterText", .lbrace,
     x c!"dup", x c!"stringwidth", x c!"pop", x c!"-2", x c!"div",
     x c!"currentfont", x c!"begin", x c!"FontBBox", x c!"end",
     x c!"4", x c!"1", x c!"roll", x c!"pop", x c!"pop", x c!"pop", x c!"2", x c!"div",
     x c!"-1600", x c!"div", x c!"FontSize", x c!"mul",
     x c!"rmoveto",
   .rbrace, x c!"def",
   .name c!"Courier", x c!"findfont", x c!"FontSize", x c!"scalefont", x c!"setfont"]

/-- the tokens a page begins with: a letter page, landscape, and the border -/
def pageStart : List Tok :=
  [.ldict, .name c!"PageSize", .lbrack, x c!"792", x c!"612", .rbrack, .rdict, x c!"setpagedevice",
   x c!".1", x c!"setlinewidth",
   x c!"newpath", x c!"5", x c!"5", x c!"moveto", x c!"5", x c!"607", x c!"lineto", x c!"787", x c!"607", x c!"lineto",
   x c!"787", x c!"5", x c!"lineto", x c!"5", x c!"5", x c!"lineto", x c!"stroke"]

section
variable {α : Type} [FP α]

/-- what a text shows: its characters, with line ends as PostScript reads them; for a text that is written raw, the diameter sign and what
follows the sign's code -/
def shown (t : PsText α) : Str := if t.raw then Char.ofNat 233 :: t.str.drop 4 else eol t.str

/-- a text written raw begins with the code of the diameter sign, and the rest has no special characters -/
def Harmless (t : PsText α) : Prop := t.raw = true → ∃ u, Plain u ∧ t.str = c!"\\351" ++ u

def textToks (t : PsText α) : List Tok :=
  [x c!"newpath", x (FP.g6 t.at_.x), x (FP.g6 t.at_.y), x c!"moveto", .str (shown t)] ++
  (if t.center then [x c!"CenterText"] else []) ++ [x c!"show"]

def arcToks (a : Arc α) : List Tok :=
  [x c!"newpath", x (FP.g6 a.center.x), x (FP.g6 a.center.y), x (FP.g6 a.r),
   x (FP.g6 (a.start * FP.lit 180 / piLit)), x (FP.g6 (a.stop * FP.lit 180 / piLit)), x c!"arc", x c!"stroke"]

def lineToks (l : Line α) : List Tok :=
  [x c!"newpath", x (FP.g6 l.o.x), x (FP.g6 l.o.y), x c!"moveto", x (FP.g6 l.t.x), x (FP.g6 l.t.y), x c!"lineto", x c!"stroke"]

/-- the label in the corner of page `i` of `n`: the time, the page's number, or both, as the settings ask -/
def cornerLabel (E : Env α) (i n : Nat) : Option Str :=
  match E.timestamp, E.numberPages with
  | false, false => none
  | true, false => some E.now
  | false, true => some (c!"page " ++ natStr i ++ c!" of " ++ natStr n)
  | true, true => some (E.now ++ c!" page " ++ natStr i ++ c!" of " ++ natStr n)

def cornerToks (E : Env α) (i n : Nat) : List Tok :=
  match cornerLabel E i n with
  | none => []
  | some s => [x c!"newpath", x (FP.g6 (FP.lit 7 : α)), x (FP.g6 (FP.lit 7 : α)), x c!"moveto", .str (eol s), x c!"show"]

def pageToks (E : Env α) (n i : Nat) (P : OutPage α) : List Tok :=
  pageStart ++ cornerToks E i n ++ P.text.flatMap textToks ++ P.arcs.flatMap arcToks ++ P.lines.flatMap lineToks ++ [x c!"showpage"]

/-- the pages, the first of which has number `i` -/
def pagesToks (E : Env α) (n : Nat) : Nat → List (OutPage α) → List Tok
  | _, [] => []
  | i, P :: Ps => pageToks E n i P ++ pagesToks E n (i + 1) Ps

def docToks (E : Env α) (Ps : List (OutPage α)) : List Tok := prologue ++ pagesToks E Ps.length 1 Ps

end

section
variable {K : Type} [Field K] [LinearOrder K]

/-- `q` is the finite number `a`, to six digits -/
def Six (a : Ext K) (q : ℚ) : Prop := ∃ k : K, a = .fin k ∧ SixDigits k q

/-- `q` is the angle `a`, given in radians, in degrees to six digits; π is taken as 3.1415926535897932 -/
def Degrees (a : Ext K) (q : ℚ) : Prop := ∃ k : K, a = .fin k ∧ SixDigits (k * 180 / (31415926535897932 / 10000000000000000)) q

/-- the border -/
def border : Mark := .stroke [.move ⟨5, 5⟩, .line ⟨5, 607⟩, .line ⟨787, 607⟩, .line ⟨787, 5⟩, .line ⟨5, 5⟩]

/-- Painted text: in 8 point Courier, at its place; or, if it is to be centred, moved left by half its width and down by half the height of
the font's highest character, in units of a sixteen-hundredth. -/
def PaintsText (F : Fonts) (t : PsText (Ext K)) (m : Mark) : Prop :=
  ∃ qx qy, Six t.at_.x qx ∧ Six t.at_.y qy ∧
    m = .text (if t.center then ⟨qx - (F.width c!"Courier" 8 (shown t)).x / 2, qy - (F.bbox c!"Courier").2.2.2 * 8 / 3200⟩ else ⟨qx, qy⟩)
      (shown t) c!"Courier" 8

/-- a stroke of one arc about its centre, the angles in degrees -/
def PaintsArc (a : Arc (Ext K)) (m : Mark) : Prop :=
  ∃ qx qy qr q1 q2, Six a.center.x qx ∧ Six a.center.y qy ∧ Six a.r qr ∧
    Degrees a.start q1 ∧ Degrees a.stop q2 ∧ m = .stroke [.arc ⟨qx, qy⟩ qr q1 q2]

/-- a stroke of one line -/
def PaintsLine (l : Line (Ext K)) (m : Mark) : Prop :=
  ∃ ax ay bx by', Six l.o.x ax ∧ Six l.o.y ay ∧ Six l.t.x bx ∧ Six l.t.y by' ∧ m = .stroke [.move ⟨ax, ay⟩, .line ⟨bx, by'⟩]

/-- page `i` of `n` on paper: the border, the corner's label, the texts, the arcs, the lines, and then the page is put out -/
def PaintsPage (F : Fonts) (E : Env (Ext K)) (n i : Nat) (P : OutPage (Ext K)) (ms : List Mark) : Prop :=
  ∃ mt ma ml,
    ms = [border] ++ ((cornerLabel E i n).map (fun s => Mark.text ⟨7, 7⟩ (eol s) c!"Courier" 8)).toList ++ mt ++ ma ++ ml ++ [.page] ∧
    List.Forall₂ (PaintsText F) P.text mt ∧ List.Forall₂ PaintsArc P.arcs ma ∧ List.Forall₂ PaintsLine P.lines ml

/-- page after page, the first of which has number `i` -/
def PaintsPages (F : Fonts) (E : Env (Ext K)) (n : Nat) : Nat → List (OutPage (Ext K)) → List Mark → Prop
  | _, [], ms => ms = []
  | i, P :: Ps, ms => ∃ a b, ms = a ++ b ∧ PaintsPage F E n i P a ∧ PaintsPages F E n (i + 1) Ps b

end
end PS
end S2P
