import Verif.Model.Page
import Verif.Spec.Blocks

/-! # Pages as the sum of what is put on them -/

namespace S2P
variable {α : Type} [FP α]

/-- page content put in front -/
def OutPage.app (a b : OutPage α) : OutPage α := ⟨a.lines ++ b.lines, a.arcs ++ b.arcs, a.text ++ b.text⟩

/-- one after the other -/
def OutPage.sum : List (OutPage α) → OutPage α
  | [] => OutPage.empty
  | a :: l => a.app (OutPage.sum l)

/-- What a drawing or text block does when it is the first thing a fresh visitor meets: verdict, page content, diagnostics. -/
def content (E : Env α) (stl : Models α) (d : Drawable α) : Except Abort (Bool × OutPage α × List Diag) :=
  (visitDrawable E stl (initVis E) d).map (fun r => (r.1, r.2.2.page, r.2.2.log))

/-- the state with nothing on the page and nothing printed -/
def Vis.base (v : Vis α) : Vis α := { v with page := OutPage.empty, log := [] }

/-- What a dimension does when it is the first thing met within a drawing: verdict, page content, diagnostics. -/
def dimContent (E : Env α) (v : Vis α) (d : DimN α) : Except Abort (Bool × OutPage α × List Diag) :=
  (visitDimN E v.base d).map (fun r => (r.1, r.2.2.page, r.2.2.log))

/-- A page as the only page of a document. -/
def onePage (E : Env α) (stl : Models α) (pg : PageN α) : Except Abort (GenRes α) := generatePages E stl ⟨[], [pg]⟩ []

/-- the title a page asks for; empty without a `name`, or if that is not a string -/
def titled (ms : List (Meta α)) (t : Str) : Prop :=
  match look ms c!"name" with
  | none => t = []
  | some m => match m.val with
    | .str s => t = s
    | _ => t = []

/-- `name`, if present, is a string -/
def nameIsString (ms : List (Meta α)) : Prop := ∀ m, look ms c!"name" = some m → ∃ s, m.val = .str s

/-- the scale `a:b` asked for, 1:1 by default -/
def scaleOf (m : Option (Meta α)) : Except Diag (Int × Int) :=
  match m with
  | none => .ok (1, 1)
  | some m => match m.val with
    | .scale a b => .ok (a, b)
    | _ => .error (m.line, c!"Wrong type for scale")

/-- the view asked for, as a matrix; Z+ by default -/
def viewOf (m : Option (Meta α)) : Except Diag (M3 α) :=
  match m with
  | none => .ok matZP
  | some m => match m.val with
    | .loc l => .ok (getMatrixByAng l)
    | .str n => match getMatrixByName n with
      | some r => .ok r
      | none => .error (m.line, c!"Unknown view name: '" ++ n ++ c!"'")
    | v => .error (m.line, c!"Unexpect view type: " ++ v.typeName)

/-- where on the page the drawing is centred; the corner by default -/
def locOf (m : Option (Meta α)) : Except Abort (V2 α) :=
  match m with
  | none => .ok ⟨FP.lit 0, FP.lit 0⟩
  | some m => match m.val with
    | .loc l => .ok (l.smul (FP.lit 72) + pageCentre)
    | _ => .error .atCheck

/-- where the text block starts; the centre of the page by default -/
def textLocOf (m : Option (Meta α)) : Except Abort (V2 α) :=
  match m with
  | none => .ok (⟨FP.lit 0, FP.lit 0⟩ + pageCentre)
  | some m => match m.val with
    | .loc l => .ok (⟨FP.lit 0, FP.lit 0⟩ + l.smul (FP.lit 72) + pageCentre)
    | _ => .error .atCheck

/-- the title, with a complaint if it is not a string -/
def titleOf (m : Option (Meta α)) : Str × List Diag :=
  match m with
  | none => ([], [])
  | some m => match m.val with
    | .str s => (s, [])
    | v => ([], [(m.line, c!"Expected document name to be a string, got '" ++ v.typeName ++ c!"'")])

/-- the state in which the dimensions of a drawing are visited -/
def drawStart (v : Vis α) (sc : Int × Int) (rot : M3 α) (loc : V2 α) (proj : STLFile α) (ls : List (Line α)) : Vis α :=
  let v := ({ v with scale := projScale sc, d := projOffset loc proj.limits (projScale sc) } : Vis α).addLines ls
  { v with points := proj.points, rotation := rot }

/-- what a drawing needs before anything is drawn -/
structure Drawn (E : Env α) (stl : Models α) (name : Str) (ms : List (Meta α)) (sc : Int × Int) (rot : M3 α) (loc : V2 α)
    (file proj : STLFile α) (ls : List (Line α)) : Prop where
  once : (ms.map (fun m => m.name)).Nodup
  scale : scaleOf (look ms c!"scale") = .ok sc
  view : viewOf (look ms c!"view") = .ok rot
  loc : locOf (look ms c!"@") = .ok loc
  model : ∃ e, stl.find? (fun e => decide (e.1 = name)) = some e ∧ e.2 = some file
  turned : file.rotate rot = .ok proj
  lines : proj.cull.toLines E.sorter = .ok ls

end S2P
