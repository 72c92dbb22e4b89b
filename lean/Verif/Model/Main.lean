import Verif.Model.Page
import Verif.Model.Parser

/-! # Loading models, ScriptToPS, main -/

namespace S2P
variable {α : Type} [FP α]

/-- Files.  Paths name files through `ident` (so two paths may be the same file); `data` is the content of a file that exists
and can be read (a directory reads as empty); `canWrite` says whether opening for writing succeeds. -/
structure World where
  ident : Str → Nat
  data : Nat → Option Str
  canWrite : Nat → Bool

/-- content of the file at a path, if opening it for reading succeeds -/
def World.read (w : World) (path : Str) : Option Str := w.data (w.ident path)

/-- replace the content of the file at a path -/
def World.write (w : World) (path : Str) (s : Str) : World :=
  { w with data := fun i => if i = w.ident path then some s else w.data i }

/-- `absl::StrSplit(s, ',')` -/
def splitComma : Str → List Str
  | [] => [[]]
  | c :: s =>
    if c = ',' then [] :: splitComma s
    else match splitComma s with
      | [] => [[c]] -- not reached
      | l :: ls => (c :: l) :: ls

/-- stl-to-ps.cc:135-149: the paths tried, in order -/
def candidates (E : Env α) (file : Str) : List Str :=
  match file with
  | '/' :: _ => [file]
  | _ => (c!"." :: splitComma E.loadPath).map (fun p => p ++ '/' :: file)

/-- stl-to-ps.cc:142-150: the first that opens -/
def openModel (E : Env α) (w : World) (file : Str) : Option Str :=
  (candidates E file).findSome? w.read

/-- state of `LoadFiles` -/
structure LoadSt (α : Type) where
  ok : Bool
  stl : Models α
  log : List Diag

/-- stl-to-ps.cc:124-166: one iteration -/
def loadStep (E : Env α) (w : World) (s : LoadSt α) (m : ModelN) : Except Abort (LoadSt α) :=
  if s.stl.any (fun e => e.1 = m.name) then
    .ok ⟨false, s.stl, s.log ++ [(m.line, c!"Modele '" ++ m.name ++ c!"' was already loaded")]⟩
  else match openModel E w m.source with
    | none => .ok ⟨false, s.stl ++ [(m.name, none)],
        s.log ++ [(m.line, c!"Failed to read model " ++ m.name ++ c!" from '" ++ m.source ++ c!"'")]⟩
    | some content =>
      match (make content : Except Abort (Option (STLFile α))) with
      | .error a => .error a
      | .ok none => .ok ⟨false, s.stl ++ [(m.name, none)],
          s.log ++ [(m.line, c!"Failed to parse " ++ m.name ++ c!" '" ++ m.source ++ c!"'")]⟩
      | .ok (some f) => .ok ⟨s.ok, s.stl ++ [(m.name, some f)], s.log⟩

/-- stl-to-ps.cc:120-168 `LoadFiles`.  (Entries are kept in load order; the map's own order is never observed.) -/
def loadFiles (E : Env α) (w : World) (models : List ModelN) : Except Abort (LoadSt α) :=
  models.foldlM (loadStep E w) ⟨true, [], []⟩

/-- result of `ScriptToPS`: verdict, bytes written to the stream, diagnostics of loading and page generation -/
structure RunRes where
  ok : Bool
  out : Str
  log : List Diag
  deriving DecidableEq

/-- stl-to-ps.cc:209-219 `ScriptToPS` on a document -/
def docToPS (E : Env α) (w : World) (src : Str) (doc : Doc α) : Except Abort RunRes := do
  let l ← loadFiles E w doc.models
  if !l.ok then return ⟨false, [], l.log⟩
  let g ← generatePages E l.stl doc []
  if !g.ok then return ⟨false, [], l.log ++ g.log⟩
  return ⟨true, renderPages E src g.pages, l.log ++ g.log⟩

/-- stl-to-ps.cc:108-118 `ScriptToPS` on a stream -/
def scriptToPS (E : Env α) (w : World) (src script : Str) : Except Abort RunRes := do
  match ← (parse script : Except Abort (Option (Doc α))) with
  | none => return ⟨false, [], []⟩
  | some doc => docToPS E w src doc

/-- stl-to-ps-main.cc:42-71 `main` with the values of `--script` and `--output`: exit status and files afterwards.  When the process
stops abnormally the second component is what it leaves behind (the output truncated, nothing written).
Simplification: write errors on the output are not modelled (the code does not check them). -/
def mainRun (E : Env α) (w : World) (script output : Str) : Except Abort Nat × World :=
  if script = [] then (.ok 1, w)
  else if output = [] then (.ok 1, w)
  else if !w.canWrite (w.ident output) then (.error .check, w)
  else
    let w1 := w.write output []
    match w1.read script with
    | none => (.error .check, w1)
    | some text =>
      match scriptToPS E w1 script text with
      | .error a => (.error a, w1)
      | .ok r => (.ok (if r.ok then 0 else 1), w1.write output r.out)

end S2P
