import Verif.Check.Machine

/-! # The repository's own unit tests, run through the model

The expectations of /repo/stl-to-ps/*_test.cc that say something about a value, with machine doubles.
These are tests of the model, not proofs of properties. -/

namespace S2P.Check

instance : Inhabited (V2 Float) := ⟨⟨0, 0⟩⟩
def v2 (x y : Float) : V2 Float := ⟨x, y⟩
def v3 (x y z : Float) : V3 Float := ⟨x, y, z⟩

/-- equal as sets of points -/
def sameSet (a b : List (V2 Float)) : Bool :=
  a.length = b.length && a.all (fun p => b.any p.eqv) && b.all (fun p => a.any p.eqv)

def near' (a b tol : Float) : Bool := (a - b).abs ≤ tol

/-! ## geo_test.cc -/

#guard order (ptY : V3 Float) ptX
#guard order (ptZ : V3 Float) ptY
#guard (matZP : M3 Float).eqv ⟨ptX, ptY, ptZ⟩
#guard (rotate (0 : Float) 0).eqv ⟨ptX, ptY, ptZ⟩
#guard ((ptX : V3 Float).mulM matXP).eqv ptZ
#guard ((ptY : V3 Float).mulM matXP).eqv ptX
#guard ((ptZ : V3 Float).mulM matXP).eqv ptY
#guard ((ptX : V3 Float).mulM matXN).eqv (-ptZ)
#guard ((ptY : V3 Float).mulM matXN).eqv (-ptX)
#guard ((ptZ : V3 Float).mulM matXN).eqv ptY
#guard ((ptX : V3 Float).mulM matYP).eqv (-ptX)
#guard ((ptY : V3 Float).mulM matYP).eqv ptZ
#guard ((ptZ : V3 Float).mulM matYP).eqv ptY
#guard ((ptX : V3 Float).mulM matYN).eqv ptX
#guard ((ptY : V3 Float).mulM matYN).eqv (-ptZ)
#guard ((ptZ : V3 Float).mulM matYN).eqv ptY
#guard ((ptX : V3 Float).mulM matZP).eqv ptX
#guard ((ptY : V3 Float).mulM matZP).eqv ptY
#guard ((ptZ : V3 Float).mulM matZP).eqv ptZ
#guard ((ptX : V3 Float).mulM matZN).eqv ptX
#guard ((ptY : V3 Float).mulM matZN).eqv (-ptY)
#guard ((ptZ : V3 Float).mulM matZN).eqv (-ptZ)

/-! ## ast_test.cc -/

def invoke (p : Pt Float) (ps : List (V3 Float)) : Bool × V3 Float :=
  let r := p.invoke (fun _ => V3.zero) ps V3.zero
  (r.1, r.2.1)

-- TestVal, Basic
#guard (invoke (.val (v3 1 2 3) 1) []).1 && (invoke (.val (v3 1 2 3) 1) []).2.eqv (v3 1 2 3)
#guard (invoke ((Pt.val (v3 1 2 3) 1).rot matXP) []).2.eqv (v3 2 3 1)

def grid : List (V2 Float) :=
  [v2 (-10) 10, v2 0 10, v2 10 10, v2 (-10) 0, v2 0 0, v2 10 0, v2 (-10) (-10), v2 0 (-10), v2 10 (-10)]

-- TestImpl, Closest
#guard (closest grid (-1) (v2 1 0)).isEmpty
#guard (closest grid 0 (v2 1 0)).isEmpty
#guard sameSet (closest grid 1 (v2 1 0)) [v2 0 0]
#guard sameSet (closest grid 2 (v2 1 0)) [v2 0 0, v2 10 0]
#guard sameSet (closest grid 4 (v2 1 0)) [v2 0 0, v2 10 0, v2 0 (-10), v2 0 10]
#guard sameSet (closest grid 10 (v2 1 0)) grid

-- TestImpl, Between
#guard (between grid 0.0 0.5 (v2 1 0)).isEmpty
#guard sameSet (between grid 8.5 9.5 (v2 1 0)) [v2 10 0]
#guard sameSet (between grid 8.5 10.5 (v2 1 0)) [v2 10 0, v2 0 (-10), v2 0 10]

-- TestPointFunc, Invoke / Near / Center
#guard !(invoke (.func c!"error" (.val (v3 0 0 0) 1) 1) []).1
def nearPt : Pt Float := .func c!"near" (.val (v3 1 2 3) 1) 1
#guard !(invoke nearPt []).1
#guard (invoke nearPt [v3 3 3 0]).1 && (invoke nearPt [v3 3 3 0]).2.eqv (v3 3 3 0)
#guard (invoke (nearPt.rot matXP) [v3 3 3 0]).1 && (invoke (nearPt.rot matXP) [v3 3 3 0]).2.eqv (v3 3 3 0)
def centerPt : Pt Float := .func c!"center" (.val (v3 4 4 0) 1) 1
def plus : List (V3 Float) := [v3 2 4 0, v3 0 2 0, v3 2 2 0, v3 4 2 0, v3 2 0 0]
#guard !(invoke centerPt []).1
#guard
  let ps := plus.foldl (fun s p => setInsert order p s) []
  (invoke centerPt ps).1 && (invoke centerPt ps).2.eqv (v3 3 3 0)

-- FreeFunctions
#guard newQuote c!"\"\\\\world\\n\"" = c!"\\world\n"
#guard (getMatrixByName c!"W+" : Option (M3 Float)).isNone
#guard ((getMatrixByName c!"X+" : Option (M3 Float)).map (·.eqv matXP)) = some true
#guard (getMatrixByAng (v2 0 0)).eqv matZP

/-! ## center_test.cc -/

#guard (findCircle ([] : List (V2 Float))).isNone
#guard match findCircle [v2 0 1, v2 1 2, v2 2 1] with
  | some (c, r) => c.x == 1 && c.y == 1 && r == 1
  | none => false

/-- `Points()`: a wobbly circle (`float` arithmetic in the test; rounding to `float` is done at the same assignments) -/
def wobbly : List (V2 Float) := Id.run do
  let f (x : Float) : Float := x.toFloat32.toFloat
  let mut t : Float := 0
  let mut l : List (V2 Float) := []
  for _ in [0:100] do
    if !(t < 3.14 * 2) then break
    l := l ++ [v2 (f (20 + t.sin * (15 + (f (t * 5)).sin))) (f (30 + t.cos * (15 + (f (t * 5)).sin)))]
    t := f (t + 0.1)
  return l

def fits (ps : List (V2 Float)) (cx cy r ex ey er : Float) : Bool :=
  match findCircle ps with
  | some (c, r') => near' c.x cx ex && near' c.y cy ey && near' r' r er
  | none => false

#guard fits wobbly 20 30 15 0.00003 0.002 0.02
#guard fits (wobbly.map (fun p => v2 (p.x + 234) (p.y + 567))) (20 + 234) (30 + 567) 15 0.00003 0.002 0.02
#guard fits (wobbly.map (fun p => v2 (p.x * 234) (p.y * 234))) (20 * 234) (30 * 234) (15 * 234) (234 * 0.00003) (234 * 0.002) (234 * 0.02)

/-! ## ps_test.cc -/

/-- `HasSubstr` -/
def hasSub (s t : Str) : Bool := (List.range (s.length + 1)).any (fun i => (s.drop i).take t.length = t)

#guard hasSub (documentHeader env c!"doc") c!"Source: doc"
#guard hasSub (documentHeader env c!"doc") c!"Time: NOW"
#guard hasSub (pageHeader env 7 9) c!"moveto (NOW page 7 of 9)"
#guard linesToPs [⟨v2 1 2, v2 3 4⟩, ⟨v2 5 6, v2 7 8⟩] =
  c!"newpath 1 2 moveto 3 4 lineto stroke\nnewpath 5 6 moveto 7 8 lineto stroke\n"
#guard arcToPs [⟨v2 1 1, 2, 0, 1.5⟩, ⟨v2 2 2, 3, 3.1, 4.6⟩] =
  c!"newpath 1 1 2 0 85.9437 arc stroke\nnewpath 2 2 3 177.617 263.561 arc stroke\n"
#guard arcToPs [Arc.of3 (V3.zero : V3 Float) 1 ptX ptY, Arc.of3 (ptX + ptY) 2 (-ptX) (-ptY)] =
  c!"newpath 0 0 1 0 90 arc stroke\nnewpath 1 1 2 -180 -90 arc stroke\n"
#guard textToPs ([] : List (PsText Float)) = []
#guard textToPs [⟨v2 6 9, c!"hello(\n)world", false, false⟩] = c!"newpath 6 9 moveto (hello\\(\n\\)world) show\n"
#guard textToPs [⟨v2 6 9, c!"hello(\n)world", true, false⟩] = c!"newpath 6 9 moveto (hello\\(\n\\)world) CenterText show\n"
#guard textToPs [⟨v2 6 9, c!"hello \\351 world", true, true⟩] = c!"newpath 6 9 moveto (hello \\351 world) CenterText show\n"

/-! ## stl_test.cc -/

def kGood : Str :=
  c!"solid test\n  facet normal 1 1 1\n    outer loop\n      vertex 1.0 0.0 0\n      vertex 0.0 1   0.0\n      vertex 0   0.0 1.0\n    endloop\n  endfacet\n" ++
  c!"  facet normal -1 0 -0.0\n    outer loop\n      vertex 0.0 0.0 0.0\n      vertex 0.0 1.0 0.0\n      vertex 0.0 0.0 1.0\n    endloop\n  endfacet\n" ++
  c!"  facet normal 0.0 -2.0 0.0\n    outer loop\n      vertex 0.0 0.0 0.0\n      vertex 1.0 0.0 0.0\n      vertex 0.0 0.0 1.0\n    endloop\n  endfacet\n" ++
  c!"  facet normal 0 0 -01\n    outer loop\n      vertex 0.0 0.0 0.0\n      vertex 1.0 0.0 0.0\n      vertex 0.0 1.0 0.0\n    endloop\n  endfacet\nendsolid\n"

def made (s : Str) : Option (Option (STLFile Float)) := (make s).toOption
def madeD (s : Str) : STLFile Float := ((made s).getD none).getD .empty

#guard ((made []).map (·.isSome)) = some true
#guard ((made kGood).map (·.isSome)) = some true
#guard ((made c!"unknown\n").map (·.isSome)) = some false
#guard (madeD (c!"solid test\n  facet normal 0 0 0\n    outer loop\n      vertex 1.0 0.0 0\n      vertex 0.0 1   0.0\n" ++
  c!"      vertex 0   0.0 1.0\n    endloop\n  endfacet\nendsolid\n")).points.isEmpty
#guard (madeD kGood).limits.eqv ⟨v2 0 0, v2 1 1⟩
#guard (madeD []).limits.eqv ⟨v2 0 0, v2 0 0⟩
#guard ((madeD kGood).rotate matXP).isOk
#guard (STLFile.toLines env.sorter (madeD kGood)).isOk
#guard (madeD kGood).points.length = 4

/-! ## stl-to-ps_lib_test.cc -/

#guard hasSub (renderPages env [] [OutPage.empty]) c!"/Courier findfont"
#guard hasSub (renderPages env [] [OutPage.empty]) c!"/CenterText"
#guard hasSub (renderPages env [] [OutPage.empty]) c!"<< /PageSize [792 612] >> setpagedevice"
#guard hasSub (renderPages env [] [OutPage.empty]) c!".1 setlinewidth"
#guard hasSub (renderPages env [] [OutPage.empty]) c!"showpage"

def nullWorld : World where
  ident p := if p = c!"/dev/null" then 0 else 1
  data i := if i = 0 then some [] else none
  canWrite _ := true

def loads (ms : List ModelN) : Option (Bool × Nat) :=
  ((loadFiles env nullWorld ms).toOption).map (fun l => (l.ok, l.stl.length))

-- ScriptToPS, LoadFiles
#guard loads [] = some (true, 0)
#guard loads [⟨c!"hello", c!"/dev/null", 0⟩] = some (true, 1)
#guard (loads [⟨c!"hello", c!"/dev/null", 0⟩, ⟨c!"hello", c!"/dev/null", 0⟩]).map (·.1) = some false
#guard (loads [⟨c!"hello", c!"bad_name_doesnt_exist", 0⟩]).map (·.1) = some false

def pagesOf (ps : List (PageN Float)) : Option (Bool × Nat) :=
  ((generatePages env [] ⟨[], ps⟩ []).toOption).map (fun g => (g.ok, g.pages.length))

-- ScriptToPS, GeneratePages
#guard pagesOf [] = some (true, 0)
#guard pagesOf [⟨[], [], 0⟩] = some (true, 1)
#guard (pagesOf [⟨[⟨c!"name", .num 1, 0⟩], [], 0⟩]).map (·.1) = some false
#guard pagesOf [⟨[⟨c!"name", .str c!"x", 0⟩], [], 0⟩] = some (true, 1)
#guard (pagesOf [⟨[⟨c!"name", .str c!"x", 0⟩, ⟨c!"unknown", .str [], 0⟩], [], 0⟩]).map (·.1) = some false

def vis0 (ps : List (V3 Float)) : Vis Float := ⟨OutPage.empty, ps, matZP, 1, v2 0 0, []⟩

/-- one dimension, visited with the view from above -/
def dimOk (k : DimKind) (ms : List (Meta Float)) : Option Bool :=
  ((visitDimN env (vis0 []) ⟨k, ms, 0⟩).toOption).map (·.1)

def mp (n : Str) (p : V3 Float) : Meta Float := ⟨n, .pt (.val p 0), 0⟩
def ms (n s : Str) : Meta Float := ⟨n, .str s, 0⟩
def mn (n : Str) (x : Float) : Meta Float := ⟨n, .num x, 0⟩

-- DrawToPage, AddDims
def goodDim : List (Meta Float) := [mp c!"at" V3.zero, mp c!"dir" ptX, mp c!"from" V3.zero, mp c!"to" V3.zero]
#guard dimOk .dim [] = some false
#guard dimOk .dim [mn c!"at" 0, mn c!"dir" 0, mn c!"from" 0, mn c!"to" 0] = some false
#guard dimOk .dim goodDim = some true
#guard dimOk .dim (goodDim ++ [mn c!"fmt" 1]) = some false
#guard dimOk .dim (goodDim ++ [ms c!"fmt" c!"%n"]) = some false
#guard dimOk .dim (goodDim ++ [ms c!"fmt" c!"%.0f"]) = some true
#guard dimOk .dim (goodDim ++ [ms c!"fmt" c!"%.0f", mn c!"extra" 1]) = some false

-- DrawToPageTests, VisitAngle
def aa : List (Meta Float) := [mp c!"at" ptX, mp c!"apex" V3.zero]
#guard dimOk .angle [] = some false
#guard dimOk .angle [mp c!"at" ptX] = some false
#guard dimOk .angle aa = some false
#guard dimOk .angle (aa ++ [mp c!"from_dir" ptX]) = some false
#guard dimOk .angle (aa ++ [mp c!"from_dir" ptX, mp c!"to_dir" ptY]) = some true
#guard dimOk .angle (aa ++ [mp c!"from_dir" ptY, mp c!"to_dir" ptX]) = some true
#guard dimOk .angle (aa ++ [mp c!"from_point" ptY, mp c!"to_dir" ptX]) = some true
#guard dimOk .angle (aa ++ [mp c!"from_point" ptY, mp c!"to_point" ptX]) = some true
#guard dimOk .angle (aa ++ [mp c!"from_point" ptY, mp c!"to_point" ptX, mn c!"fmt" 0]) = some false
#guard dimOk .angle (aa ++ [mp c!"from_point" ptY, mp c!"to_point" ptX, ms c!"fmt" c!"%n"]) = some false
#guard dimOk .angle (aa ++ [mp c!"from_point" ptY, mp c!"to_point" ptX, ms c!"fmt" c!"%f"]) = some true
#guard dimOk .angle (aa ++ [mp c!"from_point" ptY, ⟨c!"to_dir", .loc (v2 0 0), 0⟩, ms c!"fmt" c!"%f"]) = some false
#guard dimOk .angle (aa ++ [mp c!"from_point" ptY, mp c!"to_dir" V3.zero, ms c!"fmt" c!"%f"]) = some false
#guard dimOk .angle (aa ++ [mp c!"from_point" ptY, mp c!"to_point" ptX, ms c!"fmt" c!"%f", ⟨c!"xxx", .loc (v2 0 0), 0⟩]) = some false
#guard dimOk .angle (aa ++ [mp c!"from_point" ptY, mp c!"to_point" ptX, ms c!"fmt" c!"%f", mp c!"from_point" ptX]) = some false
#guard dimOk .angle (aa ++ [mp c!"from_point" ptY, mp c!"to_point" ptX, ms c!"fmt" c!"%f", mp c!"to_point" ptX]) = some false

-- DrawToPageTests, VisitDim
#guard dimOk .dim [mp c!"at" ptY, mp c!"from" ptX, mp c!"to" ptY, mp c!"dir" ptX] = some true

def drawOk (stl : Models Float) (name : Str) (m : List (Meta Float)) : Option Bool :=
  ((visitDraw env stl (vis0 []) name m [] 0).toOption).map (·.1)
def foo : Models Float := [(c!"foo", some .empty)]
def sc : Meta Float := ⟨c!"scale", .scale 1 2, 0⟩

-- DrawToPage, VisitDraw
#guard drawOk [] [] [ms c!"scale" []] = some false
#guard drawOk [] c!"foo" [sc] = some false
#guard drawOk foo c!"foo" [sc] = some true
#guard drawOk foo c!"foo" [sc, mn c!"view" 1] = some false
#guard drawOk foo c!"foo" [sc, ⟨c!"view", .loc (v2 0 0), 0⟩] = some true
#guard drawOk foo c!"foo" [sc, ms c!"view" c!"bad"] = some false
#guard drawOk foo c!"foo" [sc, ms c!"view" c!"X+"] = some true
#guard drawOk foo c!"foo" [sc, ms c!"view" c!"X+", ⟨c!"@", .loc (v2 1 2), 0⟩] = some true
#guard drawOk foo c!"foo" [sc, ms c!"view" c!"X+", ⟨c!"@", .loc (v2 1 2), 0⟩, ms c!"unknown" []] = some false

-- DrawToPage, VisitText
def textOk (s : Str) (m : List (Meta Float)) : Option Bool := ((visitText (vis0 []) s m 0).toOption).map (·.1)
#guard textOk [] [] = some true
#guard textOk [] [⟨c!"@", .loc (v2 1 2), 0⟩] = some true
#guard textOk c!"hello\n\nworld" [⟨c!"@", .loc (v2 1 2), 0⟩] = some true
#guard textOk c!"hello\n\nworld" [⟨c!"@", .loc (v2 1 2), 0⟩, ms c!"unknown" []] = some false

-- DrawToPageTests, GetCenter
def gc (ps : List (V3 Float)) (m : List (Meta Float)) : Option (Option (V2 Float × V2 Float × V2 Float × Float)) :=
  ((getCenter env ⟨m, vis0 ps⟩ 0 (flatten c!"rad" m).2.1).toOption).map (fun r => r.1.map (fun c => (c.at_, c.dir, c.center, c.rad)))
def gcArgs : List (Meta Float) := [mp c!"at" (v3 1 0 0), mp c!"dir" (v3 1 0.5 0), mp c!"center" (v3 0.1 0 0)]
#guard (gc [] []).map (·.isSome) = some false
#guard (gc [] gcArgs).map (·.isSome) = some false
#guard match gc ([v3 1 0 0, v3 0 1 0, v3 (-1) 0 0, v3 0 (-1) 0].foldl (fun s p => setInsert order p s) []) gcArgs with
  | some (some (a, d, c, r)) => a.eqv (v2 1 0) && d.eqv (v2 1 0.5) && c.eqv (v2 0 0) && r == 1
  | _ => false
#guard (gc ([v3 1 0 0, v3 0 0 0, v3 (-1) 0 0].foldl (fun s p => setInsert order p s) []) gcArgs).map (·.isSome) = some false

-- DrawToPageTests, RenderDia and RenderRad
def rc (k : Str) (f : (Float → Str) → Vis Float → Circ Float → Vis Float) (m : List (Meta Float)) : Bool :=
  (renderCirc env k f ⟨m, vis0 []⟩ 0 (flatten k m).2.1 ⟨v2 1 0, v2 1 0.5, v2 0 0, 1⟩).1
#guard !rc c!"dia" drawDia [mn c!"fmt" 1]
#guard !rc c!"dia" drawDia [ms c!"fmt" c!"%n"]
#guard rc c!"dia" drawDia [ms c!"fmt" c!"%.3f"]
#guard !rc c!"dia" drawDia [ms c!"other" c!"NOPE"]
#guard !rc c!"rad" drawRad [mn c!"fmt" 1]
#guard !rc c!"rad" drawRad [ms c!"fmt" c!"%n"]
#guard rc c!"rad" drawRad [ms c!"fmt" c!"%.3f"]
#guard !rc c!"rad" drawRad [ms c!"other" c!"NOPE"]

end S2P.Check
