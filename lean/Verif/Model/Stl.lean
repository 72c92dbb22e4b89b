import Verif.Model.Geo

/-! # stl.h, stl.cc: reading models, culling, edge indexing, hidden-line removal -/

namespace S2P

/-! ## Numerals -/

def isDigit (c : Char) : Bool := '0' ≤ c && c ≤ '9'

/-- value of a digit string -/
def digitsVal (s : Str) : Nat := s.foldl (fun n c => 10 * n + (c.toNat - 48)) 0

/-- The part of C `strtod` reachable with the characters `-.e0-9` (stl.cc:99,120 restrict tokens to these), required to
consume the whole token, as RE2 does for a `double*` argument.  The result is the exact decimal value.
Simplification: RE2 refuses tokens longer than 200 characters (after shortening leading zeros); no such limit here. -/
def strtod (s : Str) : Option Rat :=
  let (neg, s) := match s with
    | '-' :: t => (true, t)
    | t => (false, t)
  let ip := s.takeWhile isDigit
  let s := s.dropWhile isDigit
  let (fp, s) := match s with
    | '.' :: t => (t.takeWhile isDigit, t.dropWhile isDigit)
    | t => ([], t)
  if ip = [] ∧ fp = [] then none
  else
    let man : Rat := (digitsVal (ip ++ fp) : Rat) / (10 : Rat) ^ fp.length
    let man := if neg then -man else man
    match s with
    | [] => some man
    | 'e' :: '-' :: t => if t ≠ [] ∧ t.all isDigit then some (man / (10 : Rat) ^ digitsVal t) else none
    | 'e' :: t => if t ≠ [] ∧ t.all isDigit then some (man * (10 : Rat) ^ digitsVal t) else none
    | _ => none

/-! ## Line recognition (stl.cc:85-122) -/

/-- strip a literal prefix -/
def stripPre : Str → Str → Option Str
  | [], s => some s
  | _ :: _, [] => none
  | p :: ps, c :: s => if p = c then stripPre ps s else none

def skipSp (s : Str) : Str := s.dropWhile (· == ' ')
def allSp (s : Str) : Bool := s.all (· == ' ')

/-- the class `[-.e0-9]` -/
def isNumCh (c : Char) : Bool := c == '-' || c == '.' || c == 'e' || isDigit c

/-- ` +([-.e0-9]+)`: at least one space, then a maximal non-empty run of numeral characters -/
def spTok (s : Str) : Option (Str × Str) :=
  match s with
  | ' ' :: t =>
    let u := skipSp t
    let tok := u.takeWhile isNumCh
    if tok = [] then none else some (tok, u.dropWhile isNumCh)
  | _ => none

/-- `KW +(T) +(T) +(T) *` after leading spaces (stl.cc:99,120) -/
def matchKw3 (kw s : Str) : Option (Str × Str × Str) := do
  let s ← stripPre kw (skipSp s)
  let (a, s) ← spTok s
  let (b, s) ← spTok s
  let (c, s) ← spTok s
  if allSp s then some (a, b, c) else none

/-- ` *(solid|endsolid)( .*)?` (stl.cc:85).  Simplification: `.` accepts any byte except newline; RE2 wants valid UTF-8. -/
def matchSolid (s : Str) : Bool :=
  let ok : Str → Bool := fun
    | [] => true
    | c :: t => c == ' ' && t.all (· != '\n')
  match stripPre c!"solid" (skipSp s), stripPre c!"endsolid" (skipSp s) with
  | some t, _ => ok t
  | none, some t => ok t
  | none, none => false

/-- ` *(outer loop|endloop) *` (stl.cc:91) -/
def matchLoop (s : Str) : Bool :=
  match stripPre c!"outer loop" (skipSp s), stripPre c!"endloop" (skipSp s) with
  | some t, _ => allSp t
  | none, some t => allSp t
  | none, none => false

/-- ` *endfacet *` (stl.cc:106) -/
def matchEndfacet (s : Str) : Bool :=
  match stripPre c!"endfacet" (skipSp s) with
  | some t => allSp t
  | none => false

/-- what one line of an STL file says -/
inductive StlLine (α : Type) where
  | solid
  | loop
  | facet (n : V3 α)
  | endfacet
  | vertex (v : V3 α)
  deriving DecidableEq

variable {α : Type} [FP α]

/-- the three `double*` arguments of `RE2::FullMatch` -/
def parse3 (t : Str × Str × Str) : Option (V3 α) := do
  let x ← (strtod t.1).bind FP.ofDec64
  let y ← (strtod t.2.1).bind FP.ofDec64
  let z ← (strtod t.2.2).bind FP.ofDec64
  some ⟨x, y, z⟩

/-- stl.cc:84-127, the chain of `FullMatch` tests; `none` = "Unknown line" -/
def classify (s : Str) : Option (StlLine α) :=
  if matchSolid s then some .solid
  else if matchLoop s then some .loop
  else match (matchKw3 c!"facet normal" s).bind parse3 with
    | some n => some (.facet n)
    | none =>
      if matchEndfacet s then some .endfacet
      else match (matchKw3 c!"vertex" s).bind parse3 with
        | some v => some (.vertex v)
        | none => none

/-- stl.cc:81 `std::getline` until it fails: pieces between newlines, without an empty last piece -/
def getLines : Str → List Str
  | [] => []
  | c :: s =>
    if c = '\n' then [] :: getLines s
    else match getLines s with
      | [] => [[c]]
      | l :: ls => (c :: l) :: ls

/-! ## Facets and files -/

/-- stl.h:51-59 `Facet` -/
structure Facet (α : Type) where
  norm : V3 α
  e0 : V3 α
  e1 : V3 α
  e2 : V3 α
  r : α
  deriving DecidableEq

/-- the three corners, in stored order -/
def Facet.corners {β : Type} (f : Facet β) : List (V3 β) := [f.e0, f.e1, f.e2]

/-- stl.cc:57-68 the `Facet` constructor.  `e[0]`, `e[1]`, `e[2]` of a shorter vector is undefined behaviour. -/
def mkFacet (n : V3 α) (e : List (V3 α)) : Except Abort (Facet α) :=
  match e with
  | a :: b :: c :: _ =>
    let norm := ((b - a).cross (c - a)).normalized
    let flip := FP.lt (n.dot norm) (FP.lit 0)
    let e0 := if flip then c else a
    let e2 := if flip then a else c
    let norm := if flip then norm.smul (FP.lit (-1)) else norm
    let r := (norm.dot e0 + norm.dot b + norm.dot e2) / FP.lit 3
    .ok ⟨norm, e0, b, e2, r⟩
  | _ => .error .ub

/-- stl.h:47 `Edge` -/
abbrev Edge (α : Type) := V3 α × V3 α

/-- stl.h:62-82 `STLFile` -/
structure STLFile (α : Type) where
  facets : List (Facet α)
  edges : List (Edge α)
  faceEdge : List (Nat × Nat × Nat)
  unseen : Nat
  deriving DecidableEq

/-- a default-constructed `STLFile` -/
def STLFile.empty : STLFile α := ⟨[], [], [], 0⟩

/-! ## CullBackFace (stl.cc:148-154) -/

/-- `swap(l[i], l[j])` -/
def swapAt {β : Type} (l : List β) (i j : Nat) : List β :=
  match l[i]?, l[j]? with
  | some a, some b => (l.set i b).set j a
  | _, _ => l

/-- stl.cc:149-152, with the loop state `i`, `j`.  `swap(facets[i--], facets[--j])` followed by `i++` leaves `i` unchanged. -/
def cullLoop (fs : List (Facet α)) (i j : Nat) : List (Facet α) :=
  if i < j then
    match fs[i]? with
    | some f =>
      if FP.le f.norm.z (FP.lit 0) then cullLoop (swapAt fs i (j - 1)) i (j - 1)
      else cullLoop fs (i + 1) j
    | none => fs -- not reached: `i < j ≤ size`
  else fs.take j
termination_by j - i

/-- stl.cc:148-154 -/
def cullFacets (fs : List (Facet α)) : List (Facet α) := cullLoop fs 0 fs.length

/-! ## Ordered containers -/

/-- stl.cc:287-293 `EdgeOrder` -/
def edgeOrder (l r : Edge α) : Bool :=
  if order l.1 r.1 then true
  else if order r.1 l.1 then false
  else order l.2 r.2

/-- `std::map::find` for comparator `lt`: the entry whose key is equivalent to `k`.  (Entries are kept in insertion order; the
iteration order of these maps is never observed.) -/
def mapFind {κ β : Type} (lt : κ → κ → Bool) (k : κ) (m : List (κ × β)) : Option β :=
  (m.find? (fun e => !lt e.1 k && !lt k e.1)).map (·.2)

/-- `map[k] = v` -/
def mapAssign {κ β : Type} (lt : κ → κ → Bool) (k : κ) (v : β) (m : List (κ × β)) : List (κ × β) :=
  if (mapFind lt k m).isSome then m.map (fun e => if !lt e.1 k && !lt k e.1 then (e.1, v) else e)
  else m ++ [(k, v)]

/-- `std::set::insert` into the sorted list of keys -/
def setInsert {κ : Type} (lt : κ → κ → Bool) (k : κ) : List κ → List κ
  | [] => [k]
  | x :: xs => if lt k x then k :: x :: xs else if lt x k then x :: setInsert lt k xs else x :: xs

/-! ## Index (stl.cc:297-363) -/

/-- the key under which an edge is stored (stl.cc:310,352) -/
def edgeKey (a b : V3 α) : Edge α := if order a b then (a, b) else (b, a)

/-- working state of `Index`: `edges`, `edge_face`, and the map `dd` -/
structure IdxState (α : Type) where
  edges : List (Edge α)
  edgeFace : List (Nat × Nat)
  dd : List (Edge α × Nat)

/-- stl.cc:307-319 `AddEdge` -/
def addEdge (s : IdxState α) (a b : V3 α) (f : Nat) : IdxState α :=
  let k := edgeKey a b
  match mapFind edgeOrder k s.dd with
  | none => ⟨s.edges ++ [k], s.edgeFace ++ [(f, f)], s.dd ++ [(k, s.edges.length)]⟩
  | some idx => { s with edgeFace := s.edgeFace.modify idx (fun p => (p.1, f)) }

/-- stl.cc:321-326 body -/
def addFacet (s : IdxState α) (f : Facet α) (i : Nat) : IdxState α :=
  addEdge (addEdge (addEdge s f.e0 f.e1 i) f.e1 f.e2 i) f.e2 f.e0 i

/-- stl.cc:321-326 -/
def addFacets (fs : List (Facet α)) : IdxState α :=
  fs.zipIdx.foldl (fun s p => addFacet s p.1 p.2) ⟨[], [], []⟩

/-- stl.cc:48 `min_ang` -/
def minAng : α := FP.lit (98 / 100)

/-- stl.cc:332-336: is the edge with these first and last faces "invisible"? -/
def smooth (facets : List (Facet α)) (p : Nat × Nat) : Bool :=
  if p.1 = p.2 then false
  else match facets[p.1]?, facets[p.2]? with
    | some f, some g => !FP.lt (f.norm.dot g.norm) minAng
    | _, _ => false -- not reached: face indices are in range

/-- stl.cc:331-342: move "invisible" edges behind `unseen`. Returns edges and `unseen`. -/
def partLoop (facets : List (Facet α)) (edges : List (Edge α)) (ef : List (Nat × Nat)) (i unseen : Nat) :
    List (Edge α) × Nat :=
  if i < unseen then
    match ef[i]? with
    | some p =>
      if smooth facets p then
        partLoop facets (swapAt edges i (unseen - 1)) (swapAt ef i (unseen - 1)) i (unseen - 1)
      else partLoop facets edges ef (i + 1) unseen
    | none => (edges, unseen) -- not reached
  else (edges, unseen)
termination_by unseen - i

/-- stl.cc:346-347: rebuild the edge -> index map -/
def rebuildDD (edges : List (Edge α)) : List (Edge α × Nat) :=
  edges.zipIdx.foldl (fun m p => mapAssign edgeOrder p.1 p.2 m) []

/-- stl.cc:350-355 `UpdateEdge`: a missing edge fails a CHECK -/
def findEdge (dd : List (Edge α × Nat)) (a b : V3 α) : Except Abort Nat :=
  match mapFind edgeOrder (edgeKey a b) dd with
  | some i => .ok i
  | none => .error .check

/-- stl.cc:357-362 body -/
def faceEdges (dd : List (Edge α × Nat)) (f : Facet α) : Except Abort (Nat × Nat × Nat) := do
  let a ← findEdge dd f.e0 f.e1
  let b ← findEdge dd f.e1 f.e2
  let c ← findEdge dd f.e2 f.e0
  return (a, b, c)

/-- stl.cc:297-363 `STLFile::Index` -/
def index (facets : List (Facet α)) : Except Abort (STLFile α) := do
  let s := addFacets facets
  let (edges, unseen) := partLoop facets s.edges s.edgeFace 0 s.edges.length
  let dd := rebuildDD edges
  let fe ← facets.mapM (faceEdges dd)
  return ⟨facets, edges, fe, unseen⟩

/-! ## Make (stl.cc:72-133) -/

/-- loop state of `Make` -/
structure MakeState (α : Type) where
  norm : V3 α
  points : List (V3 α)
  facets : List (Facet α)

/-- one iteration of stl.cc:81-128 on a recognised line -/
def makeStep (s : MakeState α) : StlLine α → Except Abort (MakeState α)
  | .solid => .ok s
  | .loop => .ok s
  | .facet n => .ok { s with norm := n, points := [] }
  | .endfacet =>
    if s.norm.eqv V3.zero then .ok s
    else do
      let f ← mkFacet s.norm s.points
      .ok ⟨V3.zero, [], s.facets ++ [f]⟩
  | .vertex v => .ok { s with points := s.points ++ [v] }

/-- stl.cc:81-128; `none` = `return nullptr` on an unknown line -/
def makeLoop : List Str → MakeState α → Except Abort (Option (MakeState α))
  | [], s => .ok (some s)
  | l :: ls, s =>
    match classify l with
    | none => .ok none
    | some ln => do
      let s' ← makeStep s ln
      makeLoop ls s'

/-- stl.cc:72-133 `STLFile::Make`; `none` = `nullptr` -/
def make (content : Str) : Except Abort (Option (STLFile α)) := do
  match ← makeLoop (getLines content) ⟨V3.zero, [], []⟩ with
  | none => return none
  | some s => return some (← index s.facets)

/-! ## Rotate, Limits, Points -/

/-- stl.cc:138-141; note that `r` is not touched -/
def rotFacet (m : M3 α) (f : Facet α) : Facet α :=
  { f with norm := f.norm.mulM m, e0 := f.e0.mulM m, e1 := f.e1.mulM m, e2 := f.e2.mulM m }

/-- stl.cc:135-146 `STLFile::Rotate` -/
def STLFile.rotate (s : STLFile α) (m : M3 α) : Except Abort (STLFile α) :=
  index (cullFacets (s.facets.map (rotFacet m)))

/-- stl.cc:148-154 `STLFile::CullBackFace` as a method: only `facets` changes -/
def STLFile.cull (s : STLFile α) : STLFile α := { s with facets := cullFacets s.facets }

/-- stl.cc:156-170 `STLFile::Limits` -/
def STLFile.limits (s : STLFile α) : Line α :=
  match s.facets with
  | [] => ⟨⟨FP.lit 0, FP.lit 0⟩, ⟨FP.lit 0, FP.lit 0⟩⟩
  | f0 :: _ =>
    (s.facets.flatMap Facet.corners).foldl
      (fun b e => ⟨⟨FP.min b.o.x e.x, FP.min b.o.y e.y⟩, ⟨FP.max b.t.x e.x, FP.max b.t.y e.y⟩⟩)
      ⟨f0.e0.xy, f0.e0.xy⟩

/-- stl.cc:278-283 `STLFile::Points`: the ordered set of corners -/
def STLFile.points (s : STLFile α) : List (V3 α) :=
  (s.facets.flatMap Facet.corners).foldl (fun ps e => setInsert order e ps) []

/-! ## EdgeCrosses (stl.cc:366-412) -/

/-- stl.cc:376-400 for one pair `v < u`: the triples (hidden edge, hiding edge, point) -/
def crossPair (v u : Nat) (ev eu : Edge α) : List (Nat × Nat × V3 α) :=
  let dv := ev.2 - ev.1
  let du := eu.2 - eu.1
  let det := FP.lit 1 / (du.x * dv.y - dv.x * du.y)
  let x := eu.1.x - ev.1.x
  let y := eu.1.y - ev.1.y
  let j := (-du.y * x + du.x * y) * det
  let i := (-dv.y * x + dv.x * y) * det
  let zero : α := FP.lit 0
  let one : α := FP.lit 1
  if FP.le zero i && FP.le i one && FP.le zero j && FP.le j one then
    let pu := eu.1 + du.smul i
    let pv := ev.1 + dv.smul j
    (if FP.le pu.z pv.z then [(u, v, pu)] else []) ++ (if FP.le pv.z pu.z then [(v, u, pv)] else [])
  else []

/-- stl.cc:375-402 `hidden_by_list` -/
def crossList (edges : List (Edge α)) (unseen : Nat) : List (Nat × Nat × V3 α) :=
  (List.range unseen).flatMap fun v =>
    ((List.range edges.length).drop (v + 1)).flatMap fun u =>
      match edges[v]?, edges[u]? with
      | some ev, some eu => crossPair v u ev eu
      | _, _ => [] -- not reached: `unseen ≤ edges.size()`

/-- stl.cc:403-410: a second entry for the same pair fails a CHECK -/
def collectCross (unseen : Nat) : List (Nat × Nat × V3 α) → List (List (Nat × V3 α)) →
    Except Abort (List (List (Nat × V3 α)))
  | [], acc => .ok acc
  | (a, b, p) :: rest, acc =>
    if unseen ≤ a then collectCross unseen rest acc
    else
      let m := (acc[a]?).getD []
      if m.any (fun e => e.1 == b) then .error .check
      else collectCross unseen rest (acc.set a (m ++ [(b, p)]))

/-- stl.cc:366-412 `STLFile::EdgeCrosses` -/
def edgeCrosses (edges : List (Edge α)) (unseen : Nat) : Except Abort (List (List (Nat × V3 α))) :=
  collectCross unseen (crossList edges unseen) (List.replicate unseen [])

/-! ## GenerateLines (stl.cc:414-454) -/

/-- stl.cc:432-448: the loop over hidden spans, state `from`, `d` and the lines so far -/
def spanLoop (p0 : V3 α) : List (Edge α) → V3 α → α → List (Line α) → Except Abort (V3 α × List (Line α))
  | [], frm, _, acc => .ok (frm, acc)
  | hid :: rest, frm, d, acc =>
    let hidD := (p0 - hid.1).sqNorm
    let acc := if FP.lt d hidD then acc ++ [Line.of3 frm hid.1] else acc
    let n := (p0 - hid.2).sqNorm
    let frm' := if FP.lt d n then hid.2 else frm
    let d' := if FP.lt d n then n else d
    if FP.le hidD n then spanLoop p0 rest frm' d' acc else .error .check

/-- stl.cc:422-451: the lines for one edge -/
def edgeLines (minLen : α) (p : Edge α) (hides : List (Edge α)) : Except Abort (List (Line α)) := do
  let (frm, acc) ← spanLoop p.1 hides p.1 (FP.lit 0) []
  if FP.lt (minLen * minLen) (frm - p.2).sqNorm then return acc ++ [Line.of3 frm p.2]
  else return acc

/-- stl.cc:414-454 `GenerateLines`.  The map argument is a partial function. -/
def generateLines (showHidden : Bool) (unseen : Nat) (minLen : α) (edges : List (Edge α))
    (hides : Nat → Option (List (Edge α))) : Except Abort (List (Line α)) := do
  let ls ← (List.range unseen).mapM fun i => do
    match edges[i]? with
    | none => throw .ub
    | some p => edgeLines minLen p (if showHidden then [] else (hides i).getD [])
  return ls.flatten

/-! ## ToLines (stl.cc:172-276) -/

/-- `std::sort`: any implementation.  Theorems assume only `SortOK` (Verif/Spec/Sort.lean). -/
structure Sorter where
  sort : {β : Type} → (β → β → Bool) → List β → List β

/-- stl.cc:204-216, 218-231: is this end of an edge behind the face and inside its outline on the page? -/
def behind (f : Facet α) (p : V3 α) : Bool :=
  let e01 := f.e1 - f.e0
  let e12 := f.e2 - f.e1
  let e20 := f.e0 - f.e2
  let v0 := p - f.e0
  let v1 := p - f.e1
  let v2 := p - f.e2
  let x0 := e01.x * v0.y - e01.y * v0.x
  let x1 := e12.x * v1.y - e12.y * v1.x
  let x2 := e20.x * v2.y - e20.y * v2.x
  FP.lt (p.dot f.norm) f.r && FP.le (FP.lit 0) x0 && FP.le (FP.lit 0) x1 && FP.le (FP.lit 0) x2

/-- stl.cc:201-202: append to the array of five -/
def pushPt (l : List (V3 α × α)) (x : V3 α × α) : Except Abort (List (V3 α × α)) :=
  if l.length < 5 then .ok (l ++ [x]) else .error .ub

/-- stl.cc:203-241: the candidate points of edge `ev` for face `f`; `crosses` is `hidden_by_edge[v]`, `el` the face's edge indices -/
def hiddenPoints (crosses : List (Nat × V3 α)) (ev : Edge α) (f : Facet α) (el : Nat × Nat × Nat) :
    Except Abort (List (V3 α × α)) := do
  let l0 ← if behind f ev.1 then pushPt [] (ev.1, FP.lit 0) else pure []
  let l1 ← if behind f ev.2 then pushPt l0 (ev.2, (ev.1 - ev.2).sqNorm) else pure l0
  [el.1, el.2.1, el.2.2].foldlM (fun l e =>
    match crosses.find? (fun c => c.1 == e) with
    | some c => pushPt l (c.2, (ev.1 - c.2).sqNorm)
    | none => pure l) l1

/-- stl.cc:196-253: the span of edge `v` hidden by one face, if any -/
def faceHides (S : Sorter) (crosses : List (Nat × V3 α)) (v : Nat) (ev : Edge α) (f : Facet α)
    (el : Nat × Nat × Nat) : Except Abort (Option (Edge α)) := do
  if v = el.1 ∨ v = el.2.1 ∨ v = el.2.2 then return none
  let pts ← hiddenPoints crosses ev f el
  if pts.length < 2 then return none
  let sorted := S.sort (fun l r => FP.lt l.2 r.2) pts
  match sorted.head?, sorted.getLast? with
  | some a, some b =>
    if FP.eq (a.1 - b.1).sqNorm (FP.lit 0) then return none
    if FP.le a.2 b.2 then return some (a.1, b.1) else throw .check
  | _, _ => throw .ub -- not reached: at least two points

/-- stl.cc:182-255 and 263-270 for one edge: spans in face order, then sorted by start.
Simplification: the C++ nests the face loop outside the edge loop; the per-edge lists are the same. -/
def edgeHides (S : Sorter) (fs : List (Facet α × (Nat × Nat × Nat))) (crosses : List (Nat × V3 α)) (v : Nat)
    (ev : Edge α) : Except Abort (List (Edge α)) := do
  let hs ← fs.mapM (fun p => faceHides S crosses v ev p.1 p.2)
  return S.sort (fun l r => FP.lt (ev.1 - l.1).sqNorm (ev.1 - r.1).sqNorm) (hs.filterMap id)

/-- stl.cc:172-276 `STLFile::ToLines` -/
def STLFile.toLines (S : Sorter) (s : STLFile α) : Except Abort (List (Line α)) := do
  let cross ← edgeCrosses s.edges s.unseen
  let hides ← (List.range s.unseen).mapM fun v =>
    match s.edges[v]?, cross[v]? with
    | some ev, some cs => edgeHides S (s.facets.zip s.faceEdge) cs v ev
    | _, _ => throw .ub -- not reached
  generateLines false s.unseen (FP.lit 0) s.edges (fun i => hides[i]?)

end S2P
