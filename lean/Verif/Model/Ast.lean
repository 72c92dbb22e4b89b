import Verif.Model.Stl

/-! # ast.h, ast.cc, center.cc: the document tree and point functions -/

namespace S2P

/-! ## The document tree

Locations keep the line only: the file name is the same for every node of a document (parser.cc:50-51). -/

/-- ast.h:92-141 `Point` and its two subclasses -/
inductive Pt (α : Type) where
  /-- ast.h:101-113 `Val` -/
  | val (p : V3 α) (line : Nat)
  /-- ast.h:127-141 `PointFunc` -/
  | func (name : Str) (arg : Pt α) (line : Nat)
  deriving DecidableEq

/-- the value types of `Meta` that the grammar creates (parser.y:128-139) -/
inductive MetaVal (α : Type) where
  | str (s : Str)
  | pt (p : Pt α)
  | num (x : α)
  | loc (v : V2 α)
  | scale (a b : Int)
  deriving DecidableEq

/-- ast.h:149-238 `Meta`, `MetaValue`, `MetaRef` -/
structure Meta (α : Type) where
  name : Str
  val : MetaVal α
  line : Nat
  deriving DecidableEq

/-- ast.h:172,219,235 `type_name()` with ast.cc:211-230.  (GNU ABI; the Eigen spelling depends on its version.) -/
def MetaVal.typeName {α : Type} : MetaVal α → Str
  | .str _ => c!"std::string"
  | .pt _ => c!"stl2ps::Point"
  | .num _ => c!"float"
  | .loc _ => c!"Eigen::Matrix<double,1,2,1,1,2>"
  | .scale _ _ => c!"std::pair<int,int>"

/-- ast.h:300-318: the four kinds of dimension -/
inductive DimKind where
  | angle | dia | dim | rad
  deriving DecidableEq

/-- ast.h:293-318 `BaseDim` -/
structure DimN (α : Type) where
  kind : DimKind
  metas : List (Meta α)
  line : Nat
  deriving DecidableEq

/-- ast.h:277-344 `Drawable` as it occurs in a page: `Draw` or `Text` -/
inductive Drawable (α : Type) where
  | draw (name : Str) (metas : List (Meta α)) (dims : List (DimN α)) (line : Nat)
  | text (str : Str) (metas : List (Meta α)) (line : Nat)
  deriving DecidableEq

/-- ast.h:365-373 `Page` -/
structure PageN (α : Type) where
  metas : List (Meta α)
  draws : List (Drawable α)
  line : Nat
  deriving DecidableEq

/-- ast.h:263-270 `Model` -/
structure ModelN where
  name : Str
  source : Str
  line : Nat
  deriving DecidableEq

/-- ast.h:376-382 `Document` -/
structure Doc (α : Type) where
  models : List ModelN
  pages : List (PageN α)
  deriving DecidableEq

/-! ## NewQuote (ast.cc:158-177) -/

/-- ast.cc:160-173: the in-place loop on the buffer, with write index `t` and read index `f`.
`len` is `ret.length()`; reading at `len` yields the terminating NUL (as `std::string` does), writing there is not reached. -/
def quoteLoop (buf : Str) (t f len : Nat) : Str × Nat :=
  if f < len - 1 then
    let c := buf.getD f '\x00'
    if c ≠ '\\' then quoteLoop (buf.set t c) (t + 1) (f + 1) len
    else
      let e := buf.getD (f + 1) '\x00'
      if e = 'n' then quoteLoop (buf.set t '\n') (t + 1) (f + 2) len
      else quoteLoop (buf.set t e) (t + 1) (f + 2) len
  else (buf, t)
termination_by len - f

/-- ast.cc:158-177 `NewQuote`.  The argument is non-empty whenever the lexer calls it (lexer.l:98); for the empty string
`ret.length() - 1` wraps around in C++, which the natural subtraction here does not show. -/
def newQuote (s : Str) : Str :=
  let r := quoteLoop s 0 1 s.length
  r.1.take r.2

variable {α : Type} [FP α]

/-! ## Environment -/

/-- A diagnostic printed by `SYM_ERROR` (ast.h:73-88): source line and message. -/
abbrev Diag := Nat × Str

/-- What the code reads besides its inputs: indeterminate memory, library behaviour and flags. -/
structure Env (α : Type) where
  /-- contents of `RowVector3d` locals declared without initialiser, by site.  The bazel build defines
  EIGEN_INITIALIZE_MATRICES_BY_ZERO (BUILD:65), which makes them zero; without that macro they are indeterminate. -/
  junk : Nat → V3 α
  /-- contents of `Eigen::Matrix3d{}` (stl-to-ps.cc:306); zero with the same macro -/
  junkM : M3 α
  /-- `absl::ParsedFormat<'f'>::New` followed by `absl::StrFormat`; `none` = rejected format -/
  fmtF : Str → Option (α → Str)
  /-- `std::sort` -/
  sorter : Sorter
  /-- flags of ps.cc:38-40 -/
  name : Str
  timestamp : Bool
  numberPages : Bool
  /-- ps.cc:44-52, constant during a run -/
  now : Str
  /-- flag of stl-to-ps.cc:53 -/
  loadPath : Str

/-! ## Point functions -/

/-- ast.h:105,132 `Point::Rotate` -/
def Pt.rot (m : M3 α) : Pt α → Pt α
  | .val p l => .val (p.mulM m) l
  | .func n p l => .func n (p.rot m) l

/-- ast.cc:60 `ps.find(target) != ps.end()` -/
def setMem (ps : List (V3 α)) (p : V3 α) : Bool := ps.any (fun q => !order q p && !order p q)

/-- ast.cc:66-75: the search loop, state `r` and `*ret` -/
def nearLoop (target : V3 α) : List (V3 α) → α → V3 α → V3 α
  | [], _, ret => ret
  | x :: xs, r, ret =>
    let x : V3 α := ⟨x.x, x.y, FP.lit 0⟩
    let d := (target - x).sqNorm
    if FP.lt d r then nearLoop target xs d x else nearLoop target xs r ret

/-- insertion of a pair into a `std::multimap<double, _>` kept as a sorted list: after all entries not greater (ast.cc:101) -/
def mmInsert {β : Type} (d : α) (v : β) : List (α × β) → List (α × β)
  | [] => [(d, v)]
  | e :: es => if FP.lt d e.1 then (d, v) :: e :: es else e :: mmInsert d v es

/-- ast.cc:88-104: one iteration -/
def closestStep (count : Nat) (tgt : V2 α) (c : List (α × V2 α)) (p : V2 α) : List (α × V2 α) :=
  let d := (p - tgt).sqNorm
  let tooFar := match c.getLast? with
    | none => false
    | some e => FP.lt e.1 d
  if tooFar then c
  else
    let range := c.filter (fun e => !FP.lt e.1 d && !FP.lt d e.1)
    if range.any (fun e => FP.lt (p - e.2).sqNorm (d * FP.lit (1 / 100))) then c
    else (mmInsert d p c).take count

/-- ast.cc:82-108 `Closest` -/
def closest (ps : List (V2 α)) (count : Int) (tgt : V2 α) : List (V2 α) :=
  if count < 1 then []
  else (ps.foldl (closestStep count.toNat tgt) []).map (·.2)

/-- ast.cc:111-122 `Between` -/
def between (ps : List (V2 α)) (min max : α) (tgt : V2 α) : List (V2 α) :=
  if FP.lt max (FP.lit 0) || FP.lt max min then []
  else ps.filter (fun p =>
    let r2 := (p - tgt).sqNorm
    FP.lt (min * min) r2 && FP.lt r2 (max * max))

/-! ### FindCircle (center.cc) -/

/-- sum of a list, from the left -/
def sumL (l : List α) : α := l.foldl (· + ·) (FP.lit 0)

/-- Eigen's inverse of a 3x3 matrix: cofactors times the reciprocal of the determinant (Eigen/src/LU/InverseImpl.h) -/
def inv3 (m : M3 α) : M3 α :=
  let c (a b c d : α) : α := a * b - c * d
  let k00 := c m.r1.y m.r2.z m.r1.z m.r2.y
  let k10 := c m.r2.y m.r0.z m.r2.z m.r0.y
  let k20 := c m.r0.y m.r1.z m.r0.z m.r1.y
  let det := k00 * m.r0.x + k10 * m.r1.x + k20 * m.r2.x
  let i := FP.lit 1 / det
  let k01 := c m.r1.z m.r2.x m.r1.x m.r2.z
  let k11 := c m.r2.z m.r0.x m.r2.x m.r0.z
  let k21 := c m.r0.z m.r1.x m.r0.x m.r1.z
  let k02 := c m.r1.x m.r2.y m.r1.y m.r2.x
  let k12 := c m.r2.x m.r0.y m.r2.y m.r0.x
  let k22 := c m.r0.x m.r1.y m.r0.y m.r1.x
  ⟨⟨k00 * i, k10 * i, k20 * i⟩, ⟨k01 * i, k11 * i, k21 * i⟩, ⟨k02 * i, k12 * i, k22 * i⟩⟩

/-- center.cc:50-54: a row of `X` -/
def fitRow (p : V2 α) : V3 α := ⟨p.x, p.y, FP.lit (1 / 2)⟩

/-- center.cc:55: an entry of `Y` -/
def fitRhs (p : V2 α) : α := p.dot p / FP.lit 2

/-- center.cc:58-59 `Xt * X` -/
def fitMat (ps : List (V2 α)) : M3 α :=
  let s (f g : V3 α → α) : α := sumL (ps.map (fun p => f (fitRow p) * g (fitRow p)))
  ⟨⟨s (·.x) (·.x), s (·.x) (·.y), s (·.x) (·.z)⟩,
   ⟨s (·.y) (·.x), s (·.y) (·.y), s (·.y) (·.z)⟩,
   ⟨s (·.z) (·.x), s (·.z) (·.y), s (·.z) (·.z)⟩⟩

/-- center.cc:59 `(Xt * X).inverse() * Xt * Y`, multiplied from the left -/
def fitRes (ps : List (V2 α)) : V3 α :=
  let inv := inv3 (fitMat ps)
  let s (r : V3 α) : α := sumL (ps.map (fun p => r.dot (fitRow p) * fitRhs p))
  ⟨s inv.r0, s inv.r1, s inv.r2⟩

/-- center.cc:37-65 `FindCircle`: centre and radius; `none` = false.  Simplification: `std::pow(x, 2)` is `x * x`. -/
def findCircle (ps : List (V2 α)) : Option (V2 α × α) :=
  if ps.length < 3 then none
  else
    let res := fitRes ps
    some (⟨res.x, res.y⟩, FP.sqrt (res.z + res.x * res.x + res.y * res.y))

/-- ast.cc:138-151 and, identically, stl-to-ps.cc:273-296: locate a circle near `target` -/
def locate (ps : List (V3 α)) (target : V2 α) : Option (V2 α × α) :=
  let points := ps.map V3.xy
  let near := closest points 3 target
  match findCircle near with
  | none => none
  | some (center, rad) =>
    -- `del` is 0.1; `1 - del` and `1 + del` are computed in double
    let del : α := FP.lit (1 / 10)
    findCircle (between points (rad * (FP.lit 1 - del)) (rad * (FP.lit 1 + del)) center)

/-- ast.h:106, ast.cc:44-156 `Point::Invoke`.  `ret` is what the output parameter holds before the call; the result is the return
value, what it holds afterwards, and the diagnostics.  `junk` supplies the uninitialised locals `target`, `target3`. -/
def Pt.invoke (junk : Nat → V3 α) (ps : List (V3 α)) : Pt α → V3 α → Bool × V3 α × List Diag
  | .val p _, _ => (true, p, [])
  | .func name arg line, ret =>
    if name = c!"near" then
      if ps.isEmpty then (false, ret, [])
      else
        match arg.invoke (fun n => junk (n + 1)) ps (junk 0) with
        | (false, _, ds) => (false, ret, ds)
        | (true, target, ds) =>
          if setMem ps target then (true, target, ds)
          else (true, nearLoop ⟨target.x, target.y, FP.lit 0⟩ ps FP.dblMax ret, ds)
    else if name = c!"center" then
      if ps.length < 3 then (false, ret, [])
      else
        match arg.invoke (fun n => junk (n + 1)) ps (junk 0) with
        | (false, _, ds) => (false, ret, ds)
        | (true, target, ds) =>
          match locate ps target.xy with
          | none => (false, ret, ds)
          | some (c, _) => (true, ⟨c.x, c.y, FP.lit 0⟩, ds)
    else (false, ret, [(line, c!"Unknown function '" ++ name ++ c!"'")])

end S2P
