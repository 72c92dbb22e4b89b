import Verif.Model.Ps

/-! # stl-to-ps.cc: from documents to pages

Every visitor returns its verdict, the property list as it is left (points are rotated in place, ast.h:105) and the new state. -/

namespace S2P

/-- stl-to-ps-impl.h:46-52 `OutputPage` -/
structure OutPage (α : Type) where
  lines : List (Line α)
  arcs : List (Arc α)
  text : List (PsText α)
  deriving DecidableEq

def OutPage.empty {α : Type} : OutPage α := ⟨[], [], []⟩

/-- stl-to-ps-impl.h:89-99: the mutable state of `DrawToPage` (the page pointed to by `current_page`, the working set) and the diagnostics
printed so far.  Simplification: `current_page` is never null, as GeneratePages sets it before any visit (stl-to-ps.cc:191). -/
structure Vis (α : Type) where
  page : OutPage α
  points : List (V3 α)
  rotation : M3 α
  scale : α
  d : V2 α
  log : List Diag

variable {α : Type} [FP α]

/-- `SYM_ERROR` -/
def Vis.err (v : Vis α) (line : Nat) (msg : Str) : Vis α := { v with log := v.log ++ [(line, msg)] }

/-- the name -> property map `seen`: names with the index of the property in the block's list, sorted by name as in `std::map` -/
abbrev Seen := List (Str × Nat)

/-- byte-wise `std::string` order -/
def strLt : Str → Str → Bool
  | _, [] => false
  | [], _ :: _ => true
  | a :: as, b :: bs => if a.toNat < b.toNat then true else if b.toNat < a.toNat then false else strLt as bs

/-- insert a new key -/
def seenInsert (k : Str) (i : Nat) : Seen → Seen
  | [] => [(k, i)]
  | e :: es => if strLt k e.1 then (k, i) :: e :: es else e :: seenInsert k i es

/-- stl-to-ps.cc:58-64 `Take` -/
def take (name : Str) (seen : Seen) : Option Nat × Seen :=
  match seen.find? (fun e => e.1 = name) with
  | none => (none, seen)
  | some e => (some e.2, seen.filter (fun x => x.1 ≠ name))

/-- stl-to-ps.cc:66-76 `Flatten`, on properties numbered from `i` -/
def flattenFrom (blk : Str) (i : Nat) : List (Meta α) → Seen → List Diag → Bool → Bool × Seen × List Diag
  | [], seen, ds, ok => (ok, seen, ds)
  | m :: ms, seen, ds, ok =>
    if seen.any (fun e => e.1 = m.name) then
      flattenFrom blk (i + 1) ms seen
        (ds ++ [(m.line, c!"Duplicate " ++ blk ++ c!" property '" ++ m.name ++ c!"'")]) false
    else flattenFrom blk (i + 1) ms (seenInsert m.name i seen) ds ok

def flatten (blk : Str) (ms : List (Meta α)) : Bool × Seen × List Diag := flattenFrom blk 0 ms [] [] true

def Vis.errs (v : Vis α) (ds : List Diag) : Vis α := { v with log := v.log ++ ds }

/-- the loop printing the remaining properties, e.g. stl-to-ps.cc:341-343 -/
def leftovers (ms : List (Meta α)) (seen : Seen) : List Diag :=
  seen.filterMap (fun e => (ms[e.2]?).map (fun m => (m.line, m.name)))

/-- `if (!p) { SYM_ERROR(node) << msg; ok = false; }` for several pointers -/
def missing (line : Nat) (l : List (Bool × Str)) : List Diag :=
  l.filterMap (fun p => if p.1 then none else some (line, p.2))

/-! ## Adding to the page (stl-to-ps.cc:831-868) -/

def toPage (v : Vis α) (p : V2 α) : V2 α := p.smul v.scale + v.d

/-- stl-to-ps.cc:831-844 `AddLines` -/
def Vis.addLines (v : Vis α) (ls : List (Line α)) : Vis α :=
  { v with page := { v.page with lines := v.page.lines ++ ls.map (fun l => ⟨toPage v l.o, toPage v l.t⟩) } }

/-- stl-to-ps.cc:846-857 `AddArcs` -/
def Vis.addArcs (v : Vis α) (as : List (Arc α)) : Vis α :=
  { v with page := { v.page with
      arcs := v.page.arcs ++ as.map (fun a => { a with center := toPage v a.center, r := a.r * v.scale }) } }

/-- stl-to-ps.cc:859-868 `AddText` -/
def Vis.addText (v : Vis α) (ts : List (PsText α)) : Vis α :=
  { v with page := { v.page with text := v.page.text ++ ts.map (fun t => { t with at_ := toPage v t.at_ }) } }

/-! ## GetRotated, GetCenter -/

/-- state threaded through a dimension visit -/
structure DimSt (α : Type) where
  metas : List (Meta α)
  vis : Vis α

/-- stl-to-ps.cc:305-319 `GetRotated` on the property at index `i`; `ret` is the indeterminate content of the output variable.
The returned vector is what the variable holds afterwards. -/
def getRotated (E : Env α) (s : DimSt α) (i : Nat) (ret : V3 α) : Except Abort (Bool × V3 α × DimSt α) :=
  if s.vis.rotation.eqv E.junkM then .error .check
  else match s.metas[i]? with
    | none => .error .ub -- not reached: `seen` holds indices of the list
    | some m =>
      match m.val with
      | .pt p =>
        let p' := p.rot s.vis.rotation
        let r := p'.invoke E.junk s.vis.points ret
        .ok (r.1, r.2.1, ⟨s.metas.set i { m with val := .pt p' }, s.vis.errs r.2.2⟩)
      | v => .ok (false, ret, ⟨s.metas, s.vis.err m.line
          (c!"Expected point for '" ++ m.name ++ c!"' got " ++ v.typeName)⟩)

/-- the format chosen by an optional `fmt` property: stl-to-ps.cc:396-410, 484-497, 584-597, 749-762 -/
def getFmt (E : Env α) (kind dflt : Str) (ms : List (Meta α)) (p : Option Nat) : Except Diag (α → Str) :=
  match p with
  | none => .ok ((E.fmtF dflt).getD (fun _ => [])) -- the default is accepted at compile time
  | some i =>
    match ms[i]? with
    | none => .error (0, []) -- not reached
    | some m =>
      match m.val with
      | .str f =>
        match E.fmtF f with
        | some g => .ok g
        | none => .error (m.line, c!"Invalid fmt argument for " ++ kind ++ c!": must be a '%f' type")
      | _ => .error (m.line, c!"fmt argument for " ++ kind ++ c!" is the wrong type")

/-- what `GetCenter` hands back: `at`, `dir`, centre, radius -/
structure Circ (α : Type) where
  at_ : V2 α
  dir : V2 α
  center : V2 α
  rad : α

/-- stl-to-ps.cc:232-303 `GetCenter`.  (The `else` of line 265 is dead: a missing `dir` has already failed.) -/
def getCenter (E : Env α) (s : DimSt α) (line : Nat) (seen : Seen) :
    Except Abort (Option (Circ α) × Seen × DimSt α) :=
  let (pAt, seen) := take c!"at" seen
  let (pDir, seen) := take c!"dir" seen
  let (pCenter, seen) := take c!"center" seen
  match pAt, pDir, pCenter with
  | some iAt, some iDir, some iCenter =>
    if s.vis.points.length < 3 then .ok (none, seen, { s with vis := s.vis.err line c!"Not enought points" })
    else do
      let (ok1, at3, s) ← getRotated E s iAt (E.junk 0)
      let (ok2, target3, s) ← getRotated E s iCenter (E.junk 1)
      let (ok3, dir3, s) ← getRotated E s iDir (E.junk 2)
      if !(ok1 && ok2 && ok3) then .ok (none, seen, s)
      else match locate s.vis.points target3.xy with
        | none => .ok (none, seen, { s with vis := s.vis.err line c!"Failed to find center" })
        | some (c, r) => .ok (some ⟨at3.xy, dir3.xy, c, r⟩, seen, s)
  | _, _, _ =>
    .ok (none, seen, { s with vis := s.vis.errs (missing line
      [(pAt.isSome, c!"Missing 'at'"), (pDir.isSome, c!"Missing 'dir'"), (pCenter.isSome, c!"Missing 'center'")]) })

/-! ## Diameter and radius -/

/-- stl-to-ps.cc:499-531: what an accepted diameter draws -/
def drawDia (fmt : α → Str) (v : Vis α) (c : Circ α) : Vis α :=
  let dir := c.dir.normalized
  let a := c.center + dir.smul c.rad
  let b := c.center - dir.smul c.rad
  let direct := c.at_ - c.center
  let len := FP.min (direct.x / dir.x) (direct.y / dir.y)
  let v := if FP.lt (FP.lit 1) len then
      let k := c.center + dir.smul len
      v.addLines [⟨b, k⟩, ⟨k, c.at_⟩]
    else v.addLines [⟨b, a⟩, ⟨a, c.at_⟩]
  let dir := dir.sdiv v.scale
  let cross : V2 α := ⟨-dir.y, dir.x⟩
  let p (n : Rat) : α := FP.lit n
  let v := v.addLines
    [⟨a, a + (dir.smul (p (-6)) + cross.smul (p 2))⟩, ⟨a, a + (dir.smul (p (-6)) + cross.smul (p (-2)))⟩,
     ⟨b, b + (dir.smul (p 6) + cross.smul (p 2))⟩, ⟨b, b + (dir.smul (p 6) + cross.smul (p (-2)))⟩]
  let str := c!"\\351" ++ fmt (c.rad * FP.lit 2)
  let off := (FP.lit kFontSize * FP.lit (3 / 10) * FP.lit ((str.length - 2 : Nat) : Rat)) / v.scale
  v.addText [⟨⟨c.at_.x + off, c.at_.y⟩, str, true, true⟩]

/-- stl-to-ps.cc:764-792: what an accepted radius draws -/
def drawRad (fmt : α → Str) (v : Vis α) (c : Circ α) : Vis α :=
  let dir := c.dir.normalized
  let a := c.center + dir.smul c.rad
  let direct := c.at_ - c.center
  let len := FP.min (direct.x / dir.x) (direct.y / dir.y)
  let v := if FP.lt (FP.lit 1) len then
      let b := c.center + dir.smul len
      v.addLines [⟨c.center, b⟩, ⟨b, c.at_⟩]
    else v.addLines [⟨c.center, a⟩, ⟨a, c.at_⟩]
  let dir := dir.sdiv v.scale
  let cross : V2 α := ⟨-dir.y, dir.x⟩
  let p (n : Rat) : α := FP.lit n
  let v := v.addLines
    [⟨a, a + (dir.smul (p (-6)) + cross.smul (p 2))⟩, ⟨a, a + (dir.smul (p (-6)) + cross.smul (p (-2)))⟩]
  let str := c!"R" ++ fmt c.rad
  let off := (FP.lit kFontSize * FP.lit (3 / 10) * FP.lit ((str.length + 2 : Nat) : Rat)) / v.scale
  v.addText [⟨⟨c.at_.x + off, c.at_.y⟩, str, true, false⟩]

/-- stl-to-ps.cc:473-534 `RenderDia` and 738-795 `RenderRad`; `kind` is "dia" or "rad" -/
def renderCirc (E : Env α) (kind : Str) (drawIt : (α → Str) → Vis α → Circ α → Vis α) (s : DimSt α) (line : Nat)
    (seen : Seen) (c : Circ α) : Bool × DimSt α :=
  let (pFmt, seen) := take c!"fmt" seen
  if seen ≠ [] then
    (false, { s with vis := (s.vis.err line (c!"Unexepcted properties for " ++ kind)).errs (leftovers s.metas seen) })
  else match getFmt E kind c!"%.3f" s.metas pFmt with
    | .error d => (false, { s with vis := s.vis.errs [d] })
    | .ok fmt => (true, { s with vis := drawIt fmt s.vis c })

/-- stl-to-ps.cc:463-471 and 728-736 -/
def visitCirc (E : Env α) (kind : Str) (drawIt : (α → Str) → Vis α → Circ α → Vis α) (s : DimSt α) (line : Nat) :
    Except Abort (Bool × DimSt α) :=
  let (ok, seen, ds) := flatten kind s.metas
  let s := { s with vis := s.vis.errs ds }
  if !ok then .ok (false, s)
  else do
    let (c, seen, s) ← getCenter E s line seen
    match c with
    | none => .ok (false, s)
    | some c => .ok (renderCirc E kind drawIt s line seen c)

/-! ## Linear dimension (stl-to-ps.cc:536-659) -/

/-- stl-to-ps.cc:600-656: what an accepted dimension draws; `dir` is already normalised -/
def drawDim (fmt : α → Str) (v : Vis α) (at_ dir frm to_ : V3 α) : Vis α :=
  let p (n : Rat) : α := FP.lit n
  let fromAt := frm - at_
  let toAt := to_ - at_
  let arrowFrom := at_ + dir.smul (dir.dot fromAt)
  let arrowTo := at_ + dir.smul (dir.dot toAt)
  let length := arrowTo - arrowFrom
  let dimValue := length.norm
  let str := fmt dimValue
  let v := v.addText [⟨at_.xy, str, true, false⟩]
  let a := (⟨length.x, length.y, p 0⟩ : V3 α).normalized.sdiv v.scale
  let b : V3 α := ⟨-a.y, a.x, p 0⟩
  let fromSign : α := if FP.lt (p 0) (fromAt.dot b) then p 1 else p (-1)
  let toSign : α := if FP.lt (p 0) (toAt.dot b) then p 1 else p (-1)
  let width := p kFontSize * p (3 / 10) * p str.length + p 1
  let height := p kFontSize * p (333 / 1000) + p 1
  let gap := FP.min (FP.abs (width / a.x)) (FP.abs (height / a.y))
  let gap := gap / v.scale
  let fits := FP.lt (gap * p 2) (dimValue * v.scale)
  let v := if fits then v.addLines [Line.of3 arrowFrom (at_ - a.smul gap), Line.of3 (at_ + a.smul gap) arrowTo]
    else v.addLines [Line.of3 arrowFrom (arrowFrom - a.smul (p 10)), Line.of3 arrowTo (arrowTo + a.smul (p 10))]
  let a := if fits then a else -a
  v.addLines
    [Line.of3 (arrowFrom - (b.smul (p 4)).smul fromSign) (frm - (b.smul (p 2)).smul fromSign),
     Line.of3 (arrowTo - (b.smul (p 4)).smul toSign) (to_ - (b.smul (p 2)).smul toSign),
     Line.of3 arrowFrom (arrowFrom + (a.smul (p 6) + b.smul (p 2))),
     Line.of3 arrowFrom (arrowFrom + (a.smul (p 6) + b.smul (p (-2)))),
     Line.of3 arrowTo (arrowTo + (a.smul (p (-6)) + b.smul (p 2))),
     Line.of3 arrowTo (arrowTo + (a.smul (p (-6)) + b.smul (p (-2))))]

/-- stl-to-ps.cc:536-659 -/
def visitDim (E : Env α) (s : DimSt α) (line : Nat) : Except Abort (Bool × DimSt α) :=
  let (ok, seen, ds) := flatten c!"dim" s.metas
  let s := { s with vis := s.vis.errs ds }
  let (pAt, seen) := take c!"at" seen
  let (pDir, seen) := take c!"dir" seen
  let (pFrom, seen) := take c!"from" seen
  let (pTo, seen) := take c!"to" seen
  let (pFmt, seen) := take c!"fmt" seen
  if seen ≠ [] then
    .ok (false, { s with vis := (s.vis.err line c!"Unexepcted properties for dim").errs (leftovers s.metas seen) })
  else
    let s := { s with vis := s.vis.errs (missing line
      [(pAt.isSome, c!"Missing 'at'"), (pDir.isSome, c!"Missing 'dir'"), (pFrom.isSome, c!"Missing 'from'"),
       (pTo.isSome, c!"Missing 'to'")]) }
    match ok, pAt, pDir, pFrom, pTo with
    | true, some iAt, some iDir, some iFrom, some iTo => do
      let (ok1, at_, s) ← getRotated E s iAt (E.junk 0)
      let (ok2, dir, s) ← getRotated E s iDir (E.junk 1)
      let (ok3, frm, s) ← getRotated E s iFrom (E.junk 2)
      let (ok4, to_, s) ← getRotated E s iTo (E.junk 3)
      if dir.eqv V3.zero then
        let l := (s.metas[iDir]?).elim 0 (fun m => m.line)
        .ok (false, { s with vis := s.vis.err l c!"Dimention's 'dir' must not be the zero vector" })
      else
        let dir := dir.normalized
        match getFmt E c!"dim" c!"%.3f" s.metas pFmt with
        | .error d => .ok (false, { s with vis := s.vis.errs [d] })
        | .ok fmt =>
          if !(ok1 && ok2 && ok3 && ok4) then .ok (false, s)
          else .ok (true, { s with vis := drawDim fmt s.vis at_ dir frm to_ })
    | _, _, _, _, _ => .ok (false, s)

/-! ## Angle (stl-to-ps.cc:323-461) -/

/-- stl-to-ps.cc:425-458: what an accepted angle draws, after the exchange of lines 419-423 -/
def drawAngle (fmt : α → Str) (v : Vis α) (at_ apex fromDir fromPoint toDir toPoint : V3 α) : Vis α :=
  let p (n : Rat) : α := FP.lit n
  let l := (at_ - apex).norm
  let gap := FP.f32 (p 2 / v.scale)
  let fa := fromDir.normalized.sdiv v.scale
  let ta := toDir.normalized.sdiv v.scale
  let dot := fromDir.dot toDir
  let fb := (toDir - (fromDir.smul dot).sdiv fromDir.norm).normalized.sdiv v.scale
  let tb := (fromDir - (toDir.smul dot).sdiv toDir.norm).normalized.sdiv v.scale
  let fpt := apex + fromDir.smul l
  let tpt := apex + toDir.smul l
  let v := v.addLines
    [Line.of3 (fromPoint + fromDir.smul gap) (apex + fromDir.smul (l + gap * p 2)),
     Line.of3 (toPoint + toDir.smul gap) (apex + toDir.smul (l + gap * p 2)),
     Line.of3 fpt (fpt + fa.smul (p 2) + fb.smul (p 6)),
     Line.of3 fpt (fpt + fa.smul (p (-2)) + fb.smul (p 6)),
     Line.of3 tpt (tpt + ta.smul (p 2) + tb.smul (p 6)),
     Line.of3 tpt (tpt + ta.smul (p (-2)) + tb.smul (p 6))]
  let v := v.addArcs [Arc.of3 apex l fromDir toDir]
  let ang := FP.acos (fromDir.dot toDir.normalized) * p 180 / piLit
  v.addText [⟨at_.xy, fmt ang ++ c!" deg", true, false⟩]

/-- stl-to-ps.cc:379-386 and 387-394: one leg, given by direction or by point; returns ok, direction, point -/
def angleLeg (E : Env α) (s : DimSt α) (apex : V3 α) (pDir pPoint : Option Nat) (j : Nat) :
    Except Abort (Bool × V3 α × V3 α × DimSt α) :=
  match pDir, pPoint with
  | some i, _ => do
    let (ok, dir, s) ← getRotated E s i (E.junk j)
    return (ok, dir.normalized, apex, s)
  | none, some i => do
    let (ok, pt, s) ← getRotated E s i (E.junk (j + 1))
    return (ok, (pt - apex).normalized, pt, s)
  | none, none => .error .ub -- not reached: one of the two was required

/-- stl-to-ps.cc:365-373: a leg given twice -/
def bothGiven (ms : List (Meta α)) (p q : Option Nat) (msg : Str) : List Diag :=
  match p, q with
  | some i, some _ => [((ms[i]?).elim 0 (fun m => m.line), msg)]
  | _, _ => []

/-- stl-to-ps.cc:323-461 -/
def visitAngle (E : Env α) (s : DimSt α) (line : Nat) : Except Abort (Bool × DimSt α) :=
  let (ok, seen, ds) := flatten c!"angle" s.metas
  let s := { s with vis := s.vis.errs ds }
  let (pAt, seen) := take c!"at" seen
  let (pApex, seen) := take c!"apex" seen
  let (pFromDir, seen) := take c!"from_dir" seen
  let (pFromPoint, seen) := take c!"from_point" seen
  let (pToDir, seen) := take c!"to_dir" seen
  let (pToPoint, seen) := take c!"to_point" seen
  let (pFmt, seen) := take c!"fmt" seen
  if seen ≠ [] then
    .ok (false, { s with vis := (s.vis.err line c!"Unexepcted properties for angle").errs (leftovers s.metas seen) })
  else
    let hasFrom := pFromDir.isSome || pFromPoint.isSome
    let hasTo := pToDir.isSome || pToPoint.isSome
    let s := { s with vis := s.vis.errs (missing line
      [(pAt.isSome, c!"Missing 'at'"), (pApex.isSome, c!"Missing 'apex'"),
       (hasFrom, c!"Missing 'from_{dir,point}'"), (hasTo, c!"Missing 'to_{dir,point}'")]) }
    match ok && hasFrom && hasTo, pAt, pApex with
    | true, some iAt, some iApex =>
      let ds := bothGiven s.metas pFromDir pFromPoint c!"Both 'from_{dir,point}' provided" ++
        bothGiven s.metas pToDir pToPoint c!"Both 'to_{dir,point}' provided"
      if ds ≠ [] then .ok (false, { s with vis := s.vis.errs ds })
      else do
        let (ok1, at_, s) ← getRotated E s iAt (E.junk 0)
        let (ok2, apex, s) ← getRotated E s iApex (E.junk 1)
        let (ok3, fromDir, fromPoint, s) ← angleLeg E s apex pFromDir pFromPoint 2
        let (ok4, toDir, toPoint, s) ← angleLeg E s apex pToDir pToPoint 4
        match getFmt E c!"angle" c!"%.1f" s.metas pFmt with
        | .error d => .ok (false, { s with vis := s.vis.errs [d] })
        | .ok fmt =>
          if !(ok1 && ok2 && ok3 && ok4) then .ok (false, s)
          else
            let c := toDir.cross fromDir
            if FP.eq c.z (FP.lit 0) then
              .ok (false, { s with vis := s.vis.err line c!"Degenerate angle provided." })
            else if FP.lt (FP.lit 0) c.z then
              .ok (true, { s with vis := drawAngle fmt s.vis at_ apex toDir toPoint fromDir fromPoint })
            else
              .ok (true, { s with vis := drawAngle fmt s.vis at_ apex fromDir fromPoint toDir toPoint })
    | _, _, _ => .ok (false, s)

/-! ## Dimensions of a drawing -/

/-- ast.cc:204-208: dispatch -/
def visitDimN (E : Env α) (v : Vis α) (d : DimN α) : Except Abort (Bool × DimN α × Vis α) := do
  let s : DimSt α := ⟨d.metas, v⟩
  let (ok, s) ← match d.kind with
    | .angle => visitAngle E s d.line
    | .dia => visitCirc E c!"dia" drawDia s d.line
    | .dim => visitDim E s d.line
    | .rad => visitCirc E c!"rad" drawRad s d.line
  return (ok, { d with metas := s.metas }, s.vis)

/-- stl-to-ps.cc:227-229: all dimensions are visited, the verdicts are and-ed -/
def visitDims (E : Env α) : List (DimN α) → Vis α → Except Abort (Bool × List (DimN α) × Vis α)
  | [], v => .ok (true, [], v)
  | d :: ds, v => do
    let (ok, d, v) ← visitDimN E v d
    let (ok', ds, v) ← visitDims E ds v
    return (ok && ok', d :: ds, v)

/-! ## Draw and Text -/

/-- the loaded models: `std::map<std::string, std::unique_ptr<STLFile>>`; `none` = null pointer -/
abbrev Models (α : Type) := List (Str × Option (STLFile α))

/-- stl-to-ps.cc:702, 811: the centre of the page -/
def pageCentre : V2 α := ⟨FP.lit 396, FP.lit 306⟩

/-- stl-to-ps.cc:666-672: `scale a:b`, default 1:1 -/
def drawScale (ms : List (Meta α)) (p : Option Nat) : Except Diag (Int × Int) :=
  match p with
  | none => .ok (1, 1)
  | some i =>
    match ms[i]? with
    | none => .error (0, []) -- not reached
    | some m => match m.val with
      | .scale a b => .ok (a, b)
      | _ => .error (m.line, c!"Wrong type for scale")

/-- stl-to-ps.cc:681-696: the view matrix, default Z+ -/
def drawView (ms : List (Meta α)) (p : Option Nat) : Except Diag (M3 α) :=
  match p with
  | none => .ok matZP
  | some i =>
    match ms[i]? with
    | none => .error (0, []) -- not reached
    | some m => match m.val with
      | .loc l => .ok (getMatrixByAng l)
      | .str n => match getMatrixByName n with
        | some r => .ok r
        | none => .error (m.line, c!"Unknown view name: '" ++ n ++ c!"'")
      | v => .error (m.line, c!"Unexpect view type: " ++ v.typeName)

/-- stl-to-ps.cc:698-703: where to draw; without '@' the page corner -/
def drawLoc (ms : List (Meta α)) (p : Option Nat) : Except Abort (V2 α) :=
  match p with
  | none => .ok ⟨FP.lit 0, FP.lit 0⟩
  | some i =>
    match ms[i]? with
    | none => .error .ub -- not reached
    | some m => match m.val with
      | .loc l => .ok (l.smul (FP.lit 72) + pageCentre)
      | _ => .error .atCheck

/-- stl-to-ps.cc:673 `72.0 * a / b`, stored as float -/
def projScale (s : Int × Int) : α := FP.f32 (FP.lit 72 * FP.lit s.1 / FP.lit s.2)

/-- stl-to-ps.cc:711: the page offset -/
def projOffset (loc : V2 α) (lim : Line α) (scale : α) : V2 α := loc - ((lim.o + lim.t).sdiv (FP.lit 2)).smul scale

/-- stl-to-ps.cc:661-726 -/
def visitDraw (E : Env α) (stl : Models α) (v : Vis α) (name : Str) (ms : List (Meta α)) (dims : List (DimN α))
    (line : Nat) : Except Abort (Bool × List (DimN α) × Vis α) :=
  let (ok, seen, ds) := flatten c!"draw" ms
  let v := v.errs ds
  if !ok then .ok (false, dims, v)
  else
    let (pScale, seen) := take c!"scale" seen
    match drawScale ms pScale with
    | .error d => .ok (false, dims, v.errs [d])
    | .ok sc =>
      let v := { v with scale := projScale sc }
      match stl.find? (fun e => e.1 = name) with
      | none => .ok (false, dims, v.err line (c!"Unknown model '" ++ name ++ c!"'"))
      | some e =>
        let (pView, seen) := take c!"view" seen
        match drawView ms pView with
        | .error d => .ok (false, dims, v.errs [d])
        | .ok rot =>
          let (pAt, seen) := take c!"@" seen
          do
            let loc ← drawLoc ms pAt
            match e.2 with
            | none => .error .ub -- null pointer; LoadFiles leaves one only when it reports failure
            | some file =>
              let proj ← file.rotate rot
              let proj := proj.cull
              let v := { v with d := projOffset loc proj.limits v.scale }
              let ls ← proj.toLines E.sorter
              let v := v.addLines ls
              -- AddDims (stl-to-ps.cc:221-230)
              let v := { v with points := proj.points, rotation := rot }
              let (ok, dims, v) ← visitDims E dims v
              if !ok then return (false, dims, v)
              else if seen ≠ [] then
                return (false, dims, (v.err line c!"Unexepcted properties for draw").errs (leftovers ms seen))
              else return (true, dims, v)

/-- `absl::StrSplit(text, "\n")` -/
def splitNl : Str → List Str
  | [] => [[]]
  | c :: s =>
    if c = '\n' then [] :: splitNl s
    else match splitNl s with
      | [] => [[c]] -- not reached
      | l :: ls => (c :: l) :: ls

/-- stl-to-ps.cc:812-818: the loop over lines, at position `at_` -/
def textRows : V2 α → List Str → List (PsText α)
  | _, [] => []
  | at_, s :: ss =>
    let next : V2 α := ⟨at_.x, at_.y - FP.lit 12⟩
    if s = [] then textRows next ss else ⟨at_, s, false, false⟩ :: textRows next ss

/-- stl-to-ps.cc:797-827 -/
def visitText (v : Vis α) (str : Str) (ms : List (Meta α)) (line : Nat) : Except Abort (Bool × Vis α) :=
  let (ok, seen, ds) := flatten c!"draw" ms
  let v := v.errs ds
  if !ok then .ok (false, v)
  else
    let (pAt, seen) := take c!"@" seen
    let zero : V2 α := ⟨FP.lit 0, FP.lit 0⟩
    do
      let at_ ← match pAt with
        | none => pure zero
        | some i => match ms[i]? with
          | none => throw .ub -- not reached
          | some m => match m.val with
            | .loc l => pure (zero + l.smul (FP.lit 72))
            | _ => throw .atCheck
      let at_ := at_ + pageCentre
      let v := { v with page := { v.page with text := v.page.text ++ textRows at_ (splitNl str) } }
      if seen ≠ [] then return (false, (v.err line c!"Unexepcted properties for text").errs (leftovers ms seen))
      else return (true, v)

/-- ast.cc:207,209: dispatch on what a page contains -/
def visitDrawable (E : Env α) (stl : Models α) (v : Vis α) (d : Drawable α) :
    Except Abort (Bool × Drawable α × Vis α) :=
  match d with
  | .draw n ms dims l => do
    let (ok, dims, v) ← visitDraw E stl v n ms dims l
    return (ok, .draw n ms dims l, v)
  | .text s ms l => do
    let (ok, v) ← visitText v s ms l
    return (ok, .text s ms l, v)

/-- stl-to-ps.cc:192-194 -/
def visitDrawables (E : Env α) (stl : Models α) : List (Drawable α) → Vis α →
    Except Abort (Bool × List (Drawable α) × Vis α)
  | [], v => .ok (true, [], v)
  | d :: ds, v => do
    let (ok, d, v) ← visitDrawable E stl v d
    let (ok', ds, v) ← visitDrawables E stl ds v
    return (ok && ok', d :: ds, v)

/-! ## Pages -/

/-- stl-to-ps.cc:79-92 `AddHeader` (its page numbers are unused) -/
def addHeader (pg : OutPage α) (name : Str) : OutPage α :=
  let p (n : Rat) : α := FP.lit n
  let textAt := FP.f32 (p 784 - p name.length * p kFontSize * p (6 / 10))
  let left := FP.f32 (textAt - p 3)
  let h := p (kFontSize + 8)
  { pg with
    text := pg.text ++ [⟨⟨textAt, p 8⟩, name, false, false⟩]
    lines := pg.lines ++ [⟨⟨left, p 5⟩, ⟨left, h⟩⟩, ⟨⟨left, h⟩, ⟨p 787, h⟩⟩] }

/-- stl-to-ps.cc:182-189: the page's name -/
def pageName (ms : List (Meta α)) (p : Option Nat) : Str × List Diag :=
  match p with
  | none => ([], [])
  | some i =>
    match ms[i]? with
    | none => ([], []) -- not reached
    | some m => match m.val with
      | .str s => (s, [])
      | v => ([], [(m.line, c!"Expected document name to be a string, got '" ++ v.typeName ++ c!"'")])

/-- stl-to-ps.cc:176-204: one page; `n` is the number of pages including this one -/
def genPage (E : Env α) (stl : Models α) (v : Vis α) (n : Nat) (pg : PageN α) :
    Except Abort (Bool × PageN α × Vis α) := do
  let (ok, seen, ds) := flatten c!"page" pg.metas
  let v := v.errs ds
  let (pName, seen) := take c!"name" seen
  let (name, ds) := pageName pg.metas pName
  let v := v.errs ds
  let v := { v with page := OutPage.empty }
  let (ok', draws, v) ← visitDrawables E stl pg.draws v
  let v := { v with page := addHeader v.page name }
  let v := if seen = [] then v
    else (v.err pg.line (c!"Unexepcted properties for page " ++ natStr n)).errs (leftovers pg.metas seen)
  return (ok && ds.isEmpty && ok' && seen.isEmpty, { pg with draws := draws }, v)

/-- stl-to-ps.cc:175-205; `n` pages exist already.  Returns the verdict, the pages appended, the document's pages as left, the state. -/
def genPages (E : Env α) (stl : Models α) : List (PageN α) → Nat → Vis α →
    Except Abort (Bool × List (OutPage α) × List (PageN α) × Vis α)
  | [], _, v => .ok (true, [], [], v)
  | pg :: pgs, n, v => do
    let (ok, pg, v) ← genPage E stl v (n + 1) pg
    let out := v.page
    let (ok', outs, pgs, v) ← genPages E stl pgs (n + 1) v
    return (ok && ok', out :: outs, pg :: pgs, v)

/-- stl-to-ps-impl.h:90-99: a fresh visitor; `rotation_` is uninitialised -/
def initVis (E : Env α) : Vis α :=
  ⟨OutPage.empty, [], E.junkM, FP.lit 0, ⟨FP.lit 0, FP.lit 0⟩, []⟩

/-- result of `GeneratePages` -/
structure GenRes (α : Type) where
  ok : Bool
  pages : List (OutPage α)
  doc : Doc α
  log : List Diag

/-- stl-to-ps.cc:170-207 `GeneratePages`, appending to `pages` -/
def generatePages (E : Env α) (stl : Models α) (doc : Doc α) (pages : List (OutPage α)) : Except Abort (GenRes α) := do
  let (ok, outs, pgs, v) ← genPages E stl doc.pages pages.length (initVis E)
  return ⟨ok, pages ++ outs, { doc with pages := pgs }, v.log⟩

/-- stl-to-ps.cc:98-105: the pages from number `k`, of `n` -/
def renderFrom (E : Env α) (n : Nat) : Nat → List (OutPage α) → Str
  | _, [] => []
  | k, pg :: pgs =>
    pageHeader E (k + 1) n ++ textToPs pg.text ++ arcToPs pg.arcs ++ linesToPs pg.lines ++ pageFooter ++
    renderFrom E n (k + 1) pgs

/-- stl-to-ps.cc:94-106 `RenderPages` -/
def renderPages (E : Env α) (src : Str) (pages : List (OutPage α)) : Str :=
  documentHeader E src ++ renderFrom E pages.length 0 pages

end S2P
