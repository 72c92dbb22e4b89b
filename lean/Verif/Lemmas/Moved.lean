import Verif.Spec.Drawing
import Verif.Lemmas.DimSum
import Verif.Lemmas.Accept

set_option linter.unusedSectionVars false
set_option linter.unusedVariables false
set_option linter.unusedSimpArgs false

/-! # Drawing in model units -/

namespace S2P
variable {α : Type} [FP α]

theorem moved_app (s : α) (d : V2 α) (P Q : OutPage α) : (P.app Q).moved s d = (P.moved s d).app (Q.moved s d) := by
  simp [OutPage.moved, OutPage.app]
theorem moved_empty (s : α) (d : V2 α) : (OutPage.empty : OutPage α).moved s d = OutPage.empty := rfl
theorem moved_sum (s : α) (d : V2 α) : ∀ Ps : List (OutPage α), (OutPage.sum Ps).moved s d = OutPage.sum (Ps.map (OutPage.moved s d))
  | [] => rfl
  | P :: Ps => by simp only [OutPage.sum, List.map_cons, moved_app, moved_sum s d Ps]

/-- `v` with the model-space items `P` added -/
def Vis.adds (v : Vis α) (P : OutPage α) : Vis α := { v with page := v.page.app (P.moved v.scale v.d) }

theorem adds_lines (v : Vis α) (ls : List (Line α)) : v.addLines ls = v.adds ⟨ls, [], []⟩ := by
  simp only [Vis.adds, Vis.addLines, OutPage.moved, OutPage.app, List.map_nil, List.append_nil]; rfl
theorem adds_arcs (v : Vis α) (as : List (Arc α)) : v.addArcs as = v.adds ⟨[], as, []⟩ := by
  simp only [Vis.adds, Vis.addArcs, OutPage.moved, OutPage.app, List.map_nil, List.append_nil]; rfl
theorem adds_text (v : Vis α) (ts : List (PsText α)) : v.addText ts = v.adds ⟨[], [], ts⟩ := by
  simp only [Vis.adds, Vis.addText, OutPage.moved, OutPage.app, List.map_nil, List.append_nil]; rfl
theorem adds_adds (v : Vis α) (P Q : OutPage α) : (v.adds P).adds Q = v.adds (P.app Q) := by
  simp only [Vis.adds, moved_app, OutPage.app_assoc]
theorem adds_scale (v : Vis α) (P : OutPage α) : (v.adds P).scale = v.scale := rfl

/-- what a diameter draws, in model units -/
def diaItems (fmt : α → Str) (s : α) (c : Circ α) : OutPage α :=
  let dir := c.dir.normalized
  let a := c.center + dir.smul c.rad
  let b := c.center - dir.smul c.rad
  let direct := c.at_ - c.center
  let len := FP.min (direct.x / dir.x) (direct.y / dir.y)
  let k := c.center + dir.smul len
  let dir := dir.sdiv s
  let cross : V2 α := ⟨-dir.y, dir.x⟩
  let p (n : Rat) : α := FP.lit n
  let str := c!"\\351" ++ fmt (c.rad * FP.lit 2)
  let off := (FP.lit kFontSize * FP.lit (3 / 10) * FP.lit ((str.length - 2 : Nat) : Rat)) / s
  ⟨(if FP.lt (FP.lit 1) len then [⟨b, k⟩, ⟨k, c.at_⟩] else [⟨b, a⟩, ⟨a, c.at_⟩]) ++
    [⟨a, a + (dir.smul (p (-6)) + cross.smul (p 2))⟩, ⟨a, a + (dir.smul (p (-6)) + cross.smul (p (-2)))⟩,
     ⟨b, b + (dir.smul (p 6) + cross.smul (p 2))⟩, ⟨b, b + (dir.smul (p 6) + cross.smul (p (-2)))⟩], [],
   [⟨⟨c.at_.x + off, c.at_.y⟩, str, true, true⟩]⟩

theorem drawDia_items (fmt : α → Str) (v : Vis α) (c : Circ α) : drawDia fmt v c = v.adds (diaItems fmt v.scale c) := by
  unfold drawDia diaItems
  simp only [adds_lines, adds_text]
  split <;> simp only [adds_adds, adds_scale, OutPage.app, List.append_nil, List.nil_append]

/-- what a radius draws, in model units -/
def radItems (fmt : α → Str) (s : α) (c : Circ α) : OutPage α :=
  let dir := c.dir.normalized
  let a := c.center + dir.smul c.rad
  let direct := c.at_ - c.center
  let len := FP.min (direct.x / dir.x) (direct.y / dir.y)
  let b := c.center + dir.smul len
  let dir := dir.sdiv s
  let cross : V2 α := ⟨-dir.y, dir.x⟩
  let p (n : Rat) : α := FP.lit n
  let str := c!"R" ++ fmt c.rad
  let off := (FP.lit kFontSize * FP.lit (3 / 10) * FP.lit ((str.length + 2 : Nat) : Rat)) / s
  ⟨(if FP.lt (FP.lit 1) len then [⟨c.center, b⟩, ⟨b, c.at_⟩] else [⟨c.center, a⟩, ⟨a, c.at_⟩]) ++
    [⟨a, a + (dir.smul (p (-6)) + cross.smul (p 2))⟩, ⟨a, a + (dir.smul (p (-6)) + cross.smul (p (-2)))⟩], [],
   [⟨⟨c.at_.x + off, c.at_.y⟩, str, true, false⟩]⟩

theorem drawRad_items (fmt : α → Str) (v : Vis α) (c : Circ α) : drawRad fmt v c = v.adds (radItems fmt v.scale c) := by
  unfold drawRad radItems
  simp only [adds_lines, adds_text]
  split <;> simp only [adds_adds, adds_scale, OutPage.app, List.append_nil, List.nil_append]

/-- what a linear dimension draws, in model units -/
def dimItems (fmt : α → Str) (s : α) (at_ dir frm to_ : V3 α) : OutPage α :=
  let p (n : Rat) : α := FP.lit n
  let fromAt := frm - at_
  let toAt := to_ - at_
  let arrowFrom := at_ + dir.smul (dir.dot fromAt)
  let arrowTo := at_ + dir.smul (dir.dot toAt)
  let length := arrowTo - arrowFrom
  let dimValue := length.norm
  let str := fmt dimValue
  let a := (⟨length.x, length.y, p 0⟩ : V3 α).normalized.sdiv s
  let b : V3 α := ⟨-a.y, a.x, p 0⟩
  let fromSign : α := if FP.lt (p 0) (fromAt.dot b) then p 1 else p (-1)
  let toSign : α := if FP.lt (p 0) (toAt.dot b) then p 1 else p (-1)
  let width := p kFontSize * p (3 / 10) * p str.length + p 1
  let height := p kFontSize * p (333 / 1000) + p 1
  let gap := FP.min (FP.abs (width / a.x)) (FP.abs (height / a.y)) / s
  let fits := FP.lt (gap * p 2) (dimValue * s)
  let a' := if fits then a else -a
  ⟨(if fits then [Line.of3 arrowFrom (at_ - a.smul gap), Line.of3 (at_ + a.smul gap) arrowTo]
    else [Line.of3 arrowFrom (arrowFrom - a.smul (p 10)), Line.of3 arrowTo (arrowTo + a.smul (p 10))]) ++
    [Line.of3 (arrowFrom - (b.smul (p 4)).smul fromSign) (frm - (b.smul (p 2)).smul fromSign),
     Line.of3 (arrowTo - (b.smul (p 4)).smul toSign) (to_ - (b.smul (p 2)).smul toSign),
     Line.of3 arrowFrom (arrowFrom + (a'.smul (p 6) + b.smul (p 2))),
     Line.of3 arrowFrom (arrowFrom + (a'.smul (p 6) + b.smul (p (-2)))),
     Line.of3 arrowTo (arrowTo + (a'.smul (p (-6)) + b.smul (p 2))),
     Line.of3 arrowTo (arrowTo + (a'.smul (p (-6)) + b.smul (p (-2))))], [],
   [⟨at_.xy, str, true, false⟩]⟩

theorem drawDim_items (fmt : α → Str) (v : Vis α) (at_ dir frm to_ : V3 α) :
    drawDim fmt v at_ dir frm to_ = v.adds (dimItems fmt v.scale at_ dir frm to_) := by
  unfold drawDim dimItems
  simp only [adds_lines, adds_text, adds_scale]
  split <;> simp only [adds_adds, adds_scale, OutPage.app, List.append_nil, List.nil_append]

/-- what an angle draws, in model units -/
def angleItems (fmt : α → Str) (s : α) (at_ apex fromDir fromPoint toDir toPoint : V3 α) : OutPage α :=
  let p (n : Rat) : α := FP.lit n
  let l := (at_ - apex).norm
  let gap := FP.f32 (p 2 / s)
  let fa := fromDir.normalized.sdiv s
  let ta := toDir.normalized.sdiv s
  let dot := fromDir.dot toDir
  let fb := (toDir - (fromDir.smul dot).sdiv fromDir.norm).normalized.sdiv s
  let tb := (fromDir - (toDir.smul dot).sdiv toDir.norm).normalized.sdiv s
  let fpt := apex + fromDir.smul l
  let tpt := apex + toDir.smul l
  let ang := FP.acos (fromDir.dot toDir.normalized) * p 180 / piLit
  ⟨[Line.of3 (fromPoint + fromDir.smul gap) (apex + fromDir.smul (l + gap * p 2)),
     Line.of3 (toPoint + toDir.smul gap) (apex + toDir.smul (l + gap * p 2)),
     Line.of3 fpt (fpt + fa.smul (p 2) + fb.smul (p 6)),
     Line.of3 fpt (fpt + fa.smul (p (-2)) + fb.smul (p 6)),
     Line.of3 tpt (tpt + ta.smul (p 2) + tb.smul (p 6)),
     Line.of3 tpt (tpt + ta.smul (p (-2)) + tb.smul (p 6))],
   [Arc.of3 apex l fromDir toDir],
   [⟨at_.xy, fmt ang ++ c!" deg", true, false⟩]⟩

theorem drawAngle_items (fmt : α → Str) (v : Vis α) (at_ apex fd fp td tp : V3 α) :
    drawAngle fmt v at_ apex fd fp td tp = v.adds (angleItems fmt v.scale at_ apex fd fp td tp) := by
  unfold drawAngle angleItems
  simp only [adds_lines, adds_text, adds_arcs, adds_scale, adds_adds, OutPage.app, List.append_nil, List.nil_append]

/-- what a dimension draws, in model units; nothing if it is not accepted -/
def drawnItems (E : Env α) (v : Vis α) (kind : DimKind) (ms : List (Meta α)) : Option (OutPage α) :=
  match kind with
  | .dim => do
    let a ← pointOf E v 0 ms c!"at"
    let d ← pointOf E v 1 ms c!"dir"
    let f ← pointOf E v 2 ms c!"from"
    let t ← pointOf E v 3 ms c!"to"
    let g ← formatOf E c!"%.3f" ms
    if d.eqv V3.zero then none else some (dimItems g v.scale a d.normalized f t)
  | .dia => circ diaItems
  | .rad => circ radItems
  | .angle => do
    let a ← pointOf E v 0 ms c!"at"
    let x ← pointOf E v 1 ms c!"apex"
    let f ← legOf E v 2 x ms c!"from_dir" c!"from_point"
    let t ← legOf E v 4 x ms c!"to_dir" c!"to_point"
    let g ← formatOf E c!"%.1f" ms
    if FP.eq (t.1.cross f.1).z (FP.lit 0) then none
    else if FP.lt (FP.lit 0) (t.1.cross f.1).z then some (angleItems g v.scale a x t.1 t.2 f.1 f.2)
    else some (angleItems g v.scale a x f.1 f.2 t.1 t.2)
where
  circ (items : (α → Str) → α → Circ α → OutPage α) : Option (OutPage α) := do
    let a ← pointOf E v 0 ms c!"at"
    let c ← pointOf E v 1 ms c!"center"
    let d ← pointOf E v 2 ms c!"dir"
    let g ← formatOf E c!"%.3f" ms
    if v.points.length < 3 then none
    else
      let k ← locate v.points c.xy
      some (items g v.scale ⟨a.xy, d.xy, k.1, k.2⟩)

theorem circ_items (E : Env α) (v : Vis α) (ms : List (Meta α)) (dr : (α → Str) → Vis α → Circ α → Vis α)
    (it : (α → Str) → α → Circ α → OutPage α) (h : ∀ g c, dr g v c = v.adds (it g v.scale c)) :
    dimDraws.circ E v ms dr = (drawnItems.circ E v ms it).map v.adds := by
  simp only [dimDraws.circ, drawnItems.circ, bind, Option.bind, h]
  cases pointOf E v 0 ms c!"at" <;> simp only [Option.map_none]
  cases pointOf E v 1 ms c!"center" <;> simp only [Option.map_none]
  cases pointOf E v 2 ms c!"dir" <;> simp only [Option.map_none]
  cases formatOf E c!"%.3f" ms <;> simp only [Option.map_none]
  split
  · rfl
  rename_i c _ _ _
  cases locate v.points c.xy <;> rfl

theorem dimDraws_items (E : Env α) (v : Vis α) (kind : DimKind) (ms : List (Meta α)) :
    dimDraws E v kind ms = (drawnItems E v kind ms).map v.adds := by
  cases kind
  · simp only [dimDraws, drawnItems, bind, Option.bind, drawAngle_items]
    cases pointOf E v 0 ms c!"at" <;> simp only [Option.map_none]
    cases pointOf E v 1 ms c!"apex" <;> simp only [Option.map_none]
    rename_i x
    cases legOf E v 2 x ms c!"from_dir" c!"from_point" <;> simp only [Option.map_none]
    cases legOf E v 4 x ms c!"to_dir" c!"to_point" <;> simp only [Option.map_none]
    cases formatOf E c!"%.1f" ms <;> simp only [Option.map_none]
    split
    · rfl
    split <;> rfl
  · exact circ_items E v ms _ _ (fun g c => drawDia_items g v c)
  · simp only [dimDraws, drawnItems, bind, Option.bind, drawDim_items]
    cases pointOf E v 0 ms c!"at" <;> simp only [Option.map_none]
    cases pointOf E v 1 ms c!"dir" <;> simp only [Option.map_none]
    cases pointOf E v 2 ms c!"from" <;> simp only [Option.map_none]
    cases pointOf E v 3 ms c!"to" <;> simp only [Option.map_none]
    cases formatOf E c!"%.3f" ms <;> simp only [Option.map_none]
    split <;> simp only [Option.map_none, Option.map_some]
  · exact circ_items E v ms _ _ (fun g c => drawRad_items g v c)

/-- the items do not depend on the place of the drawing, nor on what is already there -/
theorem drawnItems_off (E : Env α) (v : Vis α) (pg : OutPage α) (off : V2 α) (L : List Diag) (kind : DimKind) (ms : List (Meta α)) :
    drawnItems E { v with page := pg, d := off, log := L } kind ms = drawnItems E v kind ms := rfl

/-- a dimension adds its items to the page if it is accepted, otherwise nothing -/
theorem dimContent_items (E : Env α) (v : Vis α) (d : DimN α) (hr : v.rotation.eqv E.junkM = false) :
    (∀ P, GoodDim d.kind d.metas → drawnItems E v d.kind d.metas = some P →
      ∃ L, dimContent E v d = .ok (true, P.moved v.scale v.d, L)) ∧
    (¬ GoodDim d.kind d.metas ∨ drawnItems E v d.kind d.metas = none → ∃ L, dimContent E v d = .ok (false, OutPage.empty, L)) := by
  obtain ⟨h1, h2⟩ := visitDimN_spec E v.base d hr
  have hd : dimDraws E v.base d.kind d.metas = (drawnItems E v d.kind d.metas).map v.base.adds := by
    rw [dimDraws_items]; rfl
  rw [hd] at h1 h2
  constructor
  · intro P hg hP
    obtain ⟨d', e⟩ := h1 hg _ (by rw [hP]; rfl)
    exact ⟨_, by unfold dimContent; rw [e]; simp only [Except.map]; simp [Vis.adds, Vis.base, OutPage.app, OutPage.empty]; rfl⟩
  · intro h
    obtain ⟨d', L, e⟩ := h2 (h.imp id (fun h => by rw [h]; rfl))
    exact ⟨_, by unfold dimContent; rw [e]; simp only [Except.map]; rfl⟩

end S2P
