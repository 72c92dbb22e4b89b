import Verif.Lemmas.Visit
import Verif.Spec.Pages

set_option linter.unusedSectionVars false
set_option linter.unusedVariables false
set_option linter.unusedSimpArgs false

/-! # Drawings, texts and pages as functions of the properties found by name -/

namespace S2P

variable {α : Type} [FP α]

theorem drawScale_look (ms : List (Meta α)) (n : Str) : drawScale ms (ixOf ms n) = scaleOf (look ms n) := by
  rcases ixOf_look ms n with ⟨e1, e2⟩ | ⟨i, m, e1, e2, e3, e4⟩
  · rw [e1, e2]; rfl
  · rw [e1, e2]; unfold drawScale scaleOf; simp only [e3]; rfl

theorem drawView_look (ms : List (Meta α)) (n : Str) : drawView ms (ixOf ms n) = viewOf (look ms n) := by
  rcases ixOf_look ms n with ⟨e1, e2⟩ | ⟨i, m, e1, e2, e3, e4⟩
  · rw [e1, e2]; rfl
  · rw [e1, e2]; unfold drawView viewOf; simp only [e3]; rfl

theorem drawLoc_look (ms : List (Meta α)) (n : Str) : drawLoc ms (ixOf ms n) = locOf (look ms n) := by
  rcases ixOf_look ms n with ⟨e1, e2⟩ | ⟨i, m, e1, e2, e3, e4⟩
  · rw [e1, e2]; rfl
  · rw [e1, e2]; unfold drawLoc locOf; simp only [e3]; rfl

theorem pageName_look (ms : List (Meta α)) (n : Str) : pageName ms (ixOf ms n) = titleOf (look ms n) := by
  rcases ixOf_look ms n with ⟨e1, e2⟩ | ⟨i, m, e1, e2, e3, e4⟩
  · rw [e1, e2]; rfl
  · rw [e1, e2]; unfold pageName titleOf; simp only [e3]; rfl

/-- a drawing, from its named properties; `ds`: diagnostics of repeated names, `extra`: of unknown ones -/
def drawOut (E : Env α) (stl : Models α) (v : Vis α) (name : Str) (dims : List (DimN α)) (line : Nat) (ds extra : List Diag)
    (mS mV mL : Option (Meta α)) : Except Abort (Bool × List (DimN α) × Vis α) :=
  if ds ≠ [] then .ok (false, dims, v.errs ds)
  else match scaleOf mS with
    | .error d => .ok (false, dims, v.errs [d])
    | .ok sc =>
      match stl.find? (fun e => decide (e.1 = name)) with
      | none => .ok (false, dims, { v with scale := projScale sc }.err line (c!"Unknown model '" ++ name ++ c!"'"))
      | some e =>
        match viewOf mV with
        | .error d => .ok (false, dims, { v with scale := projScale sc }.errs [d])
        | .ok rot =>
          match locOf mL with
          | .error a => .error a
          | .ok loc =>
            match e.2 with
            | none => .error .ub
            | some file =>
              match file.rotate rot with
              | .error a => .error a
              | .ok proj =>
                match proj.cull.toLines E.sorter with
                | .error a => .error a
                | .ok ls =>
                  match visitDims E dims (drawStart v sc rot loc proj.cull ls) with
                  | .error a => .error a
                  | .ok r =>
                    if r.1 = false then .ok (false, r.2.1, r.2.2)
                    else if extra ≠ [] then .ok (false, r.2.1, r.2.2.errs extra)
                    else .ok (true, r.2.1, r.2.2)

theorem visitDraw_outs (E : Env α) (name : Str) (ms : List (Meta α)) (line : Nat) :
    ∃ ds extra, (ds = [] ↔ (ms.map (fun m => m.name)).Nodup) ∧ (extra = [] ↔ ∀ m ∈ ms, m.name ∈ [c!"scale", c!"view", c!"@"]) ∧
      ∀ stl v dims, visitDraw E stl v name ms dims line = drawOut E stl v name dims line ds extra (look ms c!"scale") (look ms c!"view") (look ms c!"@") := by
  obtain ⟨p1, q1⟩ := rep_take (rep_flatten c!"draw" ms) c!"scale"
  obtain ⟨p2, q2⟩ := rep_take q1 c!"view"
  obtain ⟨p3, q3⟩ := rep_take q2 c!"@"
  have hnil := rep_nil q3
  rw [if_neg (by decide)] at p1 p2 p3
  unfold visitDraw
  dsimp only
  rw [p1, p2, p3]
  generalize (take c!"@" _).2 = S at hnil ⊢
  refine ⟨(flatten c!"draw" ms).2.2, if S = [] then [] else [(line, c!"Unexepcted properties for draw")] ++ leftovers ms S, ?_, ?_, ?_⟩
  · rw [flatten_diags, flatten_ok]
  · have : (∀ m ∈ ms, m.name ∈ [c!"scale", c!"view", c!"@"]) ↔ ∀ m ∈ ms, m.name ∈ [c!"@", c!"view", c!"scale"] := by
      apply forall_congr'; intro m; apply forall_congr'; intro _
      exact List.Perm.mem_iff (by decide)
    rw [this, ← hnil]
    by_cases h : S = [] <;> simp [h]
  · intro stl v dims
    rw [drawScale_look, drawView_look, drawLoc_look]
    unfold drawOut
    cases h0 : (flatten c!"draw" ms).1 with
    | false =>
      rw [if_pos (by rfl), if_pos (flatten_noisy h0)]
    | true =>
      rw [if_neg (by simp), if_neg (by simpa using flatten_quiet h0), flatten_quiet h0, errs_nil]
      cases scaleOf (look ms c!"scale") with
      | error d => rfl
      | ok sc =>
        dsimp only
        cases stl.find? (fun e => decide (e.1 = name)) with
        | none => rfl
        | some e =>
          dsimp only
          cases viewOf (look ms c!"view") with
          | error d => rfl
          | ok rot =>
            dsimp only
            simp only [bind, Except.bind]
            cases locOf (look ms c!"@") with
            | error a => rfl
            | ok loc =>
              dsimp only
              cases e.2 with
              | none => rfl
              | some file =>
                dsimp only
                cases file.rotate rot with
                | error a => rfl
                | ok proj =>
                  dsimp only
                  cases proj.cull.toLines E.sorter with
                  | error a => rfl
                  | ok ls =>
                    dsimp only
                    generalize hX : visitDims E dims _ = R
                    have hY : visitDims E dims (drawStart v sc rot loc proj.cull ls) = R := hX
                    rw [hY]
                    cases R with
                    | error a => rfl
                    | ok r =>
                      obtain ⟨b, dd, w⟩ := r
                      cases b with
                      | false => rfl
                      | true =>
                        by_cases hS : S = []
                        · simp [hS, pure, Except.pure]
                        · simp [hS, pure, Except.pure, err_errs, errs_errs]

theorem visitDraw_out (E : Env α) (stl : Models α) (name : Str) (ms : List (Meta α)) (line : Nat) :
    ∃ ds extra, (ds = [] ↔ (ms.map (fun m => m.name)).Nodup) ∧ (extra = [] ↔ ∀ m ∈ ms, m.name ∈ [c!"scale", c!"view", c!"@"]) ∧
      ∀ v dims, visitDraw E stl v name ms dims line = drawOut E stl v name dims line ds extra (look ms c!"scale") (look ms c!"view") (look ms c!"@") := by
  obtain ⟨ds, extra, h1, h2, h3⟩ := visitDraw_outs E name ms line
  exact ⟨ds, extra, h1, h2, h3 stl⟩

/-- a text block, from its named property -/
def textOut (v : Vis α) (str : Str) (ds extra : List Diag) (mL : Option (Meta α)) : Except Abort (Bool × Vis α) :=
  if ds ≠ [] then .ok (false, v.errs ds)
  else match textLocOf mL with
    | .error a => .error a
    | .ok p =>
      .ok (extra.isEmpty, { v with page := { v.page with text := v.page.text ++ textRows p (splitNl str) } }.errs extra)

theorem visitText_out (str : Str) (ms : List (Meta α)) (line : Nat) :
    ∃ ds extra, (ds = [] ↔ (ms.map (fun m => m.name)).Nodup) ∧ (extra = [] ↔ ∀ m ∈ ms, m.name ∈ [c!"@"]) ∧
      ∀ v : Vis α, visitText v str ms line = textOut v str ds extra (look ms c!"@") := by
  obtain ⟨p1, q1⟩ := rep_take (rep_flatten c!"draw" ms) c!"@"
  have hnil := rep_nil q1
  rw [if_neg (by decide)] at p1
  unfold visitText
  dsimp only
  rw [p1]
  generalize (take c!"@" _).2 = S at hnil ⊢
  refine ⟨(flatten c!"draw" ms).2.2, if S = [] then [] else [(line, c!"Unexepcted properties for text")] ++ leftovers ms S, ?_, ?_, ?_⟩
  · rw [flatten_diags, flatten_ok]
  · rw [← hnil]
    by_cases h : S = [] <;> simp [h]
  · intro v
    unfold textOut
    cases h0 : (flatten c!"draw" ms).1 with
    | false =>
      rw [if_pos (by rfl), if_pos (flatten_noisy h0)]
    | true =>
      rw [if_neg (by simp), if_neg (by simpa using flatten_quiet h0), flatten_quiet h0, errs_nil]
      simp only [bind, Except.bind, pure, Except.pure, throw, throwThe, MonadExceptOf.throw]
      rcases ixOf_look ms c!"@" with ⟨e1, e2⟩ | ⟨i, m, e1, e2, e3, e4⟩
      · rw [e1, e2]
        by_cases hS : S = []
        · simp [hS, textLocOf, errs_nil]
        · simp [hS, textLocOf, err_errs, errs_errs]
      · rw [e1, e2]
        simp only [e3, textLocOf]
        cases m.val with
        | loc l =>
          by_cases hS : S = []
          · simp [hS, errs_nil]
          · simp [hS, err_errs, errs_errs]
        | _ => rfl

/-- a page, from its named property -/
theorem genPage_outs (E : Env α) (pg : PageN α) :
    ∃ ds xl, (ds = [] ↔ (pg.metas.map (fun m => m.name)).Nodup) ∧ ∀ n, ∃ extra, (extra = [] ↔ ∀ m ∈ pg.metas, m.name ∈ [c!"name"]) ∧
      extra.map (fun e : Diag => e.1) = xl ∧ ∀ stl v, genPage E stl v n pg =
        (visitDrawables E stl pg.draws { v with page := OutPage.empty, log := v.log ++ (ds ++ (titleOf (look pg.metas c!"name")).2) }).map
          (fun r => (ds.isEmpty && (titleOf (look pg.metas c!"name")).2.isEmpty && r.1 && extra.isEmpty, { pg with draws := r.2.1 },
            { r.2.2 with page := addHeader r.2.2.page (titleOf (look pg.metas c!"name")).1, log := r.2.2.log ++ extra })) := by
  obtain ⟨p1, q1⟩ := rep_take (rep_flatten c!"page" pg.metas) c!"name"
  have hnil := rep_nil q1
  rw [if_neg (by decide)] at p1
  unfold genPage
  dsimp only
  rw [p1]
  generalize (take c!"name" _).2 = S at hnil ⊢
  refine ⟨(flatten c!"page" pg.metas).2.2, (if S = [] then [] else pg.line :: (leftovers pg.metas S).map (fun e => e.1)), ?_, ?_⟩
  · rw [flatten_diags, flatten_ok]
  intro n
  refine ⟨if S = [] then [] else [(pg.line, c!"Unexepcted properties for page " ++ natStr n)] ++ leftovers pg.metas S, ?_, ?_, ?_⟩
  · rw [← hnil]
    by_cases h : S = [] <;> simp [h]
  · by_cases h : S = [] <;> simp [h]
  · intro stl v
    rw [pageName_look]
    have hb : (flatten c!"page" pg.metas).1 = (flatten c!"page" pg.metas).2.2.isEmpty := by
      rw [Bool.eq_iff_iff, List.isEmpty_iff, flatten_diags]
    rw [hb]
    simp only [bind, Except.bind]
    rw [errs_errs]
    generalize hX : visitDrawables E stl pg.draws _ = R
    have hY : visitDrawables E stl pg.draws { v with page := OutPage.empty, log := v.log ++ ((flatten c!"page" pg.metas).2.2 ++
      (titleOf (look pg.metas c!"name")).2) } = R := hX
    rw [hY]
    cases R with
    | error a => rfl
    | ok r =>
      simp only [Except.map, pure, Except.pure]
      by_cases hS : S = []
      · simp [hS]
      · simp [hS, Vis.errs, Vis.err]

theorem genPage_out (E : Env α) (stl : Models α) (pg : PageN α) :
    ∃ ds xl, (ds = [] ↔ (pg.metas.map (fun m => m.name)).Nodup) ∧ ∀ n, ∃ extra, (extra = [] ↔ ∀ m ∈ pg.metas, m.name ∈ [c!"name"]) ∧
      extra.map (fun e : Diag => e.1) = xl ∧ ∀ v, genPage E stl v n pg =
        (visitDrawables E stl pg.draws { v with page := OutPage.empty, log := v.log ++ (ds ++ (titleOf (look pg.metas c!"name")).2) }).map
          (fun r => (ds.isEmpty && (titleOf (look pg.metas c!"name")).2.isEmpty && r.1 && extra.isEmpty, { pg with draws := r.2.1 },
            { r.2.2 with page := addHeader r.2.2.page (titleOf (look pg.metas c!"name")).1, log := r.2.2.log ++ extra })) := by
  obtain ⟨ds, xl, h1, h2⟩ := genPage_outs E pg
  refine ⟨ds, xl, h1, fun n => ?_⟩
  obtain ⟨extra, h3, h4, h5⟩ := h2 n
  exact ⟨extra, h3, h4, h5 stl⟩

end S2P
