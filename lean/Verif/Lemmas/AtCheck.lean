import Verif.Lemmas.Loud
import Verif.Spec.Print

set_option linter.unusedSectionVars false
set_option linter.unusedVariables false
set_option linter.unusedSimpArgs false

/-! # Which functions can fail the '@' assertion -/

namespace S2P
variable {α : Type} [FP α] {β γ : Type}

def NoAt (x : Except Abort β) : Prop := x ≠ .error .atCheck

theorem noAt_ok (b : β) : NoAt (.ok b : Except Abort β) := by intro h; cases h
theorem noAt_pure (b : β) : NoAt (pure b : Except Abort β) := by intro h; cases h
theorem noAt_check : NoAt (.error .check : Except Abort β) := by intro h; cases h
theorem noAt_ub : NoAt (.error .ub : Except Abort β) := by intro h; cases h
theorem noAt_throw_check : NoAt (throw .check : Except Abort β) := by intro h; cases h
theorem noAt_throw_ub : NoAt (throw .ub : Except Abort β) := by intro h; cases h

theorem noAt_bind {x : Except Abort β} {f : β → Except Abort γ} (h1 : NoAt x) (h2 : ∀ b, NoAt (f b)) : NoAt (x >>= f) := by
  cases x with
  | error a => intro h; exact h1 (by simpa [bind, Except.bind] using h)
  | ok b => exact h2 b

theorem noAt_mapM (f : β → Except Abort γ) (h : ∀ b, NoAt (f b)) : ∀ l : List β, NoAt (l.mapM f)
  | [] => by rw [List.mapM_nil]; exact noAt_pure _
  | b :: l => by
    rw [List.mapM_cons]
    exact noAt_bind (h b) (fun _ => noAt_bind (noAt_mapM f h l) (fun _ => noAt_pure _))

theorem noAt_foldlM (f : γ → β → Except Abort γ) (h : ∀ c b, NoAt (f c b)) : ∀ (l : List β) (c : γ), NoAt (l.foldlM f c)
  | [], c => by rw [List.foldlM_nil]; exact noAt_pure _
  | b :: l, c => by
    rw [List.foldlM_cons]
    exact noAt_bind (h c b) (fun _ => noAt_foldlM f h l _)

theorem noAt_ite {c : Prop} [Decidable c] {x y : Except Abort β} (h1 : NoAt x) (h2 : NoAt y) : NoAt (if c then x else y) := by
  split_ifs <;> assumption

theorem findEdge_noAt (dd : List (Edge α × Nat)) (a b : V3 α) : NoAt (findEdge dd a b) := by
  unfold findEdge
  split
  · exact noAt_ok _
  · exact noAt_check

theorem index_noAt (fs : List (Facet α)) : NoAt (index fs) := by
  unfold index
  refine noAt_bind (noAt_mapM _ (fun f => ?_) _) (fun _ => noAt_pure _)
  unfold faceEdges
  exact noAt_bind (findEdge_noAt _ _ _) (fun _ => noAt_bind (findEdge_noAt _ _ _) (fun _ => noAt_bind (findEdge_noAt _ _ _) (fun _ => noAt_pure _)))

theorem rotate_noAt (f : STLFile α) (m : M3 α) : NoAt (f.rotate m) := index_noAt _

theorem collectCross_noAt (n : Nat) : ∀ (l : List (Nat × Nat × V3 α)) (acc : List (List (Nat × V3 α))), NoAt (collectCross n l acc)
  | [], acc => noAt_ok _
  | (a, b, p) :: l, acc => by
    unfold collectCross
    exact noAt_ite (collectCross_noAt n l _) (noAt_ite noAt_check (collectCross_noAt n l _))

theorem spanLoop_noAt (p0 : V3 α) : ∀ (l : List (Edge α)) (frm : V3 α) (d : α) (acc : List (Line α)), NoAt (spanLoop p0 l frm d acc)
  | [], frm, d, acc => noAt_ok _
  | h :: l, frm, d, acc => by
    unfold spanLoop
    exact noAt_ite (spanLoop_noAt p0 l _ _ _) noAt_check

theorem pushPt_noAt (l : List (V3 α × α)) (x : V3 α × α) : NoAt (pushPt l x) := by
  unfold pushPt
  exact noAt_ite (noAt_ok _) noAt_ub

theorem faceHides_noAt (S : Sorter) (cs : List (Nat × V3 α)) (v : Nat) (ev : Edge α) (f : Facet α) (el : Nat × Nat × Nat) :
    NoAt (faceHides S cs v ev f el) := by
  unfold faceHides
  refine noAt_ite (noAt_pure _) ?_
  refine noAt_bind ?_ (fun pts => noAt_ite (noAt_pure _) ?_)
  · unfold hiddenPoints
    have h0 : ∀ l1 : List (V3 α × α), NoAt ([el.1, el.2.1, el.2.2].foldlM (fun l e =>
        match cs.find? (fun c => c.1 == e) with
        | some c => pushPt l (c.2, (ev.1 - c.2).sqNorm)
        | none => pure l) l1) := by
      intro l1
      refine noAt_foldlM _ (fun l e => ?_) _ _
      split
      · exact pushPt_noAt _ _
      · exact noAt_pure _
    have h1 : ∀ l0 : List (V3 α × α), NoAt (if behind f ev.2 then (pushPt l0 (ev.2, (ev.1 - ev.2).sqNorm)) >>= (fun l1 => [el.1, el.2.1, el.2.2].foldlM (fun l e =>
        match cs.find? (fun c => c.1 == e) with
        | some c => pushPt l (c.2, (ev.1 - c.2).sqNorm)
        | none => pure l) l1) else [el.1, el.2.1, el.2.2].foldlM (fun l e =>
        match cs.find? (fun c => c.1 == e) with
        | some c => pushPt l (c.2, (ev.1 - c.2).sqNorm)
        | none => pure l) l0) := fun l0 => noAt_ite (noAt_bind (pushPt_noAt _ _) h0) (h0 _)
    exact noAt_ite (noAt_bind (pushPt_noAt _ _) h1) (h1 _)
  · dsimp only
    split
    · exact noAt_ite (noAt_pure _) (noAt_ite (noAt_pure _) noAt_throw_check)
    · exact noAt_throw_ub

theorem toLines_noAt (S : Sorter) (s : STLFile α) : NoAt (s.toLines S) := by
  unfold STLFile.toLines
  refine noAt_bind (collectCross_noAt _ _ _) (fun cross => noAt_bind (noAt_mapM _ (fun v => ?_) _) (fun hides => ?_))
  · split
    · unfold edgeHides
      exact noAt_bind (noAt_mapM _ (fun p => faceHides_noAt _ _ _ _ _ _) _) (fun _ => noAt_pure _)
    · exact noAt_throw_ub
  · unfold generateLines
    refine noAt_bind (noAt_mapM _ (fun i => ?_) _) (fun _ => noAt_pure _)
    split
    · exact noAt_throw_ub
    · unfold edgeLines
      exact noAt_bind (spanLoop_noAt _ _ _ _ _) (fun _ => noAt_ite (noAt_pure _) (noAt_pure _))

theorem getRotated_noAt (E : Env α) (s : DimSt α) (i : Nat) (ret : V3 α) : NoAt (getRotated E s i ret) := by
  unfold getRotated
  refine noAt_ite noAt_check ?_
  split
  · exact noAt_ub
  · split <;> exact noAt_ok _

theorem visitCirc_noAt (E : Env α) (k : Str) (dr : (α → Str) → Vis α → Circ α → Vis α) (s : DimSt α) (l : Nat) : NoAt (visitCirc E k dr s l) := by
  unfold visitCirc
  dsimp only
  refine noAt_ite (noAt_ok _) (noAt_bind ?_ (fun c => ?_))
  · unfold getCenter
    dsimp only
    split
    · refine noAt_ite (noAt_ok _) ?_
      refine noAt_bind (getRotated_noAt _ _ _ _) (fun _ => noAt_bind (getRotated_noAt _ _ _ _) (fun _ => noAt_bind (getRotated_noAt _ _ _ _) (fun _ => ?_)))
      refine noAt_ite (noAt_ok _) ?_
      split <;> exact noAt_ok _
    · exact noAt_ok _
  · split <;> exact noAt_ok _

theorem visitDim_noAt (E : Env α) (s : DimSt α) (l : Nat) : NoAt (visitDim E s l) := by
  unfold visitDim
  dsimp only
  refine noAt_ite (noAt_ok _) ?_
  split
  · refine noAt_bind (getRotated_noAt _ _ _ _) (fun _ => noAt_bind (getRotated_noAt _ _ _ _) (fun _ =>
      noAt_bind (getRotated_noAt _ _ _ _) (fun _ => noAt_bind (getRotated_noAt _ _ _ _) (fun _ => ?_))))
    refine noAt_ite (noAt_ok _) ?_
    split
    · exact noAt_ok _
    · exact noAt_ite (noAt_ok _) (noAt_ok _)
  · exact noAt_ok _

theorem angleLeg_noAt (E : Env α) (s : DimSt α) (a : V3 α) (p q : Option Nat) (j : Nat) : NoAt (angleLeg E s a p q j) := by
  unfold angleLeg
  split
  · exact noAt_bind (getRotated_noAt _ _ _ _) (fun _ => noAt_pure _)
  · exact noAt_bind (getRotated_noAt _ _ _ _) (fun _ => noAt_pure _)
  · exact noAt_ub

theorem visitAngle_noAt (E : Env α) (s : DimSt α) (l : Nat) : NoAt (visitAngle E s l) := by
  unfold visitAngle
  dsimp only
  refine noAt_ite (noAt_ok _) ?_
  split
  · refine noAt_ite (noAt_ok _) ?_
    refine noAt_bind (getRotated_noAt _ _ _ _) (fun _ => noAt_bind (getRotated_noAt _ _ _ _) (fun _ =>
      noAt_bind (angleLeg_noAt _ _ _ _ _ _) (fun _ => noAt_bind (angleLeg_noAt _ _ _ _ _ _) (fun _ => ?_))))
    split
    · exact noAt_ok _
    · exact noAt_ite (noAt_ok _) (noAt_ite (noAt_ok _) (noAt_ite (noAt_ok _) (noAt_ok _)))
  · exact noAt_ok _

theorem visitDimN_noAt (E : Env α) (v : Vis α) (d : DimN α) : NoAt (visitDimN E v d) := by
  unfold visitDimN
  cases d.kind
  · exact noAt_bind (visitAngle_noAt _ _ _) (fun _ => noAt_pure _)
  · exact noAt_bind (visitCirc_noAt _ _ _ _ _) (fun _ => noAt_pure _)
  · exact noAt_bind (visitDim_noAt _ _ _) (fun _ => noAt_pure _)
  · exact noAt_bind (visitCirc_noAt _ _ _ _ _) (fun _ => noAt_pure _)

theorem visitDims_noAt (E : Env α) : ∀ (ds : List (DimN α)) (v : Vis α), NoAt (visitDims E ds v)
  | [], v => noAt_ok _
  | d :: ds, v => by
    unfold visitDims
    exact noAt_bind (visitDimN_noAt _ _ _) (fun _ => noAt_bind (visitDims_noAt E ds _) (fun _ => noAt_pure _))

/-- only an '@' of the wrong type fails the assertion -/
theorem content_atCheck (E : Env α) (stl : Models α) (d : Drawable α) (h : content E stl d = .error .atCheck) :
    ∃ m ∈ (match d with | .draw _ ms _ _ => ms | .text _ ms _ => ms), m.name = c!"@" ∧ ∀ l, m.val ≠ .loc l := by
  cases d with
  | draw n ms dims l =>
    unfold content at h
    simp only [visitDrawable, bind, Except.bind] at h
    obtain ⟨ds, extra, e1, e2, e3⟩ := visitDraw_out E stl n ms l
    rw [e3] at h
    unfold drawOut at h
    by_cases hd : ds ≠ []
    · rw [if_pos hd] at h; cases h
    rw [if_neg hd] at h
    cases h1 : scaleOf (look ms c!"scale") with
    | error d => rw [h1] at h; cases h
    | ok sc =>
      rw [h1] at h; simp only [] at h
      cases h2 : stl.find? (fun e => decide (e.1 = n)) with
      | none => rw [h2] at h; cases h
      | some e =>
        rw [h2] at h; simp only [] at h
        cases h3 : viewOf (look ms c!"view") with
        | error d => rw [h3] at h; cases h
        | ok rot =>
          rw [h3] at h; simp only [] at h
          cases h4 : locOf (look ms c!"@") with
          | error a =>
            unfold locOf at h4
            cases h5 : look ms c!"@" with
            | none => rw [h5] at h4; cases h4
            | some m =>
              refine ⟨m, look_mem h5, ?_, ?_⟩
              · simpa using List.find?_some h5
              · intro q hq
                rw [h5] at h4
                simp [hq] at h4
          | ok loc =>
            rw [h4] at h; simp only [] at h
            exfalso
            cases h5 : e.2 with
            | none => rw [h5] at h; cases h
            | some file =>
              rw [h5] at h; simp only [] at h
              cases h6 : file.rotate rot with
              | error a =>
                rw [h6] at h
                simp only [Except.map, Except.error.injEq] at h
                rw [h] at h6
                exact rotate_noAt _ _ h6
              | ok proj =>
                rw [h6] at h; simp only [] at h
                cases h7 : proj.cull.toLines E.sorter with
                | error a =>
                  rw [h7] at h
                  simp only [Except.map, Except.error.injEq] at h
                  rw [h] at h7
                  exact toLines_noAt _ _ h7
                | ok ls =>
                  rw [h7] at h; simp only [] at h
                  cases h8 : visitDims E dims (drawStart (initVis E) sc rot loc proj.cull ls) with
                  | error a =>
                    rw [h8] at h
                    simp only [Except.map, Except.error.injEq] at h
                    rw [h] at h8
                    exact visitDims_noAt _ _ _ h8
                  | ok r =>
                    rw [h8] at h; simp only [] at h
                    split_ifs at h <;> simp [Except.map, pure, Except.pure] at h
  | text s ms l =>
    unfold content at h
    simp only [visitDrawable, bind, Except.bind] at h
    obtain ⟨ds, extra, e1, e2, e3⟩ := visitText_out (α := α) s ms l
    rw [e3] at h
    unfold textOut at h
    by_cases hd : ds ≠ []
    · rw [if_pos hd] at h; cases h
    rw [if_neg hd] at h
    cases h4 : textLocOf (look ms c!"@") with
    | ok p => rw [h4] at h; cases h
    | error a =>
      unfold textLocOf at h4
      cases h5 : look ms c!"@" with
      | none => rw [h5] at h4; cases h4
      | some m =>
        refine ⟨m, look_mem h5, ?_, ?_⟩
        · simpa using List.find?_some h5
        · intro q hq
          rw [h5] at h4
          simp [hq] at h4

theorem genPages_atCheck (E : Env α) (stl : Models α) : ∀ (pgs : List (PageN α)) (n : Nat) (v : Vis α), genPages E stl pgs n v = .error .atCheck →
    ∃ pg ∈ pgs, ∃ d ∈ pg.draws, content E stl d = .error .atCheck
  | [], n, v, h => by cases h
  | pg :: pgs, n, v, h => by
    simp only [genPages, bind, Except.bind] at h
    cases h1 : genPage E stl v (n + 1) pg with
    | error e =>
      rw [h1] at h
      simp only [Except.error.injEq] at h
      subst h
      obtain ⟨ds, xl, hd, hx⟩ := genPage_out E stl pg
      obtain ⟨extra, he, -, hg⟩ := hx (n + 1)
      rw [hg] at h1
      obtain ⟨s1, -⟩ := drawables_sum E stl pg.draws { v with page := OutPage.empty, log := v.log ++ (ds ++ (titleOf (look pg.metas c!"name")).2) }
      cases hv : visitDrawables E stl pg.draws { v with page := OutPage.empty, log := v.log ++ (ds ++ (titleOf (look pg.metas c!"name")).2) } with
      | ok s => rw [hv] at h1; cases h1
      | error a =>
        rw [hv] at h1
        simp only [Except.map, Except.error.injEq] at h1
        subst h1
        obtain ⟨p, d, q, e, -, hc⟩ := (s1 _).mp hv
        exact ⟨pg, by simp, d, by rw [e]; simp, hc⟩
    | ok x =>
      rw [h1] at h
      simp only [] at h
      cases h2 : genPages E stl pgs (n + 1) x.2.2 with
      | ok r => rw [h2] at h; cases h
      | error e =>
        rw [h2] at h
        simp only [Except.error.injEq] at h
        subst h
        obtain ⟨p, hp, d, hd, hc⟩ := genPages_atCheck E stl pgs _ _ h2
        exact ⟨p, by simp [hp], d, hd, hc⟩

end S2P
