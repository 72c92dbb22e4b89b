import Verif.Lemmas.Dims

set_option linter.unusedSectionVars false
set_option linter.unusedVariables false
set_option linter.unusedSimpArgs false

/-! # The dimensions of a drawing one after the other -/

namespace S2P
variable {α : Type} [FP α]

theorem base_pre (v : Vis α) : v.base.pre v.page v.log = v := by
  simp [Vis.base, Vis.pre, OutPage.app_empty]

theorem base_ctx {v w : Vis α} (h : v.SameCtx w) : v.base = w.base := by
  obtain ⟨h1, h2, h3, h4⟩ := h
  simp [Vis.base, h1, h2, h3, h4]

theorem dimContent_any (E : Env α) (v : Vis α) (d : DimN α) :
    (visitDimN E v d).map (fun r => (r.1, r.2.2.page, r.2.2.log)) =
      (dimContent E v d).map (fun c => (c.1, v.page.app c.2.1, v.log ++ c.2.2)) := by
  have h := visitDimN_pre E v.page v.log v.base d
  rw [base_pre] at h
  unfold dimContent
  rw [h]
  cases visitDimN E v.base d <;> rfl

theorem dims_sum (E : Env α) : ∀ (ds : List (DimN α)) (v : Vis α),
    (∀ a, visitDims E ds v = .error a ↔ ∃ p d q, ds = p ++ d :: q ∧ (∀ x ∈ p, ∃ c, dimContent E v x = .ok c) ∧ dimContent E v d = .error a) ∧
    ∀ r, visitDims E ds v = .ok r → ∃ cs, List.Forall₂ (fun d c => dimContent E v d = .ok c) ds cs ∧
      r.1 = cs.all (fun c => c.1) ∧ r.2.2.page = v.page.app (OutPage.sum (cs.map (fun c => c.2.1))) ∧
      r.2.2.log = v.log ++ (cs.map (fun c => c.2.2)).flatten
  | [], v => by
    constructor
    · intro a; simp [visitDims]
    · intro r h
      cases h
      exact ⟨[], .nil, rfl, by simp [OutPage.sum, OutPage.app_empty], by simp⟩
  | d :: ds, v => by
    have hc := dimContent_any E v d
    unfold visitDims
    simp only [bind, Except.bind]
    cases h1 : visitDimN E v d with
    | error b =>
      have hcd : dimContent E v d = .error b := by
        rw [h1] at hc
        cases hcc : dimContent E v d with
        | error e => rw [hcc] at hc; simp only [Except.map, Except.error.injEq] at hc; rw [hc]
        | ok c => rw [hcc] at hc; simp [Except.map] at hc
      constructor
      · intro a
        simp only [Except.error.injEq]
        constructor
        · rintro rfl
          exact ⟨[], d, ds, rfl, by simp, hcd⟩
        · rintro ⟨p, x, q, he, hp, hx⟩
          cases p with
          | nil =>
            simp only [List.nil_append, List.cons.injEq] at he
            rw [← he.1, hcd] at hx
            simpa using hx
          | cons y p =>
            simp only [List.cons_append, List.cons.injEq] at he
            obtain ⟨c, hc⟩ := hp y (by simp)
            rw [← he.1, hcd] at hc
            cases hc
      · intro r h; cases h
    | ok x =>
      obtain ⟨c, hcd, k1, k2, k3⟩ : ∃ c, dimContent E v d = .ok c ∧ x.1 = c.1 ∧ x.2.2.page = v.page.app c.2.1 ∧ x.2.2.log = v.log ++ c.2.2 := by
        rw [h1] at hc
        cases hcc : dimContent E v d with
        | error e => rw [hcc] at hc; simp [Except.map] at hc
        | ok c =>
          rw [hcc] at hc
          simp only [Except.map, Except.ok.injEq, Prod.mk.injEq] at hc
          exact ⟨c, rfl, hc⟩
      have hctx : ∀ y, dimContent E x.2.2 y = dimContent E v y := by
        intro y
        unfold dimContent
        rw [base_ctx (visitDimN_ctx E v d x h1)]
      obtain ⟨ih1, ih2⟩ := dims_sum E ds x.2.2
      simp only [hctx] at ih1 ih2
      simp only []
      constructor
      · intro a
        constructor
        · intro h
          cases h2 : visitDims E ds x.2.2 with
          | ok r => rw [h2] at h; cases h
          | error b =>
            rw [h2] at h
            simp only [Except.error.injEq] at h
            subst h
            obtain ⟨p, y, q, he, hp, hy⟩ := (ih1 _).mp h2
            refine ⟨d :: p, y, q, by rw [he]; rfl, ?_, hy⟩
            intro z hz
            rcases List.mem_cons.mp hz with rfl | hz
            · exact ⟨c, hcd⟩
            · exact hp z hz
        · rintro ⟨p, y, q, he, hp, hy⟩
          cases p with
          | nil =>
            simp only [List.nil_append, List.cons.injEq] at he
            rw [← he.1, hcd] at hy
            cases hy
          | cons z p =>
            simp only [List.cons_append, List.cons.injEq] at he
            have := (ih1 a).mpr ⟨p, y, q, he.2, fun w hw => hp w (by simp [hw]), hy⟩
            rw [this]
      · intro r h
        cases h2 : visitDims E ds x.2.2 with
        | error b => rw [h2] at h; cases h
        | ok s =>
          rw [h2] at h
          cases h
          obtain ⟨cs, f, g1, g2, g3⟩ := ih2 s h2
          refine ⟨c :: cs, .cons hcd f, ?_, ?_, ?_⟩
          · simp [k1, g1]
          · simp only [List.map_cons, OutPage.sum]
            rw [g2, k2, OutPage.app_assoc]
          · simp [g3, k3]

/-- a drawing: either something is wrong at the start, or its outline and its dimensions are drawn -/
theorem draw_sum (E : Env α) (stl : Models α) (name : Str) (ms : List (Meta α)) (dims : List (DimN α)) (line : Nat) (c)
    (h : content E stl (.draw name ms dims line) = .ok c) :
    (c.1 = false ∧ c.2.1 = OutPage.empty ∧ c.2.2 ≠ [] ∧ ¬ ∃ sc rot loc file proj ls, Drawn E stl name ms sc rot loc file proj ls) ∨
    ∃ sc rot loc file proj ls cs, Drawn E stl name ms sc rot loc file proj ls ∧
      List.Forall₂ (fun d k => dimContent E (drawStart (initVis E) sc rot loc proj.cull ls) d = .ok k) dims cs ∧
      c.2.1 = (drawStart (initVis E) sc rot loc proj.cull ls).page.app (OutPage.sum (cs.map (fun k => k.2.1))) ∧
      (c.1 = true ↔ (∀ k ∈ cs, k.1 = true) ∧ ∀ m ∈ ms, m.name ∈ [c!"scale", c!"view", c!"@"]) ∧
      ∃ extra, (extra = [] ↔ (∃ k ∈ cs, k.1 = false) ∨ ∀ m ∈ ms, m.name ∈ [c!"scale", c!"view", c!"@"]) ∧
        c.2.2 = (cs.map (fun k => k.2.2)).flatten ++ extra := by
  unfold content at h
  simp only [visitDrawable, bind, Except.bind] at h
  obtain ⟨ds, extra, e1, e2, e3⟩ := visitDraw_out E stl name ms line
  rw [e3] at h
  unfold drawOut at h
  by_cases hd : ds ≠ []
  · rw [if_pos hd] at h; cases h
    refine Or.inl ⟨rfl, rfl, by simpa [Vis.errs, initVis] using hd, ?_⟩
    rintro ⟨sc, rot, loc, file, proj, ls, D⟩
    exact hd (e1.mpr D.once)
  rw [if_neg hd] at h
  rw [not_not] at hd
  cases h1 : scaleOf (look ms c!"scale") with
  | error d =>
    rw [h1] at h; cases h
    refine Or.inl ⟨rfl, rfl, by simp [Vis.errs, initVis], ?_⟩
    rintro ⟨sc, rot, loc, file, proj, ls, D⟩
    rw [D.scale] at h1; cases h1
  | ok sc =>
    rw [h1] at h; simp only [] at h
    cases h2 : stl.find? (fun e => decide (e.1 = name)) with
    | none =>
      rw [h2] at h; cases h
      refine Or.inl ⟨rfl, rfl, by simp [Vis.err, initVis], ?_⟩
      rintro ⟨sc, rot, loc, file, proj, ls, D⟩
      obtain ⟨e, he, -⟩ := D.model
      rw [he] at h2; cases h2
    | some e =>
      rw [h2] at h; simp only [] at h
      cases h3 : viewOf (look ms c!"view") with
      | error d =>
        rw [h3] at h; cases h
        refine Or.inl ⟨rfl, rfl, by simp [Vis.errs, initVis], ?_⟩
        rintro ⟨sc, rot, loc, file, proj, ls, D⟩
        rw [D.view] at h3; cases h3
      | ok rot =>
        rw [h3] at h; simp only [] at h
        cases h4 : locOf (look ms c!"@") with
        | error a => rw [h4] at h; cases h
        | ok loc =>
          rw [h4] at h; simp only [] at h
          cases h5 : e.2 with
          | none => rw [h5] at h; cases h
          | some file =>
            rw [h5] at h; simp only [] at h
            cases h6 : file.rotate rot with
            | error a => rw [h6] at h; cases h
            | ok proj =>
              rw [h6] at h; simp only [] at h
              cases h7 : proj.cull.toLines E.sorter with
              | error a => rw [h7] at h; cases h
              | ok ls =>
                rw [h7] at h; simp only [] at h
                cases h8 : visitDims E dims (drawStart (initVis E) sc rot loc proj.cull ls) with
                | error a => rw [h8] at h; cases h
                | ok r =>
                  rw [h8] at h; simp only [] at h
                  obtain ⟨cs, f, g1, g2, g3⟩ := (dims_sum E dims _).2 r h8
                  have g3' : r.2.2.log = (cs.map (fun c => c.2.2)).flatten := by simpa [drawStart, initVis, Vis.addLines] using g3
                  refine Or.inr ⟨sc, rot, loc, file, proj, ls, cs, ⟨e1.mp hd, h1, h3, h4, ⟨e, h2, h5⟩, h6, h7⟩, f, ?_⟩
                  cases hr : r.1 with
                  | false =>
                    rw [if_pos hr] at h; cases h
                    have hb : ∃ k ∈ cs, k.1 = false := by
                      rw [hr] at g1
                      simpa using g1.symm
                    refine ⟨g2, ?_, [], ?_, ?_⟩
                    · constructor
                      · intro h; cases h
                      · rintro ⟨h, -⟩
                        obtain ⟨k, hk, e⟩ := hb
                        rw [h k hk] at e; cases e
                    · exact ⟨fun _ => Or.inl hb, fun _ => rfl⟩
                    · simp [g3']
                  | true =>
                    have hb : ∀ k ∈ cs, k.1 = true := by
                      rw [hr] at g1
                      simpa using g1.symm
                    have hnb : ¬ ∃ k ∈ cs, k.1 = false := by
                      rintro ⟨k, hk, e⟩
                      rw [hb k hk] at e; cases e
                    rw [if_neg (by simp [hr])] at h
                    by_cases hx : extra ≠ []
                    · rw [if_pos hx] at h; cases h
                      refine ⟨g2, ?_, extra, ?_, ?_⟩
                      · rw [← e2]; simp [hx]
                      · rw [e2]; simp [hnb]
                      · simp [Vis.errs, g3']
                    · rw [if_neg hx] at h; cases h
                      rw [not_not] at hx
                      refine ⟨g2, ?_, [], ?_, ?_⟩
                      · exact ⟨fun _ => ⟨hb, e2.mp hx⟩, fun _ => rfl⟩
                      · rw [← e2]; simp [hx]
                      · simp [g3']

end S2P
