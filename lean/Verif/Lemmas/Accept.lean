import Verif.Lemmas.Pages

set_option linter.unusedSectionVars false
set_option linter.unusedVariables false
set_option linter.unusedSimpArgs false

/-! # What acceptance says about the properties -/

namespace S2P
variable {α : Type} [FP α]

theorem forall₂_mem {β γ : Type} {R : β → γ → Prop} {l : List β} {l' : List γ} (h : List.Forall₂ R l l') {x : β} (hx : x ∈ l) :
    ∃ y ∈ l', R x y := by
  induction h with
  | nil => cases hx
  | cons h1 _ ih =>
    rcases List.mem_cons.mp hx with rfl | hx
    · exact ⟨_, by simp, h1⟩
    · obtain ⟨y, hy, e⟩ := ih hx
      exact ⟨y, by simp [hy], e⟩

theorem has_look {ms : List (Meta α)} {n : Str} (h : Has ms n) : ∃ m, look ms n = some m := by
  obtain ⟨m, hm, e⟩ := h
  exact Option.isSome_iff_exists.mp (List.find?_isSome.mpr ⟨m, hm, by simp [e]⟩)

theorem visitCirc_good (E : Env α) (kind : Str) (drawIt : (α → Str) → Vis α → Circ α → Vis α) (ms : List (Meta α)) (v : Vis α)
    (line : Nat) (s) (h : visitCirc E kind drawIt ⟨ms, v⟩ line = .ok (true, s)) :
    Exactly ms [c!"at", c!"dir", c!"center"] [c!"fmt"] := by
  obtain ⟨t1, t2, t3⟩ := visitCirc_table E kind drawIt ms v line
  by_cases h1 : ¬ ((ms.map (fun m => m.name)).Nodup ∧ Has ms c!"at" ∧ Has ms c!"dir" ∧ Has ms c!"center") ∨ v.points.length < 3
  · obtain ⟨L, -, e⟩ := t1 h1
    rw [e] at h; simp at h
  · rw [not_or, not_not] at h1
    obtain ⟨⟨hn, ha, hd, hc⟩, hl⟩ := h1
    cases hj : v.rotation.eqv E.junkM with
    | true => rw [t2 hn ha hd hc hl hj] at h; cases h
    | false =>
      obtain ⟨mA, ea⟩ := has_look ha
      obtain ⟨mD, ed⟩ := has_look hd
      obtain ⟨mC, ec⟩ := has_look hc
      obtain ⟨ms', k1, k2⟩ := t3 mA mD mC hn hl hj ea ed ec
      cases hb : (metaEval E v 0 mA).1 && (metaEval E v 1 mC).1 && (metaEval E v 2 mD).1 with
      | false => rw [k1 hb] at h; simp at h
      | true =>
        obtain ⟨k3, -⟩ := k2 hb
        by_cases hk : ∀ m ∈ ms, m.name ∈ [c!"at", c!"dir", c!"center", c!"fmt"]
        · refine ⟨hn, hk, ?_⟩
          intro n hm
          simp only [List.mem_cons, List.not_mem_nil, or_false] at hm
          rcases hm with rfl | rfl | rfl
          · exact ha
          · exact hd
          · exact hc
        · obtain ⟨L, -, e⟩ := k3 (Or.inr (Or.inl hk))
          rw [e] at h; simp at h

theorem visitDimN_good (E : Env α) (v : Vis α) (d : DimN α) (r) (h : visitDimN E v d = .ok r) (hr : r.1 = true) : GoodDim d.kind d.metas := by
  unfold visitDimN at h
  simp only [bind, Except.bind] at h
  cases hk : d.kind <;> rw [hk] at h <;> simp only [] at h
  · cases hx : visitAngle E ⟨d.metas, v⟩ d.line with
    | error a => rw [hx] at h; cases h
    | ok s =>
      rw [hx] at h; cases h
      by_contra hg
      obtain ⟨L, -, e⟩ := (visitAngle_table E d.metas v d.line).1 hg
      rw [e] at hx; cases hx; cases hr
  · cases hx : visitCirc E c!"dia" drawDia ⟨d.metas, v⟩ d.line with
    | error a => rw [hx] at h; cases h
    | ok s =>
      rw [hx] at h; cases h
      obtain ⟨b, s⟩ := s
      obtain rfl : b = true := hr
      exact visitCirc_good _ _ _ _ _ _ _ hx
  · cases hx : visitDim E ⟨d.metas, v⟩ d.line with
    | error a => rw [hx] at h; cases h
    | ok s =>
      rw [hx] at h; cases h
      by_contra hg
      obtain ⟨L, -, e⟩ := (visitDim_table E d.metas v d.line).1 hg
      rw [e] at hx; cases hx; cases hr
  · cases hx : visitCirc E c!"rad" drawRad ⟨d.metas, v⟩ d.line with
    | error a => rw [hx] at h; cases h
    | ok s =>
      rw [hx] at h; cases h
      obtain ⟨b, s⟩ := s
      obtain rfl : b = true := hr
      exact visitCirc_good _ _ _ _ _ _ _ hx

theorem visitDims_good (E : Env α) : ∀ (ds : List (DimN α)) (v : Vis α) (r), visitDims E ds v = .ok r → r.1 = true →
    ∀ d ∈ ds, GoodDim d.kind d.metas
  | [], v, r, h, hr => by simp
  | d :: ds, v, r, h, hr => by
    unfold visitDims at h
    simp only [bind, Except.bind] at h
    cases h1 : visitDimN E v d with
    | error a => rw [h1] at h; cases h
    | ok x =>
      rw [h1] at h
      simp only [] at h
      cases h2 : visitDims E ds x.2.2 with
      | error a => rw [h2] at h; cases h
      | ok y =>
        rw [h2] at h
        cases h
        simp only [Bool.and_eq_true] at hr
        intro z hz
        rcases List.mem_cons.mp hz with rfl | hz
        · exact visitDimN_good E v _ x h1 hr.1
        · exact visitDims_good E ds _ y h2 hr.2 z hz

theorem content_good (E : Env α) (stl : Models α) (d : Drawable α) (c) (h : content E stl d = .ok c) (hc : c.1 = true) : GoodDrawable d := by
  unfold content at h
  cases d with
  | draw n ms dims l =>
    simp only [visitDrawable, bind, Except.bind] at h
    obtain ⟨ds, extra, e1, e2, e3⟩ := visitDraw_out E stl n ms l
    rw [e3] at h
    unfold drawOut at h
    by_cases hd : ds ≠ []
    · rw [if_pos hd] at h; cases h; cases hc
    · rw [if_neg hd] at h
      rw [not_not] at hd
      cases h1 : scaleOf (look ms c!"scale") with
      | error d => rw [h1] at h; cases h; cases hc
      | ok sc =>
        rw [h1] at h; simp only [] at h
        cases h2 : stl.find? (fun e => decide (e.1 = n)) with
        | none => rw [h2] at h; cases h; cases hc
        | some e =>
          rw [h2] at h; simp only [] at h
          cases h3 : viewOf (look ms c!"view") with
          | error d => rw [h3] at h; cases h; cases hc
          | ok rot =>
            rw [h3] at h; simp only [] at h
            cases h4 : locOf (look ms c!"@") with
            | error a => rw [h4] at h; cases h
            | ok loc =>
              rw [h4] at h; simp only [] at h
              cases h5 : e.2 with
              | none => rw [h5] at h; cases h
              | some file =>
                rw [h5] at h; simp only [] at h
                cases h6 : file.rotate rot with
                | error a => rw [h6] at h; cases h
                | ok proj =>
                  rw [h6] at h; simp only [] at h
                  cases h7 : proj.cull.toLines E.sorter with
                  | error a => rw [h7] at h; cases h
                  | ok ls =>
                    rw [h7] at h; simp only [] at h
                    cases h8 : visitDims E dims (drawStart (initVis E) sc rot loc proj.cull ls) with
                    | error a => rw [h8] at h; cases h
                    | ok r =>
                      rw [h8] at h; simp only [] at h
                      cases hr : r.1 with
                      | false => rw [if_pos hr] at h; cases h; cases hc
                      | true =>
                        rw [if_neg (by simp [hr])] at h
                        by_cases hx : extra ≠ []
                        · rw [if_pos hx] at h; cases h; cases hc
                        · rw [not_not] at hx
                          exact ⟨⟨e1.mp hd, by simpa using e2.mp hx, by simp⟩, visitDims_good E dims _ r h8 hr⟩
  | text s ms l =>
    simp only [visitDrawable, bind, Except.bind] at h
    obtain ⟨ds, extra, e1, e2, e3⟩ := visitText_out (α := α) s ms l
    rw [e3] at h
    unfold textOut at h
    by_cases hd : ds ≠ []
    · rw [if_pos hd] at h; cases h; cases hc
    · rw [if_neg hd] at h
      rw [not_not] at hd
      cases h1 : textLocOf (look ms c!"@") with
      | error a => rw [h1] at h; cases h
      | ok p =>
        rw [h1] at h; cases h
        simp only [List.isEmpty_iff] at hc
        exact ⟨e1.mp hd, by simpa using e2.mp hc, by simp⟩

/-- a document, page by page; each page as it comes out on its own -/
theorem genPages_each (E : Env α) (stl : Models α) : ∀ (pgs : List (PageN α)) (n : Nat) (v : Vis α),
    ((∃ a, genPages E stl pgs n v = .error a) ↔ ∃ pg ∈ pgs, ∃ a, onePage E stl pg = .error a) ∧
    ∀ r, genPages E stl pgs n v = .ok r →
      List.Forall₂ (fun pg o => ∃ g, onePage E stl pg = .ok g ∧ g.pages = [o]) pgs r.2.1 ∧
      (r.1 = true ↔ ∀ pg ∈ pgs, ∃ g, onePage E stl pg = .ok g ∧ g.ok = true)
  | [], n, v => by
    constructor
    · simp [genPages]
    · intro r h; cases h; exact ⟨.nil, by simp⟩
  | pg :: pgs, n, v => by
    have one : (∀ a, genPage E stl v (n + 1) pg = .error a → onePage E stl pg = .error a) ∧
        ∀ x, genPage E stl v (n + 1) pg = .ok x → ∃ g, onePage E stl pg = .ok g ∧ g.pages = [x.2.2.page] ∧ g.ok = x.1 := by
      have hp := (genPage_obs E stl pg (n + 1) 1 v (initVis E)).1
      unfold onePage generatePages
      simp only [genPages, bind, Except.bind, List.length_nil, Nat.zero_add]
      revert hp
      cases genPage E stl v (n + 1) pg <;> cases genPage E stl (initVis E) 1 pg <;> intro hp <;>
        simp only [Except.map, Except.ok.injEq, Except.error.injEq, reduceCtorEq, Prod.mk.injEq] at hp ⊢
      · subst hp; simp
      · simp only [pure, Except.pure, forall_eq', Except.ok.injEq, exists_eq_left', Bool.and_true, List.nil_append, List.cons.injEq,
          and_true]
        simp [hp.1, hp.2.2.1]
    unfold genPages
    simp only [bind, Except.bind]
    cases h1 : genPage E stl v (n + 1) pg with
    | error b =>
      constructor
      · constructor
        · intro _; exact ⟨pg, by simp, b, one.1 b h1⟩
        · intro _; exact ⟨b, rfl⟩
      · intro r h; cases h
    | ok x =>
      obtain ⟨g, g1, g2, g3⟩ := one.2 x h1
      obtain ⟨ih1, ih2⟩ := genPages_each E stl pgs (n + 1) x.2.2
      simp only []
      constructor
      · rw [show (∃ q ∈ pg :: pgs, ∃ a, onePage E stl q = .error a) ↔ ∃ q ∈ pgs, ∃ a, onePage E stl q = .error a by
          simp [g1]]
        rw [← ih1]
        cases genPages E stl pgs (n + 1) x.2.2 <;> simp [pure, Except.pure]
      · intro r h
        cases h2 : genPages E stl pgs (n + 1) x.2.2 with
        | error b => rw [h2] at h; cases h
        | ok s =>
          rw [h2] at h
          cases h
          obtain ⟨f, k⟩ := ih2 s h2
          refine ⟨.cons ⟨g, g1, g2⟩ f, ?_⟩
          simp only [Bool.and_eq_true, k, List.forall_mem_cons, g1, Except.ok.injEq, exists_eq_left', g3]

end S2P
