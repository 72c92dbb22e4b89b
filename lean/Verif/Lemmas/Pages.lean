import Verif.Lemmas.Doc

set_option linter.unusedSectionVars false
set_option linter.unusedVariables false
set_option linter.unusedSimpArgs false

/-! # Sequences of drawings and pages -/

namespace S2P
variable {α : Type} [FP α]

theorem content_any (E : Env α) (stl : Models α) (v : Vis α) (d : Drawable α) :
    (visitDrawable E stl v d).map (fun r => (r.1, r.2.2.page, r.2.2.log)) =
      (content E stl d).map (fun c => (c.1, v.page.app c.2.1, v.log ++ c.2.2)) := by
  have h := visitDrawable_obs E stl v (initVis E) v.page v.log (by rw [show (initVis E).page = OutPage.empty from rfl, OutPage.app_empty])
    (by rw [show (initVis E).log = [] from rfl, List.append_nil]) d
  unfold content
  revert h
  cases visitDrawable E stl v d <;> cases visitDrawable E stl (initVis E) d <;> intro h <;>
    simp only [Except.map, Except.ok.injEq, Except.error.injEq, reduceCtorEq, Prod.mk.injEq] at h ⊢
  · exact h
  · exact ⟨h.1, h.2.2⟩

/-- drawings one after the other -/
theorem drawables_sum (E : Env α) (stl : Models α) : ∀ (ds : List (Drawable α)) (v : Vis α),
    (∀ a, visitDrawables E stl ds v = .error a ↔ ∃ p d q, ds = p ++ d :: q ∧ (∀ x ∈ p, ∃ c, content E stl x = .ok c) ∧ content E stl d = .error a) ∧
    ∀ r, visitDrawables E stl ds v = .ok r → ∃ cs, List.Forall₂ (fun d c => content E stl d = .ok c) ds cs ∧
      r.1 = cs.all (fun c => c.1) ∧ r.2.2.page = v.page.app (OutPage.sum (cs.map (fun c => c.2.1))) ∧
      r.2.2.log = v.log ++ (cs.map (fun c => c.2.2)).flatten
  | [], v => by
    constructor
    · intro a; simp [visitDrawables]
    · intro r h
      cases h
      exact ⟨[], .nil, rfl, by simp [OutPage.sum, OutPage.app_empty], by simp⟩
  | d :: ds, v => by
    have hc := content_any E stl v d
    unfold visitDrawables
    simp only [bind, Except.bind]
    cases h1 : visitDrawable E stl v d with
    | error b =>
      have hcd : content E stl d = .error b := by
        rw [h1] at hc
        cases hcc : content E stl d with
        | error e => rw [hcc] at hc; simp only [Except.map, Except.error.injEq] at hc; rw [hc]
        | ok c => rw [hcc] at hc; simp [Except.map] at hc
      constructor
      · intro a
        simp only [Except.error.injEq]
        constructor
        · rintro rfl
          exact ⟨[], d, ds, rfl, by simp, hcd⟩
        · rintro ⟨p, x, q, he, hp, hx⟩
          cases p with
          | nil =>
            simp only [List.nil_append, List.cons.injEq] at he
            rw [← he.1, hcd] at hx
            simpa using hx
          | cons y p =>
            simp only [List.cons_append, List.cons.injEq] at he
            obtain ⟨c, hc⟩ := hp y (by simp)
            rw [← he.1, hcd] at hc
            cases hc
      · intro r h; cases h
    | ok x =>
      obtain ⟨c, hcd, k1, k2, k3⟩ : ∃ c, content E stl d = .ok c ∧ x.1 = c.1 ∧ x.2.2.page = v.page.app c.2.1 ∧ x.2.2.log = v.log ++ c.2.2 := by
        rw [h1] at hc
        cases hcc : content E stl d with
        | error e => rw [hcc] at hc; simp [Except.map] at hc
        | ok c =>
          rw [hcc] at hc
          simp only [Except.map, Except.ok.injEq, Prod.mk.injEq] at hc
          exact ⟨c, rfl, hc⟩
      obtain ⟨ih1, ih2⟩ := drawables_sum E stl ds x.2.2
      simp only []
      constructor
      · intro a
        constructor
        · intro h
          cases h2 : visitDrawables E stl ds x.2.2 with
          | ok r => rw [h2] at h; cases h
          | error b =>
            rw [h2] at h
            simp only [Except.error.injEq] at h
            subst h
            obtain ⟨p, y, q, he, hp, hy⟩ := (ih1 _).mp h2
            refine ⟨d :: p, y, q, by rw [he]; rfl, ?_, hy⟩
            intro z hz
            rcases List.mem_cons.mp hz with rfl | hz
            · exact ⟨c, hcd⟩
            · exact hp z hz
        · rintro ⟨p, y, q, he, hp, hy⟩
          cases p with
          | nil =>
            simp only [List.nil_append, List.cons.injEq] at he
            rw [← he.1, hcd] at hy
            cases hy
          | cons z p =>
            simp only [List.cons_append, List.cons.injEq] at he
            have := (ih1 a).mpr ⟨p, y, q, he.2, fun w hw => hp w (by simp [hw]), hy⟩
            rw [this]
      · intro r h
        cases h2 : visitDrawables E stl ds x.2.2 with
        | error b => rw [h2] at h; cases h
        | ok s =>
          rw [h2] at h
          cases h
          obtain ⟨cs, f, g1, g2, g3⟩ := ih2 s h2
          refine ⟨c :: cs, .cons hcd f, ?_, ?_, ?_⟩
          · simp [k1, g1]
          · simp only [List.map_cons, OutPage.sum]
            rw [g2, k2, OutPage.app_assoc]
          · simp [g3, k3]

/-- what a page is: its drawings and its title -/
theorem genPage_sum (E : Env α) (stl : Models α) (pg : PageN α) (n : Nat) (v : Vis α) :
    (∀ a, genPage E stl v n pg = .error a ↔
      ∃ p d q, pg.draws = p ++ d :: q ∧ (∀ x ∈ p, ∃ c, content E stl x = .ok c) ∧ content E stl d = .error a) ∧
    ∀ r, genPage E stl v n pg = .ok r → ∃ cs, List.Forall₂ (fun d c => content E stl d = .ok c) pg.draws cs ∧
      (r.1 = true ↔ Exactly pg.metas [] [c!"name"] ∧ nameIsString pg.metas ∧ ∀ c ∈ cs, c.1 = true) ∧
      ∃ t, titled pg.metas t ∧ r.2.2.page = addHeader (OutPage.sum (cs.map (fun c => c.2.1))) t := by
  obtain ⟨ds, xl, hd, hx⟩ := genPage_out E stl pg
  obtain ⟨extra, he, -, hg⟩ := hx n
  rw [hg]
  obtain ⟨s1, s2⟩ := drawables_sum E stl pg.draws { v with page := OutPage.empty, log := v.log ++ (ds ++ (titleOf (look pg.metas c!"name")).2) }
  have hns : (titleOf (look pg.metas c!"name")).2 = [] ↔ nameIsString pg.metas := by
    unfold titleOf nameIsString
    cases look pg.metas c!"name" with
    | none => simp
    | some m => cases hv : m.val <;> simp [hv]
  constructor
  · intro a
    rw [← s1]
    cases visitDrawables E stl pg.draws { v with page := OutPage.empty, log := v.log ++ (ds ++ (titleOf (look pg.metas c!"name")).2) } <;>
      simp [Except.map]
  · intro r h
    cases hv : visitDrawables E stl pg.draws { v with page := OutPage.empty, log := v.log ++ (ds ++ (titleOf (look pg.metas c!"name")).2) } with
    | error a => rw [hv] at h; cases h
    | ok s =>
      rw [hv] at h
      simp only [Except.map, Except.ok.injEq] at h
      subst h
      obtain ⟨cs, f, g1, g2, g3⟩ := s2 s hv
      refine ⟨cs, f, ?_, (titleOf (look pg.metas c!"name")).1, ?_, ?_⟩
      · simp only [Bool.and_eq_true, List.isEmpty_iff, g1, List.all_eq_true]
        rw [hd, hns, he]
        constructor
        · rintro ⟨⟨⟨a1, a2⟩, a3⟩, a4⟩
          exact ⟨⟨a1, by simpa using a4, by simp⟩, a2, a3⟩
        · rintro ⟨⟨a1, a4, -⟩, a2, a3⟩
          exact ⟨⟨⟨a1, a2⟩, a3⟩, by simpa using a4⟩
      · unfold titled titleOf
        cases look pg.metas c!"name" with
        | none => rfl
        | some m => cases hv : m.val <;> simp [hv]
      · simp only [g2]
        rw [OutPage.empty_app]

/-- a page does not depend on the state it meets -/
theorem genPage_obs (E : Env α) (stl : Models α) (pg : PageN α) (n m : Nat) (v w : Vis α) :
    (genPage E stl v n pg).map (fun r => (r.1, r.2.1, r.2.2.page, (r.2.2.log.drop v.log.length).map (fun e : Diag => e.1))) =
      (genPage E stl w m pg).map (fun r => (r.1, r.2.1, r.2.2.page, (r.2.2.log.drop w.log.length).map (fun e : Diag => e.1))) ∧
    (n = m → (genPage E stl v n pg).map (fun r => (r.1, r.2.1, r.2.2.page, r.2.2.log.drop v.log.length)) =
      (genPage E stl w m pg).map (fun r => (r.1, r.2.1, r.2.2.page, r.2.2.log.drop w.log.length))) ∧
    (∀ r, genPage E stl v n pg = .ok r → r.2.2.log = v.log ++ r.2.2.log.drop v.log.length) := by
  obtain ⟨ds, xl, hd, hx⟩ := genPage_out E stl pg
  obtain ⟨extra, he, hxl, hg⟩ := hx n
  obtain ⟨extra', he', hxl', hg'⟩ := hx m
  have hnm : n = m → extra = extra' ∨ True := fun _ => Or.inr trivial
  have key : ∀ v : Vis α, (visitDrawables E stl pg.draws { v with page := OutPage.empty, log := v.log ++ (ds ++ (titleOf (look pg.metas c!"name")).2) }).map
      (fun r => (r.1, r.2.1, r.2.2.page, r.2.2.log)) =
      (visitDrawables E stl pg.draws { initVis E with log := ds ++ (titleOf (look pg.metas c!"name")).2 }).map
      (fun r => (r.1, r.2.1, r.2.2.page, v.log ++ r.2.2.log)) := by
    intro v
    have := visitDrawables_obs E stl pg.draws { v with page := OutPage.empty, log := v.log ++ (ds ++ (titleOf (look pg.metas c!"name")).2) }
      { initVis E with log := ds ++ (titleOf (look pg.metas c!"name")).2 } OutPage.empty v.log (by rw [OutPage.empty_app]; rfl) rfl
    rw [this]
    simp only [OutPage.empty_app]
  have out : ∀ (n : Nat) (ex : List Diag), (∀ v, genPage E stl v n pg = (visitDrawables E stl pg.draws { v with page := OutPage.empty, log := v.log ++ (ds ++ (titleOf (look pg.metas c!"name")).2) }).map
          (fun r => (ds.isEmpty && (titleOf (look pg.metas c!"name")).2.isEmpty && r.1 && ex.isEmpty, { pg with draws := r.2.1 },
            { r.2.2 with page := addHeader r.2.2.page (titleOf (look pg.metas c!"name")).1, log := r.2.2.log ++ ex }))) → ∀ v,
      (genPage E stl v n pg).map (fun r => (r.1, r.2.1, r.2.2.page, r.2.2.log)) =
      (visitDrawables E stl pg.draws { initVis E with log := ds ++ (titleOf (look pg.metas c!"name")).2 }).map
        (fun r => (ds.isEmpty && (titleOf (look pg.metas c!"name")).2.isEmpty && r.1 && ex.isEmpty, { pg with draws := r.2.1 },
          addHeader r.2.2.page (titleOf (look pg.metas c!"name")).1, v.log ++ (r.2.2.log ++ ex))) := by
    intro n ex hg v
    rw [hg]
    have k := key v
    revert k
    cases visitDrawables E stl pg.draws { v with page := OutPage.empty, log := v.log ++ (ds ++ (titleOf (look pg.metas c!"name")).2) } <;>
      cases visitDrawables E stl pg.draws { initVis E with log := ds ++ (titleOf (look pg.metas c!"name")).2 } <;> intro k <;>
      simp only [Except.map, Except.ok.injEq, Except.error.injEq, reduceCtorEq, Prod.mk.injEq] at k ⊢
    · exact k
    · obtain ⟨k1, k2, k3, k4⟩ := k
      rw [k1, k2, k3, k4]
      simp
  have o1 := out n extra hg v
  have o2 := out m extra' hg' w
  have o3 := fun h : n = m => by subst h; exact out n extra hg w
  have hee : extra.isEmpty = extra'.isEmpty := by
    rw [Bool.eq_iff_iff, List.isEmpty_iff, List.isEmpty_iff, he, he']
  refine ⟨?_, ?_, ?_⟩
  · revert o1 o2
    cases genPage E stl v n pg <;> cases genPage E stl w m pg <;>
      cases visitDrawables E stl pg.draws { initVis E with log := ds ++ (titleOf (look pg.metas c!"name")).2 } <;> intro o1 o2 <;>
      simp only [Except.map, Except.ok.injEq, Except.error.injEq, reduceCtorEq, Prod.mk.injEq] at o1 o2 ⊢
    · rw [o1, o2]
    · obtain ⟨a1, a2, a3, a4⟩ := o1
      obtain ⟨b1, b2, b3, b4⟩ := o2
      rw [a1, a2, a3, a4, b1, b2, b3, b4, hee]
      simp [hxl, hxl']
  · intro hh
    have o3 := o3 hh
    revert o1 o3
    cases genPage E stl v n pg <;> cases hgm : genPage E stl w m pg <;> (try subst hh; try rw [hgm]) <;>
      cases visitDrawables E stl pg.draws { initVis E with log := ds ++ (titleOf (look pg.metas c!"name")).2 } <;> intro o1 o3 <;>
      simp only [Except.map, Except.ok.injEq, Except.error.injEq, reduceCtorEq, Prod.mk.injEq] at o1 o3 ⊢
    · rw [o1, o3]
    · obtain ⟨a1, a2, a3, a4⟩ := o1
      obtain ⟨b1, b2, b3, b4⟩ := o3
      rw [a1, a2, a3, a4, b1, b2, b3, b4]
      simp
  · intro r hr
    rw [hr] at o1
    revert o1
    cases visitDrawables E stl pg.draws { initVis E with log := ds ++ (titleOf (look pg.metas c!"name")).2 } <;> intro o1 <;>
      simp only [Except.map, Except.ok.injEq, Except.error.injEq, reduceCtorEq, Prod.mk.injEq] at o1
    rw [o1.2.2.2]
    simp


theorem genPage_obs' (E : Env α) (stl : Models α) (pg : PageN α) (n : Nat) (v w : Vis α) (L : List Diag) (hl : v.log = L ++ w.log) :
    (genPage E stl v n pg).map (fun r => (r.1, r.2.1, r.2.2.page, r.2.2.log)) =
      (genPage E stl w n pg).map (fun r => (r.1, r.2.1, r.2.2.page, L ++ r.2.2.log)) := by
  have h := (genPage_obs E stl pg n n v w).2.1 rfl
  have hv := (genPage_obs E stl pg n n v w).2.2
  have hw := (genPage_obs E stl pg n n w v).2.2
  revert h hv hw
  cases genPage E stl v n pg <;> cases genPage E stl w n pg <;> intro h hv hw <;>
    simp only [Except.map, Except.ok.injEq, Except.error.injEq, reduceCtorEq, Prod.mk.injEq] at h ⊢
  · exact h
  · rename_i x y
    refine ⟨h.1, h.2.1, h.2.2.1, ?_⟩
    rw [hv x rfl, hw y rfl, h.2.2.2, hl, List.append_assoc]

theorem genPages_obs (E : Env α) (stl : Models α) : ∀ (pgs : List (PageN α)) (n : Nat) (v w : Vis α) (L : List Diag), v.log = L ++ w.log →
    (genPages E stl pgs n v).map (fun r => (r.1, r.2.1, r.2.2.1, r.2.2.2.log)) =
      (genPages E stl pgs n w).map (fun r => (r.1, r.2.1, r.2.2.1, L ++ r.2.2.2.log))
  | [], n, v, w, L, h => by simp [genPages, Except.map, h]
  | pg :: pgs, n, v, w, L, h => by
    have hp := genPage_obs' E stl pg (n + 1) v w L h
    unfold genPages
    simp only [bind, Except.bind]
    revert hp
    cases genPage E stl v (n + 1) pg <;> cases genPage E stl w (n + 1) pg <;> intro hp <;>
      simp only [Except.map, Except.ok.injEq, Except.error.injEq, reduceCtorEq, Prod.mk.injEq] at hp ⊢
    · exact hp
    · rename_i x y
      have ih := genPages_obs E stl pgs (n + 1) x.2.2 y.2.2 L hp.2.2.2
      revert ih
      cases genPages E stl pgs (n + 1) x.2.2 <;> cases genPages E stl pgs (n + 1) y.2.2 <;> intro ih <;>
        simp only [Except.map, Except.ok.injEq, Except.error.injEq, reduceCtorEq, Prod.mk.injEq] at ih ⊢
      · exact ih
      · simp [ih, hp, pure, Except.pure]

/-- the number of pages before only shows in messages -/
theorem genPages_count (E : Env α) (stl : Models α) : ∀ (pgs : List (PageN α)) (n m : Nat) (v w : Vis α),
    v.log.map (fun e : Diag => e.1) = w.log.map (fun e : Diag => e.1) →
    (genPages E stl pgs n v).map (fun r => (r.1, r.2.1, r.2.2.1, r.2.2.2.log.map (fun e : Diag => e.1))) =
      (genPages E stl pgs m w).map (fun r => (r.1, r.2.1, r.2.2.1, r.2.2.2.log.map (fun e : Diag => e.1)))
  | [], n, m, v, w, h => by simp [genPages, Except.map, h]
  | pg :: pgs, n, m, v, w, h => by
    have hp := (genPage_obs E stl pg (n + 1) (m + 1) v w).1
    have hv := (genPage_obs E stl pg (n + 1) (n + 1) v w).2.2
    have hw := (genPage_obs E stl pg (m + 1) (n + 1) w v).2.2
    unfold genPages
    simp only [bind, Except.bind]
    revert hp hv hw
    cases genPage E stl v (n + 1) pg <;> cases genPage E stl w (m + 1) pg <;> intro hp hv hw <;>
      simp only [Except.map, Except.ok.injEq, Except.error.injEq, reduceCtorEq, Prod.mk.injEq] at hp ⊢
    · exact hp
    · rename_i x y
      have hlog : x.2.2.log.map (fun e : Diag => e.1) = y.2.2.log.map (fun e : Diag => e.1) := by
        rw [hv x rfl, hw y rfl, List.map_append, List.map_append, h, hp.2.2.2]
      have ih := genPages_count E stl pgs (n + 1) (m + 1) x.2.2 y.2.2 hlog
      revert ih
      cases genPages E stl pgs (n + 1) x.2.2 <;> cases genPages E stl pgs (m + 1) y.2.2 <;> intro ih <;>
        simp only [Except.map, Except.ok.injEq, Except.error.injEq, reduceCtorEq, Prod.mk.injEq] at ih ⊢
      · exact ih
      · simp [ih, hp, pure, Except.pure]

theorem genPages_append (E : Env α) (stl : Models α) : ∀ (a b : List (PageN α)) (n : Nat) (v : Vis α),
    genPages E stl (a ++ b) n v =
      match genPages E stl a n v with
      | .error e => .error e
      | .ok r => match genPages E stl b (n + a.length) r.2.2.2 with
        | .error e => .error e
        | .ok t => .ok (r.1 && t.1, r.2.1 ++ t.2.1, r.2.2.1 ++ t.2.2.1, t.2.2.2)
  | [], b, n, v => by
    simp only [List.nil_append, genPages, List.length_nil, Nat.add_zero]
    cases genPages E stl b n v <;> simp
  | pg :: a, b, n, v => by
    simp only [List.cons_append, genPages, bind, Except.bind]
    cases genPage E stl v (n + 1) pg with
    | error e => rfl
    | ok x =>
      simp only [genPages_append E stl a b (n + 1) x.2.2]
      cases genPages E stl a (n + 1) x.2.2 with
      | error e => rfl
      | ok r =>
        simp only [pure, Except.pure]
        rw [show n + 1 + a.length = n + (pg :: a).length by simp; omega]
        cases genPages E stl b (n + (pg :: a).length) r.2.2.2 with
        | error e => rfl
        | ok t => simp [Bool.and_assoc]

theorem genPages_length (E : Env α) (stl : Models α) : ∀ (a : List (PageN α)) (n : Nat) (v : Vis α) (r), genPages E stl a n v = .ok r →
    r.2.1.length = a.length ∧ r.2.2.1.length = a.length
  | [], n, v, r, h => by cases h; exact ⟨rfl, rfl⟩
  | pg :: a, n, v, r, h => by
    simp only [genPages, bind, Except.bind] at h
    cases h1 : genPage E stl v (n + 1) pg with
    | error e => rw [h1] at h; cases h
    | ok x =>
      rw [h1] at h
      simp only [] at h
      cases h2 : genPages E stl a (n + 1) x.2.2 with
      | error e => rw [h2] at h; cases h
      | ok t =>
        rw [h2] at h
        cases h
        have := genPages_length E stl a _ _ _ h2
        simp [this]

end S2P
