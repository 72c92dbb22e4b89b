import Verif.Lemmas.FacetView
import Verif.Lemmas.Pages

set_option linter.unusedSectionVars false
set_option linter.unusedVariables false
set_option linter.unusedSimpArgs false

/-! # Pages drawn from two descriptions of the same models -/

namespace S2P

theorem OutPage.Like.refl {α : Type} (a : OutPage α) : a.Like a := ⟨.refl _, rfl, rfl⟩

theorem OutPage.Like.app {α : Type} [FP α] {a b c d : OutPage α} (h : a.Like b) (k : c.Like d) : (a.app c).Like (b.app d) :=
  ⟨h.lines.append k.lines, by simp [OutPage.app, h.arcs, k.arcs], by simp [OutPage.app, h.text, k.text]⟩

theorem OutPage.Like.header {α : Type} [FP α] {a b : OutPage α} (h : a.Like b) (t : Str) : (addHeader a t).Like (addHeader b t) := by
  obtain ⟨h1, h2, h3⟩ := h
  unfold addHeader
  refine ⟨?_, ?_, ?_⟩
  · first | exact h1 | exact h1.append_right _ | exact h1.append_left _
  · simp [h2]
  · simp [h3]

/-- a relation between pages that is kept when content is added -/
structure PageRel {α : Type} [FP α] (R : OutPage α → OutPage α → Prop) : Prop where
  refl : ∀ a, R a a
  app : ∀ {a b c d}, R a b → R c d → R (a.app c) (b.app d)
  header : ∀ {a b} t, R a b → R (addHeader a t) (addHeader b t)

theorem pageRel_like {α : Type} [FP α] : PageRel (OutPage.Like (α := α)) := ⟨.refl, .app, fun t h => h.header t⟩
theorem pageRel_eq {α : Type} [FP α] : PageRel (Eq (α := OutPage α)) := ⟨fun _ => rfl, by rintro _ _ _ _ rfl rfl; rfl, by rintro _ _ t rfl; rfl⟩

/-- verdict, page, diagnostics: the same, but for the page, which is as given -/
def ResLike {α : Type} (R : OutPage α → OutPage α → Prop) : Except Abort (Bool × OutPage α × List Diag) → Except Abort (Bool × OutPage α × List Diag) → Prop
  | .error a, .error b => a = b
  | .ok x, .ok y => x.1 = y.1 ∧ R x.2.1 y.2.1 ∧ x.2.2 = y.2.2
  | _, _ => False

theorem ResLike.refl {α : Type} {R : OutPage α → OutPage α → Prop} (hR : ∀ a, R a a) (x : Except Abort (Bool × OutPage α × List Diag)) : ResLike R x x := by
  cases x
  · rfl
  · exact ⟨rfl, hR _, rfl⟩

variable {E : Env (Ext ℝ)} {stl stl' : Models (Ext ℝ)}

theorem find_same (h : SameModels stl stl') (n : Str) :
    (stl.find? (fun e => decide (e.1 = n)) = none ∧ stl'.find? (fun e => decide (e.1 = n)) = none) ∨
    ∃ e e' f f', stl.find? (fun e => decide (e.1 = n)) = some e ∧ stl'.find? (fun e => decide (e.1 = n)) = some e' ∧ e.2 = some f ∧ e'.2 = some f' ∧
      SameShape f.facets f'.facets := by
  induction h with
  | nil => exact Or.inl ⟨rfl, rfl⟩
  | @cons a b l l' hab _ ih =>
    obtain ⟨h1, f, f', h2, h3, h4⟩ := hab
    by_cases hn : a.1 = n
    · refine Or.inr ⟨a, b, f, f', ?_, ?_, h2, h3, h4⟩
      · rw [List.find?_cons_of_pos (by simpa using hn)]
      · rw [List.find?_cons_of_pos (by simpa [← h1] using hn)]
    · rw [List.find?_cons_of_neg (by simpa using hn), List.find?_cons_of_neg (by simpa [← h1] using hn)]
      exact ih

theorem visitDims_base (E : Env (Ext ℝ)) (dims : List (DimN (Ext ℝ))) (v : Vis (Ext ℝ)) :
    visitDims E dims v = (visitDims E dims v.base).map (fun r => (r.1, r.2.1, r.2.2.pre v.page v.log)) := by
  have := visitDims_pre E v.page v.log dims v.base
  rwa [base_pre] at this

/-- the two views of a model show the same -/
def ViewsLike (S : Sorter) (f f' : STLFile (Ext ℝ)) (r : M3 ℝ) : Prop :=
  ∃ p q ls ls', f.rotate r.fin = .ok p ∧ f'.rotate r.fin = .ok q ∧ p.cull.limits = q.cull.limits ∧ p.cull.points = q.cull.points ∧
    p.cull.toLines S = .ok ls ∧ q.cull.toLines S = .ok ls' ∧ ls.Perm ls'

theorem content_viewsLike (n : Str) (ms : List (Meta (Ext ℝ))) (dims : List (DimN (Ext ℝ))) (l : Nat) (hf : ∀ m ∈ ms, m.val.IsFin)
    (hv : (stl.find? (fun e => decide (e.1 = n)) = none ∧ stl'.find? (fun e => decide (e.1 = n)) = none) ∨
      ∃ e e' f f', stl.find? (fun e => decide (e.1 = n)) = some e ∧ stl'.find? (fun e => decide (e.1 = n)) = some e' ∧ e.2 = some f ∧ e'.2 = some f' ∧
        ∀ r : M3 ℝ, IsRotation r → viewOf (look ms c!"view") = .ok r.fin → ViewsLike E.sorter f f' r) :
    ResLike OutPage.Like (content E stl (.draw n ms dims l)) (content E stl' (.draw n ms dims l)) := by
  unfold content
  simp only [visitDrawable, bind, Except.bind]
  have hout : ∃ ds extra, (∀ v dims, visitDraw E stl v n ms dims l = drawOut E stl v n dims l ds extra (look ms c!"scale") (look ms c!"view") (look ms c!"@")) ∧
      (∀ v dims, visitDraw E stl' v n ms dims l = drawOut E stl' v n dims l ds extra (look ms c!"scale") (look ms c!"view") (look ms c!"@")) := by
    obtain ⟨ds, extra, -, -, h3⟩ := visitDraw_outs E n ms l
    exact ⟨ds, extra, h3 stl, h3 stl'⟩
  obtain ⟨ds, extra, o1, o2⟩ := hout
  rw [o1, o2]
  unfold drawOut
  by_cases hd : ds ≠ []
  · rw [if_pos hd, if_pos hd]; exact ResLike.refl OutPage.Like.refl _
  rw [if_neg hd, if_neg hd]
  cases h1 : scaleOf (look ms c!"scale") with
  | error d => exact ResLike.refl OutPage.Like.refl _
  | ok sc =>
    dsimp only
    rcases hv with ⟨e1, e2⟩ | ⟨e, e', f, f', e1, e2, e3, e4, e5⟩
    · rw [e1, e2]; exact ResLike.refl OutPage.Like.refl _
    rw [e1, e2]
    dsimp only
    cases h3 : viewOf (look ms c!"view") with
    | error d => exact ResLike.refl OutPage.Like.refl _
    | ok rot =>
      dsimp only
      cases h4 : locOf (look ms c!"@") with
      | error a => exact ResLike.refl OutPage.Like.refl _
      | ok loc =>
        obtain ⟨r, rfl, hr⟩ := viewOf_rotation _ (look_fin hf _) _ h3
        rw [e3, e4]
        dsimp only
        obtain ⟨p, q, ls, ls', k1, k2, k3, k4, k5, k6, k7⟩ := e5 r hr h3
        rw [k1, k2]
        dsimp only
        rw [k5, k6]
        dsimp only
        rw [visitDims_base E dims (drawStart (initVis E) sc r.fin loc p.cull ls), visitDims_base E dims (drawStart (initVis E) sc r.fin loc q.cull ls')]
        have hb : (drawStart (initVis E) sc r.fin loc p.cull ls).base = (drawStart (initVis E) sc r.fin loc q.cull ls').base := by
          simp [drawStart, Vis.base, Vis.addLines, k3, k4]
        have hpg : (drawStart (initVis E) sc r.fin loc p.cull ls).page.Like (drawStart (initVis E) sc r.fin loc q.cull ls').page := by
          refine ⟨?_, rfl, rfl⟩
          simp only [drawStart, Vis.addLines, k3]
          exact (k7.map _).append_left _
        have hlg : (drawStart (initVis E) sc r.fin loc p.cull ls).log = (drawStart (initVis E) sc r.fin loc q.cull ls').log := rfl
        rw [hb]
        generalize (drawStart (initVis E) sc r.fin loc p.cull ls).page = P at *
        generalize (drawStart (initVis E) sc r.fin loc q.cull ls').page = Q at *
        rw [hlg]
        generalize (drawStart (initVis E) sc r.fin loc q.cull ls').log = L at *
        cases visitDims E dims (drawStart (initVis E) sc r.fin loc q.cull ls').base with
        | error a => rfl
        | ok x =>
          dsimp only [Except.map]
          have hlike : (P.app x.2.2.page).Like (Q.app x.2.2.page) := hpg.app (.refl _)
          by_cases hx : x.1 = false
          · rw [if_pos hx, if_pos hx]
            exact ⟨rfl, hlike, rfl⟩
          · rw [if_neg hx, if_neg hx]
            by_cases hextra : extra ≠ []
            · rw [if_pos hextra, if_pos hextra]
              exact ⟨rfl, hlike, rfl⟩
            · rw [if_neg hextra, if_neg hextra]
              exact ⟨rfl, hlike, rfl⟩

theorem content_sameModels (hS : SortOK E.sorter) (hM : stl.Made) (hM' : stl'.Made) (h : SameModels stl stl')
    (h2 : ∀ e ∈ stl, ∀ f, e.2 = some f → TwoSided f.facets) (d : Drawable (Ext ℝ)) (hf : d.IsFin) :
    ResLike OutPage.Like (content E stl d) (content E stl' d) := by
  cases d with
  | text s ms l => exact ResLike.refl OutPage.Like.refl _
  | draw n ms dims l =>
    refine content_viewsLike n ms dims l hf.1 ?_
    rcases find_same h n with h | ⟨e, e', f, f', e1, e2, e3, e4, e5⟩
    · exact Or.inl h
    · refine Or.inr ⟨e, e', f, f', e1, e2, e3, e4, fun r hr _ => ?_⟩
      have m1 := List.mem_of_find?_eq_some e1
      have m2 := List.mem_of_find?_eq_some e2
      obtain ⟨g, g1, g2⟩ := hM e m1
      obtain ⟨g', g1', g2'⟩ := hM' e' m2
      rw [e3] at g1; injection g1 with g1; subst g1
      rw [e4] at g1'; injection g1' with g1'; subst g1'
      exact view_sameShape E.sorter hS f f' r hr g2 g2' (h2 e m1 f e3) e5

variable {R : OutPage (Ext ℝ) → OutPage (Ext ℝ) → Prop} (hR : PageRel R)
include hR

theorem visitDrawable_like (d : Drawable (Ext ℝ)) (hd : ResLike R (content E stl d) (content E stl' d)) (v w : Vis (Ext ℝ)) (hp : R v.page w.page)
    (hl : v.log = w.log) :
    ResLike R ((visitDrawable E stl v d).map (fun r => (r.1, r.2.2.page, r.2.2.log))) ((visitDrawable E stl' w d).map (fun r => (r.1, r.2.2.page, r.2.2.log))) := by
  rw [content_any, content_any]
  cases h1 : content E stl d with
  | error a =>
    cases h2 : content E stl' d with
    | error b => rw [h1, h2] at hd; exact hd
    | ok y => rw [h1, h2] at hd; exact hd.elim
  | ok x =>
    cases h2 : content E stl' d with
    | error b => rw [h1, h2] at hd; exact hd.elim
    | ok y =>
      rw [h1, h2] at hd
      obtain ⟨k1, k2, k3⟩ := hd
      exact ⟨k1, hR.app hp k2, by simp [hl, k3]⟩

theorem visitDrawables_like : ∀ (ds : List (Drawable (Ext ℝ))) (hd : ∀ d ∈ ds, ResLike R (content E stl d) (content E stl' d)) (v w : Vis (Ext ℝ))
    (hp : R v.page w.page) (hl : v.log = w.log),
    ResLike R ((visitDrawables E stl ds v).map (fun r => (r.1, r.2.2.page, r.2.2.log))) ((visitDrawables E stl' ds w).map (fun r => (r.1, r.2.2.page, r.2.2.log)))
  | [], _, v, w, hp, hl => ⟨rfl, hp, hl⟩
  | d :: ds, hd, v, w, hp, hl => by
    have h1 := visitDrawable_like hR d (hd d (by simp)) v w hp hl
    unfold visitDrawables
    simp only [bind, Except.bind]
    cases hx : visitDrawable E stl v d with
    | error a =>
      cases hy : visitDrawable E stl' w d with
      | error b => rw [hx, hy] at h1; exact h1
      | ok y => rw [hx, hy] at h1; exact h1.elim
    | ok x =>
      cases hy : visitDrawable E stl' w d with
      | error b => rw [hx, hy] at h1; exact h1.elim
      | ok y =>
        rw [hx, hy] at h1
        obtain ⟨k1, k2, k3⟩ := h1
        dsimp only at k1 k2 k3 ⊢
        have h2 := visitDrawables_like ds (fun z hz => hd z (by simp [hz])) x.2.2 y.2.2 k2 k3
        cases hx' : visitDrawables E stl ds x.2.2 with
        | error a =>
          cases hy' : visitDrawables E stl' ds y.2.2 with
          | error b => rw [hx', hy'] at h2; exact h2
          | ok y => rw [hx', hy'] at h2; exact h2.elim
        | ok x' =>
          cases hy' : visitDrawables E stl' ds y.2.2 with
          | error b => rw [hx', hy'] at h2; exact h2.elim
          | ok y' =>
            rw [hx', hy'] at h2
            obtain ⟨l1, l2, l3⟩ := h2
            dsimp only at l1 l2 l3
            exact ⟨by simp only [k1, l1, Except.map, pure, Except.pure], l2, l3⟩

theorem genPage_like (pg : PageN (Ext ℝ)) (hd : ∀ d ∈ pg.draws, ResLike R (content E stl d) (content E stl' d)) (v w : Vis (Ext ℝ)) (hl : v.log = w.log) (n : Nat) :
    ResLike R ((genPage E stl v n pg).map (fun r => (r.1, r.2.2.page, r.2.2.log))) ((genPage E stl' w n pg).map (fun r => (r.1, r.2.2.page, r.2.2.log))) := by
  obtain ⟨ds, xl, -, h⟩ := genPage_outs E pg
  obtain ⟨extra, -, -, h⟩ := h n
  rw [h stl v, h stl' w]
  have h2 := visitDrawables_like hR (E := E) (stl := stl) (stl' := stl') pg.draws hd
    { v with page := OutPage.empty, log := v.log ++ (ds ++ (titleOf (look pg.metas c!"name")).2) }
    { w with page := OutPage.empty, log := w.log ++ (ds ++ (titleOf (look pg.metas c!"name")).2) } (hR.refl _) (by simp [hl])
  cases hx : visitDrawables E stl pg.draws { v with page := OutPage.empty, log := v.log ++ (ds ++ (titleOf (look pg.metas c!"name")).2) } with
  | error a =>
    cases hy : visitDrawables E stl' pg.draws { w with page := OutPage.empty, log := w.log ++ (ds ++ (titleOf (look pg.metas c!"name")).2) } with
    | error b => rw [hx, hy] at h2; exact h2
    | ok y => rw [hx, hy] at h2; exact h2.elim
  | ok x =>
    cases hy : visitDrawables E stl' pg.draws { w with page := OutPage.empty, log := w.log ++ (ds ++ (titleOf (look pg.metas c!"name")).2) } with
    | error b => rw [hx, hy] at h2; exact h2.elim
    | ok y =>
      rw [hx, hy] at h2
      obtain ⟨k1, k2, k3⟩ := h2
      dsimp only at k1 k2 k3
      exact ⟨by simp only [k1], hR.header _ k2, by simp only [k3]⟩

theorem genPages_like : ∀ (pgs : List (PageN (Ext ℝ))) (hd : ∀ pg ∈ pgs, ∀ d ∈ pg.draws, ResLike R (content E stl d) (content E stl' d)) (n : Nat) (v w : Vis (Ext ℝ))
    (hl : v.log = w.log),
    (∀ a, genPages E stl pgs n v = .error a ↔ genPages E stl' pgs n w = .error a) ∧
    ∀ r, genPages E stl pgs n v = .ok r → ∃ r', genPages E stl' pgs n w = .ok r' ∧ r'.1 = r.1 ∧ List.Forall₂ R r.2.1 r'.2.1 ∧ r'.2.2.2.log = r.2.2.2.log
  | [], _, n, v, w, hl => ⟨fun a => by simp [genPages], fun r h => by cases h; exact ⟨_, rfl, rfl, .nil, hl.symm⟩⟩
  | pg :: pgs, hd, n, v, w, hl => by
    have h1 := genPage_like hR pg (hd pg (by simp)) v w hl (n + 1)
    unfold genPages
    simp only [bind, Except.bind]
    cases hx : genPage E stl v (n + 1) pg with
    | error a =>
      cases hy : genPage E stl' w (n + 1) pg with
      | error b =>
        rw [hx, hy] at h1
        cases h1
        exact ⟨fun a => Iff.rfl, fun r h => by cases h⟩
      | ok y => rw [hx, hy] at h1; exact h1.elim
    | ok x =>
      cases hy : genPage E stl' w (n + 1) pg with
      | error b => rw [hx, hy] at h1; exact h1.elim
      | ok y =>
        rw [hx, hy] at h1
        obtain ⟨k1, k2, k3⟩ := h1
        dsimp only at k1 k2 k3 ⊢
        obtain ⟨l1, l2⟩ := genPages_like pgs (fun z hz => hd z (by simp [hz])) (n + 1) x.2.2 y.2.2 k3
        cases hx' : genPages E stl pgs (n + 1) x.2.2 with
        | error a =>
          rw [(l1 a).1 hx']
          exact ⟨fun a => Iff.rfl, fun r h => by cases h⟩
        | ok x' =>
          obtain ⟨y', m1, m2, m3, m4⟩ := l2 x' hx'
          rw [m1]
          refine ⟨fun a => by simp [pure, Except.pure], fun r h => ?_⟩
          cases h
          exact ⟨_, rfl, by simp [k1, m2], .cons k2 m3, m4⟩

end S2P
