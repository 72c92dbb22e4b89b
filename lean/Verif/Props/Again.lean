import Verif.Spec.Again
import Verif.Lemmas.Turn
import Verif.Lemmas.Pages
import Verif.Lemmas.Sample
import Verif.Props.Main

set_option linter.unusedSectionVars false
set_option linter.unusedVariables false
set_option linter.unusedSimpArgs false

/-! # C52: generating pages twice -/

namespace S2P

section
variable {α : Type} [FP α]

theorem visitDrawables_after (E : Env α) (stl : Models α) (R : Drawable α → Drawable α → Prop) : ∀ (ds : List (Drawable α)) (v : Vis α) (x),
    visitDrawables E stl ds v = .ok x → (∀ d ∈ ds, ∀ v y, visitDrawable E stl v d = .ok y → R d y.2.1) → List.Forall₂ R ds x.2.1
  | [], v, x, h, _ => by cases h; exact .nil
  | d :: ds, v, x, h, hR => by
    unfold visitDrawables at h
    simp only [bind, Except.bind] at h
    cases h1 : visitDrawable E stl v d with
    | error a => rw [h1] at h; cases h
    | ok y =>
      rw [h1] at h; dsimp only at h
      cases h2 : visitDrawables E stl ds y.2.2 with
      | error a => rw [h2] at h; cases h
      | ok z =>
        rw [h2] at h; cases h
        exact .cons (hR d (by simp) v y h1) (visitDrawables_after E stl R ds y.2.2 z h2 (fun d hd => hR d (by simp [hd])))

theorem genPages_after (E : Env α) (stl : Models α) (R : Drawable α → Drawable α → Prop) : ∀ (pgs : List (PageN α)) (n : Nat) (v : Vis α) (x),
    genPages E stl pgs n v = .ok x → (∀ p ∈ pgs, ∀ d ∈ p.draws, ∀ v y, visitDrawable E stl v d = .ok y → R d y.2.1) →
      List.Forall₂ (fun p p' => p'.metas = p.metas ∧ p'.line = p.line ∧ List.Forall₂ R p.draws p'.draws) pgs x.2.2.1
  | [], n, v, x, h, _ => by cases h; exact .nil
  | p :: pgs, n, v, x, h, hR => by
    unfold genPages at h
    simp only [bind, Except.bind] at h
    cases h1 : genPage E stl v (n + 1) p with
    | error a => rw [h1] at h; cases h
    | ok y =>
      rw [h1] at h; dsimp only at h
      cases h2 : genPages E stl pgs (n + 1) y.2.2 with
      | error a => rw [h2] at h; cases h
      | ok z =>
        rw [h2] at h; cases h
        refine .cons ?_ (genPages_after E stl R pgs (n + 1) y.2.2 z h2 (fun d hd => hR d (by simp [hd])))
        unfold genPage at h1
        simp only [bind, Except.bind] at h1
        split at h1
        · cases h1
        · rename_i w hw
          cases h1
          exact ⟨rfl, rfl, visitDrawables_after E stl R p.draws _ w hw (hR p (by simp))⟩

theorem Pt.shape_rot (R : M3 α) : ∀ p : Pt α, (p.rot R).shape = p.shape
  | .val _ _ => rfl
  | .func n p l => by simp only [Pt.rot, Pt.shape, Pt.shape_rot R p]

theorem Meta.Like.refl (m : Meta α) : m.Like m := ⟨rfl, rfl, .inl rfl⟩

theorem like_closed (rot : M3 α) (ms : List (Meta α)) : TurnClosed rot (List.Forall₂ Meta.Like ms) := by
  intro ms' i m p h hm hp
  obtain ⟨hi, e⟩ := List.getElem?_eq_some_iff.1 hm
  rw [List.forall₂_iff_get] at h ⊢
  refine ⟨by simpa using h.1, ?_⟩
  intro k h1 h2
  have hk := h.2 k h1 (by simpa using h2)
  by_cases hik : i = k
  · subst hik
    simp only [List.get_eq_getElem] at hk ⊢
    rw [e] at hk
    simp only [List.getElem_set_self]
    obtain ⟨a, b, c⟩ := hk
    refine ⟨a, b, .inr ?_⟩
    rcases c with c | ⟨q, q', c1, c2, c3⟩
    · exact ⟨p, p.rot rot, by rw [← c, hp], rfl, Pt.shape_rot rot p⟩
    · rw [hp] at c2; injection c2 with c2; subst c2
      exact ⟨q, p.rot rot, c1, rfl, by rw [Pt.shape_rot, c3]⟩
  · simpa [List.getElem_set, hik] using hk

/-- C52: generating pages leaves the document as it was up to the numbers of the points of its dimensions; models, texts, properties of
pages and drawings, and everything that is not a point are unchanged. -/
theorem C52_only_points (E : Env α) (stl : Models α) (doc : Doc α) (pages : List (OutPage α)) (g : GenRes α)
    (h : generatePages E stl doc pages = .ok g) : doc.Like g.doc := by
  unfold generatePages at h
  simp only [bind, Except.bind] at h
  split at h
  · cases h
  rename_i r hr
  cases h
  refine ⟨rfl, genPages_after E stl Drawable.Like doc.pages _ _ r hr ?_⟩
  intro p _ d _ v y hy
  cases d with
  | text s ms l =>
    simp only [visitDrawable, bind, Except.bind] at hy
    split at hy
    · cases hy
    · cases hy; rfl
  | draw n ms ds l =>
    simp only [visitDrawable, bind, Except.bind] at hy
    split at hy
    · cases hy
    · rename_i z hz
      cases hy
      exact ⟨_, rfl, visitDraw_turn E stl v n ms ds l z hz (List.Forall₂ Meta.Like) (fun rot _ ms => like_closed rot ms)
        (fun d _ => List.forall₂_same.mpr (fun m _ => Meta.Like.refl m))⟩
end

section
variable {K : Type} [Field K] [LinearOrder K] [IsStrictOrderedRing K] [FloorRing K] [Trans K]

theorem rot_identity : ∀ p : Pt (Ext K), p.IsFin → p.rot matZP = p
  | .val p l, h => by
    obtain ⟨a, rfl⟩ := h
    simp only [Pt.rot, Pt.val.injEq, and_true]
    ext <;> simp [V3.mulM, matZP, ptX, ptY, ptZ, V3.map]
  | .func n p l, h => by simp only [Pt.rot, rot_identity p h]

theorem still_drawable (E : Env (Ext K)) (stl : Models (Ext K)) (d : Drawable (Ext K)) (hf : d.IsFin) (hs : d.Still) (v : Vis (Ext K)) (y)
    (hy : visitDrawable E stl v d = .ok y) : d = y.2.1 := by
  cases d with
  | text s ms l =>
    simp only [visitDrawable, bind, Except.bind] at hy
    split at hy
    · cases hy
    · cases hy; rfl
  | draw n ms ds l =>
    simp only [visitDrawable, bind, Except.bind] at hy
    split at hy
    · cases hy
    · rename_i z hz
      cases hy
      simp only [Drawable.draw.injEq, true_and, and_true]
      rcases hs with rfl | hs
      · have := visitDraw_turn E stl v n ms [] l z hz (fun _ _ => True) (by simp [TurnClosed]) (by simp)
        exact (List.forall₂_nil_left_iff.mp this).symm
      · have hv := visitDraw_turn E stl v n ms ds l z hz (fun ms ms' => ms' = ms ∧ ∀ m ∈ ms, m.val.IsFin) (by
          rintro rot hrot ms ms' i m p ⟨rfl, hfin⟩ hm hp
          rw [hs rot hrot]
          refine ⟨?_, hfin⟩
          have hmem := List.mem_of_getElem? hm
          have := hfin m hmem
          rw [hp] at this
          rw [rot_identity p this, ← hp]
          obtain ⟨hi, e⟩ := List.getElem?_eq_some_iff.1 hm
          rw [← e]; exact List.set_getElem_self _) (fun d hd => ⟨rfl, hf.2 d hd⟩)
        have : List.Forall₂ Eq ds z.2.1 := hv.imp (fun a b h => by
          obtain ⟨k, l', m, -⟩ := h
          cases a; cases b; simp_all)
        exact List.forall₂_eq_eq_eq ▸ this

/-- C52 for documents all of whose drawings with dimensions are seen from the default direction (finite numbers): the document is left
as it was, so generating again gives the same. -/
theorem C52_same_partial (E : Env (Ext K)) (stl : Models (Ext K)) (doc : Doc (Ext K)) (hf : doc.IsFin) (hs : ∀ p ∈ doc.pages, ∀ d ∈ p.draws, d.Still)
    (pages : List (OutPage (Ext K))) (g : GenRes (Ext K)) (h : generatePages E stl doc pages = .ok g) :
    g.doc = doc ∧ generatePages E stl g.doc pages = .ok g := by
  have hd : g.doc = doc := by
    unfold generatePages at h
    simp only [bind, Except.bind] at h
    split at h
    · cases h
    rename_i r hr
    cases h
    have := genPages_after E stl Eq doc.pages _ _ r hr (fun p hp d hd v y hy => still_drawable E stl d (hf p hp d hd) (hs p hp d hd) v y hy)
    have : List.Forall₂ Eq doc.pages r.2.2.1 := this.imp (fun a b h => by
      obtain ⟨k, l', m⟩ := h
      rw [List.forall₂_eq_eq_eq] at m
      cases a; cases b; simp_all)
    rw [List.forall₂_eq_eq_eq] at this
    simp [← this]
  exact ⟨hd, by rw [hd]; exact h⟩

/-- C52 page by page: a page all of whose drawings with dimensions are seen from the default direction comes out the same the second time,
whatever else is in the document. -/
theorem C52_page_partial (E : Env (Ext K)) (stl : Models (Ext K)) (doc : Doc (Ext K)) (hf : doc.IsFin)
    (g g' : GenRes (Ext K)) (h : generatePages E stl doc [] = .ok g) (h' : generatePages E stl g.doc [] = .ok g') (i : Nat) (pg : PageN (Ext K))
    (hi : doc.pages[i]? = some pg) (hs : ∀ d ∈ pg.draws, d.Still) : g'.pages[i]? = g.pages[i]? ∧ ∃ o, g.pages[i]? = some o := by
  have e1 := (generatePages_each E stl doc g h).1
  have e2 := (generatePages_each E stl g.doc g' h').1
  have hd : g.doc.pages[i]? = some pg := by
    unfold generatePages at h
    simp only [bind, Except.bind] at h
    split at h
    · cases h
    rename_i r hr
    cases h
    have := genPages_after E stl (fun d d' => d.Still → d = d') doc.pages _ _ r hr
      (fun p hp d hd v y hy hs => still_drawable E stl d (hf p hp d hd) hs v y hy)
    rw [List.forall₂_iff_get] at this
    obtain ⟨hl, e⟩ := List.getElem?_eq_some_iff.1 hi
    obtain ⟨a, b, c⟩ := this.2 i hl (this.1 ▸ hl)
    simp only [List.get_eq_getElem, e] at a b c
    rw [List.getElem?_eq_getElem (this.1 ▸ hl)]
    have c' : List.Forall₂ Eq pg.draws (r.2.2.1[i]'(this.1 ▸ hl)).draws := by
      rw [List.forall₂_iff_get] at c ⊢
      exact ⟨c.1, fun k h1 h2 => c.2 k h1 h2 (hs _ (List.get_mem _ _))⟩
    rw [List.forall₂_eq_eq_eq] at c'
    revert a b c'
    generalize r.2.2.1[i]'(this.1 ▸ hl) = q
    intro a b c'
    cases q; cases pg; simp_all
  rw [List.forall₂_iff_get] at e1 e2
  obtain ⟨hl, e⟩ := List.getElem?_eq_some_iff.1 hi
  obtain ⟨hl', e'⟩ := List.getElem?_eq_some_iff.1 hd
  obtain ⟨x, x1, x2⟩ := e1.2 i hl (e1.1 ▸ hl)
  obtain ⟨y, y1, y2⟩ := e2.2 i hl' (e2.1 ▸ hl')
  simp only [List.get_eq_getElem, e, e'] at x1 x2 y1 y2
  rw [x1] at y1; cases y1
  rw [x2] at y2
  simp only [List.cons.injEq, and_true] at y2
  rw [List.getElem?_eq_getElem (e2.1 ▸ hl'), List.getElem?_eq_getElem (e1.1 ▸ hl), y2]
  exact ⟨rfl, _, rfl⟩
end

/-- a drawing seen from the left, with one dimension -/
def exTurned : Doc (Ext ℚ) := ⟨[], [⟨[], [.draw c!"m" [⟨c!"view", .str c!"X+", 1⟩] [exDim] 1], 1⟩]⟩

/-- C52 is false in general: the first run turns the points of dimensions in the document, and the second turns them again. -/
theorem C52_false : ∃ g g', generatePages exEnv exModels exTurned [] = .ok g ∧ generatePages exEnv exModels g.doc [] = .ok g' ∧
    g.ok = true ∧ g'.pages ≠ g.pages := by
  have hd : (match generatePages exEnv exModels exTurned [] with
      | .ok g => match generatePages exEnv exModels g.doc [] with
        | .ok g' => g.ok == true && decide (g'.pages ≠ g.pages)
        | .error _ => false
      | .error _ => false) = true := by decide +kernel
  cases h1 : generatePages exEnv exModels exTurned [] with
  | error a => rw [h1] at hd; simp at hd
  | ok g =>
    rw [h1] at hd
    cases h2 : generatePages exEnv exModels g.doc [] with
    | error a => simp [h2] at hd
    | ok g' =>
      simp only [h2] at hd
      exact ⟨g, g', rfl, h2, by simpa using hd⟩

/-! ## The premises occur -/

example : (⟨[], [exPage, exPageBad]⟩ : Doc (Ext ℚ)).IsFin ∧ (∀ p ∈ [exPage, exPageBad], ∀ d ∈ p.draws, d.Still) ∧
    (generatePages exEnv exModels ⟨[], [exPage, exPageBad]⟩ []).map (fun g => g.pages.length) = .ok 2 := by
  refine ⟨?_, ?_, by decide +kernel⟩
  · have hp : ∀ x y z : ℚ, (pt x y z).IsFin := fun x y z => ⟨_, rfl⟩
    have ha : ∀ x y : ℚ, (exAt x y).val.IsFin := fun x y => ⟨_, rfl⟩
    intro p hp' d hd
    simp only [List.mem_cons, List.not_mem_nil, or_false] at hp'
    rcases hp' with rfl | rfl <;> simp only [exPage, exPageBad, List.mem_cons, List.not_mem_nil, or_false] at hd <;>
      rcases hd with rfl | rfl | rfl <;>
      simp [exDraw, exDrawBad, exText, Drawable.IsFin, DimN.IsFin, exDim, exDimBad, hp, ha] <;> trivial
  · simp [exPage, exPageBad, exDraw, exDrawBad, exText, Drawable.Still, viewOf, look, exAt]

end S2P
