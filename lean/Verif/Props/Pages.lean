import Verif.Lemmas.Accept
import Verif.Lemmas.Sample

set_option linter.unusedSectionVars false

/-! # C29, C44, C51, C58: pages and drawings

[any FP]: nothing is assumed about arithmetic, formatting, sorting or uninitialised memory. -/

namespace S2P
variable {α : Type} [FP α]

/-! ## C58 -/

/-- **C58.** Unless the process is terminated, every page of the script is processed whatever the others do: one output page per script page
is appended to the existing ones, the same as if that page were the whole document; success is reported iff every page succeeds alone. -/
theorem C58_pages (E : Env α) (stl : Models α) (doc : Doc α) (pages : List (OutPage α)) (r : GenRes α)
    (h : generatePages E stl doc pages = .ok r) :
    (∃ outs, r.pages = pages ++ outs ∧ outs.length = doc.pages.length ∧
      List.Forall₂ (fun pg o => ∃ g, onePage E stl pg = .ok g ∧ g.pages = [o]) doc.pages outs) ∧
    (r.ok = true ↔ ∀ pg ∈ doc.pages, ∃ g, onePage E stl pg = .ok g ∧ g.ok = true) := by
  unfold generatePages at h
  simp only [bind, Except.bind] at h
  cases hg : genPages E stl doc.pages pages.length (initVis E) with
  | error a => rw [hg] at h; cases h
  | ok s =>
    rw [hg] at h
    cases h
    obtain ⟨f, k⟩ := (genPages_each E stl doc.pages pages.length (initVis E)).2 s hg
    exact ⟨⟨s.2.1, rfl, (genPages_length E stl _ _ _ _ hg).1, f⟩, k⟩

/-- **C58.** Within a page, every drawing and text block is processed: the page shows what each of them contributes, in order (also of
those that fail), and the title; the page succeeds iff its own properties are in order and each of them succeeds. -/
theorem C58_page (E : Env α) (stl : Models α) (pg : PageN α) (g : GenRes α) (h : onePage E stl pg = .ok g) :
    ∃ cs, List.Forall₂ (fun d c => content E stl d = .ok c) pg.draws cs ∧
      (∃ t, titled pg.metas t ∧ g.pages = [addHeader (OutPage.sum (cs.map (fun c => c.2.1))) t]) ∧
      (g.ok = true ↔ Exactly pg.metas [] [c!"name"] ∧ nameIsString pg.metas ∧ ∀ c ∈ cs, c.1 = true) := by
  unfold onePage generatePages at h
  simp only [genPages, bind, Except.bind, List.length_nil] at h
  cases hg : genPage E stl (initVis E) (0 + 1) pg with
  | error a => rw [hg] at h; cases h
  | ok x =>
    rw [hg] at h
    cases h
    obtain ⟨cs, f, k, t, ht, hp⟩ := (genPage_sum E stl pg (0 + 1) (initVis E)).2 x hg
    refine ⟨cs, f, ⟨t, ht, ?_⟩, ?_⟩
    · simp [hp]
    · simpa using k

/-- **C58.** The process is terminated iff some drawing or text block, on its own, terminates it. -/
theorem C58_abort (E : Env α) (stl : Models α) (doc : Doc α) (pages : List (OutPage α)) :
    (∃ a, generatePages E stl doc pages = .error a) ↔ ∃ pg ∈ doc.pages, ∃ d ∈ pg.draws, ∃ a, content E stl d = .error a := by
  have h1 : (∃ a, generatePages E stl doc pages = .error a) ↔ ∃ a, genPages E stl doc.pages pages.length (initVis E) = .error a := by
    unfold generatePages
    simp only [bind, Except.bind]
    cases genPages E stl doc.pages pages.length (initVis E) <;> simp [pure, Except.pure]
  rw [h1, (genPages_each E stl doc.pages pages.length (initVis E)).1]
  apply exists_congr; intro pg
  apply and_congr_right; intro _
  have h2 : (∃ a, onePage E stl pg = .error a) ↔ ∃ a, genPage E stl (initVis E) (0 + 1) pg = .error a := by
    unfold onePage generatePages
    simp only [genPages, bind, Except.bind, List.length_nil]
    cases genPage E stl (initVis E) (0 + 1) pg <;> simp [pure, Except.pure]
  rw [h2]
  constructor
  · rintro ⟨a, ha⟩
    obtain ⟨p, d, q, e, -, hd⟩ := ((genPage_sum E stl pg (0 + 1) (initVis E)).1 a).mp ha
    exact ⟨d, by rw [e]; simp, a, hd⟩
  · rintro ⟨d, hd, a, ha⟩
    -- the first drawing that terminates the process
    have : ∀ l : List (Drawable α), d ∈ l → ∃ b p x q, l = p ++ x :: q ∧ (∀ y ∈ p, ∃ c, content E stl y = .ok c) ∧ content E stl x = .error b := by
      intro l
      induction l with
      | nil => intro h; cases h
      | cons y l ih =>
        intro hm
        cases hy : content E stl y with
        | error b => exact ⟨b, [], y, l, rfl, by simp, hy⟩
        | ok c =>
          rcases List.mem_cons.mp hm with rfl | hm
          · rw [ha] at hy; cases hy
          · obtain ⟨b, p, x, q, e, hp, hx⟩ := ih hm
            refine ⟨b, y :: p, x, q, by rw [e]; rfl, ?_, hx⟩
            intro z hz
            rcases List.mem_cons.mp hz with rfl | hz
            · exact ⟨c, hy⟩
            · exact hp z hz
    obtain ⟨b, w⟩ := this _ hd
    exact ⟨b, ((genPage_sum E stl pg (0 + 1) (initVis E)).1 b).mpr w⟩

/-- A document whose first page has a failing drawing, with one page present already: the failing drawing still shows its outline (3
lines), the others on its page are complete (3 outline and 8 dimension lines; two text lines and a label), the second page is as alone. -/
example : (generatePages exEnv exModels ⟨[], [exPageBad, exPage]⟩ [OutPage.empty]).map
      (fun r => (r.ok, r.pages.map (fun p => (p.lines.length, p.text.length)))) =
    .ok (false, [(0, 0), (3 + 11 + 2, 3 + 1), (11 + 2, 3 + 1)]) := by decide +kernel
example : (onePage exEnv exModels exPageBad).map (fun g => g.ok) = .ok false ∧
    (onePage exEnv exModels exPage).map (fun g => g.ok) = .ok true := by decide +kernel

/-! ## C51 -/

/-- **C51.** Generating a document is generating any leading part of it and then the rest: verdicts are and-ed, pages and diagnostics follow each
other, and the text of the document is left as each part leaves it.  The rest sees nothing of the leading part but the number of pages. -/
theorem C51_concat (E : Env α) (stl : Models α) (ms : List ModelN) (a b : List (PageN α)) (pages : List (OutPage α)) :
    generatePages E stl ⟨ms, a ++ b⟩ pages = (do
      let ra ← generatePages E stl ⟨ms, a⟩ pages
      let rb ← generatePages E stl ⟨ms, b⟩ ra.pages
      return ⟨ra.ok && rb.ok, rb.pages, ⟨ms, ra.doc.pages ++ rb.doc.pages⟩, ra.log ++ rb.log⟩) := by
  unfold generatePages
  simp only [genPages_append, bind, Except.bind]
  cases hA : genPages E stl a pages.length (initVis E) with
  | error e => rfl
  | ok ra =>
    simp only [pure, Except.pure]
    have hl := (genPages_length E stl _ _ _ _ hA).1
    rw [show (pages ++ ra.2.1).length = pages.length + a.length by simp [hl]]
    have ho := genPages_obs E stl b (pages.length + a.length) ra.2.2.2 (initVis E) ra.2.2.2.log
      (by rw [show (initVis E).log = [] from rfl, List.append_nil])
    revert ho
    cases genPages E stl b (pages.length + a.length) ra.2.2.2 <;> cases genPages E stl b (pages.length + a.length) (initVis E) <;>
      intro ho <;> simp only [Except.map, Except.ok.injEq, Except.error.injEq, reduceCtorEq, Prod.mk.injEq] at ho ⊢
    · exact ho
    · obtain ⟨h1, h2, h3, h4⟩ := ho
      simp [h1, h2, h3, h4]

/-- **C51.** Pages that exist already influence neither the verdict, nor the pages added, nor the document, nor the source lines of the
diagnostics (their number is printed in the diagnostic for unknown properties of a page). -/
theorem C51_existing (E : Env α) (stl : Models α) (doc : Doc α) (p p' : List (OutPage α)) :
    (∀ r, generatePages E stl doc p = .ok r → ∃ r' outs, generatePages E stl doc p' = .ok r' ∧ r.pages = p ++ outs ∧ r'.pages = p' ++ outs ∧
      r'.ok = r.ok ∧ r'.doc = r.doc ∧ r'.log.map (fun e => e.1) = r.log.map (fun e => e.1)) ∧
    ∀ a, generatePages E stl doc p = .error a → generatePages E stl doc p' = .error a := by
  have hc := genPages_count E stl doc.pages p.length p'.length (initVis E) (initVis E) rfl
  unfold generatePages
  simp only [bind, Except.bind]
  revert hc
  cases genPages E stl doc.pages p.length (initVis E) <;> cases genPages E stl doc.pages p'.length (initVis E) <;> intro hc <;>
    simp only [Except.map, Except.ok.injEq, Except.error.injEq, reduceCtorEq, Prod.mk.injEq] at hc ⊢
  · subst hc; simp
  · obtain ⟨h1, h2, h3, h4⟩ := hc
    refine ⟨?_, by simp [pure, Except.pure]⟩
    intro r hr
    cases hr
    exact ⟨_, _, rfl, rfl, by simp [h2], by simp [h1], by simp [h3], by simp [h4]⟩

/-- **C51.** A drawing or text block, met in any state of the visitor (so after any other drawings, failed or not), returns the verdict, adds the
page content and prints the diagnostics that it does when it comes first. -/
theorem C51_drawing (E : Env α) (stl : Models α) (v : Vis α) (d : Drawable α) :
    (∀ a, visitDrawable E stl v d = .error a ↔ content E stl d = .error a) ∧
    ∀ r, visitDrawable E stl v d = .ok r → ∃ c, content E stl d = .ok c ∧ r.1 = c.1 ∧ r.2.2.page = v.page.app c.2.1 ∧
      r.2.2.log = v.log ++ c.2.2 := by
  have h := content_any E stl v d
  revert h
  cases visitDrawable E stl v d <;> cases content E stl d <;> intro h <;>
    simp only [Except.map, Except.ok.injEq, Except.error.injEq, reduceCtorEq, Prod.mk.injEq] at h ⊢
  · subst h; simp
  · refine ⟨by simp, ?_⟩
    intro r hr
    subst hr
    exact ⟨_, rfl, h⟩

/-- after a failed drawing and with rubbish left in the visitor, the good one contributes the same -/
example : ((visitDrawables exEnv exModels [exDrawBad, exDraw] (initVis exEnv)).map (fun r => (r.2.2.page.lines.drop 3, r.2.2.page.text))) =
    (content exEnv exModels exDraw).map (fun c => (c.2.1.lines, c.2.1.text)) := by decide +kernel

/-! ## C29 -/

/-- **C29.** A drawing shows the model as it was loaded, whatever was drawn before, any number of times: on a page with any drawings `p` before
it, and any after it, a drawing contributes exactly what it contributes alone on its page, between what they contribute.
(Generation receives the models as a value it cannot change, as in the source, where they are reached through a `const` map and
`Rotate` is a `const` member function returning a new object.) -/
theorem C29_repeated (E : Env α) (stl : Models α) (ms : List (Meta α)) (p q : List (Drawable α)) (d : Drawable α) (l : Nat) (g : GenRes α)
    (h : onePage E stl ⟨ms, p ++ d :: q, l⟩ = .ok g) :
    ∃ gp gd gq a b, onePage E stl ⟨[], p, 0⟩ = .ok gp ∧ onePage E stl ⟨[], [d], 0⟩ = .ok gd ∧ onePage E stl ⟨[], q, 0⟩ = .ok gq ∧
      gp.pages = [addHeader a []] ∧ gq.pages = [addHeader b []] ∧
      ∃ c t, gd.pages = [addHeader c []] ∧ g.pages = [addHeader (a.app (c.app b)) t] := by
  have key : ∀ (ms : List (Meta α)) (ds : List (Drawable α)) (l : Nat) (cs), List.Forall₂ (fun d c => content E stl d = .ok c) ds cs →
      ∃ g, onePage E stl ⟨ms, ds, l⟩ = .ok g := by
    intro ms ds l cs hf
    cases hx : onePage E stl ⟨ms, ds, l⟩ with
    | ok g => exact ⟨g, rfl⟩
    | error a =>
      obtain ⟨pg, h1, x, h2, b, h3⟩ := (C58_abort E stl ⟨[], [⟨ms, ds, l⟩]⟩ []).mp ⟨a, hx⟩
      rw [List.mem_singleton.mp h1] at h2
      obtain ⟨c, -, hc⟩ := forall₂_mem hf h2
      rw [h3] at hc; cases hc
  obtain ⟨cs, hf, ⟨t, ht, hp⟩, -⟩ := C58_page E stl _ g h
  obtain ⟨c1, c2, f1, f2, rfl⟩ : ∃ c1 c2, List.Forall₂ (fun d c => content E stl d = .ok c) p c1 ∧
      List.Forall₂ (fun d c => content E stl d = .ok c) (d :: q) c2 ∧ cs = c1 ++ c2 := by
    have hl := hf.length_eq
    refine ⟨cs.take p.length, cs.drop p.length, ?_, ?_, (List.take_append_drop _ _).symm⟩
    · have := List.forall₂_take p.length hf; simpa using this
    · have := List.forall₂_drop p.length hf; simpa using this
  cases f2 with
  | @cons _ c _ c2 hd f2 =>
    obtain ⟨gp, hgp⟩ := key [] p 0 c1 f1
    obtain ⟨gd, hgd⟩ := key [] [d] 0 [c] (.cons hd .nil)
    obtain ⟨gq, hgq⟩ := key [] q 0 c2 f2
    have uniq : ∀ (ds : List (Drawable α)) (cs cs'), List.Forall₂ (fun d c => content E stl d = .ok c) ds cs →
        List.Forall₂ (fun d c => content E stl d = .ok c) ds cs' → cs = cs' := by
      intro ds
      induction ds with
      | nil => intro cs cs' h h'; cases h; cases h'; rfl
      | cons x ds ih =>
        intro cs cs' h h'
        cases h with
        | cons hx h =>
          cases h' with
          | cons hx' h' =>
            rw [hx] at hx'; cases hx'
            rw [ih _ _ h h']
    have page : ∀ ds cs g, List.Forall₂ (fun d c => content E stl d = .ok c) ds cs → onePage E stl ⟨[], ds, 0⟩ = .ok g →
        g.pages = [addHeader (OutPage.sum (cs.map (fun c => c.2.1))) []] := by
      intro ds cs g hf hg
      obtain ⟨cs', hf', ⟨t, ht, hp⟩, -⟩ := C58_page E stl _ g hg
      rw [uniq _ _ _ hf hf', hp]
      rw [show t = [] from ht]
    refine ⟨gp, gd, gq, _, _, hgp, hgd, hgq, page _ _ _ f1 hgp, page _ _ _ f2 hgq, c.2.1, t, ?_, ?_⟩
    · have := page _ _ _ (.cons hd .nil) hgd
      simpa [OutPage.sum, OutPage.app_empty] using this
    · rw [hp]
      have sum_app : ∀ a b : List (OutPage α), OutPage.sum (a ++ b) = (OutPage.sum a).app (OutPage.sum b) := by
        intro a b
        induction a with
        | nil => simp [OutPage.sum, OutPage.empty_app]
        | cons x a ih => simp [OutPage.sum, ih, OutPage.app_assoc]
      simp [sum_app, OutPage.sum]

/-- the same model three times, twice with a dimension: the third as the first -/
example : (onePage exEnv exModels ⟨[], [exDraw, exDrawBad, exDraw], 1⟩).map (fun g => g.pages.map (fun p => p.lines.length)) =
    .ok [11 + 3 + 11 + 2] := by decide +kernel

/-! ## C44 -/

/-- **C44.** If generation succeeds, every block of the document - page, draw, text, dim, dia, rad, angle - has no property twice, none that is
unknown, and every required one. -/
theorem C44_properties (E : Env α) (stl : Models α) (doc : Doc α) (pages : List (OutPage α)) (r : GenRes α)
    (h : generatePages E stl doc pages = .ok r) (hr : r.ok = true) : ∀ pg ∈ doc.pages, GoodPage pg := by
  intro pg hpg
  obtain ⟨g, hg, hok⟩ := (C58_pages E stl doc pages r h).2.mp hr pg hpg
  obtain ⟨cs, hf, -, hk⟩ := C58_page E stl pg g hg
  obtain ⟨h1, -, h3⟩ := hk.mp hok
  refine ⟨h1, fun d hd => ?_⟩
  obtain ⟨c, hc, e⟩ := forall₂_mem hf hd
  exact content_good E stl d c e (h3 c hc)

/-- an accepted document with a page, a draw, a text and a dim block -/
example : (generatePages exEnv exModels ⟨[], [exPage]⟩ []).map (fun r => r.ok) = .ok true := by decide +kernel
/-- and rejected ones: a property missing, one unknown -/
example : (generatePages exEnv exModels ⟨[], [exPageBad]⟩ []).map (fun r => r.ok) = .ok false := by decide +kernel
example : (generatePages exEnv exModels ⟨[], [⟨[], [.text c!"x" [⟨c!"size", .num (.fin 1), 1⟩] 1], 1⟩]⟩ []).map (fun r => r.ok) =
    .ok false := by decide +kernel

end S2P
