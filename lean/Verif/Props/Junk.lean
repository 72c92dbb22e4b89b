import Verif.Lemmas.Junk
import Verif.Props.Load
import Verif.Props.Blocks
import Verif.Lemmas.Run
import Verif.Lemmas.RealSample

set_option linter.unusedSectionVars false
set_option linter.unusedVariables false
set_option linter.unusedSimpArgs false

/-! # C53: uninitialised locals -/

namespace S2P

theorem forall₂_map_eq {A B C : Type} {R S : A → B → Prop} {l : List A} {xs ys : List B} (f : B → C) (h : List.Forall₂ R l xs) (h' : List.Forall₂ S l ys)
    (e : ∀ a ∈ l, ∀ x y, R a x → S a y → f x = f y) : xs.map f = ys.map f := by
  induction h generalizing ys with
  | nil => cases h'; rfl
  | cons ha _ ih =>
    cases h' with
    | cons hb ht =>
      simp only [List.map_cons, List.cons.injEq]
      exact ⟨e _ (by simp) _ _ ha hb, ih ht (fun a h => e a (by simp [h]))⟩

theorem titled_unique {α : Type} {ms : List (Meta α)} {t t' : Str} (h : titled ms t) (h' : titled ms t') : t = t' := by
  unfold titled at h h'
  generalize look ms c!"name" = o at h h'
  cases o with
  | none => exact h.trans h'.symm
  | some m =>
    obtain ⟨n, x, l⟩ := m
    cases x <;> exact Eq.trans h (Eq.symm h')

theorem renderFrom_with (E : Env (Ext ℝ)) (J M) (n : Nat) : ∀ (k : Nat) (ps : List (OutPage (Ext ℝ))), renderFrom (E.with J M) n k ps = renderFrom E n k ps
  | _, [] => rfl
  | k, p :: ps => by
    unfold renderFrom
    rw [renderFrom_with E J M n (k + 1) ps, show pageHeader (E.with J M) = pageHeader E from by funext a b; unfold pageHeader Env.with; rfl]

theorem renderPages_with (E : Env (Ext ℝ)) (J M) (src : Str) (ps : List (OutPage (Ext ℝ))) : renderPages (E.with J M) src ps = renderPages E src ps := by
  unfold renderPages
  rw [renderFrom_with, show documentHeader (E.with J M) = documentHeader E from by funext a; unfold documentHeader Env.with; rfl]

theorem loadFiles_with (E : Env (Ext ℝ)) (J M) (w : World) (ms : List ModelN) : loadFiles (E.with J M) w ms = loadFiles E w ms := by
  unfold loadFiles
  rw [show loadStep (E.with J M) w = loadStep E w from by
    funext s m; unfold loadStep
    rw [show openModel (E.with J M) w m.source = openModel E w m.source from by unfold openModel candidates Env.with; rfl]]

section
variable (E : Env (Ext ℝ)) (J : Nat → V3 (Ext ℝ)) (M : M3 (Ext ℝ)) (hS : SortOK E.sorter) (hJ : E.NotAView) (hJ' : (E.with J M).NotAView)
include hS hJ hJ'

theorem content_indep (stl : Models (Ext ℝ)) (hM : stl.Made) (d : Drawable (Ext ℝ)) (hf : d.IsFin) (ha : d.AtLoc) :
    (content E stl d).map (fun c => (c.1, c.2.1)) = (content (E.with J M) stl d).map (fun c => (c.1, c.2.1)) := by
  obtain ⟨c, hc⟩ := content_ok E hS hJ stl hM d hf ha
  obtain ⟨c', hc'⟩ := content_ok (E.with J M) hS hJ' stl hM d hf ha
  rw [hc, hc']
  simp only [Except.map, Except.ok.injEq, Prod.mk.injEq]
  cases d with
  | text s ms l =>
    have : (c.1, c.2.1, c.2.2) = (c'.1, c'.2.1, c'.2.2) := by
      have h1 := hc; have h2 := hc'
      unfold content at h1 h2
      have : (visitDrawable E stl (initVis E) (.text s ms l)).map (fun r => (r.1, r.2.2.page, r.2.2.log)) =
          (visitDrawable (E.with J M) stl (initVis (E.with J M)) (.text s ms l)).map (fun r => (r.1, r.2.2.page, r.2.2.log)) := by
        have := visitDrawable_obs E stl (initVis E) (initVis (E.with J M)) OutPage.empty [] rfl rfl (.text s ms l)
        simp only [visitDrawable] at this ⊢
        revert this
        generalize visitText (initVis E) s ms l = a
        generalize visitText (initVis (E.with J M)) s ms l = b
        intro this
        cases a <;> cases b <;> simp_all [Except.map, bind, Except.bind, OutPage.empty_app, pure, Except.pure]
      rw [h1, h2] at this
      simpa using this
    simp only [Prod.mk.injEq] at this
    exact ⟨this.1, this.2.1⟩
  | draw n ms dims l =>
    rcases draw_sum E stl n ms dims l c hc with ⟨a1, a2, -, a3⟩ | ⟨sc, rot, loc, file, proj, ls, cs, D, f, g1, g2, -⟩
    · rcases draw_sum (E.with J M) stl n ms dims l c' hc' with ⟨b1, b2, -, b3⟩ | ⟨sc, rot, loc, file, proj, ls, cs, D, -⟩
      · rw [a1, a2, b1, b2]; exact ⟨rfl, rfl⟩
      · exact absurd ⟨sc, rot, loc, file, proj, ls, ⟨D.once, D.scale, D.view, D.loc, D.model, D.turned, D.lines⟩⟩ a3
    · rcases draw_sum (E.with J M) stl n ms dims l c' hc' with ⟨b1, b2, -, b3⟩ | ⟨sc', rot', loc', file', proj', ls', cs', D', f', g1', g2', -⟩
      · exact absurd ⟨sc, rot, loc, file, proj, ls, ⟨D.once, D.scale, D.view, D.loc, D.model, D.turned, D.lines⟩⟩ b3
      · obtain rfl : sc = sc' := by simpa using D.scale.symm.trans D'.scale
        obtain rfl : rot = rot' := by simpa using D.view.symm.trans D'.view
        obtain rfl : loc = loc' := by simpa using D.loc.symm.trans D'.loc
        obtain ⟨e, he, hfe⟩ := D.model
        obtain ⟨e', he', hfe'⟩ := D'.model
        rw [he] at he'; injection he' with he'; subst he'
        rw [hfe] at hfe'; injection hfe' with hfe'; subst hfe'
        obtain rfl : proj = proj' := by simpa using D.turned.symm.trans D'.turned
        obtain rfl : ls = ls' := by
          have := D.lines.symm.trans D'.lines
          simpa using this
        obtain ⟨r, rfl, hr⟩ := viewOf_rotation _ (look_fin hf.1 _) _ D.view
        obtain ⟨file', hf', hmade⟩ := hM e (List.mem_of_find?_eq_some he)
        rw [hfe] at hf'; injection hf' with hf'; subst hf'
        have hds : drawStart (initVis (E.with J M)) sc r.fin loc proj.cull ls = drawStart (initVis E) sc r.fin loc proj.cull ls := rfl
        rw [hds] at f' g1'
        have hm := forall₂_map_eq (fun c : Bool × OutPage (Ext ℝ) × List Diag => (c.1, c.2.1)) f f' (by
          intro d hd x y hx hy
          have := dimContent_indep E J M hJ hJ' (drawStart (initVis E) sc r.fin loc proj.cull ls)
            (viewed_points E J M hJ hJ' file proj hmade r hr D.turned) ⟨r, hr, rfl⟩ d (hf.2 d hd)
          rw [hx, hy] at this
          simpa [Except.map] using this)
        have h1 : cs.map (fun c => c.1) = cs'.map (fun c => c.1) := by
          have := congrArg (List.map Prod.fst) hm
          simpa [List.map_map, Function.comp_def] using this
        have h2 : cs.map (fun c => c.2.1) = cs'.map (fun c => c.2.1) := by
          have := congrArg (List.map Prod.snd) hm
          simpa [List.map_map, Function.comp_def] using this
        refine ⟨?_, by rw [g1, g1', h2]⟩
        have : (c.1 = true ↔ c'.1 = true) := by
          rw [g2, g2']
          have : (∀ k ∈ cs, k.1 = true) ↔ (∀ k ∈ cs', k.1 = true) := by
            have e1 : (∀ k ∈ cs, k.1 = true) ↔ ∀ b ∈ cs.map (fun c => c.1), b = true := by simp
            have e2 : (∀ k ∈ cs', k.1 = true) ↔ ∀ b ∈ cs'.map (fun c => c.1), b = true := by simp
            rw [e1, e2, h1]
          rw [this]
        exact Bool.eq_iff_iff.mpr this

theorem genPage_same (stl : Models (Ext ℝ)) (hM : stl.Made) (pg : PageN (Ext ℝ)) (hf : ∀ d ∈ pg.draws, d.IsFin ∧ d.AtLoc) (n : Nat) (v w : Vis (Ext ℝ)) :
    (genPage E stl v n pg).map (fun r => (r.1, r.2.2.page)) = (genPage (E.with J M) stl w n pg).map (fun r => (r.1, r.2.2.page)) := by
  obtain ⟨e1, s1⟩ := genPage_sum E stl pg n v
  obtain ⟨e2, s2⟩ := genPage_sum (E.with J M) stl pg n w
  cases h1 : genPage E stl v n pg with
  | error a =>
    obtain ⟨p, d, q, hd, -, hx⟩ := (e1 a).mp h1
    obtain ⟨c, hc⟩ := content_ok E hS hJ stl hM d (hf d (by rw [hd]; simp)).1 (hf d (by rw [hd]; simp)).2
    rw [hx] at hc; cases hc
  | ok x =>
    cases h2 : genPage (E.with J M) stl w n pg with
    | error a =>
      obtain ⟨p, d, q, hd, -, hx⟩ := (e2 a).mp h2
      obtain ⟨c, hc⟩ := content_ok (E.with J M) hS hJ' stl hM d (hf d (by rw [hd]; simp)).1 (hf d (by rw [hd]; simp)).2
      rw [hx] at hc; cases hc
    | ok y =>
      obtain ⟨cs, f, k1, t, ht, kp⟩ := s1 x h1
      obtain ⟨cs', f', k1', t', ht', kp'⟩ := s2 y h2
      have hm := forall₂_map_eq (fun c : Bool × OutPage (Ext ℝ) × List Diag => (c.1, c.2.1)) f f' (by
        intro d hd x y hx hy
        have := content_indep E J M hS hJ hJ' stl hM d (hf d hd).1 (hf d hd).2
        rw [hx, hy] at this
        simpa [Except.map] using this)
      have h1 : cs.map (fun c => c.1) = cs'.map (fun c => c.1) := by
        have := congrArg (List.map Prod.fst) hm
        simpa [List.map_map, Function.comp_def] using this
      have h2 : cs.map (fun c => c.2.1) = cs'.map (fun c => c.2.1) := by
        have := congrArg (List.map Prod.snd) hm
        simpa [List.map_map, Function.comp_def] using this
      simp only [Except.map, Except.ok.injEq, Prod.mk.injEq]
      refine ⟨?_, by rw [kp, kp', h2, titled_unique ht ht']⟩
      rw [Bool.eq_iff_iff, k1, k1']
      have : (∀ k ∈ cs, k.1 = true) ↔ (∀ k ∈ cs', k.1 = true) := by
        have e1 : (∀ k ∈ cs, k.1 = true) ↔ ∀ b ∈ cs.map (fun c => c.1), b = true := by simp
        have e2 : (∀ k ∈ cs', k.1 = true) ↔ ∀ b ∈ cs'.map (fun c => c.1), b = true := by simp
        rw [e1, e2, h1]
      rw [this]

theorem genPages_same (stl : Models (Ext ℝ)) (hM : stl.Made) : ∀ (pgs : List (PageN (Ext ℝ))) (n : Nat) (v w : Vis (Ext ℝ)),
    (∀ p ∈ pgs, ∀ d ∈ p.draws, d.IsFin ∧ d.AtLoc) →
    (genPages E stl pgs n v).map (fun r => (r.1, r.2.1)) = (genPages (E.with J M) stl pgs n w).map (fun r => (r.1, r.2.1))
  | [], n, v, w, _ => rfl
  | p :: pgs, n, v, w, h => by
    have hp := genPage_same E J M hS hJ hJ' stl hM p (h p (by simp)) (n + 1) v w
    unfold genPages
    simp only [bind, Except.bind]
    revert hp
    cases genPage E stl v (n + 1) p <;> cases genPage (E.with J M) stl w (n + 1) p <;> intro hp <;>
      simp only [Except.map, Except.ok.injEq, Except.error.injEq, reduceCtorEq, Prod.mk.injEq] at hp ⊢
    · exact hp
    · rename_i x y
      have ih := genPages_same stl hM pgs (n + 1) x.2.2 y.2.2 (fun q hq => h q (by simp [hq]))
      revert ih
      cases genPages E stl pgs (n + 1) x.2.2 <;> cases genPages (E.with J M) stl pgs (n + 1) y.2.2 <;> intro ih <;>
        simp only [Except.map, Except.ok.injEq, Except.error.injEq, reduceCtorEq, Prod.mk.injEq] at ih ⊢
      · exact ih
      · simp [ih, hp, pure, Except.pure]

/-- C53, pages: whatever the uninitialised vectors and matrices hold, the verdict and the pages are the same. -/
theorem C53_pages (stl : Models (Ext ℝ)) (hM : stl.Made) (s : Str) (doc : Doc (Ext ℝ)) (h : parse s = .ok (some doc)) (pages : List (OutPage (Ext ℝ))) :
    ∃ r r', generatePages E stl doc pages = .ok r ∧ generatePages (E.with J M) stl doc pages = .ok r' ∧ r.ok = r'.ok ∧ r.pages = r'.pages := by
  obtain ⟨r, hr⟩ := C59_rendering_finishes s doc h E hS hJ stl hM pages
  obtain ⟨r', hr'⟩ := C59_rendering_finishes s doc h (E.with J M) hS hJ' stl hM pages
  refine ⟨r, r', hr, hr', ?_⟩
  have := genPages_same E J M hS hJ hJ' stl hM doc.pages pages.length (initVis E) (initVis (E.with J M))
    (fun p hp d hd => ⟨parse_isFin s doc h p hp d hd, parse_atLoc s doc h p hp d hd⟩)
  unfold generatePages at hr hr'
  simp only [bind, Except.bind] at hr hr'
  revert hr hr' this
  cases genPages E stl doc.pages pages.length (initVis E) <;> cases genPages (E.with J M) stl doc.pages pages.length (initVis (E.with J M)) <;>
    intro hr hr' this <;> simp only [Except.map, Except.ok.injEq, reduceCtorEq, Prod.mk.injEq, pure, Except.pure] at hr hr' this
  subst hr hr'
  exact ⟨this.1, by simp [this.2]⟩

omit hS hJ hJ' in
theorem script_with {β : Type} (f : RunRes → β) (w : World) (src script : Str)
    (h : ∀ doc : Doc (Ext ℝ), parse script = .ok (some doc) → (docToPS E w src doc).map f = (docToPS (E.with J M) w src doc).map f) :
    (scriptToPS E w src script).map f = (scriptToPS (E.with J M) w src script).map f := by
  cases hp : (parse script : Except Abort (Option (Doc (Ext ℝ)))) with
  | error a => rw [scriptToPS_error E w src script a hp, scriptToPS_error _ w src script a hp]
  | ok o =>
    cases o with
    | none => rw [scriptToPS_none E w src script hp, scriptToPS_none _ w src script hp]
    | some doc => rw [scriptToPS_some E w src script doc hp, scriptToPS_some _ w src script doc hp]; exact h doc hp

omit hS hJ hJ' in
theorem doc_with {β : Type} (f : RunRes → β) (w : World) (src : Str) (doc : Doc (Ext ℝ))
    (h : ∀ l, loadFiles E w doc.models = .ok l → l.ok = true → ∃ r r', generatePages E l.stl doc [] = .ok r ∧ generatePages (E.with J M) l.stl doc [] = .ok r' ∧
      r.ok = r'.ok ∧ r.pages = r'.pages ∧ ∀ b o, f ⟨b, o, l.log ++ r.log⟩ = f ⟨b, o, l.log ++ r'.log⟩) :
    (docToPS E w src doc).map f = (docToPS (E.with J M) w src doc).map f := by
  have hw := loadFiles_with E J M w doc.models
  cases hl : loadFiles E w doc.models with
  | error a => rw [docToPS_error E w src doc a hl, docToPS_error _ w src doc a (hw.trans hl)]
  | ok l =>
    cases hk : l.ok with
    | false => rw [docToPS_unloaded E w src doc l hl hk, docToPS_unloaded _ w src doc l (hw.trans hl) hk]
    | true =>
      obtain ⟨r, r', h1, h2, h3, h4, h5⟩ := h _ hl hk
      cases hb : r'.ok with
      | false =>
        rw [docToPS_rejected E w src doc l hl hk r h1 (h3.trans hb), docToPS_rejected _ w src doc l (hw.trans hl) hk r' h2 hb]
        simp only [Except.map, h5]
      | true =>
        rw [docToPS_done E w src doc l hl hk r h1 (h3.trans hb), docToPS_done _ w src doc l (hw.trans hl) hk r' h2 hb, renderPages_with, h4]
        simp only [Except.map, h5]

/-- C53, the tool: whatever the uninitialised vectors and matrices hold, the verdict and what is written are the same. -/
theorem C53_run (w : World) (src script : Str) :
    (scriptToPS E w src script).map (fun r => (r.ok, r.out)) = (scriptToPS (E.with J M) w src script).map (fun r => (r.ok, r.out)) := by
  refine script_with E J M _ w src script fun doc hp => doc_with E J M _ w src doc fun l hl hok => ?_
  obtain ⟨r, r', h1, h2, h3, h4⟩ := C53_pages E J M hS hJ hJ' l.stl (loaded_made E w _ l hl hok) script doc hp []
  exact ⟨r, r', h1, h2, h3, h4, fun _ _ => rfl⟩

/-- C53, diagnostics: they are the same too unless the direction of some linear dimension is not a literal point. -/
theorem C53_diagnostics_partial (w : World) (src script : Str)
    (hl : ∀ doc : Doc (Ext ℝ), parse script = .ok (some doc) → ∀ p ∈ doc.pages, ∀ d ∈ p.draws, d.DirLit) :
    scriptToPS E w src script = scriptToPS (E.with J M) w src script := by
  have := script_with E J M id w src script fun doc hp => doc_with E J M _ w src doc fun l hld hok => by
    obtain ⟨r, r', h1, h2, h3, h4⟩ := C53_pages E J M hS hJ hJ' l.stl (loaded_made E w _ l hld hok) script doc hp []
    have e := generatePages_indep E J M hJ hJ' l.stl (loaded_made E w _ l hld hok) doc (parse_isFin script doc hp) (hl doc hp) []
    rw [h1, h2] at e
    injection e with e
    exact ⟨r, r', h1, h2, h3, h4, fun _ _ => by rw [e]⟩
  revert this
  generalize scriptToPS E w src script = a
  generalize scriptToPS (E.with J M) w src script = b
  intro this
  cases a <;> cases b <;> simp_all [Except.map]

end

/-- `dim` whose `dir` is a string -/
def exDimStr : DimN (Ext ℚ) :=
  ⟨.dim, [⟨c!"at", pt 2 (-1) 0, 2⟩, ⟨c!"dir", .str c!"x", 2⟩, ⟨c!"from", pt 0 0 0, 3⟩, ⟨c!"to", pt 4 0 0, 3⟩], 2⟩

/-- C53 is false of diagnostics: with a wrongly typed `dir`, whether "must not be the zero vector" is reported depends on what the
memory of the local variable happened to hold. -/
theorem C53_false : ∃ (doc : Doc (Ext ℚ)) (J J' : Nat → V3 (Ext ℚ)),
    (generatePages (exEnv.with J exEnv.junkM) exModels doc []).map (fun r => r.log.length) ≠
      (generatePages (exEnv.with J' exEnv.junkM) exModels doc []).map (fun r => r.log.length) :=
  ⟨⟨[], [⟨[], [.draw c!"m" [] [exDimStr] 1], 1⟩]⟩, fun _ => V3.zero, fun _ => V3.fin ⟨1, 0, 0⟩, by decide +kernel⟩

/-- and of the run itself, when the uninitialised matrix happens to hold the view's rotation -/
theorem C53_false_view : ∃ (doc : Doc (Ext ℚ)) (M : M3 (Ext ℚ)),
    (generatePages exEnv exModels doc []).map (fun r => r.ok) = .ok true ∧
    (generatePages (exEnv.with exEnv.junk M) exModels doc []).map (fun r => r.ok) ≠ .ok true :=
  ⟨⟨[], [exPage]⟩, matZP, by decide +kernel⟩

/-- environments that the theorems apply to -/
example (J : Nat → V3 (Ext ℝ)) : SortOK rEnv.sorter ∧ rEnv.NotAView ∧ (rEnv.with J rEnv.junkM).NotAView :=
  ⟨insSorter_ok, rEnv_notAView, rEnv_notAView⟩
/-- another matrix -/
example : (rEnv.with (fun _ => V3.zero) ⟨V3.fin ⟨7, 0, 0⟩, V3.zero, V3.zero⟩).NotAView := by
  intro r hr
  by_contra hc
  rw [Bool.not_eq_false] at hc
  simp only [M3.eqv, V3.eqv, Bool.and_eq_true, Env.with] at hc
  obtain ⟨⟨-, ⟨h1, h2⟩, h3⟩, -⟩ := hc
  have e1 : r.r1.x = 0 := by simpa [M3.map, V3.map, V3.zero, FP.eq, Ext.eq] using h1
  have e2 : r.r1.y = 0 := by simpa [M3.map, V3.map, V3.zero, FP.eq, Ext.eq] using h2
  have e3 : r.r1.z = 0 := by simpa [M3.map, V3.map, V3.zero, FP.eq, Ext.eq] using h3
  have := hr.2
  simp [M3.det, V3.cross, V3.dot, e1, e2, e3] at this

/-- a script all of whose directions are literal points -/
example : (match parse (α := Ext ℝ) c!"page{draw m{dim(at=[0,1,0],dir=[1,0,0]);}}" with
    | .ok (some d) => d.pages.all fun p => p.draws.all fun x => match x with
      | .draw _ _ ds _ => ds.length == 1 && ds.all fun d => d.metas.all fun m => match m.val with | .pt (.val _ _) => true | _ => false
      | .text _ _ _ => false
    | _ => false) = true := by decide +kernel

end S2P
