import Verif.Lemmas.Finite
import Verif.Lemmas.Sample

/-! # C07, C41, C50, C55, C59: blocks of properties -/

namespace S2P

section
variable {α : Type} [FP α]

/-! ## C07 -/

/-- C07: whatever the script, if it parses then rendering it, with any models, does not fail the assertion on '@'. -/
theorem C07_at_is_location (s : Str) (d : Doc α) (h : parse s = .ok (some d)) (E : Env α) (stl : Models α) (pages : List (OutPage α)) :
    generatePages E stl d pages ≠ .error .atCheck := by
  intro hc
  have hg : genPages E stl d.pages pages.length (initVis E) = .error .atCheck := by
    unfold generatePages at hc
    simp only [bind, Except.bind] at hc
    cases hx : genPages E stl d.pages pages.length (initVis E) with
    | ok r => rw [hx] at hc; cases hc
    | error a => rw [hx] at hc; simp only [Except.error.injEq] at hc; rw [hc]
  obtain ⟨pg, hpg, x, hx, hcx⟩ := genPages_atCheck E stl _ _ _ hg
  obtain ⟨m, hm, hn, hl⟩ := content_atCheck E stl x hcx
  have ha := parse_atLoc s d h pg hpg x hx
  cases x with
  | draw n ms ds l => obtain ⟨q, hq⟩ := ha m hm hn; exact hl q hq
  | text t ms l => obtain ⟨q, hq⟩ := ha m hm hn; exact hl q hq

end

/-- a script with two uses of '@' parses -/
example : (parse (α := Ext ℚ) c!"page{draw m{@[-1.5,2];}text[\"q\"]{@[0,1];}}").isOk = true := by decide +kernel

/-- the assertion can fail: in a document that no script produces -/
example : (content exEnv exModels (.text c!"q" [⟨c!"@", .str c!"x", 1⟩] 1)).map (fun c => c.1) = .error .atCheck ∧
    (content exEnv exModels (.draw c!"m" [⟨c!"@", .str c!"x", 1⟩] [] 1)).map (fun c => c.1) = .error .atCheck := by decide +kernel

/-! ## C59 -/

/-- C59: whatever the script, if it parses then rendering it finishes: with models made of facets with finite numbers, any sorting
routine that sorts, and memory that does not hold a rotation, no assertion fails and nothing undefined happens. -/
theorem C59_rendering_finishes (s : Str) (d : Doc (Ext ℝ)) (h : parse s = .ok (some d)) (E : Env (Ext ℝ)) (hS : SortOK E.sorter) (hJ : E.NotAView)
    (stl : Models (Ext ℝ)) (hM : stl.Made) (pages : List (OutPage (Ext ℝ))) : ∃ r, generatePages E stl d pages = .ok r := by
  cases hc : generatePages E stl d pages with
  | ok r => exact ⟨r, rfl⟩
  | error a =>
    exfalso
    have hg : ∃ a, genPages E stl d.pages pages.length (initVis E) = .error a := by
      unfold generatePages at hc
      simp only [bind, Except.bind] at hc
      cases hx : genPages E stl d.pages pages.length (initVis E) with
      | ok r => rw [hx] at hc; cases hc
      | error a => exact ⟨a, rfl⟩
    obtain ⟨pg, hpg, b, hb⟩ := ((genPages_each E stl d.pages _ _).1).mp hg
    have key : ∃ x ∈ pg.draws, ∃ a, content E stl x = .error a := by
      unfold onePage generatePages at hb
      simp only [genPages, bind, Except.bind, List.length_nil] at hb
      cases hx : genPage E stl (initVis E) (0 + 1) pg with
      | ok r => rw [hx] at hb; cases hb
      | error a =>
        obtain ⟨p, x, q, e, -, hcx⟩ := ((genPage_sum E stl pg _ _).1 a).mp hx
        exact ⟨x, by rw [e]; simp, a, hcx⟩
    obtain ⟨x, hx, a, hcx⟩ := key
    obtain ⟨c, hc'⟩ := content_ok E hS hJ stl hM x (parse_isFin s d h pg hpg x hx) (parse_atLoc s d h pg hpg x hx)
    rw [hc'] at hcx; cases hcx

/-- C59: memory set to zero holds no rotation; and a file that is read, whatever its content, is made of such facets. -/
theorem C59_zero_memory (E : Env (Ext ℝ)) (h : E.junkM = ⟨V3.zero, V3.zero, V3.zero⟩) : E.NotAView := by
  intro r hr; rw [h]; exact rotation_ne_zero r hr

theorem C59_files (content : Str) (s : STLFile (Ext ℝ)) (h : make content = .ok (some s)) (n : Str) : Models.Made [(n, some s)] := by
  intro e he
  rw [List.mem_singleton.mp he]
  exact ⟨s, rfl, make_made content s h⟩

/-- a script with a dimension parses, also over the reals -/
example : (match parse (α := Ext ℝ) c!"page{draw m{@[1,2];view=\"X+\";dim(at=[0,1,0],dir=[1,0,0]);}}" with
    | .ok (some d) => d.pages.length == 1 | _ => false) = true := by decide +kernel

/-! ## C41 -/

section
variable {α : Type} [FP α]

/-- C41: a dim block is accepted iff its properties are `at`, `dir`, `from`, `to` and possibly `fmt`, each once, the four are points that
evaluate, `dir` is not zero, and `fmt` is a valid format.  If not it puts nothing on the page.  It does not abort.  The view must not be
equal to the content of an uninitialised matrix: see C41_views. -/
theorem C41_accept (E : Env α) (v : Vis α) (ms : List (Meta α)) (line : Nat) (hr : v.rotation.eqv E.junkM = false) :
    ∃ c, dimContent E v ⟨.dim, ms, line⟩ = .ok c ∧
      (c.1 = true ↔ Exactly ms [c!"at", c!"dir", c!"from", c!"to"] [c!"fmt"] ∧
        (∃ p, pointOf E v 0 ms c!"at" = some p) ∧ (∃ p, pointOf E v 1 ms c!"dir" = some p ∧ p.eqv V3.zero = false) ∧
        (∃ p, pointOf E v 2 ms c!"from" = some p) ∧ (∃ p, pointOf E v 3 ms c!"to" = some p) ∧ ∃ g, formatOf E c!"%.3f" ms = some g) ∧
      (c.1 = false → c.2.1 = OutPage.empty) := by
  obtain ⟨k1, k2⟩ := visitDimN_spec E v.base ⟨.dim, ms, line⟩ hr
  have hp : ∀ j n, pointOf E v.base j ms n = pointOf E v j ms n := fun _ _ => rfl
  unfold dimContent
  have hd : (∃ w, dimDraws E v.base .dim ms = some w) ↔
      (∃ p, pointOf E v 0 ms c!"at" = some p) ∧ (∃ p, pointOf E v 1 ms c!"dir" = some p ∧ p.eqv V3.zero = false) ∧
        (∃ p, pointOf E v 2 ms c!"from" = some p) ∧ (∃ p, pointOf E v 3 ms c!"to" = some p) ∧ ∃ g, formatOf E c!"%.3f" ms = some g := by
    simp only [dimDraws, hp, bind, Option.bind_eq_some_iff]
    constructor
    · rintro ⟨w, a, ha, d, hd, f, hf, t, ht, g, hg, hw⟩
      cases hz : d.eqv V3.zero with
      | true => rw [if_pos hz] at hw; cases hw
      | false => exact ⟨⟨a, ha⟩, ⟨d, hd, hz⟩, ⟨f, hf⟩, ⟨t, ht⟩, g, hg⟩
    · rintro ⟨⟨a, ha⟩, ⟨d, hd, hz⟩, ⟨f, hf⟩, ⟨t, ht⟩, g, hg⟩
      exact ⟨_, a, ha, d, hd, f, hf, t, ht, g, hg, by rw [if_neg (by simp [hz])]⟩
  by_cases hg : GoodDim .dim ms
  · cases hw : dimDraws E v.base .dim ms with
    | some w =>
      obtain ⟨d', e⟩ := k1 hg w hw
      rw [e]
      exact ⟨_, rfl, ⟨fun _ => ⟨hg, hd.mp ⟨w, hw⟩⟩, fun _ => rfl⟩, fun h => by cases h⟩
    | none =>
      obtain ⟨d', L, e⟩ := k2 (Or.inr hw)
      rw [e]
      refine ⟨_, rfl, ⟨fun h => (by cases h), fun h => ?_⟩, fun _ => rfl⟩
      obtain ⟨w, hw'⟩ := hd.mpr h.2
      rw [hw] at hw'; cases hw'
  · obtain ⟨d', L, e⟩ := k2 (Or.inl hg)
    rw [e]
    exact ⟨_, rfl, ⟨fun h => (by cases h), fun h => absurd h.1 hg⟩, fun _ => rfl⟩
end

/-- C41: over the reals no view is equal to such content, unless the memory happens to hold a rotation. -/
theorem C41_views (E : Env (Ext ℝ)) (hJ : E.NotAView) (mV : Option (Meta (Ext ℝ))) (hf : ∀ m, mV = some m → m.val.IsFin) (rot : M3 (Ext ℝ))
    (h : viewOf mV = .ok rot) : rot.eqv E.junkM = false := by
  obtain ⟨r, rfl, hr⟩ := viewOf_rotation mV hf rot h
  exact hJ r hr

/-- the state in which the dimensions of `exDraw` are visited -/
def exVis : Vis (Ext ℚ) := ⟨.empty, exFile.points, matZP, .fin 36, ⟨.fin 0, .fin 0⟩, []⟩

/-- the condition of C41_accept holds in the default view -/
example : exVis.rotation.eqv exEnv.junkM = false := by decide +kernel

/-- accepted; without `to`; a zero direction; an invalid format; a repeated property; an unknown one -/
example : (dimContent exEnv exVis exDim).map (fun c => c.1) = .ok true ∧
    (dimContent exEnv exVis exDimBad).map (fun c => c.1) = .ok false ∧
    (dimContent exEnv exVis ⟨.dim, ⟨c!"dir", pt 0 0 0, 2⟩ :: exDim.metas.eraseIdx 1, 1⟩).map (fun c => c.1) = .ok false ∧
    (dimContent exEnv exVis ⟨.dim, ⟨c!"fmt", .str c!"%d", 2⟩ :: exDim.metas, 1⟩).map (fun c => c.1) = .ok false ∧
    (dimContent exEnv exVis ⟨.dim, ⟨c!"fmt", .str c!"L=%f", 2⟩ :: exDim.metas, 1⟩).map (fun c => c.1) = .ok true ∧
    (dimContent exEnv exVis ⟨.dim, ⟨c!"to", pt 1 0 0, 2⟩ :: exDim.metas, 1⟩).map (fun c => c.1) = .ok false ∧
    (dimContent exEnv exVis ⟨.dim, ⟨c!"center", pt 1 0 0, 2⟩ :: exDim.metas, 1⟩).map (fun c => c.1) = .ok false := by decide +kernel

/-! ## C50 -/

section
variable {α : Type} [FP α]

/-- C50, first half: a successful generation prints nothing. -/
theorem C50_success_quiet (E : Env α) (stl : Models α) (doc : Doc α) (pages : List (OutPage α)) (r : GenRes α)
    (h : generatePages E stl doc pages = .ok r) (hr : r.ok = true) : r.log = [] := by
  unfold generatePages at h
  simp only [bind, Except.bind] at h
  cases hg : genPages E stl doc.pages pages.length (initVis E) with
  | error a => rw [hg] at h; cases h
  | ok x =>
    rw [hg] at h; cases h
    obtain ⟨L, e1, e2, -⟩ := genPages_log E stl _ _ _ _ hg
    rw [e2 hr] at e1
    exact e1

/-- C50, second half, as far as it holds: a failed generation prints something, provided that no point of a dimension is written with
`center`, and `near` only occurs where the drawing has visible points.  Missing: those two cases, where the code fails without a word. -/
theorem C50_failure_diagnosed_partial (E : Env α) (stl : Models α) (doc : Doc α) (pages : List (OutPage α)) (r : GenRes α)
    (h : generatePages E stl doc pages = .ok r)
    (hl : ∀ pg ∈ doc.pages, ∀ n ms dims l, Drawable.draw n ms dims l ∈ pg.draws → ∀ sc rot loc file proj ls,
      Drawn E stl n ms sc rot loc file proj ls → ∀ d ∈ dims, ∀ m ∈ d.metas, ∀ p, m.val = .pt p → p.Loud (proj.cull.points ≠ []))
    (hr : r.ok = false) : r.log ≠ [] := by
  unfold generatePages at h
  simp only [bind, Except.bind] at h
  cases hg : genPages E stl doc.pages pages.length (initVis E) with
  | error a => rw [hg] at h; cases h
  | ok x =>
    rw [hg] at h; cases h
    obtain ⟨L, e1, -, e3⟩ := genPages_log E stl _ _ _ _ hg
    have : L ≠ [] := by
      refine e3 hr ?_
      intro pg hpg d hd c hc hf
      cases d with
      | draw n ms dims l =>
        rcases draw_sum E stl n ms dims l c hc with ⟨-, -, hne, -⟩ | ⟨sc, rot, loc, file, proj, ls, cs, D, f, -, hv, extra, hx, hlog⟩
        · exact hne
        · by_cases hb : ∃ k ∈ cs, k.1 = false
          · obtain ⟨k, hk, hkf⟩ := hb
            obtain ⟨dm, hdm, e⟩ := forall₂_mem f.flip hk
            have := (dimContent_log E _ dm k e).2 hkf (hl pg hpg n ms dims l hd sc rot loc file proj ls D dm hdm)
            rw [hlog]
            apply errs_left_ne
            intro hz
            rw [List.flatten_eq_nil_iff] at hz
            exact this (hz _ (List.mem_map.mpr ⟨k, hk, rfl⟩))
          · have hall : ∀ k ∈ cs, k.1 = true := by
              intro k hk
              cases hk1 : k.1 with
              | true => rfl
              | false => exact absurd ⟨k, hk, hk1⟩ hb
            have hnk : ¬ ∀ m ∈ ms, m.name ∈ [c!"scale", c!"view", c!"@"] := fun hk => by rw [hv.mpr ⟨hall, hk⟩] at hf; cases hf
            rw [hlog]
            apply errs_right_ne
            intro hz
            rcases hx.mp hz with hy | hy
            · exact hb hy
            · exact hnk hy
      | text s ms l =>
        unfold content at hc
        simp only [visitDrawable, bind, Except.bind] at hc
        obtain ⟨ds, extra, e1, e2, e3⟩ := visitText_out (α := α) s ms l
        rw [e3] at hc
        unfold textOut at hc
        by_cases hd : ds ≠ []
        · rw [if_pos hd] at hc; cases hc
          simpa [Vis.errs, initVis] using hd
        · rw [if_neg hd] at hc
          cases h1 : textLocOf (look ms c!"@") with
          | error a => rw [h1] at hc; cases hc
          | ok p =>
            rw [h1] at hc; cases hc
            simp only [List.isEmpty_eq_false_iff] at hf
            simpa [Vis.errs, initVis] using hf
    intro hz
    apply this
    rw [e1] at hz
    exact (List.append_eq_nil_iff.mp hz).2
end

/-- a dim whose `from` is the point nearest to the origin -/
def exNear : DimN (Ext ℚ) :=
  ⟨.dim, [⟨c!"at", pt 2 (-1) 0, 2⟩, ⟨c!"dir", pt 1 0 0, 2⟩, ⟨c!"from", .pt (.func c!"near" (.val (V3.fin ⟨0, 0, 0⟩) 1) 1), 3⟩, ⟨c!"to", pt 4 0 0, 3⟩], 2⟩

/-- C50 is false of the code: seen from below the triangle is not visible, `near` has nothing to choose from, and generation fails without
a diagnostic. -/
theorem C50_silent_failure : (generatePages exEnv exModels ⟨[], [⟨[], [.draw c!"m" [⟨c!"view", .str c!"Z-", 1⟩] [exNear] 1], 1⟩]⟩ []).map
    (fun r => (r.ok, r.log)) = .ok (false, []) := by decide +kernel

/-- the same seen from above is accepted, and the condition of the partial theorem holds there -/
example : (generatePages exEnv exModels ⟨[], [⟨[], [.draw c!"m" [] [exNear] 1], 1⟩]⟩ []).map (fun r => (r.ok, r.log)) = .ok (true, []) := by
  decide +kernel
example : exFile.cull.points ≠ [] ∧ (exNear.metas.all fun m => match m.val with | .pt (.func n _ _) => n == c!"near" | _ => true) = true := by
  decide +kernel
/-- a failing one that meets the condition -/
example : (generatePages exEnv exModels ⟨[], [exPageBad]⟩ []).map (fun r => (r.ok, r.log.isEmpty)) = .ok (false, false) ∧
    (∀ m ∈ exDimBad.metas, ∀ p, m.val = .pt p → p.Loud True) := by
  refine ⟨by decide +kernel, ?_⟩
  intro m hm p hp
  simp only [exDimBad, List.mem_cons, List.not_mem_nil, or_false] at hm
  rcases hm with rfl | rfl | rfl <;> (simp only [pt, MetaVal.pt.injEq] at hp; subst hp; trivial)

/-! ## C55 -/

section
variable {α : Type} [FP α]

/-- C55: with the properties of any blocks in another order, generation succeeds, fails or aborts as before; and unless a page repeats a
property (which is a failure) the pages are the same. -/
theorem C55_order (E : Env α) (stl : Models α) (doc doc' : Doc α) (h : doc.Shuffled doc') (pages : List (OutPage α)) :
    (generatePages E stl doc pages).map (fun r => r.ok) = (generatePages E stl doc' pages).map (fun r => r.ok) ∧
    ((∀ pg ∈ doc.pages, (pg.metas.map (fun m => m.name)).Nodup) →
      (generatePages E stl doc pages).map (fun r => r.pages) = (generatePages E stl doc' pages).map (fun r => r.pages)) := by
  obtain ⟨g1, g2⟩ := genPages_shuffled E stl h.2 pages.length (initVis E) (initVis E)
  unfold generatePages
  simp only [bind, Except.bind]
  revert g1 g2
  cases genPages E stl doc.pages pages.length (initVis E) <;> cases genPages E stl doc'.pages pages.length (initVis E) <;> intro g1 g2 <;>
    simp only [Except.map, Except.ok.injEq, Except.error.injEq, reduceCtorEq, Prod.mk.injEq, pure, Except.pure] at g1 g2 ⊢
  · exact ⟨g1, fun _ => g1⟩
  · exact ⟨g1, fun hn => by rw [(g2 hn).2]⟩

/-- C55: in particular what is drawn by an accepted document does not depend on the order. -/
theorem C55_accepted (E : Env α) (stl : Models α) (doc doc' : Doc α) (h : doc.Shuffled doc') (pages : List (OutPage α)) (r : GenRes α)
    (hr : generatePages E stl doc pages = .ok r) (hok : r.ok = true) :
    ∃ r', generatePages E stl doc' pages = .ok r' ∧ r'.ok = true ∧ r'.pages = r.pages := by
  have hn : ∀ pg ∈ doc.pages, (pg.metas.map (fun m => m.name)).Nodup := by
    intro pg hpg
    unfold generatePages at hr
    simp only [bind, Except.bind] at hr
    cases hg : genPages E stl doc.pages pages.length (initVis E) with
    | error a => rw [hg] at hr; cases hr
    | ok x =>
      rw [hg] at hr; cases hr
      obtain ⟨g, hg1, hg2⟩ := ((genPages_each E stl _ _ _).2 x hg).2.mp hok pg hpg
      unfold onePage generatePages at hg1
      simp only [genPages, bind, Except.bind, List.length_nil] at hg1
      cases hx : genPage E stl (initVis E) (0 + 1) pg with
      | error a => rw [hx] at hg1; cases hg1
      | ok y =>
        rw [hx] at hg1; cases hg1
        obtain ⟨cs, -, hk, -⟩ := (genPage_sum E stl pg _ _).2 y hx
        exact (hk.mp (by simpa using hg2)).1.once
  obtain ⟨h1, h2⟩ := C55_order E stl doc doc' h pages
  have h2 := h2 hn
  rw [hr] at h1 h2
  cases hx : generatePages E stl doc' pages with
  | error a => rw [hx] at h1; cases h1
  | ok r' =>
    rw [hx] at h1 h2
    simp only [Except.map, Except.ok.injEq] at h1 h2
    exact ⟨r', rfl, by rw [← h1]; exact hok, h2.symm⟩
end

/-- `exPage` with the properties of the drawing and of its dimension reversed -/
def exPageRev : PageN (Ext ℚ) :=
  ⟨[], [.draw c!"m" [⟨c!"scale", .scale 1 2, 1⟩, exAt 0 0] [⟨.dim, exDim.metas.reverse, 2⟩] 1, exText], 9⟩

example : Doc.Shuffled ⟨[], [exPage]⟩ ⟨[], [exPageRev]⟩ ∧ exPage.draws ≠ exPageRev.draws ∧
    (generatePages exEnv exModels ⟨[], [exPage]⟩ []).map (fun r => r.ok) = .ok true := by
  refine ⟨⟨rfl, .cons ⟨rfl, .nil, .cons ?_ (.cons ?_ .nil)⟩ .nil⟩, by decide +kernel, by decide +kernel⟩
  · refine Drawable.Shuffled.draw _ _ _ _ _ _ (List.Perm.swap _ _ _) (.cons ⟨rfl, rfl, (List.reverse_perm _).symm⟩ .nil)
  · exact Drawable.Shuffled.text _ _ _ _ (List.Perm.refl _)

end S2P
