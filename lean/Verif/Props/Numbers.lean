import Verif.Lemmas.Numbers
import Verif.Lemmas.Sample
import Verif.Props.Main
import Verif.Props.Text

set_option linter.unusedSectionVars false
set_option linter.unusedVariables false
set_option linter.unusedSimpArgs false

/-! # C54: the numbers on the pages are finite -/

namespace S2P

/-- Premise on one drawable.  For a drawing: the second number of its scale is not 0; if it has dimensions, the scale is positive; and the
direction of no diameter or radius is seen end-on. -/
def Drawable.Tame (E : Env (Ext ℝ)) (stl : Models (Ext ℝ)) : Drawable (Ext ℝ) → Prop
  | .draw n ms dims l => ∀ sc rot loc file proj ls, Drawn E stl n ms sc rot loc file proj ls →
      sc.2 ≠ 0 ∧ (dims ≠ [] → 0 < (sc.1 : ℝ) / sc.2) ∧
      ∀ d ∈ dims, d.kind = .dia ∨ d.kind = .rad →
        ∀ p, pointOf E (drawStart (initVis E) sc rot loc proj.cull ls) 2 d.metas c!"dir" = some p → p.xy ≠ V2.fin ⟨0, 0⟩
  | .text _ _ _ => True

theorem drawnItems_fin (E : Env (Ext ℝ)) (v : Vis (Ext ℝ)) (s : ℝ) (hs : 0 < s) (hv : v.scale = Ext.fin s)
    (hp : ∃ qs : List (V3 ℝ), v.points = qs.map V3.fin) (hr : ∃ r : M3 ℝ, v.rotation = r.fin) (k : DimKind) (ms : List (Meta (Ext ℝ)))
    (hf : ∀ m ∈ ms, m.val.IsFin)
    (hdir : k = .dia ∨ k = .rad → ∀ p, pointOf E v 2 ms c!"dir" = some p → p.xy ≠ V2.fin ⟨0, 0⟩)
    (P : OutPage (Ext ℝ)) (h : drawnItems E v k ms = some P) : P.IsFin := by
  have hpt : ∀ j n p, pointOf E v j ms n = some p → p.IsFin := fun j n => (pointOf_indep E E.junk E.junkM v hp hr ms hf j n).2
  have hleg : ∀ j x n n' p, x.IsFin → legOf E v j x ms n n' = some p → p.1.IsFin ∧ p.2.IsFin := by
    intro j x n n' p hx h
    unfold legOf at h
    split at h
    · obtain ⟨d, hd, rfl⟩ := Option.map_eq_some_iff.1 h
      exact ⟨V3.okFin_normalized (hpt _ _ _ hd), hx⟩
    · obtain ⟨d, hd, rfl⟩ := Option.map_eq_some_iff.1 h
      exact ⟨V3.okFin_normalized (V3.okFin_sub (hpt _ _ _ hd) hx), hpt _ _ _ hd⟩
  have hcirc : ∀ (items : (Ext ℝ → Str) → Ext ℝ → Circ (Ext ℝ) → OutPage (Ext ℝ)),
      (∀ g c (d : V2 ℝ), c.at_.IsFin → c.dir = d.fin → d ≠ ⟨0, 0⟩ → c.center.IsFin → c.rad.IsFin → (items g (Ext.fin s) c).IsFin) →
      (∀ p, pointOf E v 2 ms c!"dir" = some p → p.xy ≠ V2.fin ⟨0, 0⟩) →
      drawnItems.circ E v ms items = some P → P.IsFin := by
    intro items hi hdir h
    simp only [drawnItems.circ, bind, Option.bind] at h
    cases h1 : pointOf E v 0 ms c!"at" with
    | none => rw [h1] at h; cases h
    | some a =>
    cases h2 : pointOf E v 1 ms c!"center" with
    | none => rw [h1, h2] at h; cases h
    | some c =>
    cases h3 : pointOf E v 2 ms c!"dir" with
    | none => rw [h1, h2, h3] at h; cases h
    | some d =>
    cases h4 : formatOf E c!"%.3f" ms with
    | none => rw [h1, h2, h3, h4] at h; cases h
    | some g =>
    rw [h1, h2, h3, h4] at h
    dsimp only at h
    split at h
    · cases h
    obtain ⟨qs, hq⟩ := hp
    obtain ⟨c', rfl⟩ := hpt _ _ _ h2
    obtain ⟨d', rfl⟩ := hpt _ _ _ h3
    cases h5 : locate v.points c'.fin.xy with
    | none => rw [h5] at h; cases h
    | some kk =>
      rw [h5] at h
      injection h with h
      subst h
      rw [hv]
      rw [hq, V3.fin_xy] at h5
      obtain ⟨c1, r1, e1, e2, -⟩ := C13_sound qs c'.xy kk.1 kk.2 h5
      refine hi g _ d'.xy (V3.okFin_xy (hpt _ _ _ h1)) rfl ?_ ⟨_, e1⟩ ⟨_, e2⟩
      intro h0
      apply hdir _ h3
      rw [V3.fin_xy, h0]
  cases k
  · simp only [drawnItems, bind, Option.bind] at h
    cases h1 : pointOf E v 0 ms c!"at" with
    | none => rw [h1] at h; cases h
    | some a =>
    cases h2 : pointOf E v 1 ms c!"apex" with
    | none => rw [h1, h2] at h; cases h
    | some x =>
    rw [h1, h2] at h
    dsimp only at h
    cases h3 : legOf E v 2 x ms c!"from_dir" c!"from_point" with
    | none => rw [h3] at h; cases h
    | some f =>
    cases h4 : legOf E v 4 x ms c!"to_dir" c!"to_point" with
    | none => rw [h3, h4] at h; cases h
    | some t =>
    cases h5 : formatOf E c!"%.1f" ms with
    | none => rw [h3, h4, h5] at h; cases h
    | some g =>
    rw [h3, h4, h5] at h
    dsimp only at h
    have hx := hpt _ _ _ h2
    have ha := hpt _ _ _ h1
    have hf' := hleg _ _ _ _ _ hx h3
    have ht' := hleg _ _ _ _ _ hx h4
    split at h
    · cases h
    rename_i hz
    rw [Bool.not_eq_true] at hz
    split at h
    · injection h with h; subst h; rw [hv]
      exact angleItems_fin g s hs.ne' a x _ _ _ _ ha hx ht'.1 ht'.2 hf'.1 hf'.2 hz
    · injection h with h; subst h; rw [hv]
      refine angleItems_fin g s hs.ne' a x _ _ _ _ ha hx hf'.1 hf'.2 ht'.1 ht'.2 ?_
      obtain ⟨f1, e1⟩ := hf'.1
      obtain ⟨t1, e2⟩ := ht'.1
      rw [e1, e2] at hz ⊢
      rw [V3.fin_cross, Ext.lit_eq, show (V3.fin (t1.cross f1)).z = Ext.fin (t1.cross f1).z from rfl, Ext.fin_eq, decide_eq_false_iff_not] at hz
      rw [V3.fin_cross, Ext.lit_eq, show (V3.fin (f1.cross t1)).z = Ext.fin (f1.cross t1).z from rfl, Ext.fin_eq, decide_eq_false_iff_not]
      intro h0
      apply hz
      have : (t1.cross f1).z = -(f1.cross t1).z := by simp [V3.cross]; ring
      simp [this, h0]
  · exact hcirc _ (fun g c d a1 a2 a3 a4 a5 => diaItems_fin g s hs.ne' c a1 d a2 a3 a4 a5) (hdir (Or.inl rfl)) h
  · simp only [drawnItems, bind, Option.bind] at h
    cases h1 : pointOf E v 0 ms c!"at" with
    | none => rw [h1] at h; cases h
    | some a =>
    cases h2 : pointOf E v 1 ms c!"dir" with
    | none => rw [h1, h2] at h; cases h
    | some d =>
    cases h3 : pointOf E v 2 ms c!"from" with
    | none => rw [h1, h2, h3] at h; cases h
    | some f =>
    cases h4 : pointOf E v 3 ms c!"to" with
    | none => rw [h1, h2, h3, h4] at h; cases h
    | some t =>
    cases h5 : formatOf E c!"%.3f" ms with
    | none => rw [h1, h2, h3, h4, h5] at h; cases h
    | some g =>
    rw [h1, h2, h3, h4, h5] at h
    dsimp only at h
    split at h
    · cases h
    injection h with h; subst h; rw [hv]
    exact dimItems_fin g s hs a _ f t (hpt _ _ _ h1) (V3.okFin_normalized (hpt _ _ _ h2)) (hpt _ _ _ h3) (hpt _ _ _ h4)
  · exact hcirc _ (fun g c d a1 a2 a3 a4 a5 => radItems_fin g s hs.ne' c a1 d a2 a3 a4 a5) (hdir (Or.inr rfl)) h

theorem forall₂_right {A B : Type} {R : A → B → Prop} {l : List A} {m : List B} (h : List.Forall₂ R l m) : ∀ b ∈ m, ∃ a ∈ l, R a b := by
  induction h with
  | nil => simp
  | cons a _ ih =>
    intro x hx
    rcases List.mem_cons.mp hx with rfl | hx
    · exact ⟨_, List.mem_cons_self, a⟩
    · obtain ⟨y, hy, h⟩ := ih x hx
      exact ⟨y, List.mem_cons_of_mem _ hy, h⟩

theorem textRows_fin : ∀ (ss : List Str) (p : V2 (Ext ℝ)), p.IsFin → ∀ t ∈ textRows p ss, t.at_.IsFin
  | [], p, hp, t, ht => by cases ht
  | s :: ss, p, hp, t, ht => by
    unfold textRows at ht
    have hn : (⟨p.x, p.y - FP.lit 12⟩ : V2 (Ext ℝ)).IsFin := by fin_tac
    dsimp only at ht
    split at ht
    · exact textRows_fin ss _ hn t ht
    · rcases List.mem_cons.1 ht with rfl | ht
      · exact hp
      · exact textRows_fin ss _ hn t ht

theorem content_fin (E : Env (Ext ℝ)) (hS : SortOK E.sorter) (hJ : E.NotAView) (stl : Models (Ext ℝ)) (hM : stl.Made) (x : Drawable (Ext ℝ))
    (hf : x.IsFin) (ht : x.Tame E stl) (c) (h : content E stl x = .ok c) : c.2.1.IsFin := by
  cases x with
  | draw n ms dims l =>
    rcases draw_sum E stl n ms dims l c h with ⟨-, hp, -, -⟩ | ⟨sc, rot, loc, file, proj, ls, cs, hd, hcs, hp, -⟩
    · rw [hp]; exact OutPage.okFin_empty
    obtain ⟨hb, hpos, hdir⟩ := ht _ _ _ _ _ _ hd
    obtain ⟨r, rfl, hr⟩ := viewOf_rotation _ (look_fin hf.1 _) _ hd.view
    obtain ⟨en, hen, hfile⟩ := hd.model
    obtain ⟨file', hf', hmade⟩ := hM en (List.mem_of_find?_eq_some hen)
    rw [hfile] at hf'; injection hf' with hf'; subst hf'
    have hvf := viewed_fin file proj hmade r hr hd.turned
    obtain ⟨lo, hi, hl⟩ := limits_fin proj.cull hvf
    obtain ⟨lc, rfl⟩ := locOf_fin _ (look_fin hf.1 _) _ hd.loc
    have hsc : (projScale sc : Ext ℝ) = .fin (72 * ((sc.1 : ℝ) / sc.2)) := projScale_fin sc.1 sc.2 hb
    have hoff : (projOffset lc.fin proj.cull.limits (projScale sc) : V2 (Ext ℝ)).IsFin := by
      rw [hl, hsc, projOffset_fin]; exact ⟨_, rfl⟩
    have hlines : ∀ l ∈ ls, l.IsFin := by
      obtain ⟨s', ts, es, g1, g2, g3, g4, g5, g6⟩ := C26_after_view file r hr (fun f hf => hmade f hf)
      rw [hd.turned] at g1; injection g1 with g1; subst g1
      intro l hl'
      have hls := hd.lines
      rw [g2] at hls
      obtain ⟨v, e, t, u, -, -, -, -, -, -, rfl⟩ := C28_only_real_edges E.sorter hS proj ts es g3 g4 g5 g6 ls hls l hl'
      exact ⟨⟨_, rfl⟩, ⟨_, rfl⟩⟩
    rw [hp]
    apply OutPage.okFin_app
    · have : (drawStart (initVis E) sc r.fin lc.fin proj.cull ls).page =
          (OutPage.ofLines ls).moved (projScale sc) (projOffset lc.fin proj.cull.limits (projScale sc)) := by
        simp only [drawStart, adds_lines, Vis.adds]
        rw [show (initVis E).page = OutPage.empty from rfl, OutPage.empty_app]
        rfl
      rw [this]
      exact OutPage.okFin_moved ⟨hlines, by simp [OutPage.ofLines], by simp [OutPage.ofLines]⟩ ⟨_, hsc⟩ hoff
    · apply OutPage.okFin_sum
      intro P hP
      obtain ⟨k, hk, rfl⟩ := List.mem_map.1 hP
      obtain ⟨d, hdm, hdc⟩ := forall₂_right hcs k hk
      have hpos' := hpos (List.ne_nil_of_mem hdm)
      obtain ⟨i1, i2⟩ := dimContent_items E (drawStart (initVis E) sc r.fin lc.fin proj.cull ls) d (hJ r hr)
      by_cases hg : GoodDim d.kind d.metas
      · cases hit : drawnItems E (drawStart (initVis E) sc r.fin lc.fin proj.cull ls) d.kind d.metas with
        | none =>
          obtain ⟨L, e⟩ := i2 (Or.inr hit)
          rw [e] at hdc; cases hdc
          exact OutPage.okFin_empty
        | some Q =>
          obtain ⟨L, e⟩ := i1 Q hg hit
          rw [e] at hdc; cases hdc
          refine OutPage.okFin_moved ?_ ⟨_, hsc⟩ hoff
          exact drawnItems_fin E _ (72 * ((sc.1 : ℝ) / sc.2)) (by positivity) hsc (viewed_points E E.junk E.junkM hJ hJ file proj hmade r hr hd.turned) ⟨r, rfl⟩
            d.kind d.metas (hf.2 d hdm) (hdir d hdm) Q hit
      · obtain ⟨L, e⟩ := i2 (Or.inl hg)
        rw [e] at hdc; cases hdc
        exact OutPage.okFin_empty
  | text str ms l =>
    unfold content at h
    simp only [visitDrawable, bind, Except.bind] at h
    obtain ⟨ds, extra, e1, e2, e3⟩ := visitText_out (α := Ext ℝ) str ms l
    rw [e3] at h
    unfold textOut at h
    by_cases hds : ds ≠ []
    · rw [if_pos hds] at h; cases h; exact OutPage.okFin_empty
    rw [if_neg hds] at h
    cases hl : textLocOf (look ms c!"@") with
    | error a => rw [hl] at h; cases h
    | ok p =>
      rw [hl] at h
      cases h
      have hp : p.IsFin := by
        unfold textLocOf at hl
        cases hm : look ms c!"@" with
        | none =>
          rw [hm] at hl; cases hl
          unfold pageCentre
          fin_tac
        | some m =>
          rw [hm] at hl
          have hmf := look_fin hf _ m hm
          cases hv : m.val with
          | loc v =>
            rw [hv] at hmf
            simp only [hv] at hl
            cases hl
            have : v.IsFin := hmf
            unfold pageCentre
            fin_tac
          | _ => simp only [hv] at hl; cases hl
      refine ⟨fun _ h => ?_, fun _ h => ?_, ?_⟩
      · cases h
      · cases h
      · exact textRows_fin _ p hp

theorem page_fin (E : Env (Ext ℝ)) (hS : SortOK E.sorter) (hJ : E.NotAView) (stl : Models (Ext ℝ)) (hM : stl.Made) (pg : PageN (Ext ℝ))
    (hf : ∀ x ∈ pg.draws, x.IsFin) (ht : ∀ x ∈ pg.draws, x.Tame E stl) (g' : GenRes (Ext ℝ)) (hg' : onePage E stl pg = .ok g') (o : OutPage (Ext ℝ))
    (e : g'.pages = [o]) : o.IsFin := by
  obtain ⟨cs, t, f, -, e'⟩ := C46_title E stl pg g' hg'
  rw [e] at e'
  injection e' with e' _
  rw [e']
  apply OutPage.okFin_app
  · apply OutPage.okFin_sum
    intro P hP
    obtain ⟨c, hc, rfl⟩ := List.mem_map.1 hP
    obtain ⟨x, hx, hxc⟩ := forall₂_right f c hc
    exact content_fin E hS hJ stl hM x (hf x hx) (ht x hx) c hxc
  · refine ⟨lines_fin ⟨⟨⟨_, rfl⟩, ⟨_, rfl⟩⟩, ⟨⟨_, rfl⟩, ⟨_, rfl⟩⟩⟩, by simp, ?_⟩
    intro t ht
    simp only [List.mem_cons, List.not_mem_nil, or_false] at ht
    subst ht
    exact ⟨_, rfl⟩

/-- C54, as far as it goes: every coordinate, radius and angle on every page made from a script and loaded models is finite, if every
drawing has a scale whose second number is not 0, drawings with dimensions have positive scales, and no diameter or radius has a direction
seen end-on.  Missing: the drawings excluded here, of which the claim is false (`C54_false_scale`, `C54_false_direction`); arithmetic is
exact, so overflow beyond the largest double is not covered. -/
theorem C54_finite_partial (E : Env (Ext ℝ)) (hS : SortOK E.sorter) (hJ : E.NotAView) (script : Str) (doc : Doc (Ext ℝ))
    (hp : parse script = .ok (some doc)) (stl : Models (Ext ℝ)) (hM : stl.Made) (g : GenRes (Ext ℝ)) (h : generatePages E stl doc [] = .ok g)
    (ht : ∀ pg ∈ doc.pages, ∀ x ∈ pg.draws, x.Tame E stl) : ∀ o ∈ g.pages, o.IsFin := by
  have hf := parse_isFin script doc hp
  intro o ho
  obtain ⟨pg, hpg, g', hg', e⟩ := forall₂_right (generatePages_each E stl doc g h).1 o ho
  exact page_fin E hS hJ stl hM pg (hf pg hpg) (ht pg hpg) g' hg' o e

/-- The pages made of a script by `exEnv` for the triangle `m`: whether they are accepted, and whether one has a line with an end that is
not a number. -/
def nanLines (script : Str) : Except Abort (Bool × Bool) :=
  match (parse script : Except Abort (Option (Doc (Ext ℚ)))) with
  | .ok (some doc) => (generatePages exEnv exModels doc []).map (fun g => (g.ok, g.pages.any (fun o => o.lines.any (fun l => decide (l.t.x = .nan)))))
  | _ => .ok (false, false)

theorem nanLines_spec {script : Str} (h : nanLines script = .ok (true, true)) :
    ∃ (doc : Doc (Ext ℚ)) (g : GenRes (Ext ℚ)) (o : OutPage (Ext ℚ)) (l : Line (Ext ℚ)),
      parse script = .ok (some doc) ∧ generatePages exEnv exModels doc [] = .ok g ∧ g.ok = true ∧ o ∈ g.pages ∧ l ∈ o.lines ∧ ¬ l.IsFin := by
  unfold nanLines at h
  split at h
  · rename_i doc hdoc
    cases hg : generatePages exEnv exModels doc [] with
    | error a => rw [hg] at h; cases h
    | ok g =>
      rw [hg] at h
      simp only [Except.map, Except.ok.injEq, Prod.mk.injEq, List.any_eq_true, decide_eq_true_eq] at h
      obtain ⟨h1, o, ho, l, hl, hn⟩ := h
      refine ⟨doc, g, o, l, hdoc, hg, h1, ho, hl, ?_⟩
      rintro ⟨-, a, e⟩
      rw [e] at hn
      cases hn
  · cases h

/-- C54 is false with a scale whose second number is 0. -/
theorem C54_false_scale : ∃ (script : Str) (doc : Doc (Ext ℚ)) (g : GenRes (Ext ℚ)) (o : OutPage (Ext ℚ)) (l : Line (Ext ℚ)),
    parse script = .ok (some doc) ∧ generatePages exEnv exModels doc [] = .ok g ∧ g.ok = true ∧ o ∈ g.pages ∧ l ∈ o.lines ∧ ¬ l.IsFin :=
  ⟨c!"page{draw m{scale=1:0;}}", nanLines_spec (by decide +kernel)⟩

/-- C54 is false with a diameter whose direction is seen end-on. -/
theorem C54_false_direction : ∃ (script : Str) (doc : Doc (Ext ℚ)) (g : GenRes (Ext ℚ)) (o : OutPage (Ext ℚ)) (l : Line (Ext ℚ)),
    parse script = .ok (some doc) ∧ generatePages exEnv exModels doc [] = .ok g ∧ g.ok = true ∧ o ∈ g.pages ∧ l ∈ o.lines ∧ ¬ l.IsFin :=
  ⟨c!"page{draw m{dia(at=[5,5,0],center=[2,1.5,0],dir=[0,0,1]);}}", nanLines_spec (by decide +kernel)⟩

/-- a diameter whose direction is in the page, in a drawing at 1:2, meets the premise with any models -/
noncomputable def rDia : DimN (Ext ℝ) :=
  ⟨.dia, [⟨c!"at", .pt (.val (V3.fin ⟨5, 5, 0⟩) 1), 1⟩, ⟨c!"center", .pt (.val (V3.fin ⟨2, 1, 0⟩) 1), 1⟩, ⟨c!"dir", .pt (.val (V3.fin ⟨1, 0, 0⟩) 1), 1⟩], 1⟩
example (stl : Models (Ext ℝ)) : (Drawable.draw c!"m" rMetas [rDia] 1).Tame rEnv stl := by
  intro sc rot loc file proj ls hd
  have e1 := hd.scale
  have e2 := hd.view
  have h1 : sc = (1, 2) := by simp [rMetas, look, scaleOf] at e1; exact e1.symm
  have h2 : rot = matZP := by simp [rMetas, look, viewOf] at e2; exact e2.symm
  subst h1 h2
  refine ⟨by decide, fun _ => by norm_num, ?_⟩
  intro d hd' _ p hp
  simp only [List.mem_singleton] at hd'
  subst hd'
  simp [pointOf, rDia, look, drawStart, Pt.rot, Pt.invoke, V3.mulM, matZP, ptX, ptY, ptZ, V3.map] at hp
  subst hp
  simp [V3.xy, V2.map]

/-- a script at the reals -/
example : (match (parse c!"page{draw m{}}" : Except Abort (Option (Doc (Ext ℝ)))) with
    | .ok (some d) => d.pages.length | _ => 0) = 1 := by decide +kernel

end S2P
