import Verif.Props.HoleTurn
import Verif.Props.Paper
import Verif.Props.Snap

set_option linter.unusedSectionVars false
set_option linter.unusedVariables false
set_option linter.unusedSimpArgs false

/-! # C82 and C97, of runs -/

namespace S2P
open PS

/-- every drawing of a run that succeeds is set up: it succeeds itself, what it draws is on its page, and its model is one that the script loads -/
theorem run_drawings (E : Env (Ext ℝ)) (w : World) (src script : Str) (r : RunRes) (h : scriptToPS E w src script = .ok r) (hok : r.ok = true) :
    ∃ (doc : Doc (Ext ℝ)) (stl : Models (Ext ℝ)) (outs : List (OutPage (Ext ℝ))), parse script = .ok (some doc) ∧ stl.Made ∧ r.out = renderPages E src outs ∧
      List.Forall₂ (fun pg o => ∀ name ms dims line, Drawable.draw name ms dims line ∈ pg.draws → (∀ m ∈ ms, m.val.IsFin) ∧
        ∃ c, content E stl (.draw name ms dims line) = .ok c ∧ c.1 = true ∧ (∀ t ∈ c.2.1.text, t ∈ o.text) ∧ (∀ a ∈ c.2.1.arcs, a ∈ o.arcs) ∧
        ∃ sc rot loc file proj ls, Drawn E stl name ms sc (M3.fin rot) loc file proj ls ∧ ∃ m ∈ doc.models, m.name = name ∧ Loads E.loadPath w m file) doc.pages outs := by
  obtain ⟨doc, fs, outs, hm, ho⟩ := made_pages E w src script r h hok
  refine ⟨doc, List.zipWith (fun m f => (m.name, some f)) doc.models fs, outs, hm.1, zip_made _ w _ _ hm.2.1, ho, ?_⟩
  have hfin : ∀ pg ∈ doc.pages, ∀ y ∈ pg.draws, y.IsFin := parse_isFin script doc hm.1
  have hl := find_loads _ w _ _ hm.2.1
  have h4 := hm.2.2
  clear ho hm
  generalize doc.pages = pgs at h4 hfin
  generalize (List.zipWith (fun (m : ModelN) f => (m.name, some f)) doc.models fs) = stl at *
  induction h4 with
  | nil => exact .nil
  | @cons pg o pgs outs ho _ ih =>
    refine .cons ?_ (ih (fun pg hpg => hfin pg (List.mem_cons_of_mem _ hpg)))
    obtain ⟨g, hg, gok, gp⟩ := ho
    obtain ⟨cs, k1, ⟨t, -, k2⟩, k3⟩ := C58_page E stl pg g hg
    have hall := (k3.1 gok).2.2
    rw [gp] at k2
    injection k2 with k2 _
    intro name ms dims line hdr
    have hms := (hfin pg List.mem_cons_self _ hdr).1
    obtain ⟨c, hc, hdc⟩ := forall₂_left_mem k1 hdr
    refine ⟨hms, c, hdc, hall c hc, ?_, ?_, ?_⟩
    · intro t ht
      rw [k2]
      unfold addHeader
      simp only [List.mem_append]
      exact Or.inl ((mem_sum_text _).2 ⟨_, List.mem_map.2 ⟨c, hc, rfl⟩, ht⟩)
    · intro t ht
      rw [k2]
      unfold addHeader
      exact (mem_sum_arcs _).2 ⟨_, List.mem_map.2 ⟨c, hc, rfl⟩, ht⟩
    · rcases draw_sum E stl name ms dims line c hdc with ⟨h1, -, -, -⟩ | ⟨sc, rot, loc, file, proj, ls, -, hD, -⟩
      · rw [hall c hc] at h1; cases h1
      obtain ⟨r2, er, hr⟩ := viewOf_rotation _ (look_fin hms _) _ hD.view
      subst er
      obtain ⟨e, e1, e2⟩ := hD.model
      exact ⟨sc, r2, loc, file, proj, ls, hD, hl name e e1 file e2⟩

/-- **C82**, of a run: in what a conversion that succeeds writes, a diameter or radius at a round hole shows that of the hole, and a linear dimension between
centres of holes, corners or points written out shows the distance of the places where they are seen. -/
theorem C82_run_partial (E : Env (Ext ℝ)) (hS : SortOK E.sorter) (hJ : E.NotAView) (w : World) (src script : Str) (r : RunRes)
    (h : scriptToPS E w src script = .ok r) (hok : r.ok = true) :
    ∃ (doc : Doc (Ext ℝ)) (outs : List (OutPage (Ext ℝ))), parse script = .ok (some doc) ∧ r.out = renderPages E src outs ∧
      List.Forall₂ (fun pg o => ∀ name ms dims line, Drawable.draw name ms dims line ∈ pg.draws →
        ∃ m ∈ doc.models, ∃ file rot, m.name = name ∧ Loads E.loadPath w m file ∧ IsRotation rot ∧ viewOf (look ms c!"view") = .ok (M3.fin rot) ∧ ∀ d ∈ dims,
          (∀ g m R, AtHole E rot file d g m R → ∃ item ∈ o.text, item.str = if d.kind = .dia then c!"\\351" ++ g (.fin (2 * R)) else c!"R" ++ g (.fin R)) ∧
          (∀ g f t u, Across E rot file d g f t u → ∃ item ∈ o.text, item.str = g (.fin (|(t - f).dot (u.seenAt rot)| / len3 u)))) doc.pages outs := by
  obtain ⟨doc, stl, outs, hp, hM, ho, hf⟩ := run_drawings E w src script r h hok
  refine ⟨doc, outs, hp, ho, hf.imp ?_⟩
  intro pg o hh name ms dims line hdr
  obtain ⟨hms, c, hc, -, ht, -, sc, rot, loc, file, proj, ls, hD, m, hm, hn, hl⟩ := hh name ms dims line hdr
  refine ⟨m, hm, file, rot, hn, hl, (hole_dims hS hM hms hD).1, hD.view, fun d hd => ⟨?_, ?_⟩⟩
  · intro g m R ha
    obtain ⟨item, h1, h2⟩ := C82_label_partial E hS hJ stl hM name ms dims line hms c hc sc rot loc file proj ls hD d hd g m R ha
    exact ⟨item, ht item h1, h2⟩
  · intro g f t u ha
    obtain ⟨item, h1, h2⟩ := C82_between_partial E hS hJ stl hM name ms dims line hms c hc sc rot loc file proj ls hD d hd g f t u ha
    exact ⟨item, ht item h1, h2⟩

/-- **C97**, of a run: in what a conversion that succeeds writes, no angle has legs parallel on the page, and each shows the angle between its legs in space, beside an
arc, about the place where its apex is seen, between the directions in which its legs are seen. -/
theorem C97_run (E : Env (Ext ℝ)) (hS : SortOK E.sorter) (hJ : E.NotAView) (w : World) (src script : Str) (r : RunRes)
    (h : scriptToPS E w src script = .ok r) (hok : r.ok = true) :
    ∃ (doc : Doc (Ext ℝ)) (outs : List (OutPage (Ext ℝ))), parse script = .ok (some doc) ∧ r.out = renderPages E src outs ∧
      List.Forall₂ (fun pg o => ∀ name ms dims line, Drawable.draw name ms dims line ∈ pg.draws →
        ∃ m ∈ doc.models, ∃ file rot k off, m.name = name ∧ Loads E.loadPath w m file ∧ IsRotation rot ∧ viewOf (look ms c!"view") = .ok (M3.fin rot) ∧
          (∃ sc, scaleOf (look ms c!"scale") = .ok sc ∧ k = projScale sc) ∧ ∀ d ∈ dims, ∀ g a x u w, Turns E rot file d g a x u w → ¬ PageAligned u w ∧
            (⟨a.xy.fin.moved k off, g (.fin (degrees (angleBetween u w))) ++ c!" deg", true, false⟩ : PsText (Ext ℝ)) ∈ o.text ∧
            ∃ (A B : V3 ℝ) (α β δ : ℝ), ((A = u ∧ B = w) ∨ (A = w ∧ B = u)) ∧
              (⟨x.xy.fin.moved k off, .fin (len3 (a - x)) * k, .fin α, .fin β⟩ : Arc (Ext ℝ)) ∈ o.arcs ∧
              HasAngle A.x A.y α ∧ HasAngle B.x B.y β ∧ 0 < δ ∧ δ < Real.pi ∧ Real.cos β = Real.cos (α + δ) ∧ Real.sin β = Real.sin (α + δ)) doc.pages outs := by
  obtain ⟨doc, stl, outs, hp, hM, ho, hf⟩ := run_drawings E w src script r h hok
  refine ⟨doc, outs, hp, ho, hf.imp ?_⟩
  intro pg o hh name ms dims line hdr
  obtain ⟨hms, c, hc, hc1, ht, ha, sc, rot, loc, file, proj, ls, hD, m, hm, hn, hl⟩ := hh name ms dims line hdr
  refine ⟨m, hm, file, rot, projScale sc, projOffset loc proj.cull.limits (projScale sc), hn, hl, (hole_dims hS hM hms hD).1, hD.view, ⟨sc, hD.scale, rfl⟩, ?_⟩
  intro d hd g a x u w hT
  obtain ⟨t1, t2⟩ := C97_angle E hS hJ stl hM name ms dims line hms c hc sc rot loc file proj ls hD d hd g a x u w hT
  have hna : ¬ PageAligned u w := fun hz => by rw [t1 hz] at hc1; cases hc1
  obtain ⟨h1, A, B, α, β, δ, h2, h3, h4⟩ := t2 hna
  exact ⟨hna, ht _ h1, A, B, α, β, δ, h2, ha _ h3, h4⟩

/-! ## A run with all of it -/

/-- the model of `paper_file`, with its corners -/
theorem disc_read : ∃ (f : STLFile (Ext ℝ)) (T : Tri ℝ), make (stlText c!"p" [paperTri]) = .ok (some f) ∧ f.facets = [T.fin] ∧ 0 < T.n.z ∧
    ∀ v, v ∈ T.corners ↔ v ∈ [(⟨0, 0, 0⟩ : V3 ℝ), ⟨4, 0, 0⟩, ⟨0, 3, 0⟩] := by
  obtain ⟨N, e0, e2, r, h1, -, -, -, -, ⟨k, hk, hN⟩, hpos, -, -, -, hor⟩ := C16_facet ⟨((0 : Nat) : ℝ), ((0 : Nat) : ℝ), ((1 : Nat) : ℝ)⟩
    ⟨((0 : Nat) : ℝ), ((0 : Nat) : ℝ), ((0 : Nat) : ℝ)⟩ ⟨((4 : Nat) : ℝ), ((0 : Nat) : ℝ), ((0 : Nat) : ℝ)⟩
    ⟨((0 : Nat) : ℝ), ((3 : Nat) : ℝ), ((0 : Nat) : ℝ)⟩ (by simp [V3.cross])
  obtain ⟨f, T, hf, hT, hz⟩ := paper_file
  refine ⟨f, T, hf, hT, hz, ?_⟩
  obtain ⟨f', hf', hv⟩ := C17_round_trip (α := Ext ℝ) convOk_ext c!"p" (by decide) [paperTri]
    [(V3.fin ⟨((0 : Nat) : ℝ), ((0 : Nat) : ℝ), ((1 : Nat) : ℝ)⟩, V3.fin ⟨((0 : Nat) : ℝ), ((0 : Nat) : ℝ), ((0 : Nat) : ℝ)⟩,
      V3.fin ⟨((4 : Nat) : ℝ), ((0 : Nat) : ℝ), ((0 : Nat) : ℝ)⟩, V3.fin ⟨((0 : Nat) : ℝ), ((3 : Nat) : ℝ), ((0 : Nat) : ℝ)⟩)]
    (.cons ⟨(num_denotes 0 0 1).1, (num_denotes 0 0 0).1, (num_denotes 4 0 0).1, (num_denotes 0 3 0).1, (num_denotes 0 0 1).2, (num_denotes 0 0 0).2,
      (num_denotes 4 0 0).2, (num_denotes 0 3 0).2⟩ .nil) (by simp [V3.eqv, V3.fin, V3.map, V3.zero])
  rw [hf] at hf'
  injection hf' with hf'
  injection hf' with hf'
  subst hf'
  rw [hT] at hv
  cases hv with
  | cons h t =>
    cases t
    rw [h1] at h
    injection h with h
    have e : T = ⟨N, e0, ⟨((4 : Nat) : ℝ), ((0 : Nat) : ℝ), ((0 : Nat) : ℝ)⟩, e2, r⟩ := tri_fin_inj h.symm
    intro v
    subst e
    simp only [Tri.corners, List.mem_cons, List.not_mem_nil, or_false]
    rcases hor with ⟨rfl, rfl⟩ | ⟨rfl, rfl⟩
    · simp
    · simp; tauto

/-- the angle at the centre of the circle through the three corners, between the direction to the right and the corner at the origin, written out -/
noncomputable def turnDim : DimN (Ext ℝ) := ⟨.angle, [⟨c!"at", .pt (.val (V3.fin ⟨1, 1, 0⟩) 1), 1⟩,
  ⟨c!"apex", .pt (.func c!"center" (.val (V3.fin ⟨3, 2, 7⟩) 1) 1), 1⟩, ⟨c!"from_dir", .pt (.val (V3.fin ⟨1, 0, 0⟩) 1), 1⟩,
  ⟨c!"to_point", .pt (.val (V3.fin ⟨0, 0, 0⟩) 1), 1⟩], 1⟩

/-- a script with the diameter of that circle -/
def discScript : Str := c!"load m=\"/x\";page{draw m{dia(at=[1,5,0],dir=[1,0,0],center=[3,2,7]);}}"

open Lean Meta Elab Tactic in
/-- what is read from it: both sides compute to the same (the tactic offers `rfl` to the kernel directly) -/
theorem disc_doc_lit : parse discScript = .ok (some ⟨[⟨c!"m", c!"/x", 1⟩], [⟨[], [.draw c!"m" [] [
    ⟨.dia, [⟨c!"at", .pt (litPt 1 5 0), 1⟩, ⟨c!"dir", .pt (litPt 1 0 0), 1⟩, ⟨c!"center", .pt (litPt 3 2 7), 1⟩], 1⟩] 1], 1⟩]⟩) := by
  run_tac do
    let g ← getMainGoal
    let some (_, a, _) := (← g.getType).eq? | throwError "not an equation"
    g.assign (← mkEqRefl a)

theorem disc_doc : parse discScript = .ok (some ⟨[⟨c!"m", c!"/x", 1⟩], [⟨[], [.draw c!"m" [] [discDim] 1], 1⟩]⟩) := by
  have lit : ∀ x y z : Rat, litPt x y z = .val (V3.fin ⟨(x : ℝ), (y : ℝ), (z : ℝ)⟩) 1 := fun _ _ _ => rfl
  rw [disc_doc_lit]
  simp only [discDim, lit]
  norm_num

theorem disc_dims {file : STLFile (Ext ℝ)} (hs : ∀ v, SeenCorner idM file v ↔ v ∈ [(⟨0, 0, 0⟩ : V3 ℝ), ⟨4, 0, 0⟩, ⟨0, 3, 0⟩]) :
    AtHole rEnv idM file discDim FP.g6 ⟨2, 3 / 2⟩ (5 / 2) ∧ Across rEnv idM file holeDim FP.g6 ⟨2, 3 / 2⟩ ⟨4, 0⟩ ⟨1, 0, 0⟩ ∧
    Turns rEnv idM file turnDim FP.g6 ⟨1, 1, 0⟩ ⟨2, 3 / 2, 0⟩ ⟨1, 0, 0⟩ ((⟨0, 0, 0⟩ : V3 ℝ) - ⟨2, 3 / 2, 0⟩) := by
  have hplace : ∀ p : V3 ℝ, p.seenAt idM = ⟨p.x, p.y⟩ := by intro p; simp only [V3.seenAt, idM_mul, V3.xy]
  have hnear : ∀ w, SeenCorner idM file w → w.seenAt idM = V3.seenAt idM ⟨4, 0, 0⟩ ∨ dist (V3.seenAt idM ⟨4, 0, 0⟩) ⟨5, 1⟩ < dist (w.seenAt idM) ⟨5, 1⟩ := by
    intro w hw
    rw [hs] at hw
    simp only [List.mem_cons, List.not_mem_nil, or_false] at hw
    rcases hw with rfl | rfl | rfl
    · right
      apply Real.sqrt_lt_sqrt (dist2_nn _ _)
      simp only [hplace, dist2]; norm_num
    · left; rfl
    · right
      apply Real.sqrt_lt_sqrt (dist2_nn _ _)
      simp only [hplace, dist2]; norm_num
  refine ⟨?_, ?_, ?_⟩
  · refine ⟨Or.inl rfl, ?_, ⟨_, _, _, rfl, rfl, .literal _ _⟩, ⟨_, _, _, rfl, rfl, .literal _ _⟩, by simp [formatOf, discDim, look, rEnv], ⟨_, ⟨_, _, rfl, rfl, .literal _ _⟩, ?_⟩⟩
    · simp [discDim, GoodDim, exactly_def, Has]
    · rw [hplace]; exact disc_round hs
  · refine ⟨rfl, ?_, ⟨_, _, _, rfl, rfl, .literal _ _⟩, by simp [formatOf, holeDim, look, rEnv], ⟨_, 1, rfl, rfl⟩, by simp, by simp [idM_mul],
      ⟨_, _, rfl, rfl, .center _ _ ⟨3, 2⟩ _ (5 / 2) ?_ (disc_round hs)⟩, ⟨_, _, rfl, rfl, ?_⟩⟩
    · simp [holeDim, GoodDim, exactly_def, Has]
    · have := Spot.literal (r := idM) (file := file) ⟨3, 2, 7⟩ 1
      rwa [hplace] at this
    · have h5 := Spot.literal (r := idM) (file := file) ⟨5, 1, 0⟩ 1
      have := Spot.near _ 1 _ ⟨4, 0, 0⟩ h5 ((hs _).2 (by simp)) (by rw [hplace ⟨5, 1, 0⟩]; exact hnear)
      rwa [hplace] at this
  · have lit : ∀ (p : V3 ℝ) (l : ℕ), Place idM file (.val p.fin l) p := by
      intro p l
      have := Place.literal (r := idM) (file := file) p l
      rwa [idM_mul] at this
    refine ⟨rfl, ?_, by simp [formatOf, turnDim, look, rEnv], ⟨_, _, rfl, rfl, lit _ _⟩,
      ⟨_, _, rfl, rfl, .center _ _ ⟨3, 2, 7⟩ ⟨2, 3 / 2⟩ _ (lit _ _) (disc_round hs)⟩, Or.inl ⟨_, _, rfl, rfl, lit _ _⟩,
      Or.inr ⟨rfl, _, ⟨_, _, rfl, rfl, lit _ _⟩, rfl⟩⟩
    simp only [turnDim, GoodDim]; rw [exactly_def]; simp [Has]

theorem disc_run (s : Str) (d : DimN (Ext ℝ)) (hd : d = discDim ∨ d = turnDim) (hp : parse s = .ok (some ⟨[⟨c!"m", c!"/x", 1⟩], [⟨[], [.draw c!"m" [] [d] 1], 1⟩]⟩)) :
    ∃ r f, scriptToPS rEnv paperDisk c!"s" s = .ok r ∧ r.ok = true ∧ Loads rEnv.loadPath paperDisk ⟨c!"m", c!"/x", 1⟩ f ∧
      ∀ v, SeenCorner idM f v ↔ v ∈ [(⟨0, 0, 0⟩ : V3 ℝ), ⟨4, 0, 0⟩, ⟨0, 3, 0⟩] := by
  obtain ⟨f, T, hf, hT, hz, hc4⟩ := disc_read
  have hs := disc_seen hT hz hc4
  obtain ⟨hA, hB, hC⟩ := disc_dims hs
  have hM : Models.Made (K := ℝ) [(c!"m", some f)] := by
    intro e he
    simp only [List.mem_singleton] at he
    subst he
    exact ⟨f, rfl, make_made _ f hf⟩
  have hfin := parse_isFin s _ hp _ (List.mem_singleton.2 rfl) _ (List.mem_singleton.2 rfl)
  obtain ⟨c, hc⟩ := content_ok rEnv insSorter_ok rEnv_notAView [(c!"m", some f)] hM (.draw c!"m" [] [d] 1) hfin (by intro m hm; simp at hm)
  obtain ⟨proj, ls, hD⟩ := drawn_exists rEnv insSorter_ok [(c!"m", some f)] c!"m" [] (by simp) (by simp) (1, 1) rfl matZP rfl _ rfl f ⟨_, rfl, rfl⟩ (make_made _ f hf)
  rw [← idM_fin] at hD
  have hne : ¬ PageAligned ⟨1, 0, 0⟩ ((⟨0, 0, 0⟩ : V3 ℝ) - ⟨2, 3 / 2, 0⟩) := by
    simp only [PageAligned, V3.sub_x, V3.sub_y]; norm_num
  have hc1 : c.1 = true := C97_accepted rEnv insSorter_ok rEnv_notAView _ hM _ _ _ _ (by simp) c hc _ _ _ _ _ _ hD (by simp) (by
    intro d' hd'
    simp only [List.mem_singleton] at hd'
    subst hd'
    rcases hd with rfl | rfl
    · exact Or.inl ⟨_, _, _, hA⟩
    · exact Or.inr (Or.inr ⟨_, _, _, _, _, hC, hne⟩))
  obtain ⟨r, hr, hok⟩ := one_run s [] [d] 1 1 1 hp paperDisk rfl f hf ⟨c, hc, hc1⟩
  exact ⟨r, f, hr, hok, paper_loads paperDisk rfl _ rfl f hf, hs⟩

/-- this script meets what is asked of a run in C82, and its dimension what is said of it -/
example : SortOK rEnv.sorter ∧ rEnv.NotAView ∧ ∃ doc r f, parse discScript = .ok (some doc) ∧ scriptToPS rEnv paperDisk c!"s" discScript = .ok r ∧ r.ok = true ∧
    (∀ m ∈ doc.models, Loads rEnv.loadPath paperDisk m f) ∧ (∃ pg ∈ doc.pages, Drawable.draw c!"m" [] [discDim] 1 ∈ pg.draws) ∧
    AtHole rEnv idM f discDim FP.g6 ⟨2, 3 / 2⟩ (5 / 2) := by
  obtain ⟨r, f, h1, h2, h3, hs⟩ := disc_run discScript discDim (Or.inl rfl) disc_doc
  exact ⟨insSorter_ok, rEnv_notAView, _, r, f, disc_doc, h1, h2, by intro m hm; rw [List.mem_singleton] at hm; subst hm; exact h3, ⟨_, List.mem_singleton.2 rfl, List.mem_singleton.2 rfl⟩, (disc_dims hs).1⟩

end S2P
