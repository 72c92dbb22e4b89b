import Verif.Lemmas.ExecModel
import Verif.Lemmas.Sane
import Verif.Props.Index
import Verif.Props.AccuracyDim
import Verif.Props.PaperDouble

set_option linter.unusedSectionVars false
set_option linter.unusedVariables false
set_option linter.unusedSimpArgs false

/-! # A drawing seen from above with one radius, computed in double arithmetic -/

namespace S2P

/-- what the executable arithmetic finds: the corners seen from above -/
def seenTop (fs : List (Facet X64)) : List (V3 X64) := cornerSet (cullFacets (cullFacets (fs.map (rotFacet matZP))))

def Facet.okB (f : Facet X64) : Bool := f.corners.all (fun v => FP.eq v.x v.x && FP.eq v.y v.y && FP.eq v.z v.z)

/-- reads the text, sees it from above, looks for a circle at `t` and tests what is found -/
def topCheck (text : Str) (t : V3 X64) (good : Option (V2 X64 × X64) → Bool) : Bool :=
  match makeLoop (α := X64) (getLines text) ⟨V3.zero, [], []⟩ with
  | .ok (some s) => s.facets.all Facet.okB && decide (3 ≤ (seenTop s.facets).length) && good (locate (seenTop s.facets) (t.mulM matZP).xy)
  | _ => false

theorem topCheck_iff {text : Str} {t : V3 X64} {good} (h : topCheck text t good = true) :
    ∃ s, makeLoop (α := X64) (getLines text) ⟨V3.zero, [], []⟩ = .ok (some s) ∧ (∀ f ∈ s.facets, Facet.okB f = true) ∧ 3 ≤ (seenTop s.facets).length ∧
      good (locate (seenTop s.facets) (t.mulM matZP).xy) = true := by
  unfold topCheck at h
  split at h
  · rename_i s hs
    rw [Bool.and_eq_true, Bool.and_eq_true, List.all_eq_true, decide_eq_true_iff] at h
    exact ⟨s, hs, h.1.1, h.1.2, h.2⟩
  · simp at h

theorem okB_fl {f : Facet X64} (h : f.okB = true) : Facet.Ok f.fl := by
  unfold Facet.okB Facet.corners at h
  simp only [List.all_cons, List.all_nil, Bool.and_true, Bool.and_eq_true] at h
  obtain ⟨⟨⟨a, b⟩, c⟩, ⟨⟨d, e⟩, g⟩, ⟨i, j⟩, k⟩ := h
  refine ⟨⟨?_, ?_, ?_⟩, ⟨?_, ?_, ?_⟩, ⟨?_, ?_, ?_⟩⟩ <;> refine (x64_eq _ _).trans ?_ <;> assumption

theorem matZP_fl : (matZP : M3 X64).fl = (matZP : M3 (Fl R64)) := by
  simp only [matZP, M3.fl, V3.fl, V3.map, ptX, ptY, ptZ, x64_lit]

/-- the file read in double arithmetic -/
theorem top_file {text : Str} {s : MakeState X64} (h : makeLoop (α := X64) (getLines text) ⟨V3.zero, [], []⟩ = .ok (some s)) (hf : ∀ f ∈ s.facets, Facet.okB f = true) :
    ∃ file : STLFile F64, make text = .ok (some file) ∧ file.facets = s.facets.map Facet.fl := by
  have e := makeLoop_fl (getLines text) ⟨V3.zero, [], []⟩
  rw [h] at e
  have z : MakeState.fl ⟨V3.zero, [], []⟩ = ⟨V3.zero, [], []⟩ := by simp only [MakeState.fl, zero_fl, List.map_nil]
  rw [z] at e
  obtain ⟨file, h1, h2, -⟩ := C21_index (α := F64) (s.facets.map Facet.fl) (by
    intro f hf'
    obtain ⟨g, hg, rfl⟩ := List.mem_map.1 hf'
    exact okB_fl (hf g hg))
  refine ⟨file, ?_, h2⟩
  unfold make
  have e' : makeLoop (α := F64) (getLines text) ⟨V3.zero, [], []⟩ = .ok (some s.fl) := e
  rw [e']
  show (do let f ← index (α := F64) (s.facets.map Facet.fl); return some f : Except Abort (Option (STLFile F64))) = _
  rw [h1]
  rfl

/-- the corners seen in double arithmetic -/
theorem top_points {s : MakeState X64} {file proj : STLFile F64} (h : file.facets = s.facets.map Facet.fl) (hp : proj.facets = cullFacets (file.facets.map (rotFacet matZP))) :
    proj.cull.points = (seenTop s.facets).map V3.fl := by
  show cornerSet (cullFacets proj.facets) = _
  have e : (s.facets.map Facet.fl).map (rotFacet (matZP : M3 F64)) = (s.facets.map (rotFacet matZP)).map Facet.fl := by
    rw [List.map_map, List.map_map]
    apply List.map_congr_left
    intro f _
    show rotFacet (matZP : M3 (Fl R64)) f.fl = (rotFacet matZP f).fl
    rw [← matZP_fl, rotFacet_fl]
  rw [hp, h, e]
  have e2 := cullFacets_fl (s.facets.map (rotFacet matZP))
  have e3 := cullFacets_fl (cullFacets (s.facets.map (rotFacet matZP)))
  have e4 := cornerSet_fl (cullFacets (cullFacets (s.facets.map (rotFacet matZP))))
  unfold seenTop
  rw [← e4, ← e3, ← e2]

theorem index_facets {α : Type} [FP α] {fs : List (Facet α)} {s : STLFile α} (h : index fs = .ok s) : s.facets = fs := by
  unfold index at h
  simp only [bind, Except.bind] at h
  split at h
  · simp at h
  · simp only [pure, Except.pure] at h
    injection h with h
    rw [← h]

/-- a radius given by points written out -/
noncomputable def topRad (at_ c dir : V3 X64) (l : ℕ → ℕ) : DimN F64 :=
  ⟨.rad, [⟨c!"at", .pt (.val at_.fl (l 0)), l 1⟩, ⟨c!"center", .pt (.val c.fl (l 2)), l 3⟩, ⟨c!"dir", .pt (.val dir.fl (l 4)), l 5⟩], l 6⟩

theorem mulTop_fl (w : V3 X64) : w.fl.mulM (matZP : M3 F64) = (w.mulM matZP).fl :=
  (congrArg (fun m => w.fl.mulM m) matZP_fl.symm).trans (V3.fl_mulM w matZP).symm

/-- what such a radius draws -/
theorem top_items (v : Vis F64) {ps : List (V3 X64)} (v1 : v.points = ps.map V3.fl) (v2 : v.rotation = matZP) (h3 : 3 ≤ ps.length) (at_ t dir : V3 X64) (l : ℕ → ℕ) :
    drawnItems flEnv v (topRad at_ t dir l).kind (topRad at_ t dir l).metas =
      ((locate ps (t.mulM matZP).xy).map circFl).map (fun k => radItems FP.g6 v.scale ⟨(at_.mulM matZP).fl.xy, (dir.mulM matZP).fl.xy, k.1, k.2⟩) := by
  have hp1 : ∀ j n q a b, look (topRad at_ t dir l).metas n = some ⟨n, .pt (.val q a), b⟩ → pointOf flEnv v j (topRad at_ t dir l).metas n = some (q.mulM v.rotation) := by
    intro j n q a b h
    unfold pointOf
    rw [h]
    rfl
  have q1 := hp1 0 c!"at" _ _ _ rfl
  have q2 := hp1 1 c!"center" _ _ _ rfl
  have q3 := hp1 2 c!"dir" _ _ _ rfl
  have q4 : formatOf flEnv c!"%.3f" (topRad at_ t dir l).metas = some FP.g6 := rfl
  rw [v2, mulTop_fl] at q1 q2 q3
  have e1 : ¬ v.points.length < 3 := by rw [v1, List.length_map]; omega
  have e2 : locate v.points (t.mulM matZP).fl.xy = (locate ps (t.mulM matZP).xy).map circFl :=
    (congrArg (fun l => locate l (t.mulM matZP).fl.xy) v1).trans (locate_fl ps (t.mulM matZP).xy)
  show drawnItems.circ flEnv v (topRad at_ t dir l).metas radItems = _
  unfold drawnItems.circ
  simp only [q1, q2, q3, q4, bind, Option.bind, if_neg e1, e2]
  cases locate ps (t.mulM matZP).xy <;> rfl

/-- a drawing of the file from above with one radius: it is accepted just in case a circle is found, and shows the radius of that circle -/
theorem top_draws {text : Str} {k : ℕ} (hk : k ≤ 505) (hsane : SaneFile k text) {s : MakeState X64} (h : makeLoop (α := X64) (getLines text) ⟨V3.zero, [], []⟩ = .ok (some s))
    (hf : ∀ f ∈ s.facets, Facet.okB f = true) (h3 : 3 ≤ (seenTop s.facets).length) (at_ t dir : V3 X64) (l : ℕ → ℕ) (b : ℕ) :
    ∃ (file : STLFile F64) (c : _), make text = .ok (some file) ∧ content flEnv [(c!"m", some file)] (.draw c!"m" [] [topRad at_ t dir l] b) = .ok c ∧
      (c.1 = true ↔ (locate (seenTop s.facets) (t.mulM matZP).xy).isSome = true) ∧
      ∀ m r, locate (seenTop s.facets) (t.mulM matZP).xy = some (m, r) → ∃ item ∈ c.2.1.text, item.str = c!"R" ++ FP.g6 (X64.fl R64 r) := by
  obtain ⟨file, hfile, hfac⟩ := top_file h hf
  have hbd := sane_bd (α := F64) (by omega) hsane file hfile
  have hM : Models.Bd k [(c!"m", some file)] := by
    intro e he
    simp only [List.mem_singleton] at he
    subst he
    exact ⟨_, rfl, hbd⟩
  obtain ⟨c, hc⟩ := content_bd flEnv insSorter_ok rfl [(c!"m", some file)] hk hM (.draw c!"m" [] [topRad at_ t dir l] b)
    (by simp [Drawable.LocBd]) (by intro m hm; simp at hm)
  refine ⟨file, c, hfile, hc, ?_⟩
  obtain ⟨proj, ls, g1, g2, -, g3, -⟩ := turned_bd hk flEnv.sorter insSorter_ok _ hbd matZP (viewOf_bd (none : Option (Meta F64)) (by simp) matZP rfl)
  rcases draw_sum _ _ _ _ _ _ c hc with ⟨-, -, -, h'⟩ | ⟨sc, rot, loc, file', pr, ls', cs, hD, hcs, hp, hok, -⟩
  · exact absurd ⟨_, _, _, _, _, _, ⟨by simp, rfl, rfl, rfl, ⟨_, rfl, rfl⟩, g1, by rw [g2]; exact g3⟩⟩ h'
  have hD0 : Drawn flEnv [(c!"m", some file)] c!"m" [] ((1, 1) : Int × Int) matZP _ file proj ls := ⟨by simp, rfl, rfl, rfl, ⟨_, rfl, rfl⟩, g1, by rw [g2]; exact g3⟩
  obtain ⟨rfl, rfl, rfl, rfl, rfl, rfl⟩ := drawn_unique hD0 hD
  have hpts := top_points hfac (index_facets g1)
  obtain ⟨kk, rfl, hkk⟩ : ∃ kk, cs = [kk] ∧ dimContent flEnv (drawStart (initVis flEnv) ((1, 1) : Int × Int) matZP _ proj.cull ls) (topRad at_ t dir l) = .ok kk := by
    cases hcs with
    | cons h1 h2 => cases h2; exact ⟨_, rfl, h1⟩
  generalize hv : drawStart (initVis flEnv) ((1, 1) : Int × Int) matZP _ proj.cull ls = v at hkk hp
  have v1 : v.points = (seenTop s.facets).map V3.fl := by rw [← hv]; exact hpts
  have v2 : v.rotation = matZP := by rw [← hv]; rfl
  have hne : v.rotation.eqv flEnv.junkM = false := by
    rw [v2]
    exact (viewOf_bd (α := F64) (none : Option (Meta F64)) (by simp) matZP rfl).2.2.2
  obtain ⟨d1, d2⟩ := dimContent_items flEnv v (topRad at_ t dir l) hne
  have hgood : GoodDim (topRad at_ t dir l).kind (topRad at_ t dir l).metas := by
    simp only [topRad, GoodDim]; rw [exactly_def]; simp
  have hP := top_items v v1 v2 h3 at_ t dir l
  constructor
  · rw [hok]
    cases hl : locate (seenTop s.facets) (t.mulM matZP).xy with
    | none =>
      rw [hl] at hP
      obtain ⟨L, hL⟩ := d2 (Or.inr hP)
      rw [hkk] at hL
      injection hL with hL
      subst hL
      simp
    | some x =>
      rw [hl] at hP
      obtain ⟨L, hL⟩ := d1 _ hgood hP
      rw [hkk] at hL
      injection hL with hL
      subst hL
      simp
  · intro m r hl
    rw [hl] at hP
    obtain ⟨L, hL⟩ := d1 _ hgood hP
    rw [hkk] at hL
    injection hL with hL
    subst hL
    obtain ⟨item, hi, hs⟩ : ∃ item ∈ (OutPage.moved v.scale v.d (radItems FP.g6 v.scale ⟨(at_.mulM matZP).fl.xy, (dir.mulM matZP).fl.xy, (circFl (m, r)).1, (circFl (m, r)).2⟩)).text,
        item.str = c!"R" ++ FP.g6 (X64.fl R64 r) := ⟨_, List.mem_cons_self, rfl⟩
    refine ⟨item, ?_, hs⟩
    rw [hp]
    simp only [OutPage.app, List.mem_append]
    exact Or.inr ((mem_sum_text _).2 ⟨_, List.mem_cons_self, hi⟩)

end S2P
