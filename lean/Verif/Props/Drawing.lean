import Verif.Lemmas.Moved
import Verif.Lemmas.Pages
import Verif.Lemmas.Finite
import Verif.Lemmas.Sample
import Verif.Lemmas.RealSample
import Verif.Props.Points

set_option linter.unusedSectionVars false
set_option linter.unusedVariables false
set_option linter.unusedSimpArgs false

/-! # C38, C39, C57: one transform for everything a drawing adds; where the drawing is; how large it is -/

namespace S2P

section
variable {α : Type} [FP α]

theorem drawn_unique {E : Env α} {stl : Models α} {name : Str} {ms : List (Meta α)} {sc sc' : Int × Int} {rot rot' : M3 α} {loc loc' : V2 α}
    {file file' proj proj' : STLFile α} {ls ls' : List (Line α)} (h : Drawn E stl name ms sc rot loc file proj ls)
    (h' : Drawn E stl name ms sc' rot' loc' file' proj' ls') :
    sc = sc' ∧ rot = rot' ∧ loc = loc' ∧ file = file' ∧ proj = proj' ∧ ls = ls' := by
  have e1 := h.scale.symm.trans h'.scale
  have e2 := h.view.symm.trans h'.view
  have e3 := h.loc.symm.trans h'.loc
  injection e1 with e1; injection e2 with e2; injection e3 with e3
  obtain ⟨e, he, hf⟩ := h.model
  obtain ⟨e', he', hf'⟩ := h'.model
  rw [he] at he'; injection he' with he'; subst he'
  rw [hf] at hf'; injection hf' with hf'
  subst e2 hf'
  have e5 := h.turned.symm.trans h'.turned
  injection e5 with e5; subst e5
  have e6 := h.lines.symm.trans h'.lines
  injection e6 with e6
  exact ⟨e1, rfl, e3, rfl, rfl, e6⟩

/-- C38: what a dimension adds is one fixed set of items in model units, put on the page by the drawing's transform, wherever the
drawing is placed. -/
theorem C38_dimension (E : Env α) (v : Vis α) (d : DimN α) (hr : v.rotation.eqv E.junkM = false) : ∃ P, DrawsInModel E v d P := by
  by_cases hg : GoodDim d.kind d.metas
  · cases hi : drawnItems E v d.kind d.metas with
    | some P =>
      refine ⟨P, fun off => ?_⟩
      obtain ⟨L, e⟩ := (dimContent_items E { v with d := off } d hr).1 P hg (by rw [← hi]; rfl)
      exact ⟨_, _, e⟩
    | none =>
      refine ⟨OutPage.empty, fun off => ?_⟩
      obtain ⟨L, e⟩ := (dimContent_items E { v with d := off } d hr).2 (Or.inr (by rw [← hi]; rfl))
      exact ⟨_, _, e⟩
  · refine ⟨OutPage.empty, fun off => ?_⟩
    obtain ⟨L, e⟩ := (dimContent_items E { v with d := off } d hr).2 (Or.inl hg)
    exact ⟨_, _, e⟩

/-- C38: everything a drawing adds — the outline `ls`, then what each dimension draws in model units — is put on the page by one
transform: multiply by the scale, add one offset; radii are multiplied, arc angles and strings kept.  (The hypothesis excludes that
the uninitialised matrix happens to hold the view: see C53.) -/
theorem C38_drawing (E : Env α) (stl : Models α) (name : Str) (ms : List (Meta α)) (dims : List (DimN α)) (line : Nat) (c)
    (h : content E stl (.draw name ms dims line) = .ok c) (sc : Int × Int) (rot : M3 α) (loc : V2 α) (file proj : STLFile α)
    (ls : List (Line α)) (hd : Drawn E stl name ms sc rot loc file proj ls) (hj : rot.eqv E.junkM = false) :
    ∃ Ps, List.Forall₂ (DrawsInModel E (drawStart (initVis E) sc rot loc proj.cull ls)) dims Ps ∧
      c.2.1 = (OutPage.sum (OutPage.ofLines ls :: Ps)).moved (projScale sc) (projOffset loc proj.cull.limits (projScale sc)) := by
  rcases draw_sum E stl name ms dims line c h with ⟨-, -, -, hn⟩ | ⟨sc', rot', loc', file', proj', ls', cs, hd', hcs, hp, -⟩
  · exact absurd ⟨sc, rot, loc, file, proj, ls, hd⟩ hn
  obtain ⟨rfl, rfl, rfl, rfl, rfl, rfl⟩ := drawn_unique hd hd'
  rw [hp]
  clear hp h
  obtain ⟨Ps, f, e⟩ : ∃ Ps, List.Forall₂ (DrawsInModel E (drawStart (initVis E) sc rot loc proj.cull ls)) dims Ps ∧
      cs.map (fun k => k.2.1) = Ps.map (OutPage.moved (projScale sc) (projOffset loc proj.cull.limits (projScale sc))) := by
    induction hcs with
    | nil => exact ⟨[], .nil, rfl⟩
    | cons h1 _ ih =>
      obtain ⟨Ps, f, e⟩ := ih
      obtain ⟨P, hP⟩ := C38_dimension E (drawStart (initVis E) sc rot loc proj.cull ls) _ hj
      refine ⟨P :: Ps, .cons hP f, ?_⟩
      obtain ⟨ok, L, k⟩ := hP (projOffset loc proj.cull.limits (projScale sc))
      have k' := h1.symm.trans k
      injection k' with k'
      simp only [List.map_cons, e, k']
      rfl
  refine ⟨Ps, f, ?_⟩
  rw [e, moved_sum]
  simp only [List.map_cons, OutPage.sum]
  congr 1

/-- C38: earlier page content is kept in front, in order. -/
theorem C38_front (E : Env α) (stl : Models α) (v : Vis α) (d : Drawable α) (r) (h : visitDrawable E stl v d = .ok r) :
    ∃ c, content E stl d = .ok c ∧ r.2.2.page = v.page.app c.2.1 := by
  have := content_any E stl v d
  rw [h] at this
  cases hc : content E stl d with
  | error e => rw [hc] at this; cases this
  | ok c =>
    rw [hc] at this
    simp only [Except.map, Except.ok.injEq, Prod.mk.injEq] at this
    exact ⟨c, rfl, this.2.1⟩
end

/-! ## Exact geometry -/

section
variable {K : Type} [Field K] [LinearOrder K] [IsStrictOrderedRing K] [FloorRing K] [Trans K]

theorem projScale_fin (a b : Int) (hb : b ≠ 0) : (projScale (a, b) : Ext K) = .fin (72 * (a / b)) := by
  have : (((b : Rat) : K)) ≠ 0 := by simpa using hb
  simp only [projScale, Ext.f32_eq, Ext.lit_eq, Ext.fin_mul]
  rw [Ext.fin_div _ _ this]
  simp [mul_div_assoc]

theorem fin_moved (p d : V2 K) (s : K) : p.fin.moved (Ext.fin s) d.fin = (p.moved s d).fin := rfl

theorem limits_fin (s : STLFile (Ext K)) (h : ∀ p ∈ s.corners, V3.IsFin p) : ∃ lo hi : V2 K, s.limits = ⟨lo.fin, hi.fin⟩ := by
  by_cases hne : s.facets = []
  · exact ⟨⟨0, 0⟩, ⟨0, 0⟩, by rw [C20_limits_empty s hne]; simp [V2.map]⟩
  · obtain ⟨-, ⟨p, hp, e1⟩, ⟨q, hq, e2⟩, ⟨r, hr, e3⟩, ⟨t, ht, e4⟩⟩ := C20_limits s hne (by
      intro f hf
      have : ∀ p ∈ f.corners, V3.Ok p := by
        intro p hp
        obtain ⟨a, rfl⟩ := h p (List.mem_flatMap.mpr ⟨f, hf, hp⟩)
        exact V3.ok_fin a
      exact ⟨this _ (by simp [Facet.corners]), this _ (by simp [Facet.corners]), this _ (by simp [Facet.corners])⟩)
    obtain ⟨p, rfl⟩ := h p hp
    obtain ⟨q, rfl⟩ := h q hq
    obtain ⟨r, rfl⟩ := h r hr
    obtain ⟨t, rfl⟩ := h t ht
    refine ⟨⟨p.x, q.y⟩, ⟨r.x, t.y⟩, ?_⟩
    cases hl : s.limits with
    | mk o t' =>
      rw [hl] at e1 e2 e3 e4
      cases o; cases t'
      simp only at e1 e2 e3 e4
      subst e1 e2 e3 e4
      rfl
end

/-- facets of the viewed model have finite corners -/
theorem viewed_fin (file proj : STLFile (Ext ℝ)) (hmade : ∀ f ∈ file.facets, f.Made) (r : M3 ℝ) (hr : IsRotation r)
    (ht : file.rotate r.fin = .ok proj) : ∀ p ∈ proj.cull.corners, V3.IsFin p := by
  obtain ⟨s', ts, es, g1, g2, g3, -⟩ := C26_after_view file r hr (fun f hf => hmade f hf)
  rw [ht] at g1; injection g1 with g1; subst g1
  rw [g2]
  intro p hp
  obtain ⟨f, hf, hp⟩ := List.mem_flatMap.1 hp
  rw [g3] at hf
  obtain ⟨t, -, rfl⟩ := List.mem_map.1 hf
  simp only [Facet.corners, List.mem_cons, List.not_mem_nil, or_false] at hp
  rcases hp with rfl | rfl | rfl
  · exact ⟨_, rfl⟩
  · exact ⟨_, rfl⟩
  · exact ⟨_, rfl⟩

theorem locOf_fin {K : Type} [Field K] [LinearOrder K] [IsStrictOrderedRing K] [FloorRing K] [Trans K] (m : Option (Meta (Ext K)))
    (hf : ∀ x, m = some x → x.val.IsFin) (loc : V2 (Ext K)) (h : locOf m = .ok loc) : loc.IsFin := by
  unfold locOf at h
  cases m with
  | none => cases h; exact ⟨⟨0, 0⟩, by simp [V2.map]⟩
  | some m =>
    have hm := hf m rfl
    cases hv : m.val with
    | loc l =>
      rw [hv] at hm
      obtain ⟨a, rfl⟩ := hm
      simp only [hv, Except.ok.injEq] at h
      refine ⟨a.smul 72 + ⟨396, 306⟩, ?_⟩
      rw [← h]
      ext <;> simp [V2.map, V2.smul, pageCentre]
    | _ => simp [hv] at h

theorem projOffset_fin (loc lo hi : V2 ℝ) (s : ℝ) :
    projOffset loc.fin ⟨lo.fin, hi.fin⟩ (Ext.fin s) = (⟨loc.x - (lo.x + hi.x) / 2 * s, loc.y - (lo.y + hi.y) / 2 * s⟩ : V2 ℝ).fin := by
  unfold projOffset
  have : (FP.lit 2 : Ext ℝ) = Ext.fin 2 := by simp
  rw [this]
  simp only [V2.fin_add]
  rw [V2.fin_sdiv _ _ (by norm_num)]
  simp only [V2.fin_smul, V2.fin_sub]
  rfl

/-- C57: with scale a:b, b ≠ 0, everything drawn is a finite shift of the model-space items scaled by 72·a/b, so that page distances
are exactly 72·|a/b| times the distances in the view's plane. -/
theorem C57_distances (E : Env (Ext ℝ)) (hJ : E.NotAView) (stl : Models (Ext ℝ)) (hM : stl.Made) (name : Str) (ms : List (Meta (Ext ℝ)))
    (dims : List (DimN (Ext ℝ))) (line : Nat) (hf : ∀ m ∈ ms, m.val.IsFin) (c) (h : content E stl (.draw name ms dims line) = .ok c)
    (a b : Int) (hb : b ≠ 0) (rot : M3 (Ext ℝ)) (loc : V2 (Ext ℝ)) (file proj : STLFile (Ext ℝ)) (ls : List (Line (Ext ℝ)))
    (hd : Drawn E stl name ms (a, b) rot loc file proj ls) :
    ∃ (off : V2 ℝ) (Ps : List (OutPage (Ext ℝ))),
      List.Forall₂ (DrawsInModel E (drawStart (initVis E) (a, b) rot loc proj.cull ls)) dims Ps ∧
      c.2.1 = (OutPage.sum (OutPage.ofLines ls :: Ps)).moved (Ext.fin (72 * ((a : ℝ) / b))) off.fin ∧
      ∀ p q : V2 ℝ, ∃ p' q' : V2 ℝ, p.fin.moved (Ext.fin (72 * ((a : ℝ) / b))) off.fin = p'.fin ∧
        q.fin.moved (Ext.fin (72 * ((a : ℝ) / b))) off.fin = q'.fin ∧ dist p' q' = 72 * |(a : ℝ) / b| * dist p q := by
  obtain ⟨r, rfl, hr⟩ := viewOf_rotation _ (look_fin hf _) _ hd.view
  obtain ⟨Ps, f, e⟩ := C38_drawing E stl name ms dims line c h _ _ _ _ _ _ hd (hJ r hr)
  obtain ⟨en, hen, hfile⟩ := hd.model
  obtain ⟨file', hf', hmade⟩ := hM en (List.mem_of_find?_eq_some hen)
  rw [hfile] at hf'; injection hf' with hf'; subst hf'
  obtain ⟨lo, hi, hl⟩ := limits_fin proj.cull (viewed_fin file proj hmade r hr hd.turned)
  obtain ⟨l, rfl⟩ := locOf_fin _ (look_fin hf _) _ hd.loc
  rw [hl, projScale_fin a b hb, projOffset_fin] at e
  refine ⟨_, Ps, f, e, ?_⟩
  intro p q
  refine ⟨_, _, fin_moved _ _ _, fin_moved _ _ _, ?_⟩
  unfold dist dist2
  simp only [V2.moved]
  have : ∀ s x y z w dx dy : ℝ, (x * s + dx - (y * s + dx)) ^ 2 + (z * s + dy - (w * s + dy)) ^ 2 = s ^ 2 * ((x - y) ^ 2 + (z - w) ^ 2) := by
    intros; ring
  rw [this, Real.sqrt_mul (sq_nonneg _), Real.sqrt_sq_eq_abs, abs_mul]
  norm_num

/-- C39: a drawing placed with `@ [x,y]` at a positive scale has the centre of its bounding box — the smallest box around the corners of
the facets that face the viewer, on the page — at (396+72x, 306+72y). -/
theorem C39_centred (E : Env (Ext ℝ)) (hJ : E.NotAView) (stl : Models (Ext ℝ)) (hM : stl.Made) (name : Str) (ms : List (Meta (Ext ℝ)))
    (dims : List (DimN (Ext ℝ))) (line : Nat) (hf : ∀ m ∈ ms, m.val.IsFin) (c) (h : content E stl (.draw name ms dims line) = .ok c)
    (a b : Int) (hab : 0 < (a : ℝ) / b) (rot : M3 (Ext ℝ)) (loc : V2 (Ext ℝ)) (file proj : STLFile (Ext ℝ)) (ls : List (Line (Ext ℝ)))
    (hd : Drawn E stl name ms (a, b) rot loc file proj ls) (m : Meta (Ext ℝ)) (x y : ℝ) (hm : look ms c!"@" = some m)
    (hv : m.val = .loc (V2.fin ⟨x, y⟩)) (hne : proj.cull.facets ≠ []) :
    ∃ (off : V2 ℝ) (Ps : List (OutPage (Ext ℝ))) (corners : List (V3 ℝ)) (lo hi : V2 ℝ),
      List.Forall₂ (DrawsInModel E (drawStart (initVis E) (a, b) rot loc proj.cull ls)) dims Ps ∧
      c.2.1 = (OutPage.sum (OutPage.ofLines ls :: Ps)).moved (Ext.fin (72 * ((a : ℝ) / b))) off.fin ∧
      proj.cull.corners = corners.map V3.fin ∧
      IsBox (corners.map (fun p => p.xy.moved (72 * ((a : ℝ) / b)) off)) lo hi ∧
      (lo.x + hi.x) / 2 = 396 + 72 * x ∧ (lo.y + hi.y) / 2 = 306 + 72 * y := by
  have hb : b ≠ 0 := by rintro rfl; simp at hab
  obtain ⟨r, rfl, hr⟩ := viewOf_rotation _ (look_fin hf _) _ hd.view
  obtain ⟨Ps, f, e⟩ := C38_drawing E stl name ms dims line c h _ _ _ _ _ _ hd (hJ r hr)
  obtain ⟨en, hen, hfile⟩ := hd.model
  obtain ⟨file', hf', hmade⟩ := hM en (List.mem_of_find?_eq_some hen)
  rw [hfile] at hf'; injection hf' with hf'; subst hf'
  have hcf := viewed_fin file proj hmade r hr hd.turned
  obtain ⟨lo, hi, hl⟩ := limits_fin proj.cull hcf
  have hloc := hd.loc
  rw [hm] at hloc
  simp only [locOf, hv, Except.ok.injEq] at hloc
  have hl' : loc = (⟨396 + 72 * x, 306 + 72 * y⟩ : V2 ℝ).fin := by
    rw [← hloc]; ext <;> simp [V2.map, V2.smul, pageCentre] <;> ring
  subst hl'
  rw [hl, projScale_fin a b hb, projOffset_fin] at e
  obtain ⟨cs, hcs⟩ : ∃ cs : List (V3 ℝ), proj.cull.corners = cs.map V3.fin := by
    clear hl
    generalize proj.cull.corners = l at hcf
    induction l with
    | nil => exact ⟨[], rfl⟩
    | cons p l ih =>
      obtain ⟨q, rfl⟩ := hcf p (by simp)
      obtain ⟨cs, rfl⟩ := ih (fun p hp => hcf p (by simp [hp]))
      exact ⟨q :: cs, rfl⟩
  set s : ℝ := 72 * ((a : ℝ) / b) with hs
  have hspos : 0 < s := by positivity
  obtain ⟨i1, i2, i3, i4, i5⟩ := C20_limits proj.cull hne (by
      intro f hf
      have : ∀ p ∈ f.corners, V3.Ok p := by
        intro p hp
        obtain ⟨a, rfl⟩ := hcf p (List.mem_flatMap.mpr ⟨f, hf, hp⟩)
        exact V3.ok_fin a
      exact ⟨this _ (by simp [Facet.corners]), this _ (by simp [Facet.corners]), this _ (by simp [Facet.corners])⟩)
  rw [hl] at i1 i2 i3 i4 i5
  rw [hcs] at i2 i3 i4 i5
  refine ⟨_, Ps, cs, lo.moved s ⟨396 + 72 * x - (lo.x + hi.x) / 2 * s, 306 + 72 * y - (lo.y + hi.y) / 2 * s⟩,
    hi.moved s ⟨396 + 72 * x - (lo.x + hi.x) / 2 * s, 306 + 72 * y - (lo.y + hi.y) / 2 * s⟩, f, e, hcs, ?_, ?_, ?_⟩
  · refine ⟨?_, ?_, ?_, ?_, ?_⟩
    · intro p hp
      obtain ⟨q, hq, rfl⟩ := List.mem_map.1 hp
      have hq' : q.fin ∈ proj.cull.corners := by rw [hcs]; exact List.mem_map.mpr ⟨q, hq, rfl⟩
      obtain ⟨f, hf, hqf⟩ := List.mem_flatMap.1 hq'
      have := i1 f hf q.fin (by simpa [Facet.corners] using hqf)
      simp [V3.map, V2.map] at this
      obtain ⟨j1, j2, j3, j4⟩ := this
      simp only [V2.moved, V3.xy]
      refine ⟨?_, ?_, ?_, ?_⟩ <;> nlinarith
    · obtain ⟨p, hp, e⟩ := i2
      obtain ⟨q, hq, rfl⟩ := List.mem_map.1 hp
      refine ⟨_, List.mem_map.mpr ⟨q, hq, rfl⟩, ?_⟩
      simp [V3.map, V2.map] at e
      simp [V2.moved, V3.xy, e]
    · obtain ⟨p, hp, e⟩ := i4
      obtain ⟨q, hq, rfl⟩ := List.mem_map.1 hp
      refine ⟨_, List.mem_map.mpr ⟨q, hq, rfl⟩, ?_⟩
      simp [V3.map, V2.map] at e
      simp [V2.moved, V3.xy, e]
    · obtain ⟨p, hp, e⟩ := i3
      obtain ⟨q, hq, rfl⟩ := List.mem_map.1 hp
      refine ⟨_, List.mem_map.mpr ⟨q, hq, rfl⟩, ?_⟩
      simp [V3.map, V2.map] at e
      simp [V2.moved, V3.xy, e]
    · obtain ⟨p, hp, e⟩ := i5
      obtain ⟨q, hq, rfl⟩ := List.mem_map.1 hp
      refine ⟨_, List.mem_map.mpr ⟨q, hq, rfl⟩, ?_⟩
      simp [V3.map, V2.map] at e
      simp [V2.moved, V3.xy, e]
  · simp only [V2.moved]; ring
  · simp only [V2.moved]; ring

/-! ### The hypotheses can be met -/

/-- a triangle drawn at 1:2, placed with `@ [1,2]`: its box is centred at (468, 450), and distances are multiplied by 36 -/
example : ∃ (stl : Models (Ext ℝ)) (loc : V2 (Ext ℝ)) (file proj : STLFile (Ext ℝ)) (ls : List (Line (Ext ℝ)))
    (c : Bool × OutPage (Ext ℝ) × List Diag), stl.Made ∧ Drawn rEnv stl c!"m" rMetas (1, 2) matZP loc file proj ls ∧
    content rEnv stl (.draw c!"m" rMetas [] 1) = .ok c ∧ proj.cull.facets ≠ [] := real_drawn [] (by simp)
example : rEnv.NotAView ∧ (0 : ℝ) < ((1 : Int) : ℝ) / ((2 : Int) : ℝ) ∧ ((2 : Int) ≠ 0) ∧ (∀ m ∈ rMetas, m.val.IsFin) ∧
    ∃ m, look rMetas c!"@" = some m ∧ m.val = .loc (V2.fin ⟨1, 2⟩) :=
  ⟨rEnv_notAView, by norm_num, by decide, rMetas_fin, _, rfl, rfl⟩
/-- a drawing with a dimension, computed: the outline and then the lines of the dimension, all at 36 units per model unit -/
example : (content exEnv exModels exDraw).map (fun c => c.2.1.lines.take 3) =
    .ok [⟨V2.fin ⟨324, 252⟩, V2.fin ⟨468, 252⟩⟩, ⟨V2.fin ⟨324, 360⟩, V2.fin ⟨468, 252⟩⟩, ⟨V2.fin ⟨324, 252⟩, V2.fin ⟨324, 360⟩⟩] := by
  decide +kernel
example : (content exEnv exModels exDraw).map (fun c => c.2.1.text) = .ok [⟨V2.fin ⟨396, 216⟩, c!"4", true, false⟩] := by
  decide +kernel

end S2P
