import Verif.Lemmas.SnapAngle
import Verif.Props.AccuracyAngle
import Verif.Lemmas.RealSample

set_option linter.unusedSectionVars false
set_option linter.unusedVariables false
set_option linter.unusedSimpArgs false

/-! # C78: angles at points picked by `near`

[exact arithmetic] -/

namespace S2P

theorem pointOf_some {E : Env (Ext ℝ)} {v : Vis (Ext ℝ)} {j : Nat} {ms : List (Meta (Ext ℝ))} {n : Str} {x : V3 (Ext ℝ)} (h : pointOf E v j ms n = some x) :
    ∃ m e, look ms n = some m ∧ m.val = .pt e ∧ ((e.rot v.rotation).invoke E.junk v.points (E.junk j)).1 = true ∧
      x = ((e.rot v.rotation).invoke E.junk v.points (E.junk j)).2.1 := by
  unfold pointOf at h
  cases hl : look ms n with
  | none => rw [hl] at h; cases h
  | some m =>
    rw [hl] at h
    cases hv : m.val with
    | pt e =>
      simp only [hv] at h
      by_cases hc : ((e.rot v.rotation).invoke E.junk v.points (E.junk j)).1 = true
      · rw [if_pos hc] at h
        injection h with h
        exact ⟨m, e, rfl, hv, hc, h.symm⟩
      · rw [if_neg hc] at h; cases h
    | _ => simp only [hv] at h; cases h

/-- what is known of an angle in an accepted drawing -/
theorem angle_drawn (E : Env (Ext ℝ)) (hS : SortOK E.sorter) (hJ : E.NotAView) (stl : Models (Ext ℝ)) (hM : stl.Made) (name : Str) (ms : List (Meta (Ext ℝ)))
    (dims : List (DimN (Ext ℝ))) (line : Nat) (hf : (Drawable.draw name ms dims line).IsFin) (c)
    (h : content E stl (.draw name ms dims line) = .ok c) (hc : c.1 = true) (d : DimN (Ext ℝ)) (hd : d ∈ dims) (hk : d.kind = .angle)
    (hfd : look d.metas c!"from_dir" = none) (htd : look d.metas c!"to_dir" = none) (hn : ∀ m ∈ d.metas, ∀ e, m.val = .pt e → e.NearOnly)
    (g) (hg : formatOf E c!"%.1f" d.metas = some g) :
    ∃ (r : M3 ℝ) (file : STLFile (Ext ℝ)) (qs : List (V3 ℝ)) (rets : Str → V3 (Ext ℝ)), viewOf (look ms c!"view") = .ok r.fin ∧ IsRotation r ∧
      (∃ e, stl.find? (fun e => decide (e.1 = name)) = some e ∧ e.2 = some file) ∧ (∀ q, q ∈ qs ↔ ∃ v, SeenCorner r file v ∧ q = v.mulM r) ∧
      (∀ n ∈ [c!"apex", c!"from_point", c!"to_point"], ∃ m e, look d.metas n = some m ∧ m.val = .pt e ∧ e.IsFin ∧
        ((e.rot r.fin).invoke E.junk (qs.map V3.fin) (rets n)).1 = true) ∧
      ∀ x p q : V3 ℝ, (∀ m e, look d.metas c!"apex" = some m → m.val = .pt e → ((e.rot r.fin).invoke E.junk (qs.map V3.fin) (rets c!"apex")).2.1 = x.fin) →
        (∀ m e, look d.metas c!"from_point" = some m → m.val = .pt e → ((e.rot r.fin).invoke E.junk (qs.map V3.fin) (rets c!"from_point")).2.1 = p.fin) →
        (∀ m e, look d.metas c!"to_point" = some m → m.val = .pt e → ((e.rot r.fin).invoke E.junk (qs.map V3.fin) (rets c!"to_point")).2.1 = q.fin) →
        (∃ item ∈ c.2.1.text, item.str = g (.fin (degrees (angleBetween (p - x) (q - x)))) ++ c!" deg" ∧ item.center = true) ∧
        (dims = [d] → ∀ item ∈ c.2.1.text, item.str = g (.fin (degrees (angleBetween (p - x) (q - x)))) ++ c!" deg") := by
  rcases draw_sum E stl name ms dims line c h with ⟨h1, -⟩ | ⟨sc, rot, loc, file, proj, ls, cs, hD, hcs, hp, hok, -⟩
  · rw [h1] at hc; cases hc
  obtain ⟨r, rfl, hr⟩ := viewOf_rotation _ (look_fin hf.1 _) _ hD.view
  obtain ⟨en, hen, hfile⟩ := hD.model
  obtain ⟨file', hf', hmade⟩ := hM en (List.mem_of_find?_eq_some hen)
  rw [hfile] at hf'; injection hf' with hf'; subst hf'
  obtain ⟨qs, hqs, hq⟩ := points_seen E.sorter hS file proj hmade r hr hD.turned ls hD.lines
  have h0 : (drawStart (initVis E) sc r.fin loc proj.cull ls).page.text = [] := rfl
  generalize hv : drawStart (initVis E) sc r.fin loc proj.cull ls = v at *
  have hvr : v.rotation = r.fin := by rw [← hv]; rfl
  have hvp : v.points = qs.map V3.fin := by rw [← hv]; exact hqs
  have hvj : v.rotation.eqv E.junkM = false := by rw [hvr]; exact hJ r hr
  obtain ⟨k, hk2, hdk⟩ := forall₂_left_mem hcs hd
  have hkt := (hok.1 hc).1 k hk2
  obtain ⟨P, hP, hkP⟩ : ∃ P, drawnItems E v d.kind d.metas = some P ∧ k.2.1 = P.moved v.scale v.d := by
    by_cases hgd : GoodDim d.kind d.metas
    · cases hP : drawnItems E v d.kind d.metas with
      | some P =>
        obtain ⟨L, e⟩ := (dimContent_items E v d hvj).1 P hgd hP
        rw [hdk] at e; cases e
        exact ⟨P, rfl, rfl⟩
      | none =>
        obtain ⟨L, e⟩ := (dimContent_items E v d hvj).2 (Or.inr hP)
        rw [hdk] at e; cases e; cases hkt
    · obtain ⟨L, e⟩ := (dimContent_items E v d hvj).2 (Or.inl hgd)
      rw [hdk] at e; cases e; cases hkt
  rw [hk] at hP
  have hP' := hP
  simp only [drawnItems, bind, Option.bind_eq_some_iff] at hP
  obtain ⟨xa, ea, xx, ex, lf, ef, lt, et, -⟩ := hP
  unfold legOf at ef et
  rw [hfd] at ef
  rw [htd] at et
  simp only [Option.map_eq_some_iff] at ef et
  obtain ⟨xf, ef, -⟩ := ef
  obtain ⟨xt, et, -⟩ := et
  refine ⟨r, file, qs, fun n => if n = c!"apex" then E.junk 1 else if n = c!"from_point" then E.junk 3 else E.junk 5, hD.view, hr, ⟨en, hen, hfile⟩, hq, ?_, ?_⟩
  · intro n hn
    simp only [List.mem_cons, List.not_mem_nil, or_false] at hn
    have key : ∀ j x, pointOf E v j d.metas n = some x → ∃ m e, look d.metas n = some m ∧ m.val = .pt e ∧ e.IsFin ∧
        ((e.rot r.fin).invoke E.junk (qs.map V3.fin) (E.junk j)).1 = true := by
      intro j x hx
      obtain ⟨m, e, k1, k2, k3, -⟩ := pointOf_some hx
      refine ⟨m, e, k1, k2, ?_, by rw [← hvr, ← hvp]; exact k3⟩
      have := hf.2 d hd m (look_mem k1)
      rw [k2] at this
      exact this
    rcases hn with rfl | rfl | rfl
    · simpa using key 1 _ ex
    · simpa using key 3 _ ef
    · simpa using key 5 _ et
  · intro x p q hx hp' hq'
    obtain ⟨ma, e, k1, k2, k3, rfl⟩ := pointOf_some ea
    have hfin := hf.2 d hd ma (look_mem k1)
    rw [k2] at hfin
    rw [hvr, hvp] at k3
    obtain ⟨-, a, -, ha, -⟩ := invoke_picks hq e E.junk (E.junk 0) (hn ma (look_mem k1) e k2) hfin k3
    rw [hvr, hvp, ha] at ea
    obtain ⟨mx, e1, y1, y2, y3, rfl⟩ := pointOf_some ex
    obtain ⟨mf, e2, z1, z2, z3, rfl⟩ := pointOf_some ef
    obtain ⟨mt, e3, w1, w2, w3, rfl⟩ := pointOf_some et
    have hx' := hx mx e1 y1 y2
    have hp'' := hp' mf e2 z1 z2
    have hq'' := hq' mt e3 w1 w2
    simp at hx' hp'' hq''
    rw [hvr, hvp, hx'] at ex
    rw [hvr, hvp, hp''] at ef
    rw [hvr, hvp, hq''] at et
    have ht := angle_text E v d.metas a x p q g ea ex hfd htd ef et hg P hP'
    constructor
    · refine ⟨⟨a.xy.fin.moved v.scale v.d, g (.fin (degrees (angleBetween (p - x) (q - x)))) ++ c!" deg", true, false⟩, ?_, rfl, rfl⟩
      rw [hp]
      simp only [OutPage.app, List.mem_append]
      refine Or.inr ((mem_sum_text _).2 ⟨k.2.1, List.mem_map.2 ⟨_, hk2, rfl⟩, ?_⟩)
      rw [hkP]
      simp only [OutPage.moved, ht, List.map_cons, List.map_nil]
      exact List.mem_singleton.2 rfl
    · rintro rfl item hi
      cases hcs with
      | cons g1 g2 =>
        cases g2
        rw [hdk] at g1; cases g1
        rw [hp] at hi
        simp only [OutPage.app, List.mem_append, h0, List.not_mem_nil, false_or, mem_sum_text, List.map_cons, List.map_nil, List.mem_singleton, exists_eq_left] at hi
        rw [hkP] at hi
        simp only [OutPage.moved, ht, List.map_cons, List.map_nil, List.mem_singleton] at hi
        rw [hi]

/-- **C78** where it holds: the angle shown is the one in the model if none of the points picked has lost its depth. -/
theorem C78_true_partial (E : Env (Ext ℝ)) (hS : SortOK E.sorter) (hJ : E.NotAView) (stl : Models (Ext ℝ)) (hM : stl.Made) (name : Str) (ms : List (Meta (Ext ℝ)))
    (dims : List (DimN (Ext ℝ))) (line : Nat) (hf : (Drawable.draw name ms dims line).IsFin) (c)
    (h : content E stl (.draw name ms dims line) = .ok c) (hc : c.1 = true) (d : DimN (Ext ℝ)) (hd : d ∈ dims) (hk : d.kind = .angle)
    (hfd : look d.metas c!"from_dir" = none) (htd : look d.metas c!"to_dir" = none) (hn : ∀ m ∈ d.metas, ∀ e, m.val = .pt e → e.NearOnly)
    (g) (hg : formatOf E c!"%.1f" d.metas = some g)
    (keeps : ∀ r file, viewOf (look ms c!"view") = .ok r.fin → (∃ e, stl.find? (fun e => decide (e.1 = name)) = some e ∧ e.2 = some file) →
      ∀ n ∈ [c!"apex", c!"from_point", c!"to_point"], ∀ m e, look d.metas n = some m → m.val = .pt e → e.Keeps r file) :
    ∃ (r : M3 ℝ) (file : STLFile (Ext ℝ)) (x p q : V3 ℝ), viewOf (look ms c!"view") = .ok r.fin ∧
      (∃ e, stl.find? (fun e => decide (e.1 = name)) = some e ∧ e.2 = some file) ∧
      PicksAt r file d.metas c!"apex" x ∧ PicksAt r file d.metas c!"from_point" p ∧ PicksAt r file d.metas c!"to_point" q ∧
      ∃ item ∈ c.2.1.text, item.str = g (.fin (degrees (angleBetween (p - x) (q - x)))) ++ c!" deg" ∧ item.center = true := by
  obtain ⟨r, file, qs, rets, h1, hr, h2, hq, h3, h4⟩ := angle_drawn E hS hJ stl hM name ms dims line hf c h hc d hd hk hfd htd hn g hg
  have one : ∀ n ∈ [c!"apex", c!"from_point", c!"to_point"], ∃ v, PicksAt r file d.metas n v ∧
      ∀ m e, look d.metas n = some m → m.val = .pt e → ((e.rot r.fin).invoke E.junk (qs.map V3.fin) (rets n)).2.1 = (v.mulM r).fin := by
    intro n hn
    obtain ⟨m, e, k1, k2, k3, k4⟩ := h3 n hn
    obtain ⟨v, e1, e2⟩ := invoke_keeps hr hq e (keeps r file h1 h2 n hn m e k1 k2) k3 E.junk (rets n) k4
    refine ⟨v, ⟨m, e, k1, k2, e1⟩, ?_⟩
    intro m' e' k1' k2'
    rw [k1] at k1'; cases k1'
    rw [k2] at k2'; cases k2'
    exact e2
  obtain ⟨x, x1, x2⟩ := one c!"apex" (by simp)
  obtain ⟨p, p1, p2⟩ := one c!"from_point" (by simp)
  obtain ⟨q, q1, q2⟩ := one c!"to_point" (by simp)
  obtain ⟨⟨item, i1, i2, i3⟩, -⟩ := h4 _ _ _ x2 p2 q2
  refine ⟨r, file, x, p, q, h1, h2, x1, p1, q1, item, i1, ?_, i3⟩
  rw [i2, ← rot_sub, ← rot_sub]
  have : angleBetween ((p - x).mulM r) ((q - x).mulM r) = angleBetween (p - x) (q - x) := by
    unfold angleBetween
    rw [rot_len hr, rot_len hr]
    have := rot_dot hr (p - x) (q - x)
    simp only [V3.dot] at this
    rw [this]
  rw [this]

/-- **C78** in the usual case that no point given is exactly a corner seen: the angle shown is the one between the corners picked as it appears on the page. -/
theorem C78_seen_partial (E : Env (Ext ℝ)) (hS : SortOK E.sorter) (hJ : E.NotAView) (stl : Models (Ext ℝ)) (hM : stl.Made) (name : Str) (ms : List (Meta (Ext ℝ)))
    (dims : List (DimN (Ext ℝ))) (line : Nat) (hf : (Drawable.draw name ms dims line).IsFin) (c)
    (h : content E stl (.draw name ms dims line) = .ok c) (hc : c.1 = true) (d : DimN (Ext ℝ)) (hd : d ∈ dims) (hk : d.kind = .angle)
    (hfd : look d.metas c!"from_dir" = none) (htd : look d.metas c!"to_dir" = none) (hn : ∀ m ∈ d.metas, ∀ e, m.val = .pt e → e.NearOnly)
    (g) (hg : formatOf E c!"%.1f" d.metas = some g)
    (beside : ∀ r file, viewOf (look ms c!"view") = .ok r.fin → (∃ e, stl.find? (fun e => decide (e.1 = name)) = some e ∧ e.2 = some file) →
      ∀ n ∈ [c!"apex", c!"from_point", c!"to_point"], ∀ m e, look d.metas n = some m → m.val = .pt e → e.Beside r file) :
    ∃ (r : M3 ℝ) (file : STLFile (Ext ℝ)) (x p q : V3 ℝ), viewOf (look ms c!"view") = .ok r.fin ∧
      (∃ e, stl.find? (fun e => decide (e.1 = name)) = some e ∧ e.2 = some file) ∧
      PicksAt r file d.metas c!"apex" x ∧ PicksAt r file d.metas c!"from_point" p ∧ PicksAt r file d.metas c!"to_point" q ∧
      ∃ item ∈ c.2.1.text, item.str = g (.fin (degrees (angleBetween (p.onPage r - x.onPage r) (q.onPage r - x.onPage r)))) ++ c!" deg" ∧
        item.center = true := by
  obtain ⟨r, file, qs, rets, h1, hr, h2, hq, h3, h4⟩ := angle_drawn E hS hJ stl hM name ms dims line hf c h hc d hd hk hfd htd hn g hg
  have one : ∀ n ∈ [c!"apex", c!"from_point", c!"to_point"], ∃ v, PicksAt r file d.metas n v ∧
      ∀ m e, look d.metas n = some m → m.val = .pt e → ((e.rot r.fin).invoke E.junk (qs.map V3.fin) (rets n)).2.1 = (v.onPage r).fin := by
    intro n hn
    obtain ⟨m, e, k1, k2, k3, k4⟩ := h3 n hn
    obtain ⟨v, e1, e2⟩ := invoke_beside hr hq e (beside r file h1 h2 n hn m e k1 k2) E.junk (rets n) k4
    refine ⟨v, ⟨m, e, k1, k2, e1⟩, ?_⟩
    intro m' e' k1' k2'
    rw [k1] at k1'; cases k1'
    rw [k2] at k2'; cases k2'
    exact e2
  obtain ⟨x, x1, x2⟩ := one c!"apex" (by simp)
  obtain ⟨p, p1, p2⟩ := one c!"from_point" (by simp)
  obtain ⟨q, q1, q2⟩ := one c!"to_point" (by simp)
  obtain ⟨⟨item, i1, i2, i3⟩, -⟩ := h4 _ _ _ x2 p2 q2
  exact ⟨r, file, x, p, q, h1, h2, x1, p1, q1, item, i1, i2, i3⟩

/-! ## The claim is false in general -/

/-- an angle between corners picked by three points -/
noncomputable def angleDim (x p q : V3 ℝ) : DimN (Ext ℝ) := ⟨.angle, [⟨c!"at", .pt (.val (V3.fin ⟨1, 1, 1⟩) 1), 1⟩, ⟨c!"apex", .pt (.func c!"near" (.val x.fin 1) 1), 1⟩,
  ⟨c!"from_point", .pt (.func c!"near" (.val p.fin 1) 1), 1⟩, ⟨c!"to_point", .pt (.func c!"near" (.val q.fin 1) 1), 1⟩], 1⟩

theorem angleDim_fin (x p q : V3 ℝ) : (Drawable.draw c!"m" [] [angleDim x p q] 1).IsFin := by
  refine ⟨by simp, ?_⟩
  intro d hd
  simp only [List.mem_singleton] at hd
  subst hd
  intro m hm
  simp only [angleDim, List.mem_cons, List.not_mem_nil, or_false] at hm
  rcases hm with rfl | rfl | rfl | rfl <;> exact ⟨_, rfl⟩

theorem angleDim_near (x p q : V3 ℝ) : ∀ m ∈ (angleDim x p q).metas, ∀ e, m.val = .pt e → e.NearOnly := by
  intro m hm e he
  simp only [angleDim, List.mem_cons, List.not_mem_nil, or_false] at hm
  rcases hm with rfl | rfl | rfl | rfl <;> injection he with he <;> subst he <;> simp [Pt.NearOnly]

/-- a right angle, at the exact corner (0, 0, 1), to corners picked by points beside them -/
noncomputable def tiltDim : DimN (Ext ℝ) := angleDim ⟨0, 0, 1⟩ ⟨9 / 10, 1 / 10, 1⟩ ⟨1 / 10, 9 / 10, 1⟩

/-- a way to print that tells a right angle from others -/
noncomputable def tiltFormat (y : Ext ℝ) : Str := by
  classical exact if y = .fin (degrees (Real.pi / 2)) then c!"a" else c!"b"

noncomputable def tiltEnv : Env (Ext ℝ) := { rEnv with fmtF := fun _ => some tiltFormat }

theorem matZP_same {r : M3 ℝ} (hr : r.fin = matZP) (v : V3 ℝ) : v.mulM r = v := by
  have e : (v.mulM r).fin = v.fin := by
    rw [← V3.fin_mulM, hr]
    ext <;> simp [V3.mulM, matZP, ptX, ptY, ptZ, V3.map]
  simpa [V3.fin, V3.map, V3.ext_iff] using e

/-- a triangle with a right angle, parallel to the page and not in it -/
theorem tilt_file (r : M3 ℝ) (hr : r.fin = matZP) : ∃ file : STLFile (Ext ℝ), (∀ f ∈ file.facets, f.Made) ∧
    ∀ v, SeenCorner r file v ↔ v = ⟨0, 0, 1⟩ ∨ v = ⟨1, 0, 1⟩ ∨ v = ⟨0, 1, 1⟩ := by
  obtain ⟨N, e0, e2, k0, h1, -, -, -, -, ⟨k, hk, hN⟩, hpos, -, -, -, hor⟩ := C16_facet ⟨0, 0, 1⟩ ⟨0, 0, 1⟩ ⟨1, 0, 1⟩ ⟨0, 1, 1⟩ (by
    simp [V3.cross])
  have hz : 0 < N.z := by
    have hpos' : 0 ≤ N.z := by simpa [V3.dot] using hpos
    rcases hor with ⟨rfl, rfl⟩ | ⟨rfl, rfl⟩
    · have := congrArg V3.z hN
      simp [V3.cross, V3.smul] at this
      nlinarith
    · have := congrArg V3.z hN
      simp [V3.cross, V3.smul] at this
      nlinarith
  have hT : (⟨N.fin, e0.fin, V3.fin ⟨1, 0, 1⟩, e2.fin, Ext.fin k0⟩ : Facet (Ext ℝ)) = (⟨N, e0, ⟨1, 0, 1⟩, e2, k0⟩ : Tri ℝ).fin := rfl
  refine ⟨⟨[⟨N.fin, e0.fin, V3.fin ⟨1, 0, 1⟩, e2.fin, Ext.fin k0⟩], [], [], 0⟩, ?_, ?_⟩
  · intro f hf
    simp only [List.mem_singleton] at hf
    subst hf
    exact ⟨_, _, _, _, h1⟩
  · intro v
    unfold SeenCorner
    simp only [matZP_same hr, List.mem_singleton]
    constructor
    · rintro ⟨T, e, -, hv⟩
      obtain rfl := tri_fin_inj (e.trans hT)
      simp only [Tri.corners, List.mem_cons, List.not_mem_nil, or_false] at hv
      rcases hor with ⟨rfl, rfl⟩ | ⟨rfl, rfl⟩
      · exact hv
      · rcases hv with h | h | h
        · exact Or.inr (Or.inr h)
        · exact Or.inr (Or.inl h)
        · exact Or.inl h
    · intro hv
      refine ⟨⟨N, e0, ⟨1, 0, 1⟩, e2, k0⟩, hT, hz, ?_⟩
      simp only [Tri.corners, List.mem_cons, List.not_mem_nil, or_false]
      rcases hor with ⟨rfl, rfl⟩ | ⟨rfl, rfl⟩
      · exact hv
      · rcases hv with h | h | h
        · exact Or.inr (Or.inr h)
        · exact Or.inr (Or.inl h)
        · exact Or.inl h

/-- which corners are picked -/
theorem tilt_nearest {r : M3 ℝ} (hr : r.fin = matZP) {file : STLFile (Ext ℝ)}
    (hs : ∀ v, SeenCorner r file v ↔ v = ⟨0, 0, 1⟩ ∨ v = ⟨1, 0, 1⟩ ∨ v = ⟨0, 1, 1⟩) (v : V3 ℝ) :
    (NearestCorner r file ⟨0, 0, 1⟩ v → v = ⟨0, 0, 1⟩) ∧ (NearestCorner r file ⟨9 / 10, 1 / 10, 1⟩ v → v = ⟨1, 0, 1⟩) ∧
    (NearestCorner r file ⟨1 / 10, 9 / 10, 1⟩ v → v = ⟨0, 1, 1⟩) := by
  unfold NearestCorner seenDist2
  simp only [matZP_same hr, hs]
  refine ⟨?_, ?_, ?_⟩
  · rintro ⟨h1, h2⟩
    have := h2 ⟨0, 0, 1⟩ (Or.inl rfl)
    rcases h1 with rfl | rfl | rfl
    · rfl
    · norm_num [pageDist2] at this
    · norm_num [pageDist2] at this
  · rintro ⟨h1, h2⟩
    have := h2 ⟨1, 0, 1⟩ (Or.inr (Or.inl rfl))
    rcases h1 with rfl | rfl | rfl
    · norm_num [pageDist2] at this
    · rfl
    · norm_num [pageDist2] at this
  · rintro ⟨h1, h2⟩
    have := h2 ⟨0, 1, 1⟩ (Or.inr (Or.inr rfl))
    rcases h1 with rfl | rfl | rfl
    · norm_num [pageDist2] at this
    · norm_num [pageDist2] at this
    · rfl

theorem picks_near {r : M3 ℝ} {file : STLFile (Ext ℝ)} {e : Pt (Ext ℝ)} {v : V3 ℝ} (h : Picks r file e v) : ∀ (p : V3 ℝ) (l l' : Nat),
    e = .func c!"near" (.val p.fin l) l' → NearestCorner r file p v := by
  cases h with
  | literal p l' => intro u l l'' he; cases he
  | near e l p v h1 h2 =>
    intro u l l'' he
    injection he with _ he _
    rw [← picks_literal h1 u _ he]
    exact h2

theorem sixty : angleBetween ((⟨1, 0, 0⟩ : V3 ℝ) - ⟨0, 0, 1⟩) (⟨0, 1, 0⟩ - ⟨0, 0, 1⟩) ≠ Real.pi / 2 := by
  unfold angleBetween
  intro h
  rw [Real.arccos_eq_pi_div_two] at h
  have h2 : (0 : ℝ) < Real.sqrt 2 := by positivity
  norm_num [len3] at h

theorem ninety : angleBetween ((⟨1, 0, 1⟩ : V3 ℝ) - ⟨0, 0, 1⟩) (⟨0, 1, 1⟩ - ⟨0, 0, 1⟩) = Real.pi / 2 := by
  unfold angleBetween
  rw [Real.arccos_eq_pi_div_two]
  simp

/-- the values of the three expressions -/
theorem tilt_values {r : M3 ℝ} (hr : IsRotation r) (hz : r.fin = matZP) {file : STLFile (Ext ℝ)}
    (hs : ∀ v, SeenCorner r file v ↔ v = ⟨0, 0, 1⟩ ∨ v = ⟨1, 0, 1⟩ ∨ v = ⟨0, 1, 1⟩) {qs : List (V3 ℝ)}
    (hq : ∀ q, q ∈ qs ↔ ∃ v, SeenCorner r file v ∧ q = v.mulM r) (junk : Nat → V3 (Ext ℝ)) (ret : V3 (Ext ℝ)) :
    (((Pt.func c!"near" (.val (V3.fin ⟨0, 0, 1⟩) 1) 1).rot r.fin).invoke junk (qs.map V3.fin) ret).2.1 = V3.fin ⟨0, 0, 1⟩ ∧
    (((Pt.func c!"near" (.val (V3.fin ⟨9 / 10, 1 / 10, 1⟩) 1) 1).rot r.fin).invoke junk (qs.map V3.fin) ret).2.1 = V3.fin ⟨1, 0, 0⟩ ∧
    (((Pt.func c!"near" (.val (V3.fin ⟨1 / 10, 9 / 10, 1⟩) 1) 1).rot r.fin).invoke junk (qs.map V3.fin) ret).2.1 = V3.fin ⟨0, 1, 0⟩ ∧
    ∀ (p : V3 ℝ), (((Pt.func c!"near" (.val p.fin 1) 1).rot r.fin).invoke junk (qs.map V3.fin) ret).1 = true := by
  have hne : qs ≠ [] := List.ne_nil_of_mem ((hq _).2 ⟨⟨0, 0, 1⟩, (hs _).2 (Or.inl rfl), rfl⟩)
  have hok : ∀ (p : V3 ℝ), (((Pt.func c!"near" (.val p.fin 1) 1).rot r.fin).invoke junk (qs.map V3.fin) ret).1 = true := by
    intro p
    rw [Pt.rot, (C08_succeeds junk (qs.map V3.fin) _ 1 ret (by simpa using hne)).1]
    rfl
  refine ⟨?_, ?_, ?_, hok⟩
  · rw [(near_literal hr hq ⟨0, 0, 1⟩ 1 1 junk ret (hok _)).1 ((hs _).2 (Or.inl rfl)), matZP_same hz]
  · obtain ⟨v, h1, h2⟩ := (near_literal hr hq ⟨9 / 10, 1 / 10, 1⟩ 1 1 junk ret (hok _)).2 (by rw [hs]; norm_num)
    rw [h2, (tilt_nearest hz hs v).2.1 h1, V3.onPage, matZP_same hz]
  · obtain ⟨v, h1, h2⟩ := (near_literal hr hq ⟨1 / 10, 9 / 10, 1⟩ 1 1 junk ret (hok _)).2 (by rw [hs]; norm_num)
    rw [h2, (tilt_nearest hz hs v).2.2 h1, V3.onPage, matZP_same hz]

/-- such an angle is drawn, if its legs are not parallel on the page -/
theorem angleDim_accepted (x p q x' p' q' : V3 ℝ) {r : M3 ℝ} (hr : IsRotation r) (e : r.fin = matZP) {file : STLFile (Ext ℝ)} (hmade : ∀ f ∈ file.facets, f.Made)
    (hs : ∀ v, SeenCorner r file v ↔ v = ⟨0, 0, 1⟩ ∨ v = ⟨1, 0, 1⟩ ∨ v = ⟨0, 1, 1⟩)
    (hval : IsRotation r → (∀ v, SeenCorner r file v ↔ v = ⟨0, 0, 1⟩ ∨ v = ⟨1, 0, 1⟩ ∨ v = ⟨0, 1, 1⟩) → ∀ {qs : List (V3 ℝ)},
      (∀ q, q ∈ qs ↔ ∃ v, SeenCorner r file v ∧ q = v.mulM r) → ∀ junk ret,
      (((Pt.func c!"near" (.val x.fin 1) 1).rot r.fin).invoke junk (qs.map V3.fin) ret).2.1 = x'.fin ∧
      (((Pt.func c!"near" (.val p.fin 1) 1).rot r.fin).invoke junk (qs.map V3.fin) ret).2.1 = p'.fin ∧
      (((Pt.func c!"near" (.val q.fin 1) 1).rot r.fin).invoke junk (qs.map V3.fin) ret).2.1 = q'.fin)
    (hne : (p' - x').x * (q' - x').y - (p' - x').y * (q' - x').x ≠ 0) (c)
    (hc : content tiltEnv [(c!"m", some file)] (.draw c!"m" [] [angleDim x p q] 1) = .ok c) : c.1 = true := by
  have hJ : tiltEnv.NotAView := rEnv_notAView
  obtain ⟨proj, ls, hD⟩ := drawn_exists tiltEnv insSorter_ok [(c!"m", some file)] c!"m" [] (by simp) (by simp) (1, 1) rfl matZP rfl _ rfl file ⟨_, rfl, rfl⟩ hmade
  rcases draw_sum tiltEnv _ c!"m" [] [angleDim x p q] 1 c hc with ⟨-, -, -, h1⟩ | ⟨sc', rot', loc', file', proj', ls', cs, hD', hcs, hp, hok, -⟩
  · exact absurd ⟨_, _, _, _, _, _, hD⟩ h1
  obtain ⟨rfl, rfl, rfl, rfl, rfl, rfl⟩ := drawn_unique hD hD'
  refine hok.2 ⟨?_, by simp⟩
  intro k hk
  obtain ⟨d, hd, hdk⟩ := forall₂_right hcs k hk
  simp only [List.mem_singleton] at hd
  subst hd
  rw [← e] at hdk
  obtain ⟨qs, hqs, hq⟩ := points_seen tiltEnv.sorter insSorter_ok file proj hmade r hr (by rw [e]; exact hD.turned) ls hD.lines
  generalize hv : drawStart (initVis tiltEnv) (1, 1) r.fin _ proj.cull ls = v at hdk
  have hvr : v.rotation = r.fin := by rw [← hv]; rfl
  have hvp : v.points = qs.map V3.fin := by rw [← hv]; exact hqs
  have h4 : ∀ p ret, _ := fun p ret => (tilt_values hr e hs hq tiltEnv.junk ret).2.2.2 p
  have pa : pointOf tiltEnv v 0 (angleDim x p q).metas c!"at" = some (V3.fin ((⟨1, 1, 1⟩ : V3 ℝ).mulM r)) := by
    rw [← V3.fin_mulM, ← hvr]; rfl
  have px : pointOf tiltEnv v 1 (angleDim x p q).metas c!"apex" = some x'.fin := by
    rw [← (hval hr hs hq tiltEnv.junk (tiltEnv.junk 1)).1, ← hvr, ← hvp]; exact if_pos (by rw [hvr, hvp]; exact h4 _ _)
  have pf : pointOf tiltEnv v 3 (angleDim x p q).metas c!"from_point" = some p'.fin := by
    rw [← (hval hr hs hq tiltEnv.junk (tiltEnv.junk 3)).2.1, ← hvr, ← hvp]; exact if_pos (by rw [hvr, hvp]; exact h4 _ _)
  have pt : pointOf tiltEnv v 5 (angleDim x p q).metas c!"to_point" = some q'.fin := by
    rw [← (hval hr hs hq tiltEnv.junk (tiltEnv.junk 5)).2.2, ← hvr, ← hvp]; exact if_pos (by rw [hvr, hvp]; exact h4 _ _)
  obtain ⟨P, hP⟩ := angle_accepts tiltEnv v (angleDim x p q).metas _ _ _ _ tiltFormat pa px rfl rfl pf pt rfl hne
  obtain ⟨L, e'⟩ := (dimContent_items tiltEnv v (angleDim x p q) (by rw [hvr]; exact hJ r hr)).1 P (by
    simp only [angleDim, GoodDim]; rw [exactly_def]; simp [Has]) hP
  rw [hdk] at e'
  injection e' with e'
  rw [e']

/-- **C78** is false of the code: `near` keeps the depth of a corner only if it is given exactly, so at an exact apex 60 degrees are shown instead of 90. -/
theorem C78_false : ¬ AnglesTrue := by
  intro hall
  obtain ⟨r, e, hr⟩ := viewOf_rotation none (by simp) matZP rfl
  obtain ⟨file, hmade, hs⟩ := tilt_file r e.symm
  have hM : Models.Made (K := ℝ) [(c!"m", some file)] := by
    intro e he
    simp only [List.mem_singleton] at he
    subst he
    exact ⟨file, rfl, hmade⟩
  have hJ : tiltEnv.NotAView := rEnv_notAView
  have hfin : (Drawable.draw c!"m" [] [tiltDim] 1).IsFin := angleDim_fin _ _ _
  have hat : (Drawable.draw c!"m" ([] : List (Meta (Ext ℝ))) [tiltDim] 1).AtLoc := by intro m hm; simp at hm
  obtain ⟨c, hc⟩ := content_ok tiltEnv insSorter_ok hJ [(c!"m", some file)] hM (.draw c!"m" [] [tiltDim] 1) hfin hat
  have hg : formatOf tiltEnv c!"%.1f" tiltDim.metas = some tiltFormat := rfl
  have hno : ∀ m ∈ tiltDim.metas, ∀ e, m.val = .pt e → e.NearOnly := angleDim_near _ _ _
  have ok : c.1 = true := angleDim_accepted _ _ _ ⟨0, 0, 1⟩ ⟨1, 0, 0⟩ ⟨0, 1, 0⟩ hr e.symm hmade hs (fun hr hs qs hq junk ret => by
    obtain ⟨h1, h2, h3, -⟩ := tilt_values hr e.symm hs hq junk ret
    exact ⟨h1, h2, h3⟩) (by simp) c hc
  have hu : ∀ r2 : M3 ℝ, viewOf (look ([] : List (Meta (Ext ℝ))) c!"view") = .ok r2.fin → r2.fin = matZP := by
    intro r2 h
    injection h with h
    exact h.symm
  have hfile : ∀ f : STLFile (Ext ℝ), (∃ e, [(c!"m", some file)].find? (fun e => decide (e.1 = c!"m")) = some e ∧ e.2 = some f) → f = file := by
    rintro f ⟨e, h1, h2⟩
    simp at h1
    subst h1
    simpa using h2.symm
  have hr2 : ∀ r2 : M3 ℝ, r2.fin = matZP → r2 = r := by
    intro r2 h
    have := h.trans e
    simpa [M3.fin, M3.map, V3.fin, V3.map, M3.ext_iff, V3.ext_iff] using this
  obtain ⟨r2, f2, x, p, q, a1, a2, ⟨mx, ex, x1, x2, x3⟩, ⟨mp, ep, p1, p2, p3⟩, ⟨mq, eq, q1, q2, q3⟩, item, i1, i2⟩ :=
    hall tiltEnv insSorter_ok hJ _ hM c!"m" [] [tiltDim] 1 hfin hat c hc ok tiltDim (by simp) rfl rfl rfl hno tiltFormat hg
  obtain rfl := hfile f2 a2
  obtain rfl := hr2 r2 (hu r2 a1)
  have ex' : x = ⟨0, 0, 1⟩ := by
    cases x1; cases x2
    exact (tilt_nearest e.symm hs x).1 (picks_near x3 _ _ _ rfl)
  have ep' : p = ⟨1, 0, 1⟩ := by
    cases p1; cases p2
    exact (tilt_nearest e.symm hs p).2.1 (picks_near p3 _ _ _ rfl)
  have eq' : q = ⟨0, 1, 1⟩ := by
    cases q1; cases q2
    exact (tilt_nearest e.symm hs q).2.2 (picks_near q3 _ _ _ rfl)
  subst ex' ep' eq'
  rw [ninety] at i2
  obtain ⟨r3, f3, qs, rets, h1, hr3, h2, hq, h3, h4⟩ := angle_drawn tiltEnv insSorter_ok hJ _ hM c!"m" [] [tiltDim] 1 hfin c hc ok tiltDim (by simp) rfl rfl rfl
    hno tiltFormat hg
  obtain rfl := hfile f3 h2
  obtain rfl := hr2 r3 (hu r3 h1)
  obtain ⟨-, h5⟩ := h4 ⟨0, 0, 1⟩ ⟨1, 0, 0⟩ ⟨0, 1, 0⟩
    (by intro m e' k1 k2; cases k1; cases k2; exact (tilt_values hr e.symm hs hq _ _).1)
    (by intro m e' k1 k2; cases k1; cases k2; exact (tilt_values hr e.symm hs hq _ _).2.1)
    (by intro m e' k1 k2; cases k1; cases k2; exact (tilt_values hr e.symm hs hq _ _).2.2.1)
  have h6 := h5 rfl item i1
  rw [i2] at h6
  have e1 : tiltFormat (.fin (degrees (Real.pi / 2))) = c!"a" := by unfold tiltFormat; rw [if_pos rfl]
  have e2 : tiltFormat (.fin (degrees (angleBetween ((⟨1, 0, 0⟩ : V3 ℝ) - ⟨0, 0, 1⟩) (⟨0, 1, 0⟩ - ⟨0, 0, 1⟩)))) = c!"b" := by
    unfold tiltFormat
    rw [if_neg]
    intro h
    simp only [Ext.fin_inj, degrees] at h
    apply sixty
    have := Real.pi_pos
    field_simp at h
    linarith
  rw [e1, e2] at h6
  simp at h6

/-! ## The premises can be met -/

/-- between exact corners the angle is right -/
example : ∃ (file : STLFile (Ext ℝ)) (c : Bool × OutPage (Ext ℝ) × List Diag), Models.Made [(c!"m", some file)] ∧
    content tiltEnv [(c!"m", some file)] (.draw c!"m" [] [angleDim ⟨0, 0, 1⟩ ⟨1, 0, 1⟩ ⟨0, 1, 1⟩] 1) = .ok c ∧ c.1 = true ∧
    (∃ item ∈ c.2.1.text, item.str = tiltFormat (.fin (degrees (Real.pi / 2))) ++ c!" deg") := by
  obtain ⟨r, e, hr⟩ := viewOf_rotation none (by simp) matZP rfl
  obtain ⟨file, hmade, hs⟩ := tilt_file r e.symm
  have hM : Models.Made (K := ℝ) [(c!"m", some file)] := by
    intro e he
    simp only [List.mem_singleton] at he
    subst he
    exact ⟨file, rfl, hmade⟩
  obtain ⟨c, hc⟩ := content_ok tiltEnv insSorter_ok rEnv_notAView [(c!"m", some file)] hM (.draw c!"m" [] [angleDim ⟨0, 0, 1⟩ ⟨1, 0, 1⟩ ⟨0, 1, 1⟩] 1)
    (angleDim_fin _ _ _) (by intro m hm; simp at hm)
  have ok : c.1 = true := angleDim_accepted _ _ _ ⟨0, 0, 1⟩ ⟨1, 0, 1⟩ ⟨0, 1, 1⟩ hr e.symm hmade hs (fun hr hs qs hq junk ret => by
    have hok := (tilt_values hr e.symm hs hq junk ret).2.2.2
    refine ⟨?_, ?_, ?_⟩
    · rw [(near_literal hr hq ⟨0, 0, 1⟩ 1 1 junk ret (hok _)).1 ((hs _).2 (by simp)), matZP_same e.symm]
    · rw [(near_literal hr hq ⟨1, 0, 1⟩ 1 1 junk ret (hok _)).1 ((hs _).2 (by simp)), matZP_same e.symm]
    · rw [(near_literal hr hq ⟨0, 1, 1⟩ 1 1 junk ret (hok _)).1 ((hs _).2 (by simp)), matZP_same e.symm]) (by simp) c hc
  have same : ∀ (r2 : M3 ℝ) (f2 : STLFile (Ext ℝ)), viewOf (look ([] : List (Meta (Ext ℝ))) c!"view") = .ok r2.fin →
      (∃ e, [(c!"m", some file)].find? (fun e => decide (e.1 = c!"m")) = some e ∧ e.2 = some f2) → r2 = r ∧ f2 = file := by
    rintro r2 f2 h1 ⟨e1, h2, h3⟩
    injection h1 with h1
    have := h1.symm.trans e
    simp at h2
    subst h2
    exact ⟨by simpa [M3.fin, M3.map, V3.fin, V3.map, M3.ext_iff, V3.ext_iff] using this, by simpa using h3.symm⟩
  obtain ⟨r2, f2, x, p, q, k1, k2, ⟨_, _, x1, x2, x3⟩, ⟨_, _, p1, p2, p3⟩, ⟨_, _, q1, q2, q3⟩, item, i1, i2, -⟩ := C78_true_partial tiltEnv insSorter_ok
    rEnv_notAView _ hM c!"m" [] _ 1 (angleDim_fin _ _ _) c hc ok (angleDim ⟨0, 0, 1⟩ ⟨1, 0, 1⟩ ⟨0, 1, 1⟩) (by simp) rfl rfl rfl (angleDim_near _ _ _) tiltFormat rfl (by
    rintro r2 f2 h1 h2 n hn m e' k1 k2
    obtain ⟨rfl, rfl⟩ := same r2 f2 h1 h2
    simp only [List.mem_cons, List.not_mem_nil, or_false] at hn
    rcases hn with rfl | rfl | rfl
    · cases k1; cases k2; exact Or.inr (Or.inl ⟨_, _, _, rfl, (hs _).2 (by simp)⟩)
    · cases k1; cases k2; exact Or.inr (Or.inl ⟨_, _, _, rfl, (hs _).2 (by simp)⟩)
    · cases k1; cases k2; exact Or.inr (Or.inl ⟨_, _, _, rfl, (hs _).2 (by simp)⟩))
  obtain ⟨rfl, rfl⟩ := same r2 f2 k1 k2
  cases x1; cases x2; cases p1; cases p2; cases q1; cases q2
  have far : ∀ {u v : V3 ℝ}, SeenCorner r2 f2 u → NearestCorner r2 f2 u v → v = u := by
    intro u v hu hv
    obtain ⟨h1, h2⟩ := hv
    have h3 := h2 u hu
    unfold seenDist2 at h3
    simp only [matZP_same e.symm] at h3
    rw [hs] at h1 hu
    rcases h1 with rfl | rfl | rfl <;> rcases hu with rfl | rfl | rfl <;> first | rfl | norm_num [pageDist2] at h3
  have ex := far ((hs _).2 (by simp)) (picks_near x3 _ _ _ rfl)
  have ep := far ((hs _).2 (by simp)) (picks_near p3 _ _ _ rfl)
  have eq := far ((hs _).2 (by simp)) (picks_near q3 _ _ _ rfl)
  subst ex ep eq
  rw [ninety] at i2
  exact ⟨_, c, hM, hc, ok, item, i1, i2⟩

/-- between points beside the corners -/
example : ∃ (file : STLFile (Ext ℝ)) (c : Bool × OutPage (Ext ℝ) × List Diag), Models.Made [(c!"m", some file)] ∧
    content tiltEnv [(c!"m", some file)] (.draw c!"m" [] [angleDim ⟨1 / 10, 1 / 10, 1⟩ ⟨9 / 10, 1 / 10, 1⟩ ⟨1 / 10, 9 / 10, 1⟩] 1) = .ok c ∧ c.1 = true ∧
    ∀ r f, viewOf (look ([] : List (Meta (Ext ℝ))) c!"view") = .ok r.fin →
      (∃ e, [(c!"m", some file)].find? (fun e => decide (e.1 = c!"m")) = some e ∧ e.2 = some f) →
      ∀ n ∈ [c!"apex", c!"from_point", c!"to_point"], ∀ m e, look (angleDim ⟨1 / 10, 1 / 10, 1⟩ ⟨9 / 10, 1 / 10, 1⟩ ⟨1 / 10, 9 / 10, 1⟩).metas n = some m →
        m.val = .pt e → e.Beside r f := by
  obtain ⟨r, e, hr⟩ := viewOf_rotation none (by simp) matZP rfl
  obtain ⟨file, hmade, hs⟩ := tilt_file r e.symm
  have hM : Models.Made (K := ℝ) [(c!"m", some file)] := by
    intro e he
    simp only [List.mem_singleton] at he
    subst he
    exact ⟨file, rfl, hmade⟩
  obtain ⟨c, hc⟩ := content_ok tiltEnv insSorter_ok rEnv_notAView [(c!"m", some file)] hM
    (.draw c!"m" [] [angleDim ⟨1 / 10, 1 / 10, 1⟩ ⟨9 / 10, 1 / 10, 1⟩ ⟨1 / 10, 9 / 10, 1⟩] 1) (angleDim_fin _ _ _) (by intro m hm; simp at hm)
  have ok : c.1 = true := angleDim_accepted _ _ _ ⟨0, 0, 0⟩ ⟨1, 0, 0⟩ ⟨0, 1, 0⟩ hr e.symm hmade hs (fun hr hs qs hq junk ret => by
    obtain ⟨-, h2, h3, hok⟩ := tilt_values hr e.symm hs hq junk ret
    refine ⟨?_, h2, h3⟩
    obtain ⟨v, ⟨k1, k2⟩, h2⟩ := (near_literal hr hq ⟨1 / 10, 1 / 10, 1⟩ 1 1 junk ret (hok _)).2 (by rw [hs]; norm_num)
    have h3 := k2 ⟨0, 0, 1⟩ ((hs _).2 (by simp))
    unfold seenDist2 at h3
    simp only [matZP_same e.symm] at h3
    rw [hs] at k1
    rw [h2, V3.onPage, matZP_same e.symm]
    rcases k1 with rfl | rfl | rfl
    · rfl
    · norm_num [pageDist2] at h3
    · norm_num [pageDist2] at h3) (by simp) c hc
  refine ⟨file, c, hM, hc, ok, ?_⟩
  rintro r2 f2 h1 ⟨e1, h2, h3⟩ n hn m e' k1 k2
  injection h1 with h1
  have hr2 := h1.symm.trans e
  have hr2 : r2 = r := by simpa [M3.fin, M3.map, V3.fin, V3.map, M3.ext_iff, V3.ext_iff] using hr2
  simp at h2
  subst h2
  have hf2 : f2 = file := by simpa using h3.symm
  subst hr2 hf2
  simp only [List.mem_cons, List.not_mem_nil, or_false] at hn
  rcases hn with rfl | rfl | rfl
  · cases k1; cases k2; exact ⟨_, _, _, rfl, by rw [hs]; norm_num⟩
  · cases k1; cases k2; exact ⟨_, _, _, rfl, by rw [hs]; norm_num⟩
  · cases k1; cases k2; exact ⟨_, _, _, rfl, by rw [hs]; norm_num⟩

end S2P
