import Verif.Spec.Hole
import Verif.Lemmas.Hole
import Verif.Lemmas.Snap
import Verif.Lemmas.Sample
import Verif.Lemmas.RealSample
import Verif.Props.Labels
import Verif.Props.Snap

set_option linter.unusedSectionVars false
set_option linter.unusedVariables false
set_option linter.unusedSimpArgs false

/-! # C82: the diameter at a round hole is the diameter of the hole -/

namespace S2P

theorem dist2_of_le {a b c d : V2 ℝ} (h : dist a b ≤ dist c d) : dist2 a b ≤ dist2 c d := by
  have h1 : dist a b ^ 2 = dist2 a b := Real.sq_sqrt (dist2_nn _ _)
  have h2 : dist c d ^ 2 = dist2 c d := Real.sq_sqrt (dist2_nn _ _)
  rw [← h1, ← h2]
  exact pow_le_pow_left₀ (Real.sqrt_nonneg _) h 2

/-- the circle found in a view -/
theorem C82_located (S : Sorter) (hS : SortOK S) (file proj : STLFile (Ext ℝ)) (hmade : ∀ f ∈ file.facets, f.Made) (r : M3 ℝ) (hr : IsRotation r)
    (ht : file.rotate r.fin = .ok proj) (ls : List (Line (Ext ℝ))) (hls : proj.cull.toLines S = .ok ls) (t m : V2 ℝ) (R : ℝ) (h : RoundAt r file t m R) :
    locate proj.cull.points t.fin = some (m.fin, .fin R) ∧ 3 ≤ proj.cull.points.length := by
  obtain ⟨ts, -, hts, -⟩ := view_ink S hS file proj hmade r hr ht ls hls
  obtain ⟨qs, hqs, hseen⟩ := points_seen S hS file proj hmade r hr ht ls hls
  have hsort := (C18_points proj.cull (by
    intro f hf
    rw [hts] at hf
    obtain ⟨T, -, rfl⟩ := List.mem_map.1 hf
    exact ⟨V3.ok_fin _, V3.ok_fin _, V3.ok_fin _⟩)).2.2
  obtain ⟨a, b, c, hsn, hpw, hfst, hon⟩ := h.three
  have hfl : ∀ p, p ∈ flat qs ↔ ∃ v, SeenCorner r file v ∧ p = v.seenAt r := by
    intro p
    unfold flat
    rw [List.mem_map]
    constructor
    · rintro ⟨q, hq, rfl⟩
      obtain ⟨v, hv, rfl⟩ := (hseen q).1 hq
      exact ⟨v, hv, rfl⟩
    · rintro ⟨v, hv, rfl⟩
      exact ⟨_, (hseen _).2 ⟨v, hv, rfl⟩, rfl⟩
  have hmem : ∀ v ∈ [a, b, c], v.seenAt r ∈ flat qs := fun v hv => (hfl _).2 ⟨v, hsn v hv, rfl⟩
  have hsq : ∀ x y : V2 ℝ, dist x y ^ 2 = dist2 x y := fun x y => Real.sq_sqrt (dist2_nn _ _)
  simp only [List.pairwise_cons, List.mem_cons, List.not_mem_nil, or_false, forall_eq_or_imp, forall_eq] at hpw
  obtain ⟨⟨⟨nab, sab⟩, nac, sac⟩, ⟨nbc, sbc⟩, -⟩ := hpw
  have up : ∀ x y : V2 ℝ, (dist x t = dist y t → dist x t ≤ 5 * dist x y) → dist2 x t = dist2 y t → dist2 x t ≤ 25 * dist2 x y := by
    intro x y hh e
    have := hh (by rw [dist, dist, e])
    have h2 : dist x t ^ 2 ≤ (5 * dist x y) ^ 2 := pow_le_pow_left₀ (Real.sqrt_nonneg _) this 2
    rw [mul_pow, hsq, hsq] at h2
    linarith
  have sw : ∀ x y : V2 ℝ, (dist2 x t = dist2 y t → dist2 x t ≤ 25 * dist2 x y) → dist2 y t = dist2 x t → dist2 y t ≤ 25 * dist2 y x := by
    intro x y hh e
    rw [e, dist2_symm y x]; exact hh e.symm
  match qs, hqs, hseen, hfl, hmem with
  | [], hqs, hseen, hfl, hmem => exact absurd (hmem a (by simp)) (by simp [flat])
  | q0 :: qs, hqs, hseen, hfl, hmem =>
    rw [hqs]
    obtain ⟨w0, hw0, e0⟩ := (hseen q0).1 (by simp)
    have hw0f : FirstCorner r file w0 := by
      refine ⟨hw0, ?_⟩
      intro w hw
      have hm := (hseen (w.mulM r)).2 ⟨w, hw, rfl⟩
      rcases List.mem_cons.1 hm with e | hm
      · right
        unfold V3.seenAt
        rw [← e0, e]; exact ⟨rfl, le_rfl⟩
      · rw [hqs, List.map_cons, List.pairwise_cons] at hsort
        have := hsort.1 _ (List.mem_map_of_mem hm)
        unfold V3.seenAt
        rw [← e0]
        unfold order at this
        simp only [V3.fin_x, V3.fin_y, V3.fin_z, Ext.fin_lt, Ext.fin_eq, Bool.not_eq_true', decide_eq_false_iff_not] at this
        by_cases hx : q0.x = (w.mulM r).x
        · rw [if_neg (by simpa using hx)] at this
          right
          refine ⟨hx, ?_⟩
          by_cases hy : q0.y = (w.mulM r).y
          · exact hy.le
          · rw [if_pos hy] at this
            exact (by simpa using this : q0.y < (w.mulM r).y).le
        · rw [if_pos hx] at this
          left
          exact (by simpa using this : q0.x < (w.mulM r).x)
    refine ⟨?_, ?_⟩
    · refine locate_circle q0 qs t m R h.pos (a := a.seenAt r) (b := b.seenAt r) (c := c.seenAt r) ⟨hmem a (by simp), hmem b (by simp), hmem c (by simp)⟩ ⟨nab, nac, nbc⟩
        ?_ ?_ ?_ ?_ ?_
      · intro x hx y hy
        simp only [List.mem_cons, List.not_mem_nil, or_false] at hx hy
        rcases hx with rfl | rfl | rfl <;> rcases hy with rfl | rfl | rfl <;> intro hne
        · exact absurd rfl hne
        · exact up _ _ sab
        · exact up _ _ sac
        · exact sw _ _ (up _ _ sab)
        · exact absurd rfl hne
        · exact up _ _ sbc
        · exact sw _ _ (up _ _ sac)
        · exact sw _ _ (up _ _ sbc)
        · exact absurd rfl hne
      · intro x hx
        have : ∀ v ∈ [a, b, c], dist2 (v.seenAt r) t ≤ dist2 q0.xy t := by
          intro v hv
          have := dist2_of_le (hfst v hv w0 hw0f)
          rw [e0]; exact this
        simp only [List.mem_cons, List.not_mem_nil, or_false] at hx
        rcases hx with rfl | rfl | rfl
        · exact this a (by simp)
        · exact this b (by simp)
        · exact this c (by simp)
      · intro p hp
        obtain ⟨w, hw, rfl⟩ := (hfl p).1 hp
        exact h.clear w hw
      · rintro p hp ⟨x, hx, hle⟩
        obtain ⟨w, hw, rfl⟩ := (hfl p).1 hp
        refine hon w hw ?_
        have hd : dist (w.seenAt r) t ≤ dist x t := Real.sqrt_le_sqrt hle
        simp only [List.mem_cons, List.not_mem_nil, or_false] at hx
        rcases hx with rfl | rfl | rfl
        · exact ⟨a, by simp, hd⟩
        · exact ⟨b, by simp, hd⟩
        · exact ⟨c, by simp, hd⟩
      · intro p hp h1 h2
        obtain ⟨w, hw, rfl⟩ := (hfl p).1 hp
        exact h.alone w hw h1 h2
    · have hsub : [a.mulM r, b.mulM r, c.mulM r].Subperm (q0 :: qs) := by
        refine List.subperm_of_subset ?_ ?_
        · have ne : ∀ v w : V3 ℝ, v.seenAt r ≠ w.seenAt r → v.mulM r ≠ w.mulM r := fun v w h e => h (by unfold V3.seenAt; rw [e])
          simp [ne a b nab, ne a c nac, ne b c nbc]
        · intro w hw
          simp only [List.mem_cons, List.not_mem_nil, or_false] at hw
          rcases hw with rfl | rfl | rfl
          · exact (hseen _).2 ⟨a, hsn a (by simp), rfl⟩
          · exact (hseen _).2 ⟨b, hsn b (by simp), rfl⟩
          · exact (hseen _).2 ⟨c, hsn c (by simp), rfl⟩
      have := hsub.length_le
      simpa using this

/-- the value of a point expression -/
theorem invoke_spot {r : M3 ℝ} {file : STLFile (Ext ℝ)} {qs : List (V3 ℝ)} (hq : ∀ q, q ∈ qs ↔ ∃ v, SeenCorner r file v ∧ q = v.mulM r)
    (hloc : ∀ t m R, RoundAt r file t m R → locate (qs.map V3.fin) t.fin = some (m.fin, .fin R) ∧ 3 ≤ (qs.map V3.fin).length) {e : Pt (Ext ℝ)} {s : V2 ℝ}
    (h : Spot r file e s) : ∀ (junk : Nat → V3 (Ext ℝ)) (ret : V3 (Ext ℝ)), ∃ (p : V3 ℝ) (ds : List Diag),
      (e.rot r.fin).invoke junk (qs.map V3.fin) ret = (true, p.fin, ds) ∧ p.xy = s := by
  induction h with
  | literal p l => intro junk ret; exact ⟨p.mulM r, [], rfl, rfl⟩
  | near e l t v _ hv hmin ih =>
    intro junk ret
    obtain ⟨p, ds, h1, h2⟩ := ih (fun n => junk (n + 1)) (junk 0)
    have hm := (hq (v.mulM r)).2 ⟨v, hv, rfl⟩
    have hne : qs ≠ [] := List.ne_nil_of_mem hm
    obtain ⟨q, k1, k2, k3⟩ := C08_near junk qs (e.rot r.fin) l ret p ds hne h1
    refine ⟨q, ds, k1, ?_⟩
    have hd2 : ∀ w : V3 ℝ, pageDist2 (w.mulM r) p = dist2 (w.seenAt r) t := by
      intro w; rw [← h2]; rfl
    by_cases hp : p ∈ qs
    · rw [k2 hp]
      obtain ⟨w, hw, e'⟩ := (hq p).1 hp
      rcases hmin w hw with h3 | h3
      · rw [e']; exact h3
      · have : dist (w.seenAt r) t = 0 := by
          rw [← h2, e']; simp [dist, dist2, V3.seenAt]
        rw [this] at h3
        exact absurd (Real.sqrt_nonneg _) (not_le.2 h3)
    · obtain ⟨q0, hq0, e0, hle⟩ := k3 hp
      obtain ⟨w, hw, e'⟩ := (hq q0).1 hq0
      have hq1 : q.xy = w.seenAt r := by rw [e0, e']; rfl
      rcases hmin w hw with h3 | h3
      · rw [hq1, h3]
      · have := hle _ hm
        rw [e', hd2, hd2] at this
        exact absurd (Real.sqrt_le_sqrt this) (not_le.2 h3)
  | center e l t m R _ hround ih =>
    intro junk ret
    obtain ⟨p, ds, h1, h2⟩ := ih (fun n => junk (n + 1)) (junk 0)
    obtain ⟨k1, k2⟩ := hloc t m R hround
    have ht : p.fin.xy = t.fin := by rw [← h2]; rfl
    refine ⟨⟨m.x, m.y, 0⟩, ds, ?_, rfl⟩
    simp only [Pt.rot, Pt.invoke, h1, ht, k1]
    rw [if_neg (by decide), if_pos trivial, if_neg (by omega)]
    simp [V3.fin, V3.map, V2.fin, V2.map]

/-- in a view, every expression of this kind has a value -/
theorem pointOf_spot (E : Env (Ext ℝ)) (v : Vis (Ext ℝ)) {r : M3 ℝ} (hv : v.rotation = r.fin) {file : STLFile (Ext ℝ)} {qs : List (V3 ℝ)} (hp : v.points = qs.map V3.fin)
    (hq : ∀ q, q ∈ qs ↔ ∃ v, SeenCorner r file v ∧ q = v.mulM r)
    (hloc : ∀ t m R, RoundAt r file t m R → locate v.points t.fin = some (m.fin, .fin R) ∧ 3 ≤ v.points.length) {ms : List (Meta (Ext ℝ))} {n : Str} {s : V2 ℝ}
    (h : SpotOf r file ms n s) (j : Nat) : ∃ p : V3 ℝ, pointOf E v j ms n = some p.fin ∧ p.xy = s := by
  obtain ⟨m, e, h1, h2, h3⟩ := h
  rw [hp] at hloc
  obtain ⟨p, ds, h4, h5⟩ := invoke_spot hq hloc h3 E.junk (E.junk j)
  refine ⟨p, ?_, h5⟩
  simp only [pointOf, h1, h2, hv, hp, h4, if_true]

/-- what such a dimension puts on the page -/
theorem round_dim (E : Env (Ext ℝ)) (hJ : E.NotAView) (v : Vis (Ext ℝ)) (r : M3 ℝ) (hr : IsRotation r) (hv : v.rotation = r.fin) {file : STLFile (Ext ℝ)}
    {qs : List (V3 ℝ)} (hp : v.points = qs.map V3.fin) (hq : ∀ q, q ∈ qs ↔ ∃ v, SeenCorner r file v ∧ q = v.mulM r)
    (hloc : ∀ t m R, RoundAt r file t m R → locate v.points t.fin = some (m.fin, .fin R) ∧ 3 ≤ v.points.length) (d : DimN (Ext ℝ)) (g : Ext ℝ → Str)
    (m : V2 ℝ) (R : ℝ) (hh : AtHole E r file d g m R) :
    ∃ P L, dimContent E v d = .ok (true, P, L) ∧ P.text.map (fun t => t.str) = [if d.kind = .dia then c!"\\351" ++ g (.fin (2 * R)) else c!"R" ++ g (.fin R)] := by
  have hrot : v.rotation.eqv E.junkM = false := by rw [hv]; exact hJ r hr
  obtain ⟨t, ht, hround⟩ := hh.hole
  obtain ⟨s1, hs1⟩ := hh.label
  obtain ⟨s2, hs2⟩ := hh.arrow
  obtain ⟨a, ha, -⟩ := pointOf_spot E v hv hp hq hloc hs1 0
  obtain ⟨c, hc, hc'⟩ := pointOf_spot E v hv hp hq hloc ht 1
  obtain ⟨u, hu, -⟩ := pointOf_spot E v hv hp hq hloc hs2 2
  obtain ⟨hl, h3⟩ := hloc t m R hround
  have hl' : locate v.points c.fin.xy = some (m.fin, .fin R) := by rw [← hl, ← hc']; rfl
  have hfmt := hh.fmt
  obtain ⟨P, hP, hPt⟩ : ∃ P, drawnItems E v d.kind d.metas = some P ∧
      P.text.map (fun t => t.str) = [if d.kind = .dia then c!"\\351" ++ g (.fin (2 * R)) else c!"R" ++ g (.fin R)] := by
    rcases hh.kind with hk | hk
    · refine ⟨diaItems g v.scale ⟨a.fin.xy, u.fin.xy, m.fin, .fin R⟩, ?_, ?_⟩
      · rw [hk]
        simp only [drawnItems, drawnItems.circ, ha, hc, hu, hl', hfmt, bind, Option.bind]
        rw [if_neg (by omega)]
      · rw [hk]
        simp only [diaItems, List.map_cons, List.map_nil, if_true, Ext.lit_eq, Ext.fin_mul]
        congr 3
        rw [Ext.fin_inj]; push_cast; ring
    · refine ⟨radItems g v.scale ⟨a.fin.xy, u.fin.xy, m.fin, .fin R⟩, ?_, ?_⟩
      · rw [hk]
        simp only [drawnItems, drawnItems.circ, ha, hc, hu, hl', hfmt, bind, Option.bind]
        rw [if_neg (by omega)]
      · rw [hk]; rfl
  obtain ⟨L, e⟩ := (dimContent_items E v d hrot).1 _ hh.good hP
  refine ⟨_, L, e, ?_⟩
  rw [← hPt]
  simp [OutPage.moved, Function.comp_def]

/-- and a linear dimension between two such points -/
theorem across_dim (E : Env (Ext ℝ)) (hJ : E.NotAView) (v : Vis (Ext ℝ)) (r : M3 ℝ) (hr : IsRotation r) (hv : v.rotation = r.fin) {file : STLFile (Ext ℝ)}
    {qs : List (V3 ℝ)} (hp : v.points = qs.map V3.fin) (hq : ∀ q, q ∈ qs ↔ ∃ v, SeenCorner r file v ∧ q = v.mulM r)
    (hloc : ∀ t m R, RoundAt r file t m R → locate v.points t.fin = some (m.fin, .fin R) ∧ 3 ≤ v.points.length) (d : DimN (Ext ℝ)) (g : Ext ℝ → Str)
    (f t : V2 ℝ) (u : V3 ℝ) (hh : Across E r file d g f t u) :
    ∃ P L, dimContent E v d = .ok (true, P, L) ∧ P.text.map (fun t => t.str) = [g (.fin (|(t - f).dot (u.seenAt r)| / len3 u))] := by
  have hrot : v.rotation.eqv E.junkM = false := by rw [hv]; exact hJ r hr
  obtain ⟨s1, hs1⟩ := hh.label
  obtain ⟨a, ha, -⟩ := pointOf_spot E v hv hp hq hloc hs1 0
  obtain ⟨x, hx, rfl⟩ := pointOf_spot E v hv hp hq hloc hh.start 2
  obtain ⟨y, hy, rfl⟩ := pointOf_spot E v hv hp hq hloc hh.stop 3
  have hfmt := hh.fmt
  have hne := hh.some
  have hne' := rot_ne hr hne
  have hz : (u.mulM r).fin.eqv (V3.zero : V3 (Ext ℝ)) = false := by
    by_contra hc
    rw [Bool.not_eq_false] at hc
    apply hne'
    simp [V3.eqv, V3.zero, V3.map] at hc
    obtain ⟨⟨h1, h2⟩, h3⟩ := hc
    ext <;> assumption
  have hi : drawnItems E v d.kind d.metas = some (dimItems g v.scale a.fin (u.mulM r).fin.normalized x.fin y.fin) := by
    rw [hh.kind]
    simp only [drawnItems, ha, literal_point hv hh.dir, hx, hy, hfmt, bind, Option.bind, hz]
    rfl
  obtain ⟨L, e⟩ := (dimContent_items E v d hrot).1 _ hh.good hi
  refine ⟨_, L, e, ?_⟩
  have hval : (((a.fin + (u.mulM r).fin.normalized.smul ((u.mulM r).fin.normalized.dot (y.fin - a.fin))) -
      (a.fin + (u.mulM r).fin.normalized.smul ((u.mulM r).fin.normalized.dot (x.fin - a.fin)))).norm : Ext ℝ) =
      .fin (|(y.xy - x.xy).dot (u.seenAt r)| / len3 u) := by
    have hp := len3_pos hne
    rw [normalized_real hne', rot_len hr]
    simp only [V3.fin_sub, V3.fin_dot, V3.fin_smul, V3.fin_add]
    rw [norm_real, Ext.fin_inj]
    have key : ∀ (A U F T : V3 ℝ) (l : ℝ), (A + (U.sdiv l).smul ((U.sdiv l).dot (T - A))) - (A + (U.sdiv l).smul ((U.sdiv l).dot (F - A))) =
        U.smul ((T - F).dot U / l / l) := by
      intro A U F T l
      ext <;> simp [V3.sdiv, V3.smul, V3.dot] <;> ring
    have hdot : (y - x).dot (u.mulM r) = (y.xy - x.xy).dot (u.seenAt r) := by
      simp only [V3.dot, V2.dot, hh.square, V3.seenAt, V3.xy, V3.sub_x, V3.sub_y, V2.sub_x, V2.sub_y, mul_zero, add_zero]
    rw [key, len3_scaled, hdot, rot_len hr, abs_div, abs_div, abs_of_pos hp]
    field_simp
  show [_] = [_]
  simp only [List.cons.injEq, and_true]
  rw [← hval]

/-- the model drawn is made of facets -/
theorem drawn_made {E : Env (Ext ℝ)} {stl : Models (Ext ℝ)} (hM : stl.Made) {name : Str} {ms : List (Meta (Ext ℝ))} {sc rot loc file proj ls}
    (hD : Drawn E stl name ms sc rot loc file proj ls) : ∀ f ∈ file.facets, f.Made := by
  obtain ⟨e, he, hfile⟩ := hD.model
  obtain ⟨file', hf', hmade⟩ := hM e (List.mem_of_find?_eq_some he)
  rw [hfile] at hf'; injection hf' with hf'; subst hf'
  exact hmade

/-- the dimensions of a drawing, one by one -/
theorem hole_dims {E : Env (Ext ℝ)} (hS : SortOK E.sorter) {stl : Models (Ext ℝ)} (hM : stl.Made) {name : Str} {ms : List (Meta (Ext ℝ))} (hms : ∀ m ∈ ms, m.val.IsFin)
    {sc r loc file proj ls} (hD : Drawn E stl name ms sc (M3.fin r) loc file proj ls) : IsRotation r ∧ ∃ qs : List (V3 ℝ), proj.cull.points = qs.map V3.fin ∧
      (∀ q, q ∈ qs ↔ ∃ v, SeenCorner r file v ∧ q = v.mulM r) ∧
      ∀ t m R, RoundAt r file t m R → locate proj.cull.points t.fin = some (m.fin, .fin R) ∧ 3 ≤ proj.cull.points.length := by
  obtain ⟨r2, er, hr⟩ := viewOf_rotation _ (look_fin hms _) _ hD.view
  obtain rfl : r2 = r := by
    simpa [M3.fin, M3.map, V3.fin, V3.map, M3.ext_iff, V3.ext_iff, eq_comm] using er.symm
  obtain ⟨qs, h1, h2⟩ := points_seen E.sorter hS file proj (drawn_made hM hD) r2 hr hD.turned ls hD.lines
  exact ⟨hr, qs, h1, h2, fun t m R h => C82_located E.sorter hS file proj (drawn_made hM hD) r2 hr hD.turned ls hD.lines t m R h⟩

/-- **C82**: a diameter or radius at a round hole shows the diameter or radius of the hole. -/
theorem C82_label_partial (E : Env (Ext ℝ)) (hS : SortOK E.sorter) (hJ : E.NotAView) (stl : Models (Ext ℝ)) (hM : stl.Made) (name : Str) (ms : List (Meta (Ext ℝ)))
    (dims : List (DimN (Ext ℝ))) (line : Nat) (hms : ∀ m ∈ ms, m.val.IsFin) (c) (h : content E stl (.draw name ms dims line) = .ok c) (sc r loc file proj ls)
    (hD : Drawn E stl name ms sc (M3.fin r) loc file proj ls) (d : DimN (Ext ℝ)) (hd : d ∈ dims) (g : Ext ℝ → Str) (m : V2 ℝ) (R : ℝ) (hh : AtHole E r file d g m R) :
    ∃ item ∈ c.2.1.text, item.str = if d.kind = .dia then c!"\\351" ++ g (.fin (2 * R)) else c!"R" ++ g (.fin R) := by
  obtain ⟨hr, qs, q1, q2, q3⟩ := hole_dims hS hM hms hD
  rcases draw_sum E stl name ms dims line c h with ⟨-, -, -, h1⟩ | ⟨sc', rot', loc', file', proj', ls', cs, hD', hcs, hp, hok, -⟩
  · exact absurd ⟨_, _, _, _, _, _, hD⟩ h1
  obtain ⟨rfl, rfl, rfl, rfl, rfl, rfl⟩ := drawn_unique hD hD'
  obtain ⟨k, hk2, hdk⟩ := forall₂_left_mem hcs hd
  obtain ⟨P, L, e, ht⟩ := round_dim E hJ (drawStart (initVis E) sc r.fin loc proj.cull ls) r hr rfl q1 q2 q3 d g m R hh
  rw [hdk] at e
  injection e with e
  have : (if d.kind = .dia then c!"\\351" ++ g (.fin (2 * R)) else c!"R" ++ g (.fin R)) ∈ P.text.map (fun t => t.str) := by rw [ht]; simp
  obtain ⟨item, hitem, hs⟩ := List.mem_map.1 this
  refine ⟨item, ?_, hs⟩
  rw [hp]
  simp only [OutPage.app, List.mem_append]
  exact Or.inr ((mem_sum_text _).2 ⟨P, List.mem_map.2 ⟨_, hk2, by rw [e]⟩, hitem⟩)

/-- **C82**: a linear dimension between such points, be they centres of holes, corners or points written out, shows the distance, along its direction, of the places
where they are seen. -/
theorem C82_between_partial (E : Env (Ext ℝ)) (hS : SortOK E.sorter) (hJ : E.NotAView) (stl : Models (Ext ℝ)) (hM : stl.Made) (name : Str) (ms : List (Meta (Ext ℝ)))
    (dims : List (DimN (Ext ℝ))) (line : Nat) (hms : ∀ m ∈ ms, m.val.IsFin) (c) (h : content E stl (.draw name ms dims line) = .ok c) (sc r loc file proj ls)
    (hD : Drawn E stl name ms sc (M3.fin r) loc file proj ls) (d : DimN (Ext ℝ)) (hd : d ∈ dims) (g : Ext ℝ → Str) (f t : V2 ℝ) (u : V3 ℝ) (hh : Across E r file d g f t u) :
    ∃ item ∈ c.2.1.text, item.str = g (.fin (|(t - f).dot (u.seenAt r)| / len3 u)) := by
  obtain ⟨hr, qs, q1, q2, q3⟩ := hole_dims hS hM hms hD
  rcases draw_sum E stl name ms dims line c h with ⟨-, -, -, h1⟩ | ⟨sc', rot', loc', file', proj', ls', cs, hD', hcs, hp, hok, -⟩
  · exact absurd ⟨_, _, _, _, _, _, hD⟩ h1
  obtain ⟨rfl, rfl, rfl, rfl, rfl, rfl⟩ := drawn_unique hD hD'
  obtain ⟨k, hk2, hdk⟩ := forall₂_left_mem hcs hd
  obtain ⟨P, L, e, ht⟩ := across_dim E hJ (drawStart (initVis E) sc r.fin loc proj.cull ls) r hr rfl q1 q2 q3 d g f t u hh
  rw [hdk] at e
  injection e with e
  have : g (.fin (|(t - f).dot (u.seenAt r)| / len3 u)) ∈ P.text.map (fun t => t.str) := by rw [ht]; simp
  obtain ⟨item, hitem, hs⟩ := List.mem_map.1 this
  refine ⟨item, ?_, hs⟩
  rw [hp]
  simp only [OutPage.app, List.mem_append]
  exact Or.inr ((mem_sum_text _).2 ⟨P, List.mem_map.2 ⟨_, hk2, by rw [e]⟩, hitem⟩)

/-- **C82**: and a drawing with such dimensions is accepted. -/
theorem C82_accepted_partial (E : Env (Ext ℝ)) (hS : SortOK E.sorter) (hJ : E.NotAView) (stl : Models (Ext ℝ)) (hM : stl.Made) (name : Str) (ms : List (Meta (Ext ℝ)))
    (dims : List (DimN (Ext ℝ))) (line : Nat) (hms : ∀ m ∈ ms, m.val.IsFin) (c) (h : content E stl (.draw name ms dims line) = .ok c) (sc r loc file proj ls)
    (hD : Drawn E stl name ms sc (M3.fin r) loc file proj ls) (hnames : ∀ m ∈ ms, m.name ∈ [c!"scale", c!"view", c!"@"])
    (hh : ∀ d ∈ dims, (∃ g m R, AtHole E r file d g m R) ∨ ∃ g f t u, Across E r file d g f t u) : c.1 = true := by
  obtain ⟨hr, qs, q1, q2, q3⟩ := hole_dims hS hM hms hD
  rcases draw_sum E stl name ms dims line c h with ⟨-, -, -, h1⟩ | ⟨sc', rot', loc', file', proj', ls', cs, hD', hcs, hp, hok, -⟩
  · exact absurd ⟨_, _, _, _, _, _, hD⟩ h1
  obtain ⟨rfl, rfl, rfl, rfl, rfl, rfl⟩ := drawn_unique hD hD'
  refine hok.2 ⟨?_, hnames⟩
  intro k hk
  obtain ⟨d, hd, hdk⟩ := forall₂_right hcs k hk
  rcases hh d hd with ⟨g, m, R, hh⟩ | ⟨g, f, t, u, hh⟩
  · obtain ⟨P, L, e, ht⟩ := round_dim E hJ (drawStart (initVis E) sc r.fin loc proj.cull ls) r hr rfl q1 q2 q3 d g m R hh
    rw [hdk] at e
    injection e with e
    rw [e]
  · obtain ⟨P, L, e, ht⟩ := across_dim E hJ (drawStart (initVis E) sc r.fin loc proj.cull ls) r hr rfl q1 q2 q3 d g f t u hh
    rw [hdk] at e
    injection e with e
    rw [e]

/-- **C82**, at the middle of the hole: it suffices that the point given is seen at the centre `m`, that no corner seen is closer to it than `R`, that three seen at `R`
are a fifth of the radius apart, and that no other corner is seen within a tenth of the radius from the circle. -/
theorem C82_centre_partial (r : M3 ℝ) (file : STLFile (Ext ℝ)) (m : V2 ℝ) (R : ℝ) (hR : 0 < R) (a b c : V3 ℝ)
    (hseen : ∀ v ∈ [a, b, c], SeenCorner r file v ∧ dist (v.seenAt r) m = R)
    (hsep : [a, b, c].Pairwise (fun v w => R ≤ 5 * dist (v.seenAt r) (w.seenAt r)))
    (hinner : ∀ w, SeenCorner r file w → dist (w.seenAt r) m < R * (11 / 10) → dist (w.seenAt r) m = R) : RoundAt r file m m R := by
  have hge : ∀ w, SeenCorner r file w → R ≤ dist (w.seenAt r) m := by
    intro w hw
    by_contra hc
    have := hinner w hw (by linarith)
    linarith
  refine ⟨hR, ⟨a, b, c, fun v hv => (hseen v hv).1, ?_, ?_, ?_⟩, ?_, fun w hw _ h2 => hinner w hw h2⟩
  · refine (List.Pairwise.and_mem.1 hsep).imp ?_
    rintro v w ⟨hv, hw, h⟩
    refine ⟨?_, fun _ => by rw [(hseen v hv).2]; exact h⟩
    intro e
    rw [e] at h
    have : dist (w.seenAt r) (w.seenAt r) = 0 := by simp [dist, dist2]
    rw [this] at h; linarith
  · intro v hv w hw
    rw [(hseen v hv).2]; exact hge w hw.1
  · rintro w hw ⟨v, hv, h⟩
    rw [(hseen v hv).2] at h
    exact le_antisymm h (hge w hw)
  · intro w hw e
    have := hge w hw
    rw [e] at this
    have h0 : dist m m = 0 := by simp [dist, dist2]
    rw [h0] at this; linarith

/-! ## Concrete cases -/

/-- a triangle facing the viewer, with its corners -/
theorem disc_file : ∃ (file : STLFile (Ext ℝ)) (T : Tri ℝ), file.facets = [T.fin] ∧ (∀ f ∈ file.facets, f.Made) ∧ 0 < T.n.z ∧
    ∀ v, v ∈ T.corners ↔ v ∈ [(⟨0, 0, 0⟩ : V3 ℝ), ⟨4, 0, 0⟩, ⟨0, 3, 0⟩] := by
  obtain ⟨N, e0, e2, r, h1, -, -, -, -, ⟨k, hk, hN⟩, hpos, -, -, -, hor⟩ := C16_facet ⟨0, 0, 1⟩ ⟨0, 0, 0⟩ ⟨4, 0, 0⟩ ⟨0, 3, 0⟩ (by
    simp [V3.cross])
  have hz : 0 < N.z := by
    have hpos' : 0 ≤ N.z := by simpa [V3.dot] using hpos
    rcases hor with ⟨rfl, rfl⟩ | ⟨rfl, rfl⟩
    · have := congrArg V3.z hN
      simp [V3.cross, V3.smul] at this
      nlinarith
    · have := congrArg V3.z hN
      simp [V3.cross, V3.smul] at this
      nlinarith
  refine ⟨⟨[⟨N.fin, e0.fin, V3.fin ⟨4, 0, 0⟩, e2.fin, Ext.fin r⟩], [], [], 0⟩, ⟨N, e0, ⟨4, 0, 0⟩, e2, r⟩, rfl, ?_, hz, ?_⟩
  · intro f hf
    simp only [List.mem_singleton] at hf
    subst hf
    exact ⟨_, _, _, _, h1⟩
  · intro v
    simp only [Tri.corners, List.mem_cons, List.not_mem_nil, or_false]
    rcases hor with ⟨rfl, rfl⟩ | ⟨rfl, rfl⟩
    · exact Iff.rfl
    · tauto

/-- `dia` at the circle through the three corners, with the place given only roughly -/
noncomputable def discDim : DimN (Ext ℝ) := ⟨.dia, [⟨c!"at", .pt (.val (V3.fin ⟨1, 5, 0⟩) 1), 1⟩, ⟨c!"dir", .pt (.val (V3.fin ⟨1, 0, 0⟩) 1), 1⟩,
  ⟨c!"center", .pt (.val (V3.fin ⟨3, 2, 7⟩) 1), 1⟩], 1⟩

/-- a linear dimension from the centre of that circle to the corner on the right -/
noncomputable def holeDim : DimN (Ext ℝ) := ⟨.dim, [⟨c!"at", .pt (.val (V3.fin ⟨1, 5, 0⟩) 1), 1⟩, ⟨c!"dir", .pt (.val (V3.fin ⟨1, 0, 0⟩) 1), 1⟩,
  ⟨c!"from", .pt (.func c!"center" (.val (V3.fin ⟨3, 2, 7⟩) 1) 1), 1⟩, ⟨c!"to", .pt (.func c!"near" (.val (V3.fin ⟨5, 1, 0⟩) 1) 1), 1⟩], 1⟩

def idM : M3 ℝ := ⟨⟨1, 0, 0⟩, ⟨0, 1, 0⟩, ⟨0, 0, 1⟩⟩

theorem idM_mul (v : V3 ℝ) : v.mulM idM = v := by
  ext <;> simp [V3.mulM, idM]

theorem idM_fin : (idM.fin : M3 (Ext ℝ)) = matZP := by
  simp [idM, M3.map, V3.map, matZP, ptX, ptY, ptZ]

theorem disc_seen {file : STLFile (Ext ℝ)} {T : Tri ℝ} (hf : file.facets = [T.fin]) (hz : 0 < T.n.z)
    (hc : ∀ v, v ∈ T.corners ↔ v ∈ [(⟨0, 0, 0⟩ : V3 ℝ), ⟨4, 0, 0⟩, ⟨0, 3, 0⟩]) (v : V3 ℝ) :
    SeenCorner idM file v ↔ v ∈ [(⟨0, 0, 0⟩ : V3 ℝ), ⟨4, 0, 0⟩, ⟨0, 3, 0⟩] := by
  rw [← hc]
  constructor
  · rintro ⟨U, h1, -, h3⟩
    rw [hf, List.mem_singleton] at h1
    have : U = T := by
      cases U; cases T
      simp only [Facet.mk.injEq, V3.fin_injective, Ext.fin_inj] at h1
      obtain ⟨rfl, rfl, rfl, rfl, rfl⟩ := h1
      rfl
    rw [← this]; exact h3
  · intro h
    exact ⟨T, by rw [hf]; simp, by rw [idM_mul]; exact hz, h⟩

theorem disc_round {file : STLFile (Ext ℝ)} (hs : ∀ v, SeenCorner idM file v ↔ v ∈ [(⟨0, 0, 0⟩ : V3 ℝ), ⟨4, 0, 0⟩, ⟨0, 3, 0⟩]) :
    RoundAt idM file ⟨3, 2⟩ ⟨2, 3 / 2⟩ (5 / 2) := by
  have hon : ∀ v, SeenCorner idM file v → dist (v.seenAt idM) ⟨2, 3 / 2⟩ = 5 / 2 := by
    intro v hv
    rw [hs] at hv
    simp only [List.mem_cons, List.not_mem_nil, or_false] at hv
    have h5 : Real.sqrt (25 / 4) = 5 / 2 := by rw [Real.sqrt_eq_iff_mul_self_eq (by norm_num) (by norm_num)]; norm_num
    rw [← h5]
    unfold dist
    congr 1
    rcases hv with rfl | rfl | rfl <;> simp only [V3.seenAt, idM_mul, V3.xy, dist2] <;> norm_num
  have hfirst : ∀ w, FirstCorner idM file w → w = ⟨0, 0, 0⟩ := by
    rintro w ⟨h1, h2⟩
    have := h2 ⟨0, 0, 0⟩ ((hs _).2 (by simp))
    rw [hs] at h1
    simp only [List.mem_cons, List.not_mem_nil, or_false] at h1
    rcases h1 with rfl | rfl | rfl
    · rfl
    · simp only [V3.seenAt, idM_mul, V3.xy] at this; norm_num at this
    · simp only [V3.seenAt, idM_mul, V3.xy] at this; norm_num at this
  refine ⟨by norm_num, ⟨⟨0, 0, 0⟩, ⟨4, 0, 0⟩, ⟨0, 3, 0⟩, fun v hv => (hs v).2 hv, ?_, ?_, fun w hw _ => hon w hw⟩, ?_, fun w hw _ _ => hon w hw⟩
  · have key : ∀ a b : V3 ℝ, a.seenAt idM ≠ b.seenAt idM → dist2 (a.seenAt idM) ⟨3, 2⟩ ≠ dist2 (b.seenAt idM) ⟨3, 2⟩ → a.seenAt idM ≠ b.seenAt idM ∧
        (dist (a.seenAt idM) ⟨3, 2⟩ = dist (b.seenAt idM) ⟨3, 2⟩ → dist (a.seenAt idM) ⟨3, 2⟩ ≤ 5 * dist (a.seenAt idM) (b.seenAt idM)) := by
      intro a b h1 h2
      refine ⟨h1, fun e => absurd ?_ h2⟩
      exact (Real.sqrt_inj (dist2_nn _ _) (dist2_nn _ _)).1 e
    simp only [List.pairwise_cons, List.mem_cons, List.not_mem_nil, or_false, forall_eq_or_imp, forall_eq, List.Pairwise.nil, and_true]
    refine ⟨⟨key _ _ ?_ ?_, key _ _ ?_ ?_⟩, key _ _ ?_ ?_, ?_⟩ <;> simp only [V3.seenAt, idM_mul, V3.xy, dist2, ne_eq, V2.mk.injEq] <;> norm_num
  · intro v hv w hw
    rw [hfirst w hw]
    apply Real.sqrt_le_sqrt
    simp only [List.mem_cons, List.not_mem_nil, or_false] at hv
    rcases hv with rfl | rfl | rfl <;> simp only [V3.seenAt, idM_mul, V3.xy, dist2] <;> norm_num
  · intro w hw
    rw [hs] at hw
    simp only [List.mem_cons, List.not_mem_nil, or_false] at hw
    rcases hw with rfl | rfl | rfl <;> simp only [V3.seenAt, idM_mul, V3.xy, ne_eq, V2.mk.injEq] <;> norm_num

/-- everything the theorems above assume holds for a triangle with both dimensions -/
example : SortOK rEnv.sorter ∧ rEnv.NotAView ∧ ∃ (stl : Models (Ext ℝ)) (loc : V2 (Ext ℝ)) (file proj : STLFile (Ext ℝ)) (ls : List (Line (Ext ℝ)))
    (c : Bool × OutPage (Ext ℝ) × List Diag), stl.Made ∧ (∀ m ∈ rMetas, m.val.IsFin) ∧ content rEnv stl (.draw c!"m" rMetas [discDim, holeDim] 1) = .ok c ∧
      Drawn rEnv stl c!"m" rMetas (1, 2) (M3.fin idM) loc file proj ls ∧ (∀ m ∈ rMetas, m.name ∈ [c!"scale", c!"view", c!"@"]) ∧
      AtHole rEnv idM file discDim FP.g6 ⟨2, 3 / 2⟩ (5 / 2) ∧ Across rEnv idM file holeDim FP.g6 ⟨2, 3 / 2⟩ ⟨4, 0⟩ ⟨1, 0, 0⟩ ∧
      (∃ item ∈ c.2.1.text, item.str = c!"\\351" ++ FP.g6 (Ext.fin (5 : ℝ))) ∧ (∃ item ∈ c.2.1.text, item.str = FP.g6 (Ext.fin (2 : ℝ))) ∧ c.1 = true := by
  obtain ⟨file, T, h1, h2, h3, h4⟩ := disc_file
  have hs := disc_seen h1 h3 h4
  have hM : Models.Made (K := ℝ) [(c!"m", some file)] := by
    intro e he
    simp only [List.mem_singleton] at he
    subst he
    exact ⟨file, rfl, h2⟩
  have hnames : ∀ m ∈ rMetas, m.name ∈ [c!"scale", c!"view", c!"@"] := by
    intro m hm; simp only [rMetas, List.mem_cons, List.not_mem_nil, or_false] at hm; rcases hm with rfl | rfl <;> simp
  obtain ⟨proj, ls, hd⟩ := drawn_exists rEnv insSorter_ok [(c!"m", some file)] c!"m" rMetas rMetas_fin (by simp [rMetas]) (1, 2)
    (by simp [rMetas, look, scaleOf]) matZP (by simp [rMetas, look, viewOf]) _ (by simp [rMetas, look, locOf]; rfl) file ⟨_, rfl, rfl⟩ h2
  rw [← idM_fin] at hd
  have hfin : ∀ d ∈ [discDim, holeDim], d.IsFin := by
    intro d hd m hm
    simp only [List.mem_cons, List.not_mem_nil, or_false] at hd
    rcases hd with rfl | rfl
    · simp only [discDim, List.mem_cons, List.not_mem_nil, or_false] at hm
      rcases hm with rfl | rfl | rfl <;> exact ⟨_, rfl⟩
    · simp only [holeDim, List.mem_cons, List.not_mem_nil, or_false] at hm
      rcases hm with rfl | rfl | rfl | rfl <;> exact ⟨_, rfl⟩
  obtain ⟨c, hc⟩ := content_ok rEnv insSorter_ok rEnv_notAView [(c!"m", some file)] hM (.draw c!"m" rMetas [discDim, holeDim] 1)
    ⟨rMetas_fin, hfin⟩ (by
      intro m hm hn
      simp only [rMetas, List.mem_cons, List.not_mem_nil, or_false] at hm
      rcases hm with rfl | rfl
      · exact ⟨_, rfl⟩
      · simp at hn)
  have hplace : ∀ p : V3 ℝ, p.seenAt idM = ⟨p.x, p.y⟩ := by intro p; simp only [V3.seenAt, idM_mul, V3.xy]
  have hA : AtHole rEnv idM file discDim FP.g6 ⟨2, 3 / 2⟩ (5 / 2) := by
    refine ⟨Or.inl rfl, ?_, ⟨_, _, _, rfl, rfl, .literal _ _⟩, ⟨_, _, _, rfl, rfl, .literal _ _⟩, by simp [formatOf, discDim, look, rEnv], ⟨_, ⟨_, _, rfl, rfl, .literal _ _⟩, ?_⟩⟩
    · simp [discDim, GoodDim, exactly_def, Has]
    · rw [hplace]; exact disc_round hs
  have hB : Across rEnv idM file holeDim FP.g6 ⟨2, 3 / 2⟩ ⟨4, 0⟩ ⟨1, 0, 0⟩ := by
    refine ⟨rfl, ?_, ⟨_, _, _, rfl, rfl, .literal _ _⟩, by simp [formatOf, holeDim, look, rEnv], ⟨_, 1, rfl, rfl⟩, by simp, by simp [idM_mul],
      ⟨_, _, rfl, rfl, .center _ _ ⟨3, 2⟩ _ (5 / 2) ?_ (disc_round hs)⟩, ⟨_, _, rfl, rfl, ?_⟩⟩
    · simp [holeDim, GoodDim, exactly_def, Has]
    · have := Spot.literal (r := idM) (file := file) ⟨3, 2, 7⟩ 1
      rwa [hplace] at this
    · have h5 := Spot.literal (r := idM) (file := file) ⟨5, 1, 0⟩ 1
      have := Spot.near _ 1 _ ⟨4, 0, 0⟩ h5 ((hs _).2 (by simp)) (by
        intro w hw
        rw [hs] at hw
        simp only [List.mem_cons, List.not_mem_nil, or_false] at hw
        rcases hw with rfl | rfl | rfl
        · right
          apply Real.sqrt_lt_sqrt (dist2_nn _ _)
          simp only [hplace, dist2]; norm_num
        · left; rfl
        · right
          apply Real.sqrt_lt_sqrt (dist2_nn _ _)
          simp only [hplace, dist2]; norm_num)
      rwa [hplace] at this
  refine ⟨insSorter_ok, rEnv_notAView, _, _, file, proj, ls, c, hM, rMetas_fin, hc, hd, hnames, hA, hB, ?_, ?_, ?_⟩
  · have := C82_label_partial rEnv insSorter_ok rEnv_notAView _ hM _ _ _ _ rMetas_fin c hc _ _ _ _ _ _ hd discDim (by simp) _ _ _ hA
    have e : (if discDim.kind = .dia then c!"\\351" ++ FP.g6 (Ext.fin (2 * (5 / 2) : ℝ)) else c!"R" ++ FP.g6 (Ext.fin (5 / 2 : ℝ))) = c!"\\351" ++ FP.g6 (Ext.fin (5 : ℝ)) := by
      rw [show discDim.kind = .dia from rfl, if_pos rfl, show (2 * (5 / 2) : ℝ) = 5 by norm_num]
    rw [e] at this
    exact this
  · have := C82_between_partial rEnv insSorter_ok rEnv_notAView _ hM _ _ _ _ rMetas_fin c hc _ _ _ _ _ _ hd holeDim (by simp) _ _ _ _ hB
    have e : |((⟨4, 0⟩ : V2 ℝ) - ⟨2, 3 / 2⟩).dot (V3.seenAt idM ⟨1, 0, 0⟩)| / len3 (⟨1, 0, 0⟩ : V3 ℝ) = 2 := by
      rw [hplace]
      simp [V2.dot, len3, V3.dot]
      norm_num
    rw [e] at this
    exact this
  · refine C82_accepted_partial rEnv insSorter_ok rEnv_notAView _ hM _ _ _ _ rMetas_fin c hc _ _ _ _ _ _ hd hnames ?_
    intro d hd
    simp only [List.mem_cons, List.not_mem_nil, or_false] at hd
    rcases hd with rfl | rfl
    · exact Or.inl ⟨_, _, _, hA⟩
    · exact Or.inr ⟨_, _, _, _, hB⟩

/-- a triangle whose corners lie on the circle with radius 5 around the origin, the one on the left nearest to the place `(-1, 0)` -/
def roundFile : STLFile (Ext ℚ) := ((index [⟨V3.fin ⟨0, 0, 1⟩, V3.fin ⟨-5, 0, 0⟩, V3.fin ⟨4, -3, 0⟩, V3.fin ⟨3, 4, 0⟩, .fin 0⟩]).toOption).getD .empty

/-- a diameter with `center` at `(x, 0)` -/
def roundDim (x : ℚ) : DimN (Ext ℚ) := ⟨.dia, [⟨c!"at", pt 1 5 0, 1⟩, ⟨c!"dir", pt 1 0 0, 1⟩, ⟨c!"center", pt x 0 0, 1⟩], 1⟩

/-- Without the condition on the first corner the claim is false: all corners seen lie on one circle, and `center` at its middle or a little to the right of it is
accepted, while a little to the left of it is rejected. -/
theorem C82_false :
    (content exEnv [(c!"m", some roundFile)] (.draw c!"m" [] [roundDim 0] 1)).toOption.map (fun c => (c.1, c.2.1.text.map (fun t => t.str))) = some (true, [c!"\\35110"]) ∧
    (content exEnv [(c!"m", some roundFile)] (.draw c!"m" [] [roundDim 1] 1)).toOption.map (fun c => (c.1, c.2.1.text.map (fun t => t.str))) = some (true, [c!"\\35110"]) ∧
    (content exEnv [(c!"m", some roundFile)] (.draw c!"m" [] [roundDim (-1)] 1)).toOption.map (fun c => (c.1, c.2.1.text.map (fun t => t.str))) = some (false, []) := by
  decide +kernel

end S2P
