import Verif.Lemmas.AccuracyAngle
import Verif.Props.AccuracyDim

set_option linter.unusedSectionVars false
set_option linter.unusedVariables false
set_option linter.unusedSimpArgs false

/-! # C75: the number at an angle is right, in double arithmetic -/

namespace S2P

section
variable {R : Rounding} (hR : R.Accurate)
include hR

/-- a leg, seen -/
theorem leg_near {E : Env (Fl R)} {v : Vis (Fl R)} {r : M3 ℝ} (hr : IsRotation r) {η : ℝ} (hη : Fine η) (hv : M3.NearTo v.rotation r η)
    {ms : List (Meta (Fl R))} {a b : Str} {x u : V3 ℝ} {K : ℝ} (hK : 1 ≤ K) (hKη : K * η ≤ 1 / 2 ^ 24) (h : LegSays ms a b x u K) (j : Nat) :
    u ≠ ⟨0, 0, 0⟩ ∧ ∃ n q, legOf E v j (V3.mulM (α := Fl R) (x.fin : V3 (Ext ℝ)) v.rotation) ms a b = some (n, q) ∧
      V3.NearTo n ((u.mulM r).sdiv (len3 (u.mulM r))) (5 * (19 * (K * η))) := by
  obtain ⟨U, hU, h⟩ := h
  have wU : Wide U := ⟨hU.2.2.2.2.1, hU.2.2.2.2.2⟩
  have hU0 : 0 < U := lt_of_lt_of_le (by positivity) wU.lo
  have ex : ∀ p : V3 ℝ, V3.NearTo (R := R) (p.fin : V3 (Ext ℝ)) p 0 := fun p => ⟨Fl.near_fin _, Fl.near_fin _, Fl.near_fin _⟩
  have lu := hU.len
  have hη1 := hη.lo
  have hη0 : 0 < η := lt_of_lt_of_le (by positivity) hη1
  have hKη1 : η ≤ K * η := by nlinarith
  have hne : u ≠ ⟨0, 0, 0⟩ := by
    rintro rfl
    have : len3 (⟨0, 0, 0⟩ : V3 ℝ) = 0 := by simp [len3]
    linarith [lu.1]
  have fin : ∀ vec : V3 (Fl R), V3.NearTo vec (u.mulM r) (U * (19 * (K * η))) → V3.NearTo vec.normalized ((u.mulM r).sdiv (len3 (u.mulM r))) (5 * (19 * (K * η))) := by
    intro vec hvec
    obtain ⟨-, k⟩ := unit_near2 hR (δ := 19 * (K * η)) wU (by norm_num at hη1 ⊢; linarith) (by norm_num at hKη ⊢; linarith) hvec
      (by rw [rot_len hr]; exact lu.1) (by rw [rot_len hr]; exact lu.2)
    have mono : 25 / 8 * (19 * (K * η)) + 18 / 2 ^ 50 ≤ 5 * (19 * (K * η)) := by norm_num at hη1 ⊢; linarith
    exact ⟨k.1.mono mono, k.2.1.mono mono, k.2.2.mono mono⟩
  refine ⟨hne, ?_⟩
  rcases h with h | ⟨h, p, hp, rfl, hKU, p1, p2, p3, x1, x2, x3⟩
  · have hl := literal_rot (E := E) (v := v) h j
    obtain ⟨m, l, h1, h2⟩ := h
    change look (α := Fl R) ms a = some m at h1
    have nu := mulM_near' hR wU hη (ex u) ⟨hU.1, hU.2.1, hU.2.2.1⟩ hv hr
    have mono : 8 * (U * η) ≤ U * (19 * (K * η)) := by nlinarith
    exact ⟨_, _, by unfold legOf; rw [h1]; simp only [hl]; rfl, fin _ ⟨nu.1.mono mono, nu.2.1.mono mono, nu.2.2.mono mono⟩⟩
  · have hl := literal_rot (E := E) (v := v) hp (j + 1)
    have hKU1 : U ≤ K * U := by nlinarith
    have wM : Wide (K * U) := ⟨wU.lo.trans hKU1, hKU⟩
    have np := mulM_near' hR wM hη (ex p) ⟨p1, p2, p3⟩ hv hr
    have nx := mulM_near' hR wM hη (ex x) ⟨x1, x2, x3⟩ hv hr
    have lp : len3 (p.mulM r) ≤ 7 / 4 * (K * U) := by rw [rot_len hr]; exact len_within (by linarith) ⟨p1, p2, p3⟩
    have lx : len3 (x.mulM r) ≤ 7 / 4 * (K * U) := by rw [rot_len hr]; exact len_within (by linarith) ⟨x1, x2, x3⟩
    have wp := within_len lp
    have wx := within_len lx
    have g1 : K * U * (1 / 2 ^ 50) ≤ K * U * η := mul_le_mul_of_nonneg_left hη1 (by linarith)
    have g2 : K * U * η ≤ K * U * (1 / 2 ^ 40) := mul_le_mul_of_nonneg_left hη.hi (by linarith)
    norm_num at g1 g2
    refine ⟨_, _, by unfold legOf; rw [h]; simp only [hl]; rfl, fin _ ?_⟩
    rw [rot_sub, show U * (19 * (K * η)) = 19 * (K * U * η) by ring]
    have one : ∀ {x y : Fl R} {b c : ℝ}, Fl.Near x b (8 * (K * U * η)) → Fl.Near y c (8 * (K * U * η)) → |b| ≤ 7 / 4 * (K * U) → |c| ≤ 7 / 4 * (K * U) →
        Fl.Near (x - y) (b - c) (19 * (K * U * η)) := by
      intro x y b c h1 h2 h3 h4
      have := abs_sub b c
      exact (h1.sub hR h2 (S := 4 * (K * U)) (by linarith) (wM.bot (by linarith)) (wM.top (by linarith))).mono (by norm_num; linarith)
    exact ⟨one np.1 nx.1 wp.1 wx.1, one np.2.1 nx.2.1 wp.2.1 wx.2.1, one np.2.2 nx.2.2 wp.2.2 wx.2.2⟩

/-- the label of one angle that is accepted -/
theorem angle_label_near {E : Env (Fl R)} {v : Vis (Fl R)} {r : M3 ℝ} (hr : IsRotation r) {η : ℝ} (hη : Fine η)
    (hv : M3.NearTo v.rotation r η) {d : DimN (Fl R)} {x u w : V3 ℝ} {g : Fl R → Str} {K : ℝ} (h : AngleSays E d x u w g K)
    (hs : 0 < Real.sin (angleBetween u w)) (hK : 2 ^ 24 * (K * η) ≤ Real.sin (angleBetween u w) ^ 2) (P : OutPage (Fl R))
    (hP : drawnItems E v d.kind d.metas = some P) :
    ∃ y q, P.text = [⟨q, g y ++ c!" deg", true, false⟩] ∧
      Fl.Near y (angleBetween u w * 180 / Real.pi) (2 ^ 18 * (K * η) / Real.sin (angleBetween u w)) := by
  have hs1 : Real.sin (angleBetween u w) ≤ 1 := Real.sin_le_one _
  have hs2 : Real.sin (angleBetween u w) ^ 2 ≤ 1 := by nlinarith
  have hKη : K * η ≤ 1 / 2 ^ 24 := by
    rw [le_div_iff₀ (by positivity), mul_comm]
    exact hK.trans hs2
  have hη1 := hη.lo
  have hη0 : 0 < η := lt_of_lt_of_le (by positivity) hη1
  have hKη1 : η ≤ K * η := by have := h.size; nlinarith
  obtain ⟨nu, n, q, e1, k1⟩ := leg_near hR (E := E) hr hη hv h.size hKη h.from_ 2
  obtain ⟨nw, m, q', e2, k2⟩ := leg_near hR (E := E) hr hη hv h.size hKη h.to_ 4
  have hang : angleBetween (u.mulM r) (w.mulM r) = angleBetween u w := by
    have := rot_dot hr u w
    simp only [V3.dot] at this
    unfold angleBetween
    rw [rot_len hr, rot_len hr, this]
  have hang' : angleBetween (w.mulM r) (u.mulM r) = angleBetween u w := by
    rw [← hang]; unfold angleBetween; congr 1; ring
  have bound : ∀ {y : Fl R}, Fl.Near y (angleBetween u w * 180 / Real.pi) (8400 * (19 * (K * η)) / Real.sin (angleBetween u w)) →
      Fl.Near y (angleBetween u w * 180 / Real.pi) (2 ^ 18 * (K * η) / Real.sin (angleBetween u w)) := by
    intro y hy
    refine hy.mono (div_le_div_of_nonneg_right ?_ hs.le)
    norm_num; linarith
  have c1 : 19 / 2 ^ 50 ≤ 19 * (K * η) := by norm_num at hη1 ⊢; linarith
  have c2 : 1152 * (19 * (K * η)) ≤ Real.sin (angleBetween u w) ^ 2 := by norm_num at hK; linarith
  have c3 : 19 * (K * η) ≤ 1 / 2 ^ 19 := by norm_num at hKη ⊢; linarith
  have a1 := angle_near hR c1 k1 k2 (rot_ne hr nu) (rot_ne hr nw) (by rw [hang]; exact hs) (by rw [hang]; exact c2) c3
  have a2 := angle_near hR c1 k2 k1 (rot_ne hr nw) (rot_ne hr nu) (by rw [hang']; exact hs) (by rw [hang']; exact c2) c3
  rw [hang] at a1
  rw [hang'] at a2
  rw [h.kind] at hP
  simp only [drawnItems, bind, Option.bind] at hP
  cases ha : pointOf E v 0 d.metas c!"at" with
  | none => rw [ha] at hP; cases hP
  | some a =>
    rw [ha] at hP
    simp only [literal_rot h.apex, e1, e2, h.fmt] at hP
    by_cases h1 : FP.eq (m.cross n).z (FP.lit 0) = true
    · rw [if_pos h1] at hP; cases hP
    · rw [if_neg h1] at hP
      split at hP
      · cases hP; exact ⟨_, _, rfl, bound a2⟩
      · cases hP; exact ⟨_, _, rfl, bound a1⟩
end

section
variable (I : IntRounding) (range64 range32 : ℚ → Bool)

/-- what a dimension of a successful drawing puts on the page -/
theorem dim_drawn {α : Type} [FP α] (E : Env α) (stl : Models α) (name : Str) (ms : List (Meta α)) (dims : List (DimN α)) (line : Nat) (c)
    (h : content E stl (.draw name ms dims line) = .ok c) (hc : c.1 = true) :
    ∃ sc rot loc file proj ls, Drawn E stl name ms sc rot loc file proj ls ∧ (rot.eqv E.junkM = false → ∀ d ∈ dims,
      ∃ P, drawnItems E (drawStart (initVis E) sc rot loc proj.cull ls) d.kind d.metas = some P ∧
        ∀ i ∈ P.text, ⟨i.at_.moved (projScale sc) (projOffset loc proj.cull.limits (projScale sc)), i.str, i.center, i.raw⟩ ∈ c.2.1.text) := by
  rcases draw_sum E stl name ms dims line c h with ⟨h1, -⟩ | ⟨sc, rot, loc, file, proj, ls, cs, hD, hcs, hp, hok, -⟩
  · rw [h1] at hc; cases hc
  refine ⟨sc, rot, loc, file, proj, ls, hD, fun hj d hd => ?_⟩
  obtain ⟨k, hk, hdk⟩ := forall₂_left_mem hcs hd
  obtain ⟨s1, s2⟩ := dimContent_items E (drawStart (initVis E) sc rot loc proj.cull ls) d hj
  have ht := (hok.1 hc).1 k hk
  cases hP : drawnItems E (drawStart (initVis E) sc rot loc proj.cull ls) d.kind d.metas with
  | none =>
    obtain ⟨L, e⟩ := s2 (Or.inr hP)
    rw [hdk] at e; injection e with e
    rw [e] at ht; cases ht
  | some P =>
    refine ⟨P, rfl, fun i hi => ?_⟩
    have hg : GoodDim d.kind d.metas := by
      by_contra hg
      obtain ⟨L, e⟩ := s2 (Or.inl hg)
      rw [hdk] at e; injection e with e
      rw [e] at ht; cases ht
    obtain ⟨L, e⟩ := s1 P hg hP
    rw [hdk] at e; injection e with e
    rw [hp]
    simp only [OutPage.app, List.mem_append]
    refine Or.inr ((mem_sum_text _).2 ⟨_, List.mem_map.2 ⟨_, hk, rfl⟩, ?_⟩)
    rw [e]
    simp only [OutPage.moved]
    exact List.mem_map.2 ⟨i, hi, rfl⟩

/-- **C75.** In IEEE 754 double arithmetic, whatever the direction of rounding: in a drawing that succeeds, an angle with literal points or directions has
a label, and the number formatted in it is the angle between the legs in degrees, to 2^18 times `K` and the accuracy of the view, over the sine of the angle.
The angle must not be next to 0° or 180°. -/
theorem C75_label (E : Env (Fl (binary64 I range64 range32))) (hJ : E.junkM = ⟨V3.zero, V3.zero, V3.zero⟩)
    (stl : Models (Fl (binary64 I range64 range32))) (name : Str) (ms : List (Meta (Fl (binary64 I range64 range32)))) (hf : ∀ m ∈ ms, m.val.LocBd)
    (dims : List (DimN (Fl (binary64 I range64 range32)))) (line : Nat) (c) (h : content E stl (.draw name ms dims line) = .ok c) (hc : c.1 = true)
    (η : ℝ) (hη : ViewError ms η) (d) (hd : d ∈ dims) (x u w : V3 ℝ) (g) (K : ℝ) (hs : AngleSays E d x u w g K)
    (h0 : 0 < Real.sin (angleBetween u w)) (hK : 2 ^ 24 * (K * η) ≤ Real.sin (angleBetween u w) ^ 2) :
    ∃ item ∈ c.2.1.text, ∃ y, item.str = g y ++ c!" deg" ∧ item.center = true ∧
      Fl.Near y (angleBetween u w * 180 / Real.pi) (2 ^ 18 * (K * η) / Real.sin (angleBetween u w)) := by
  obtain ⟨sc, rot, loc, file, proj, ls, hD, hdr⟩ := dim_drawn E stl name ms dims line c h hc
  have hvb := viewOf_bd _ (fun m hm => hf m (look_mem hm)) _ hD.view
  obtain ⟨P, hP, hi⟩ := hdr (by rw [hJ]; exact hvb.2.2.2) d hd
  obtain ⟨hfine, r, -, hr, hnear⟩ := view_fine (binary64_accurate I range64 range32) ms hη rot hD.view
  obtain ⟨y, q, e, k⟩ := angle_label_near (binary64_accurate I range64 range32) (v := drawStart (initVis E) sc rot loc proj.cull ls) hr hfine hnear hs h0 hK P hP
  exact ⟨_, hi ⟨q, g y ++ c!" deg", true, false⟩ (by rw [e]; exact List.mem_singleton_self _), y, rfl, rfl, k⟩

/-- **C75**, of a run -/
theorem C75_run (E : Env (Fl (binary64 I range64 range32))) (hJ : E.junkM = ⟨V3.zero, V3.zero, V3.zero⟩) (w : World) (src script : Str) (r : RunRes)
    (h : scriptToPS E w src script = .ok r) (hok : r.ok = true) :
    ∃ (doc : Doc (Fl (binary64 I range64 range32))) (outs : List (OutPage (Fl (binary64 I range64 range32)))),
      parse script = .ok (some doc) ∧ r.out = renderPages E src outs ∧
      List.Forall₂ (fun pg o => ∀ name ms dims line, Drawable.draw name ms dims line ∈ pg.draws → ∀ η, ViewError ms η → ∀ d ∈ dims, ∀ x u w g K,
        AngleSays E d x u w g K → 0 < Real.sin (angleBetween u w) → 2 ^ 24 * (K * η) ≤ Real.sin (angleBetween u w) ^ 2 →
        ∃ item ∈ o.text, ∃ y, item.str = g y ++ c!" deg" ∧ item.center = true ∧
          Fl.Near y (angleBetween u w * 180 / Real.pi) (2 ^ 18 * (K * η) / Real.sin (angleBetween u w))) doc.pages outs := by
  obtain ⟨doc, fs, outs, hp, -, hl, hf, ho⟩ := (C48_all_or_nothing E w src script r h).2.1 hok
  refine ⟨doc, outs, hp, ho, ?_⟩
  have hlo := parse_locBd script doc hp
  clear ho hp
  generalize hpg : doc.pages = pgs at *
  clear hpg
  induction hf with
  | nil => exact .nil
  | @cons pg o pgs outs ho _ ih =>
    refine .cons ?_ (ih (fun pg hpg => hlo pg (List.mem_cons_of_mem _ hpg)))
    obtain ⟨g, hg, gok, gp⟩ := ho
    obtain ⟨cs, k1, ⟨t, -, k2⟩, k3⟩ := C58_page E _ pg g hg
    have hall := (k3.1 gok).2.2
    rw [gp] at k2
    injection k2 with k2 _
    intro name ms dims line hdr η hη d hd x u w' g' K hs h0 hK
    obtain ⟨c, hc, hdc⟩ := forall₂_left_mem k1 hdr
    obtain ⟨item, hi, y, e1, e2, e3⟩ := C75_label I range64 range32 E hJ _ name ms (hlo pg List.mem_cons_self _ hdr) dims line c hdc (hall c hc)
      η hη d hd x u w' g' K hs h0 hK
    refine ⟨item, ?_, y, e1, e2, e3⟩
    rw [k2]
    unfold addHeader
    simp only [List.mem_append]
    exact Or.inl ((mem_sum_text _).2 ⟨_, List.mem_map.2 ⟨c, hc, rfl⟩, hi⟩)
end

/-! ## The premises occur -/

/-- the right angle at (1,1,0) between the direction x and the point (1,3,0) -/
noncomputable def flAngle : DimN (Fl (binary64 .nearest (fun _ => true) (fun _ => true))) :=
  ⟨.angle, [⟨c!"at", .pt (.val ((⟨2, 2, 0⟩ : V3 ℝ).fin : V3 (Ext ℝ)) 1), 1⟩, ⟨c!"apex", .pt (.val ((⟨1, 1, 0⟩ : V3 ℝ).fin : V3 (Ext ℝ)) 1), 1⟩,
    ⟨c!"from_dir", .pt (.val ((⟨1, 0, 0⟩ : V3 ℝ).fin : V3 (Ext ℝ)) 1), 1⟩, ⟨c!"to_point", .pt (.val ((⟨1, 3, 0⟩ : V3 ℝ).fin : V3 (Ext ℝ)) 1), 1⟩], 1⟩

theorem small_pow {x : ℝ} (h : x ≤ 4) : x ≤ 2 ^ 200 :=
  h.trans (by
    calc (4 : ℝ) = 2 ^ 2 := by norm_num
      _ ≤ 2 ^ 200 := pow_le_pow_right₀ (by norm_num) (by norm_num))

theorem flAngle_says : AngleSays flEnv flAngle ⟨1, 1, 0⟩ ⟨1, 0, 0⟩ ⟨0, 2, 0⟩ FP.g6 2 where
  kind := rfl
  apex := ⟨_, _, rfl, rfl⟩
  from_ := ⟨1, ⟨by norm_num, by norm_num, by norm_num, Or.inl (by norm_num), by norm_num, small_pow (by norm_num)⟩, Or.inl ⟨_, _, rfl, rfl⟩⟩
  to_ := ⟨2, ⟨by norm_num, by norm_num, by norm_num, Or.inr (Or.inl (by norm_num)), by norm_num, small_pow (by norm_num)⟩,
    Or.inr ⟨rfl, ⟨1, 3, 0⟩, ⟨_, _, rfl, rfl⟩, by ext <;> norm_num, small_pow (by norm_num), by norm_num, by norm_num, by norm_num, by norm_num,
      by norm_num, by norm_num⟩⟩
  fmt := rfl
  size := by norm_num

theorem flAngle_right : angleBetween ⟨1, 0, 0⟩ ⟨0, 2, 0⟩ = Real.pi / 2 := by simp [angleBetween]

/-- the drawing with this angle succeeds, and it is a right angle -/
example : ViewError (R := binary64 .nearest (fun _ => true) (fun _ => true)) [] (1 / 2 ^ 50) ∧
    (∃ c, content flEnv [(c!"m", some ⟨[flTri], [], [], 0⟩)] (.draw c!"m" [] [flAngle] 1) = .ok c ∧ c.1 = true) ∧
    0 < Real.sin (angleBetween ⟨1, 0, 0⟩ ⟨0, 2, 0⟩) ∧ (2 : ℝ) ^ 24 * (2 * (1 / 2 ^ 50)) ≤ Real.sin (angleBetween ⟨1, 0, 0⟩ ⟨0, 2, 0⟩) ^ 2 ∧
    angleBetween ⟨1, 0, 0⟩ ⟨0, 2, 0⟩ * 180 / Real.pi = 90 := by
  have hve : ViewError (R := binary64 .nearest (fun _ => true) (fun _ => true)) [] (1 / 2 ^ 50) := Or.inl ⟨by simp [NamedView, look], rfl⟩
  have hM : Models.Bd 2 [(c!"m", some (⟨[flTri], [], [], 0⟩ : STLFile (Fl (binary64 .nearest (fun _ => true) (fun _ => true)))))] := by
    intro e he
    simp only [List.mem_singleton] at he
    subst he
    exact ⟨_, rfl, flTri_bd⟩
  have hR := binary64_accurate .nearest (fun _ => true) (fun _ => true)
  rw [flAngle_right, Real.sin_pi_div_two]
  refine ⟨hve, ?_, by norm_num, by norm_num, by field_simp; norm_num⟩
  obtain ⟨c, hc⟩ := content_bd flEnv insSorter_ok rfl [(c!"m", some ⟨[flTri], [], [], 0⟩)] (k := 2) (by norm_num) hM (.draw c!"m" [] [flAngle] 1)
    (by simp [Drawable.LocBd]) (by intro m hm; simp at hm)
  refine ⟨c, hc, ?_⟩
  obtain ⟨proj, ls, g1, g2, -, g3, -⟩ := turned_bd (n := 2) (by norm_num) flEnv.sorter insSorter_ok _ flTri_bd matZP
    (viewOf_bd (none : Option (Meta (Fl (binary64 .nearest (fun _ => true) (fun _ => true))))) (by simp) matZP rfl)
  rcases draw_sum _ _ _ _ _ _ c hc with ⟨-, -, -, h⟩ | ⟨sc, rot, loc, file, pr, ls', cs, hD, hcs, -, h, -⟩
  · exact absurd ⟨_, _, _, _, _, _, ⟨by simp, rfl, rfl, rfl, ⟨_, rfl, rfl⟩, g1, by rw [g2]; exact g3⟩⟩ h
  refine h.2 ⟨?_, by simp⟩
  have hrot : rot = matZP := by have := hD.view; cases this; rfl
  have hr1 : IsRotation (⟨⟨1, 0, 0⟩, ⟨0, 1, 0⟩, ⟨0, 0, 1⟩⟩ : M3 ℝ) := by
    obtain ⟨r, ax, e, hr, -⟩ := C30_named_views (K := ℝ) c!"Z+" matZP rfl
    have : r = ⟨⟨1, 0, 0⟩, ⟨0, 1, 0⟩, ⟨0, 0, 1⟩⟩ := by
      have := e.symm
      simp [matZP, ptX, ptY, ptZ, M3.fin, M3.map, V3.map, M3.ext_iff, V3.ext_iff] at this ⊢
      exact this
    rw [this] at hr; exact hr
  have hnear : M3.NearTo rot ⟨⟨1, 0, 0⟩, ⟨0, 1, 0⟩, ⟨0, 0, 1⟩⟩ (1 / 2 ^ 50) := by
    rw [hrot]
    have e : (matZP : M3 (Fl (binary64 .nearest (fun _ => true) (fun _ => true)))) = (M3.fin ⟨⟨1, 0, 0⟩, ⟨0, 1, 0⟩, ⟨0, 0, 1⟩⟩ : M3 (Ext ℝ)) := by
      unfold matZP ptX ptY ptZ
      rw [lit_one_fl, lit_zero]
      rfl
    rw [e]
    exact nearTo_fin _ (by norm_num)
  have hfine : Fine (1 / 2 ^ 50) := ⟨le_rfl, by norm_num⟩
  have hvb := viewOf_bd _ (fun m hm => by simp [look] at hm) _ hD.view
  obtain ⟨-, n, q, e1, k1⟩ := leg_near hR (E := flEnv) (v := drawStart (initVis flEnv) sc rot loc pr.cull ls') hr1 hfine hnear (by norm_num) (by norm_num)
    flAngle_says.from_ 2
  obtain ⟨-, m, q', e2, k2⟩ := leg_near hR (E := flEnv) (v := drawStart (initVis flEnv) sc rot loc pr.cull ls') hr1 hfine hnear (by norm_num) (by norm_num)
    flAngle_says.to_ 4
  have s1 : ((⟨1, 0, 0⟩ : V3 ℝ).mulM ⟨⟨1, 0, 0⟩, ⟨0, 1, 0⟩, ⟨0, 0, 1⟩⟩).sdiv (len3 ((⟨1, 0, 0⟩ : V3 ℝ).mulM ⟨⟨1, 0, 0⟩, ⟨0, 1, 0⟩, ⟨0, 0, 1⟩⟩)) = ⟨1, 0, 0⟩ := by
    simp [V3.mulM, V3.sdiv, len3]
  have s2 : ((⟨0, 2, 0⟩ : V3 ℝ).mulM ⟨⟨1, 0, 0⟩, ⟨0, 1, 0⟩, ⟨0, 0, 1⟩⟩).sdiv (len3 ((⟨0, 2, 0⟩ : V3 ℝ).mulM ⟨⟨1, 0, 0⟩, ⟨0, 1, 0⟩, ⟨0, 0, 1⟩⟩)) = ⟨0, 1, 0⟩ := by
    simp [V3.mulM, V3.sdiv, len3]
  rw [s1] at k1
  rw [s2] at k2
  have hz : FP.eq (m.cross n).z (FP.lit 0) = false := by
    have p1 := k2.1.mul hR k1.2.1 (A := 1) (B := 1) (S := 2) (by norm_num) (by norm_num) (by norm_num) (by norm_num) (le_top (by norm_num))
    have p2 := k2.2.1.mul hR k1.1 (A := 1) (B := 1) (S := 2) (by norm_num) (by norm_num) (by norm_num) (by norm_num) (le_top (by norm_num))
    obtain ⟨b, hb, hb2⟩ := p1.sub hR p2 (S := 2) (by norm_num) (by norm_num) (le_top (by norm_num))
    have : (m.cross n).z = (Ext.fin b : Ext ℝ) := hb
    rw [this, lit_zero]
    have hb0 : b ≠ 0 := by
      rintro rfl
      norm_num at hb2
    show Ext.eq (K := ℝ) (.fin b) (.fin 0) = false
    simp [Ext.eq, hb0]
  intro k hk
  obtain ⟨d, hd, hdk⟩ := forall₂_right_mem hcs hk
  rw [List.mem_singleton] at hd
  subst hd
  have hP : ∃ P, drawnItems flEnv (drawStart (initVis flEnv) sc rot loc pr.cull ls') flAngle.kind flAngle.metas = some P := by
    rw [flAngle_says.kind]
    have ha : Literal (K := ℝ) flAngle.metas c!"at" ⟨2, 2, 0⟩ := ⟨_, _, rfl, rfl⟩
    simp only [drawnItems, literal_rot ha, literal_rot flAngle_says.apex, e1, e2, flAngle_says.fmt, bind, Option.bind]
    rw [hz]
    simp only [Bool.false_eq_true, if_false]
    split
    · exact ⟨_, rfl⟩
    · exact ⟨_, rfl⟩
  obtain ⟨P, hP⟩ := hP
  obtain ⟨L, e⟩ := (dimContent_items flEnv (drawStart (initVis flEnv) sc rot loc pr.cull ls') flAngle hvb.2.2.2).1 P
    (by simp only [flAngle, GoodDim]; rw [exactly_def]; simp [Has]) hP
  rw [hdk] at e
  injection e with e
  rw [e]

end S2P
