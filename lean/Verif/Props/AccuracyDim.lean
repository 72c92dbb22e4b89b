import Verif.Lemmas.AccuracyDim
import Verif.Spec.AccuracyDim
import Verif.Props.Accuracy
import Verif.Lemmas.Paper

set_option linter.unusedSectionVars false
set_option linter.unusedVariables false
set_option linter.unusedSimpArgs false

/-! # C74: the number at a linear dimension is right, in double arithmetic -/

namespace S2P

theorem Largest.len {u : V3 ℝ} {M : ℝ} (h : Largest u M) : M ≤ len3 u ∧ len3 u ≤ 7 / 4 * M := by
  obtain ⟨h1, h2, h3, h4, h5, h6⟩ := h
  refine ⟨?_, len_within (le_trans (by positivity) h5) ⟨h1, h2, h3⟩⟩
  obtain ⟨w1, w2, w3⟩ := within_len (le_refl (len3 u))
  rcases h4 with h | h | h <;> rw [← h] <;> assumption

section
variable {R : Rounding} (hR : R.Accurate)
include hR

theorem view_named_eq (mV : Option (Meta (Fl R))) (hn : ∀ m l, mV = some m → m.val ≠ .loc l) (rot : M3 (Fl R)) (h : viewOf mV = .ok rot) :
    ∃ r : M3 ℝ, viewOf (α := Ext ℝ) mV = .ok r.fin ∧ IsRotation r ∧ rot = r.fin := by
  obtain ⟨r, h1, h2, -⟩ := view_near hR mV (fun m l hm hl => absurd hl (hn m l hm)) rot h
  refine ⟨r, h1, h2, ?_⟩
  have : rot = r.fin := by
    cases mV with
    | none =>
      cases h
      have : (matZP : M3 (Fl R)) = (matZP : M3 (Ext ℝ)) := Option.some.inj (named_ext (R := R) c!"Z+")
      rw [this]
      exact Except.ok.inj h1
    | some m =>
      obtain ⟨nm, v, ln⟩ := m
      cases v with
      | loc l => exact absurd rfl (hn _ l rfl)
      | str n =>
        unfold viewOf at h h1
        simp only at h h1
        rw [named_ext] at h
        cases hg : getMatrixByName (α := Ext ℝ) n with
        | none => rw [hg] at h; cases h
        | some q =>
          rw [hg] at h h1
          exact (Except.ok.inj h).symm.trans (Except.ok.inj h1)
      | pt p => cases h
      | num p => cases h
      | scale a b => cases h
  exact this

theorem view_near_named (mV : Option (Meta (Fl R))) (hn : ∀ m l, mV = some m → m.val ≠ .loc l) (rot : M3 (Fl R)) (h : viewOf mV = .ok rot) :
    ∃ r : M3 ℝ, viewOf (α := Ext ℝ) mV = .ok r.fin ∧ IsRotation r ∧ M3.NearTo rot r (1 / 2 ^ 50) := by
  obtain ⟨r, h1, h2, h3⟩ := view_named_eq hR mV hn rot h
  refine ⟨r, h1, h2, ?_⟩
  rw [h3]
  exact nearTo_fin r (by norm_num)

theorem view_fine (ms : List (Meta (Fl R))) {η : ℝ} (hη : ViewError ms η) (rot : M3 (Fl R)) (h : viewOf (look ms c!"view") = .ok rot) :
    Fine η ∧ ∃ r : M3 ℝ, AskedView ms r ∧ IsRotation r ∧ M3.NearTo rot r η := by
  rcases hη with ⟨h1, rfl⟩ | ⟨h1, rfl⟩
  · exact ⟨⟨le_rfl, by norm_num⟩, view_near_named hR _ h1 rot h⟩
  · exact ⟨⟨by norm_num, le_rfl⟩, view_near hR _ h1 rot h⟩

omit hR in
theorem literal_rot {E : Env (Fl R)} {v : Vis (Fl R)} {ms : List (Meta (Fl R))} {n : Str} {p : V3 ℝ} (h : Literal (K := ℝ) ms n p) (j : Nat) :
    pointOf E v j ms n = some (V3.mulM (α := Fl R) (p.fin : V3 (Ext ℝ)) v.rotation) := by
  obtain ⟨m, l, h1, h2⟩ := h
  change look (α := Fl R) ms n = some m at h1
  change m.val = (MetaVal.pt (Pt.val (p.fin : V3 (Ext ℝ)) l) : MetaVal (Fl R)) at h2
  unfold pointOf
  simp only [h1, h2, Pt.rot, Pt.invoke, if_true]

/-- the label of one dimension -/
theorem label_near {E : Env (Fl R)} {v : Vis (Fl R)} (hj : v.rotation.eqv E.junkM = false) {r : M3 ℝ} (hr : IsRotation r) {η : ℝ} (hη : Fine η)
    (hv : M3.NearTo v.rotation r η) {d : DimN (Fl R)} (hg : GoodDim d.kind d.metas) {a u f t : V3 ℝ} {g : Fl R → Str} {M U : ℝ}
    (h : DimSays E d a u f t g M) (hu : Largest u U) :
    ∃ P L x, ∃ q : V2 (Fl R), dimContent E v d = .ok (true, P, L) ∧ P.text = [⟨q.moved v.scale v.d, g x, true, false⟩] ∧
      V2.NearTo q (a.mulM r).xy (8 * (M * η)) ∧ Fl.Near x (shown u f t) (2 ^ 12 * (M * η)) := by
  have hM : Wide M := ⟨h.size.1, h.size.2⟩
  have hU : Wide U := ⟨hu.2.2.2.2.1, hu.2.2.2.2.2⟩
  have hM0 : 0 ≤ M := le_trans (by positivity) hM.lo
  have ex : ∀ p : V3 ℝ, V3.NearTo (R := R) (p.fin : V3 (Ext ℝ)) p 0 := fun p => ⟨Fl.near_fin _, Fl.near_fin _, Fl.near_fin _⟩
  have na := mulM_near' hR hM hη (ex a) h.atIn hv hr
  have nf := mulM_near' hR hM hη (ex f) h.fromIn hv hr
  have nt := mulM_near' hR hM hη (ex t) h.toIn hv hr
  have nu := mulM_near' hR hU hη (ex u) ⟨hu.1, hu.2.1, hu.2.2.1⟩ hv hr
  have ln : ∀ {p : V3 ℝ}, p.Within M → len3 (p.mulM r) ≤ 7 / 4 * M := by
    intro p hp; rw [rot_len hr]; exact len_within hM0 hp
  have lu := hu.len
  have lu0 : 0 < len3 u := lt_of_lt_of_le (lt_of_lt_of_le (by positivity) hU.lo) lu.1
  obtain ⟨hz, nn⟩ := unit_near hR hU hη nu (by rw [rot_len hr]; exact lu.1) (by rw [rot_len hr]; exact lu.2)
  have hN : len3 ((u.mulM r).sdiv (len3 (u.mulM r))) = 1 := by
    have e : (u.mulM r).sdiv (len3 (u.mulM r)) = (u.mulM r).smul (1 / len3 (u.mulM r)) := by
      ext <;> simp [V3.sdiv, V3.smul] <;> ring
    rw [e, len3_scaled, rot_len hr, abs_of_pos (by positivity)]
    field_simp
  have nv := value_near hR hM hη nn hN na nf nt (ln h.atIn) (ln h.fromIn) (ln h.toIn)
  have hs : |((u.mulM r).sdiv (len3 (u.mulM r))).dot (t.mulM r - f.mulM r)| = shown u f t := by
    rw [shown, ← rot_sub]
    have e : ((u.mulM r).sdiv (len3 (u.mulM r))).dot ((t - f).mulM r) = (u.mulM r).dot ((t - f).mulM r) / len3 (u.mulM r) := by
      simp [V3.dot, V3.sdiv]; ring
    rw [e, rot_dot hr, rot_len hr, abs_div, abs_of_pos lu0]
    congr 2
    simp [V3.dot]; ring
  rw [hs] at nv
  have hi : drawnItems E v d.kind d.metas = some (dimItems g v.scale (V3.mulM (α := Fl R) (a.fin : V3 (Ext ℝ)) v.rotation)
      (V3.mulM (α := Fl R) (u.fin : V3 (Ext ℝ)) v.rotation).normalized (V3.mulM (α := Fl R) (f.fin : V3 (Ext ℝ)) v.rotation)
      (V3.mulM (α := Fl R) (t.fin : V3 (Ext ℝ)) v.rotation)) := by
    rw [h.kind]
    simp only [drawnItems, literal_rot h.at_, literal_rot h.dir, literal_rot h.from_, literal_rot h.to_, h.fmt, bind, Option.bind, hz]
    rfl
  obtain ⟨L, eq⟩ := (dimContent_items E v d hj).1 _ hg hi
  exact ⟨_, L, _, (V3.mulM (α := Fl R) (a.fin : V3 (Ext ℝ)) v.rotation).xy, eq, rfl, ⟨na.1, na.2.1⟩, nv⟩

end

theorem forall₂_left_mem {A B : Type} {R : A → B → Prop} {l : List A} {m : List B} (h : List.Forall₂ R l m) {a : A} (ha : a ∈ l) : ∃ b ∈ m, R a b := by
  induction h with
  | nil => cases ha
  | cons h1 _ ih =>
    rcases List.mem_cons.1 ha with rfl | ha
    · exact ⟨_, List.mem_cons_self, h1⟩
    · obtain ⟨b, hb, hr⟩ := ih ha
      exact ⟨b, List.mem_cons_of_mem _ hb, hr⟩

theorem mem_sum_text {α : Type} [FP α] {l : PsText α} : ∀ (Ps : List (OutPage α)), l ∈ (OutPage.sum Ps).text ↔ ∃ P ∈ Ps, l ∈ P.text
  | [] => by simp [OutPage.sum, OutPage.empty]
  | P :: Ps => by simp [OutPage.sum, OutPage.app, mem_sum_text Ps]

section
variable (I : IntRounding) (range64 range32 : ℚ → Bool)

/-- **C74.** In IEEE 754 double arithmetic, whatever the direction of rounding: in a drawing that succeeds, a linear dimension with literal points has a
label, and the number formatted in it is the distance between the points along the direction, but for 2^12 times the size of the coordinates and the accuracy
of the view: 2^-38 of the size of the coordinates for a named view, 2^-28 for one by angles. -/
theorem C74_label (E : Env (Fl (binary64 I range64 range32))) (hJ : E.junkM = ⟨V3.zero, V3.zero, V3.zero⟩)
    (stl : Models (Fl (binary64 I range64 range32))) (name : Str) (ms : List (Meta (Fl (binary64 I range64 range32)))) (hf : ∀ m ∈ ms, m.val.LocBd)
    (dims : List (DimN (Fl (binary64 I range64 range32)))) (line : Nat) (c) (h : content E stl (.draw name ms dims line) = .ok c) (hc : c.1 = true)
    (η : ℝ) (hη : ViewError ms η) (d) (hd : d ∈ dims) (a u f t : V3 ℝ) (g) (M U : ℝ) (hs : DimSays E d a u f t g M) (hu : Largest u U) :
    ∃ item ∈ c.2.1.text, ∃ x, item.str = g x ∧ item.center = true ∧ Fl.Near x (shown u f t) (2 ^ 12 * (M * η)) := by
  rcases draw_sum E stl name ms dims line c h with ⟨h1, -⟩ | ⟨sc, rot, loc, file, proj, ls, cs, hD, hcs, hp, hok, -⟩
  · rw [h1] at hc; cases hc
  have hvb := viewOf_bd _ (fun m hm => hf m (look_mem hm)) _ hD.view
  obtain ⟨hfine, r, -, hr, hnear⟩ := view_fine (binary64_accurate I range64 range32) ms hη rot hD.view
  have hj : (drawStart (initVis E) sc rot loc proj.cull ls).rotation.eqv E.junkM = false := by rw [hJ]; exact hvb.2.2.2
  obtain ⟨k, hk, hdk⟩ := forall₂_left_mem hcs hd
  have hg : GoodDim d.kind d.metas := by
    by_contra hg
    obtain ⟨L, e⟩ := (dimContent_items E _ d hj).2 (Or.inl hg)
    have := (hok.1 hc).1 k hk
    rw [hdk] at e
    injection e with e
    rw [e] at this; cases this
  obtain ⟨P, L, x, q, e1, e2, -, e3⟩ := label_near (binary64_accurate I range64 range32) hj hr hfine hnear hg hs hu
  rw [hdk] at e1
  injection e1 with e1
  subst e1
  have hm : (⟨q.moved (drawStart (initVis E) sc rot loc proj.cull ls).scale (drawStart (initVis E) sc rot loc proj.cull ls).d, g x, true, false⟩ :
      PsText (Fl (binary64 I range64 range32))) ∈ P.text := by rw [e2]; exact List.mem_singleton_self _
  refine ⟨⟨q.moved (drawStart (initVis E) sc rot loc proj.cull ls).scale (drawStart (initVis E) sc rot loc proj.cull ls).d, g x, true, false⟩, ?_, x, rfl, rfl, e3⟩
  rw [hp]
  simp only [OutPage.app, List.mem_append]
  exact Or.inr ((mem_sum_text _).2 ⟨P, List.mem_map.2 ⟨_, hk, rfl⟩, hm⟩)

/-- **C74**, of a run: if a conversion succeeds, the output is written from pages on which every linear dimension with literal points has such a label. -/
theorem C74_run (E : Env (Fl (binary64 I range64 range32))) (hJ : E.junkM = ⟨V3.zero, V3.zero, V3.zero⟩) (w : World) (src script : Str) (r : RunRes)
    (h : scriptToPS E w src script = .ok r) (hok : r.ok = true) :
    ∃ (doc : Doc (Fl (binary64 I range64 range32))) (outs : List (OutPage (Fl (binary64 I range64 range32)))),
      parse script = .ok (some doc) ∧ r.out = renderPages E src outs ∧
      List.Forall₂ (fun pg o => ∀ name ms dims line, Drawable.draw name ms dims line ∈ pg.draws → ∀ η, ViewError ms η → ∀ d ∈ dims, ∀ a u f t g M U,
        DimSays E d a u f t g M → Largest u U → ∃ item ∈ o.text, ∃ x, item.str = g x ∧ item.center = true ∧ Fl.Near x (shown u f t) (2 ^ 12 * (M * η)))
        doc.pages outs := by
  obtain ⟨doc, fs, outs, hp, -, hl, hf, ho⟩ := (C48_all_or_nothing E w src script r h).2.1 hok
  refine ⟨doc, outs, hp, ho, ?_⟩
  have hlo := parse_locBd script doc hp
  clear ho hp
  generalize hpg : doc.pages = pgs at *
  clear hpg
  induction hf with
  | nil => exact .nil
  | @cons pg o pgs outs ho _ ih =>
    refine .cons ?_ (ih (fun pg hpg => hlo pg (List.mem_cons_of_mem _ hpg)))
    obtain ⟨g, hg, gok, gp⟩ := ho
    obtain ⟨cs, k1, ⟨t, -, k2⟩, k3⟩ := C58_page E _ pg g hg
    have hall := (k3.1 gok).2.2
    rw [gp] at k2
    injection k2 with k2 _
    intro name ms dims line hdr η hη d hd a u f t' g' M U hs hu
    obtain ⟨c, hc, hdc⟩ := forall₂_left_mem k1 hdr
    obtain ⟨item, hi, x, e1, e2, e3⟩ := C74_label I range64 range32 E hJ _ name ms (hlo pg List.mem_cons_self _ hdr) dims line c hdc (hall c hc)
      η hη d hd a u f t' g' M U hs hu
    refine ⟨item, ?_, x, e1, e2, e3⟩
    rw [k2]
    unfold addHeader
    simp only [List.mem_append]
    exact Or.inl ((mem_sum_text _).2 ⟨_, List.mem_map.2 ⟨c, hc, rfl⟩, hi⟩)
end

/-! ## The premises occur -/

/-- a length of 4 between (0,0,0) and (4,3,0) along x -/
noncomputable def flDim : DimN (Fl (binary64 .nearest (fun _ => true) (fun _ => true))) :=
  ⟨.dim, [⟨c!"at", .pt (.val ((⟨0, 1, 0⟩ : V3 ℝ).fin : V3 (Ext ℝ)) 1), 1⟩, ⟨c!"dir", .pt (.val ((⟨2, 0, 0⟩ : V3 ℝ).fin : V3 (Ext ℝ)) 1), 1⟩,
    ⟨c!"from", .pt (.val ((⟨0, 0, 0⟩ : V3 ℝ).fin : V3 (Ext ℝ)) 1), 1⟩, ⟨c!"to", .pt (.val ((⟨4, 3, 0⟩ : V3 ℝ).fin : V3 (Ext ℝ)) 1), 1⟩], 1⟩

theorem flDim_says : DimSays flEnv flDim ⟨0, 1, 0⟩ ⟨2, 0, 0⟩ ⟨0, 0, 0⟩ ⟨4, 3, 0⟩ FP.g6 4 where
  kind := rfl
  at_ := ⟨_, _, rfl, rfl⟩
  dir := ⟨_, _, rfl, rfl⟩
  from_ := ⟨_, _, rfl, rfl⟩
  to_ := ⟨_, _, rfl, rfl⟩
  fmt := rfl
  size := ⟨by norm_num, by
    calc (4 : ℝ) = 2 ^ 2 := by norm_num
      _ ≤ 2 ^ 200 := pow_le_pow_right₀ (by norm_num) (by norm_num)⟩
  atIn := by norm_num
  fromIn := by norm_num
  toIn := by norm_num

theorem flDim_largest : Largest ⟨2, 0, 0⟩ 2 :=
  ⟨by norm_num, by norm_num, by norm_num, Or.inl (by norm_num), by norm_num, by
    calc (2 : ℝ) = 2 ^ 1 := by norm_num
      _ ≤ 2 ^ 200 := pow_le_pow_right₀ (by norm_num) (by norm_num)⟩

/-- the drawing with this dimension succeeds, and the number is 4 -/
example : ViewError (R := binary64 .nearest (fun _ => true) (fun _ => true)) [] (1 / 2 ^ 50) ∧
    (∃ c, content flEnv [(c!"m", some ⟨[flTri], [], [], 0⟩)] (.draw c!"m" [] [flDim] 1) = .ok c ∧ c.1 = true) ∧ shown ⟨2, 0, 0⟩ ⟨0, 0, 0⟩ ⟨4, 3, 0⟩ = 4 := by
  have hve : ViewError (R := binary64 .nearest (fun _ => true) (fun _ => true)) [] (1 / 2 ^ 50) := Or.inl ⟨by simp [NamedView, look], rfl⟩
  have hM : Models.Bd 2 [(c!"m", some (⟨[flTri], [], [], 0⟩ : STLFile (Fl (binary64 .nearest (fun _ => true) (fun _ => true)))))] := by
    intro e he
    simp only [List.mem_singleton] at he
    subst he
    exact ⟨_, rfl, flTri_bd⟩
  refine ⟨hve, ?_, ?_⟩
  · obtain ⟨c, hc⟩ := content_bd flEnv insSorter_ok rfl [(c!"m", some ⟨[flTri], [], [], 0⟩)] (k := 2) (by norm_num) hM (.draw c!"m" [] [flDim] 1)
      (by simp [Drawable.LocBd]) (by intro m hm; simp at hm)
    refine ⟨c, hc, ?_⟩
    obtain ⟨proj, ls, g1, g2, -, g3, -⟩ := turned_bd (n := 2) (by norm_num) flEnv.sorter insSorter_ok _ flTri_bd matZP
      (viewOf_bd (none : Option (Meta (Fl (binary64 .nearest (fun _ => true) (fun _ => true))))) (by simp) matZP rfl)
    rcases draw_sum _ _ _ _ _ _ c hc with ⟨-, -, -, h⟩ | ⟨sc, rot, loc, file, pr, ls', cs, hD, hcs, -, h, -⟩
    · exact absurd ⟨_, _, _, _, _, _, ⟨by simp, rfl, rfl, rfl, ⟨_, rfl, rfl⟩, g1, by rw [g2]; exact g3⟩⟩ h
    · refine h.2 ⟨?_, by simp⟩
      obtain ⟨hfine, r, -, hr, hnear⟩ := view_fine (binary64_accurate _ _ _) [] hve rot hD.view
      have hvb := viewOf_bd _ (fun m hm => by simp [look] at hm) _ hD.view
      intro k hk
      obtain ⟨d, hd, hdk⟩ := forall₂_right_mem hcs hk
      rw [List.mem_singleton] at hd
      subst hd
      obtain ⟨P, L, x, q, e1, -⟩ := label_near (E := flEnv) (v := drawStart (initVis flEnv) sc rot loc pr.cull ls') (binary64_accurate _ _ _) hvb.2.2.2 hr hfine hnear
        (d := flDim) (by simp only [flDim, GoodDim]; rw [exactly_def]; simp) flDim_says flDim_largest
      rw [hdk] at e1
      injection e1 with e1
      rw [e1]
  · simp only [shown, len3, V3.dot]
    norm_num
    rw [show (4 : ℝ) = 2 ^ 2 by norm_num, Real.sqrt_sq (by norm_num)]
    norm_num

end S2P
