import Verif.Lemmas.NearDouble
import Verif.Props.SpanPaper

set_option linter.unusedSectionVars false
set_option linter.unusedVariables false
set_option linter.unusedSimpArgs false

/-! # C87: a dimension between corners picked by `near` is right, in double arithmetic -/

namespace S2P

section
variable {R : Rounding} (hR : R.Accurate)
include hR

/-- the label of one dimension -/
theorem label_meant {E : Env (Fl R)} {stl : Models (Fl R)} {n : ℕ} (hn : n ≤ 40) {name : Str} {ms : List (Meta (Fl R))} {sc rot loc file proj ls r kept k p off}
    (F : Framed E stl n name ms sc rot loc file proj ls r kept k p off) {us : List (Tri ℝ)} (hus : List.Forall₂ (Stored (2 ^ n)) file.facets us)
    {η : ℝ} (hη : Fine η) (hm : M3.NearTo rot r η) {v : Vis (Fl R)} (hv : v.rotation = rot) (hp : v.points = proj.points) (hj : v.rotation.eqv E.junkM = false)
    {d : DimN (Fl R)} (hg : GoodDim d.kind d.metas) {u : V3 ℝ} {g : Fl R → Str} {U : ℝ} (h : DimAsks E d u g (2 ^ n)) (hu : Largest u U)
    (hz : (u.mulM r).z = 0) (ha : pointOf E v 0 d.metas c!"at" ≠ none) (hf : pointOf E v 2 d.metas c!"from" ≠ none)
    (ht : pointOf E v 3 d.metas c!"to" ≠ none) :
    ∃ P L x, ∃ q : V2 (Fl R), dimContent E v d = .ok (true, P, L) ∧ P.text = [⟨q.moved v.scale v.d, g x, true, false⟩] ∧
      ∃ f t, PointMeant (1 / 2 ^ 20) (2 ^ 11 * ((2 ^ n) ^ 2 * η)) r us d.metas c!"from" f ∧
        PointMeant (1 / 2 ^ 20) (2 ^ 11 * ((2 ^ n) ^ 2 * η)) r us d.metas c!"to" t ∧ Fl.Near x (shown u f t) (2 ^ 13 * (2 ^ n * η)) := by
  have h1 : (1 : ℝ) ≤ 2 ^ n := one_le_pow₀ (by norm_num)
  have hM : Wide ((2 : ℝ) ^ n) := ⟨le_trans (by norm_num) h1, pow_le_pow_right₀ (by norm_num) (by omega)⟩
  have hU : Wide U := ⟨hu.2.2.2.2.1, hu.2.2.2.2.2⟩
  have hr := F.rotation
  have hMη : 0 ≤ (2 : ℝ) ^ n * η := mul_nonneg (by linarith) (le_trans (by positivity) hη.lo)
  obtain ⟨A, ca, A', pa, -, na, la, -, -⟩ := point_meant hR hn F hus hη hm hv hp h.at_ 0 ha
  obtain ⟨Xf, f, F', pf, mf, nf, lf, fx, fy⟩ := point_meant hR hn F hus hη hm hv hp h.from_ 2 hf
  obtain ⟨Xt, t, T', pt, mt, nt, lt, tx, ty⟩ := point_meant hR hn F hus hη hm hv hp h.to_ 3 ht
  have nu := mulM_near' (R := R) hR hU hη (v := (u.fin : V3 (Ext ℝ))) ⟨Fl.near_fin _, Fl.near_fin _, Fl.near_fin _⟩ ⟨hu.1, hu.2.1, hu.2.2.1⟩ hm hr
  have lu := hu.len
  have lu0 : 0 < len3 u := lt_of_lt_of_le (lt_of_lt_of_le (by positivity) hU.lo) lu.1
  obtain ⟨hz', nn⟩ := unit_near hR hU hη nu (by rw [rot_len hr]; exact lu.1) (by rw [rot_len hr]; exact lu.2)
  have hN : len3 ((u.mulM r).sdiv (len3 (u.mulM r))) = 1 := by
    have e : (u.mulM r).sdiv (len3 (u.mulM r)) = (u.mulM r).smul (1 / len3 (u.mulM r)) := by
      ext <;> simp [V3.sdiv, V3.smul] <;> ring
    rw [e, len3_scaled, rot_len hr, abs_of_pos (by positivity)]
    field_simp
  have nv := value_near hR hM hη nn hN na nf nt la lf lt
  have hs : |((u.mulM r).sdiv (len3 (u.mulM r))).dot (t.mulM r - f.mulM r)| = shown u f t := by
    rw [shown, ← rot_sub]
    have e : ((u.mulM r).sdiv (len3 (u.mulM r))).dot ((t - f).mulM r) = (u.mulM r).dot ((t - f).mulM r) / len3 (u.mulM r) := by
      simp [V3.dot, V3.sdiv]; ring
    rw [e, rot_dot hr, rot_len hr, abs_div, abs_of_pos lu0]
    congr 2
    simp [V3.dot]; ring
  obtain ⟨wx, wy, -⟩ := within_len hN.le
  have Nz : ((u.mulM r).sdiv (len3 (u.mulM r))).z = 0 := by simp [V3.sdiv, hz]
  have hdiff : |(|((u.mulM r).sdiv (len3 (u.mulM r))).dot (T' - F')| - shown u f t)| ≤ 8 * (2 ^ n * η) := by
    rw [← hs]
    generalize (u.mulM r).sdiv (len3 (u.mulM r)) = N at *
    refine (abs_abs_sub_abs_le _ _).trans ?_
    have e : N.dot (T' - F') - N.dot (t.mulM r - f.mulM r) =
        N.x * (T'.x - (t.mulM r).x) - N.x * (F'.x - (f.mulM r).x) + (N.y * (T'.y - (t.mulM r).y) - N.y * (F'.y - (f.mulM r).y)) := by
      simp only [V3.dot, V3.sub_x, V3.sub_y, V3.sub_z, Nz]
      ring
    rw [e]
    have go : ∀ {a b c : ℝ}, |a| ≤ 1 → |b| ≤ 2 * (2 ^ n * η) → |c| ≤ 2 * (2 ^ n * η) → |a * b - a * c| ≤ 4 * (2 ^ n * η) := by
      intro a b c ha hb hc
      refine (abs_sub _ _).trans ?_
      rw [abs_mul, abs_mul]
      have := mul_le_mul ha hb (abs_nonneg _) (by norm_num)
      have := mul_le_mul ha hc (abs_nonneg _) (by norm_num)
      linarith
    refine (abs_add_le _ _).trans ?_
    have := go wx tx fx
    have := go wy ty fy
    linarith
  have hi : drawnItems E v d.kind d.metas = some (dimItems g v.scale A (V3.mulM (α := Fl R) (u.fin : V3 (Ext ℝ)) rot).normalized Xf Xt) := by
    have pu := literal_rot (E := E) (v := v) h.dir 1
    rw [hv] at pu
    rw [h.kind]
    simp only [drawnItems, pa, pu, pf, pt, h.fmt, bind, Option.bind, hz']
    rfl
  obtain ⟨L, eq⟩ := (dimContent_items E v d hj).1 _ hg hi
  refine ⟨_, L, _, A.xy, eq, rfl, f, t, mf, mt, (nv.trans hdiff).mono ?_⟩
  linarith

end

theorem ViewError.tame {R : Rounding} {ms : List (Meta (Fl R))} {η : ℝ} (h : ViewError ms η) : TameView ms := by
  rcases h with ⟨h, -⟩ | ⟨h, -⟩
  · intro m l h1 h2; exact absurd h2 (h m l h1)
  · exact h

theorem askedView_unique {R : Rounding} {ms : List (Meta (Fl R))} {r r' : M3 ℝ} (h : AskedView ms r) (h' : AskedView ms r') : r = r' := by
  have e : r.fin = (r'.fin : M3 (Ext ℝ)) := Except.ok.inj (h.symm.trans h')
  simp only [M3.fin, M3.map, V3.map, M3.mk.injEq, V3.mk.injEq, Ext.fin.injEq] at e
  obtain ⟨⟨a1, a2, a3⟩, ⟨b1, b2, b3⟩, c1, c2, c3⟩ := e
  ext <;> assumption

section
variable (I : IntRounding) (range64 range32 : ℚ → Bool)

/-- **C87.** In IEEE 754 double arithmetic, whatever the direction of rounding: in a drawing that succeeds, of a model whose file describes triangles `us`, a
linear dimension along a literal direction square to the line of sight, each of whose points is literal or near of a literal point, has a label, and the
number in it is the distance along the direction between the points meant: the literal ones, and corners of triangles not clearly facing away to which no
corner of a triangle clearly facing the viewer is preferable.  The number is right but for 2^13 times the size of the coordinates and the accuracy of the view. -/
theorem C87_label (E : Env (Fl (binary64 I range64 range32))) (hS : SortOK E.sorter) (hJ : E.junkM = ⟨V3.zero, V3.zero, V3.zero⟩)
    (stl : Models (Fl (binary64 I range64 range32))) {n : ℕ} (hn : n ≤ 40) (hM : stl.Bd n) (name : Str)
    (ms : List (Meta (Fl (binary64 I range64 range32)))) (hf : ∀ m ∈ ms, m.val.LocBd) (η : ℝ) (hη : ViewError ms η)
    (hs : TameScale ms) (dims : List (DimN (Fl (binary64 I range64 range32)))) (line : Nat) (c) (h : content E stl (.draw name ms dims line) = .ok c)
    (hc : c.1 = true) :
    ∃ file r, (∃ e, stl.find? (fun e => decide (e.1 = name)) = some e ∧ e.2 = some file) ∧ AskedView ms r ∧ IsRotation r ∧
      ∀ text us, make text = .ok (some file) → Describes (2 ^ n) text us → ∀ d ∈ dims, ∀ u g U, DimAsks E d u g (2 ^ n) → Largest u U → (u.mulM r).z = 0 →
        ∃ f t, PointMeant (1 / 2 ^ 20) (2 ^ 11 * ((2 ^ n) ^ 2 * η)) r us d.metas c!"from" f ∧
          PointMeant (1 / 2 ^ 20) (2 ^ 11 * ((2 ^ n) ^ 2 * η)) r us d.metas c!"to" t ∧
          ∃ item ∈ c.2.1.text, ∃ x, item.str = g x ∧ item.center = true ∧ Fl.Near x (shown u f t) (2 ^ 13 * (2 ^ n * η)) := by
  have hR := binary64_accurate I range64 range32
  obtain ⟨sc, rot, loc, file, proj, ls, r, kept, k, p, off, F⟩ := draw_frame hR E hS hJ stl (by omega) hM name ms hf hη.tame hs dims line c h hc
  obtain ⟨hfine, r', hr', -, hnear⟩ := view_fine hR ms hη rot F.drawn.view
  obtain rfl := askedView_unique hr' F.asked
  refine ⟨file, r', F.drawn.model, F.asked, F.rotation, ?_⟩
  intro text us hmk hde d hd u g U hA hu hz
  have hus := described_stored hR ⟨one_le_pow₀ (by norm_num), pow_le_pow_right₀ (by norm_num) hn⟩ hde hmk
  rcases draw_sum E stl name ms dims line c h with ⟨h1, -⟩ | ⟨sc', rot', loc', file', proj', ls', cs, hD, hcs, hp, hok, -⟩
  · rw [h1] at hc; cases hc
  obtain ⟨rfl, rfl, rfl, rfl, rfl, rfl⟩ := drawn_unique F.drawn hD
  have hj : (drawStart (initVis E) sc rot loc proj.cull ls).rotation.eqv E.junkM = false := by rw [hJ]; exact F.viewBd.2.2.2
  obtain ⟨k, hk, hdk⟩ := forall₂_left_mem hcs hd
  have hgd : GoodDim d.kind d.metas ∧ drawnItems E (drawStart (initVis E) sc rot loc proj.cull ls) d.kind d.metas ≠ none := by
    by_contra hg
    obtain ⟨L, e⟩ := (dimContent_items E _ d hj).2 (by
      by_cases h1 : GoodDim d.kind d.metas
      · right; by_contra h2; exact hg ⟨h1, h2⟩
      · exact Or.inl h1)
    have := (hok.1 hc).1 k hk
    rw [hdk] at e
    injection e with e
    rw [e] at this; cases this
  obtain ⟨hg, hsome⟩ := hgd
  rw [hA.kind] at hsome
  have hpts : (drawStart (initVis E) sc rot loc proj.cull ls).points = proj.points := by
    show proj.cull.points = _
    rw [F.culled]
  obtain ⟨P, L, x, q, e1, e2, f, t, mf, mt, e3⟩ := label_meant hR hn F hus hfine hnear (v := drawStart (initVis E) sc rot loc proj.cull ls) rfl hpts hj hg hA hu hz
    (by intro h0; apply hsome; simp [drawnItems, h0])
    (by intro h0; apply hsome; simp [drawnItems, h0])
    (by intro h0; apply hsome; simp [drawnItems, h0])
  rw [hdk] at e1
  injection e1 with e1
  subst e1
  have hm : (⟨q.moved (drawStart (initVis E) sc rot loc proj.cull ls).scale (drawStart (initVis E) sc rot loc proj.cull ls).d, g x, true, false⟩ :
      PsText (Fl (binary64 I range64 range32))) ∈ P.text := by rw [e2]; exact List.mem_singleton_self _
  refine ⟨f, t, mf, mt, ⟨q.moved (drawStart (initVis E) sc rot loc proj.cull ls).scale (drawStart (initVis E) sc rot loc proj.cull ls).d, g x, true, false⟩, ?_, x,
    rfl, rfl, e3⟩
  rw [hp]
  simp only [OutPage.app, List.mem_append]
  exact Or.inr ((mem_sum_text _).2 ⟨P, List.mem_map.2 ⟨_, hk, rfl⟩, hm⟩)

omit I range64 range32 in
theorem literal_unique {ms : List (Meta (Ext ℝ))} {n : Str} {a b : V3 ℝ} (h : Literal ms n a) (h' : Literal ms n b) : a = b := by
  obtain ⟨m, l, h1, h2⟩ := h
  obtain ⟨m', l', h1', h2'⟩ := h'
  rw [h1] at h1'
  cases h1'
  rw [h2] at h2'
  simp only [MetaVal.pt.injEq, Pt.val.injEq] at h2'
  simpa [V3.fin, V3.map, V3.ext_iff] using h2'.1

omit I range64 range32 in
theorem literal_not_near {ms : List (Meta (Ext ℝ))} {n : Str} {a b : V3 ℝ} (h : Literal ms n a) (h' : NearOf ms n b) : False := by
  obtain ⟨m, l, h1, h2⟩ := h
  obtain ⟨m', l', l'', h1', h2'⟩ := h'
  rw [h1] at h1'
  cases h1'
  rw [h2] at h2'
  simp at h2'

omit I range64 range32 in
theorem nearOf_unique {ms : List (Meta (Ext ℝ))} {n : Str} {a b : V3 ℝ} (h : NearOf ms n a) (h' : NearOf ms n b) : a = b := by
  obtain ⟨m, l, l1, h1, h2⟩ := h
  obtain ⟨m', l', l1', h1', h2'⟩ := h'
  rw [h1] at h1'
  cases h1'
  rw [h2] at h2'
  simp only [MetaVal.pt.injEq, Pt.func.injEq, Pt.val.injEq] at h2'
  simpa [V3.fin, V3.map, V3.ext_iff] using h2'.2.1.1

omit I range64 range32 in
/-- a point meant is the one meant beyond doubt, or appears at the same place -/
theorem meant_clear {δ ε : ℝ} {r : M3 ℝ} {ts : List (Tri ℝ)} {ms : List (Meta (Ext ℝ))} {n : Str} {c c0 : V3 ℝ} (h : PointMeant δ ε r ts ms n c)
    (h0 : PointClear δ ε r ts ms n c0) : (c.mulM r).xy = (c0.mulM r).xy := by
  rcases h with h | ⟨p, h1, h2, h3⟩
  · rcases h0 with h0 | ⟨p, g1, -⟩
    · rw [literal_unique h h0]
    · exact (literal_not_near h g1).elim
  · rcases h0 with h0 | ⟨p', g1, g2, g3⟩
    · exact (literal_not_near h0 h1).elim
    · obtain rfl := nearOf_unique h1 g1
      rcases g3 c h2 with g | g
      · exact g
      · exact absurd (h3 c0 g2) (by linarith)

omit I range64 range32 in
/-- only what appears in the view counts for a direction square to the line of sight -/
theorem shown_seen {r : M3 ℝ} (hr : IsRotation r) {u f t f0 t0 : V3 ℝ} (hz : (u.mulM r).z = 0) (hf : (f.mulM r).xy = (f0.mulM r).xy)
    (ht : (t.mulM r).xy = (t0.mulM r).xy) : shown u f t = shown u f0 t0 := by
  have key : ∀ a b : V3 ℝ, shown u a b = |(u.mulM r).x * ((b.mulM r).x - (a.mulM r).x) + (u.mulM r).y * ((b.mulM r).y - (a.mulM r).y)| / len3 u := by
    intro a b
    have e : (b - a).dot u = (u.mulM r).x * ((b.mulM r).x - (a.mulM r).x) + (u.mulM r).y * ((b.mulM r).y - (a.mulM r).y) := by
      have h1 : (b - a).dot u = u.dot (b - a) := by simp [V3.dot]; ring
      rw [h1, ← rot_dot hr, rot_sub]
      simp [V3.dot, hz]
    rw [shown, e]
  simp only [V2.ext_iff, V3.xy] at hf ht
  rw [key, key, hf.1, hf.2, ht.1, ht.2]

/-- **C87**, for corners picked beyond doubt: the number is the distance between them along the direction. -/
theorem C87_corners (E : Env (Fl (binary64 I range64 range32))) (hS : SortOK E.sorter) (hJ : E.junkM = ⟨V3.zero, V3.zero, V3.zero⟩)
    (stl : Models (Fl (binary64 I range64 range32))) {n : ℕ} (hn : n ≤ 40) (hM : stl.Bd n) (name : Str)
    (ms : List (Meta (Fl (binary64 I range64 range32)))) (hf : ∀ m ∈ ms, m.val.LocBd) (η : ℝ) (hη : ViewError ms η)
    (hs : TameScale ms) (dims : List (DimN (Fl (binary64 I range64 range32)))) (line : Nat) (c) (h : content E stl (.draw name ms dims line) = .ok c)
    (hc : c.1 = true) :
    ∃ file r, (∃ e, stl.find? (fun e => decide (e.1 = name)) = some e ∧ e.2 = some file) ∧ AskedView ms r ∧ IsRotation r ∧
      ∀ text us, make text = .ok (some file) → Describes (2 ^ n) text us → ∀ d ∈ dims, ∀ u g U, DimAsks E d u g (2 ^ n) → Largest u U → (u.mulM r).z = 0 →
        ∀ f t, PointClear (1 / 2 ^ 20) (2 ^ 11 * ((2 ^ n) ^ 2 * η)) r us d.metas c!"from" f →
          PointClear (1 / 2 ^ 20) (2 ^ 11 * ((2 ^ n) ^ 2 * η)) r us d.metas c!"to" t →
          ∃ item ∈ c.2.1.text, ∃ x, item.str = g x ∧ item.center = true ∧ Fl.Near x (shown u f t) (2 ^ 13 * (2 ^ n * η)) := by
  obtain ⟨file, r, h1, h2, h3, h4⟩ := C87_label I range64 range32 E hS hJ stl hn hM name ms hf η hη hs dims line c h hc
  refine ⟨file, r, h1, h2, h3, fun text us hmk hde d hd u g U hA hu hz f t cf ct => ?_⟩
  obtain ⟨f', t', mf, mt, item, i1, x, i2, i3, i4⟩ := h4 text us hmk hde d hd u g U hA hu hz
  rw [shown_seen h3 hz (meant_clear mf cf) (meant_clear mt ct)] at i4
  exact ⟨item, i1, x, i2, i3, i4⟩

/-- **C87**, of a run: if a conversion succeeds, the output is written from pages on which every linear dimension along a direction square to the line of
sight, between literal points or corners picked by `near` beyond doubt, has such a label. -/
theorem C87_run (E : Env (Fl (binary64 I range64 range32))) (hS : SortOK E.sorter) (hJ : E.junkM = ⟨V3.zero, V3.zero, V3.zero⟩)
    (w : World) (src script : Str) {n : ℕ} (hn : n ≤ 40) (r : RunRes) (h : scriptToPS E w src script = .ok r) (hok : r.ok = true)
    (hw : ∀ doc : Doc (Fl (binary64 I range64 range32)), parse script = .ok (some doc) → SaneModels n E.loadPath w doc.models)
    (hd : ∀ doc : Doc (Fl (binary64 I range64 range32)), parse script = .ok (some doc) → ∀ pg ∈ doc.pages, ∀ name ms dims line,
      Drawable.draw name ms dims line ∈ pg.draws → TameScale ms) :
    ∃ (doc : Doc (Fl (binary64 I range64 range32))) (outs : List (OutPage (Fl (binary64 I range64 range32)))),
      parse script = .ok (some doc) ∧ r.out = renderPages E src outs ∧
      List.Forall₂ (fun pg o => ∀ name ms dims line, Drawable.draw name ms dims line ∈ pg.draws → ∀ η, ViewError ms η →
        ∃ m ∈ doc.models, ∃ text ps v, m.name = name ∧ Places E.loadPath m.source ps ∧ FoundAt w ps text ∧ AskedView ms v ∧ IsRotation v ∧
          ∀ us, Describes (2 ^ n) text us → ∀ d ∈ dims, ∀ u g U, DimAsks E d u g (2 ^ n) → Largest u U → (u.mulM v).z = 0 →
            ∀ f t, PointClear (1 / 2 ^ 20) (2 ^ 11 * ((2 ^ n) ^ 2 * η)) v us d.metas c!"from" f →
              PointClear (1 / 2 ^ 20) (2 ^ 11 * ((2 ^ n) ^ 2 * η)) v us d.metas c!"to" t →
              ∃ item ∈ o.text, ∃ x, item.str = g x ∧ item.center = true ∧ Fl.Near x (shown u f t) (2 ^ 13 * (2 ^ n * η))) doc.pages outs := by
  obtain ⟨doc, fs, outs, hp, -, hl, hf, ho⟩ := (C48_all_or_nothing E w src script r h).2.1 hok
  refine ⟨doc, outs, hp, ho, ?_⟩
  have hM : Models.Bd n (List.zipWith (fun (m : ModelN) f => (m.name, some f)) doc.models fs) := by
    have hw' := hw doc hp
    clear * - hl hw' hn
    generalize doc.models = dm at *
    induction hl with
    | nil => intro e he; simp at he
    | @cons m f ms fs hmf _ ih =>
      intro e he
      simp only [List.zipWith_cons_cons, List.mem_cons] at he
      rcases he with rfl | he
      · obtain ⟨ps, x, p1, p2, hx⟩ := hmf
        exact ⟨f, rfl, sane_bd (by omega) (hw' m (by simp) ps x p1 p2) f hx⟩
      · exact ih (fun m' hm' => hw' m' (by simp [hm'])) e he
  have hlo := parse_locBd script doc hp
  have hd' := hd doc hp
  clear ho hp
  generalize hpg : doc.pages = pgs at *
  clear hpg
  induction hf with
  | nil => exact .nil
  | @cons pg o pgs outs ho _ ih =>
    refine .cons ?_ (ih (fun pg hpg => hlo pg (List.mem_cons_of_mem _ hpg)) (fun pg hpg => hd' pg (List.mem_cons_of_mem _ hpg)))
    obtain ⟨g, hg, gok, gp⟩ := ho
    obtain ⟨cs, k1, ⟨t, -, k2⟩, k3⟩ := C58_page E _ pg g hg
    have hall := (k3.1 gok).2.2
    rw [gp] at k2
    injection k2 with k2 _
    intro name ms dims line hdm η hη
    have hs := hd' pg List.mem_cons_self name ms dims line hdm
    obtain ⟨c, hcm, hdc⟩ := forall₂_left_mem k1 hdm
    obtain ⟨file, v, ⟨en, e1, e2⟩, d1, d2, d3⟩ :=
      C87_corners I range64 range32 E hS hJ _ hn hM name ms (hlo pg List.mem_cons_self _ hdm) η hη hs dims line _ hdc (hall _ hcm)
    obtain ⟨m, m1, m2, ps, text, q1, q2, q3⟩ := find_loads E.loadPath w _ _ hl name en e1 file e2
    refine ⟨m, m1, text, ps, v, m2, q1, q2, d1, d2, ?_⟩
    intro us hus d hd u g' U hA hu hz f t' cf ct
    obtain ⟨item, hi, x, i1, i2, i3⟩ := d3 text us q3 hus d hd u g' U hA hu hz f t' cf ct
    refine ⟨item, ?_, x, i1, i2, i3⟩
    rw [k2]
    unfold addHeader
    simp only [List.mem_append]
    exact Or.inl ((mem_sum_text _).2 ⟨_, List.mem_map.2 ⟨c, hcm, rfl⟩, hi⟩)

end

/-! ## The premises occur -/

/-- the width of the upper triangle, its corners given roughly, and at the wrong height -/
noncomputable def roughDim (l : ℕ → ℕ) : DimN F64 :=
  ⟨.dim, [⟨c!"at", .pt (.val ((⟨0, 1, 0⟩ : V3 ℝ).fin : V3 (Ext ℝ)) (l 0)), l 1⟩, ⟨c!"dir", .pt (.val ((⟨2, 0, 0⟩ : V3 ℝ).fin : V3 (Ext ℝ)) (l 2)), l 3⟩,
    ⟨c!"from", .pt (.func c!"near" (.val ((⟨0, 2, 0⟩ : V3 ℝ).fin : V3 (Ext ℝ)) (l 4)) (l 5)), l 6⟩,
    ⟨c!"to", .pt (.func c!"near" (.val ((⟨5, 2, 0⟩ : V3 ℝ).fin : V3 (Ext ℝ)) (l 7)) (l 8)), l 9⟩], l 10⟩

theorem rough_asks (l : ℕ → ℕ) : DimAsks flEnv (roughDim l) ⟨2, 0, 0⟩ FP.g6 (2 ^ 3) where
  kind := rfl
  at_ := ⟨⟨0, 1, 0⟩, by simp [V3.Within]; norm_num, Or.inl ⟨_, _, rfl, rfl⟩⟩
  dir := ⟨_, _, rfl, rfl⟩
  from_ := ⟨⟨0, 2, 0⟩, by simp [V3.Within]; norm_num, Or.inr ⟨_, _, _, rfl, rfl⟩⟩
  to_ := ⟨⟨5, 2, 0⟩, by simp [V3.Within]; norm_num, Or.inr ⟨_, _, _, rfl, rfl⟩⟩
  fmt := rfl

theorem asked_top : AskedView ([] : List (Meta F64)) ⟨⟨1, 0, 0⟩, ⟨0, 1, 0⟩, ⟨0, 0, 1⟩⟩ := by
  show viewOf (α := Ext ℝ) none = .ok _
  simp [viewOf, matZP, M3.fin, M3.map, V3.map, ptX, ptY, ptZ, FP.lit]

/-- A drawing that succeeds, of the two triangles of `duoText`, seen from above; the corners picked are those of the upper triangle, and the number at the
dimension is 4. -/
theorem rough_draws (l : ℕ → ℕ) (b : ℕ) : ∃ file : STLFile F64, make duoText = .ok (some file) ∧ Models.Bd 3 [(c!"m", some file)] ∧ ViewError (R := binary64 .nearest (fun _ => true) (fun _ => true)) [] (1 / 2 ^ 50) ∧
    TameScale (R := binary64 .nearest (fun _ => true) (fun _ => true)) [] ∧
    (∃ c, content flEnv [(c!"m", some file)] (.draw c!"m" [] [roughDim l] b) = .ok c ∧ c.1 = true) ∧ Largest ⟨2, 0, 0⟩ 2 ∧
    ∃ us, Describes (2 ^ 3) duoText us ∧ AskedView ([] : List (Meta F64)) ⟨⟨1, 0, 0⟩, ⟨0, 1, 0⟩, ⟨0, 0, 1⟩⟩ ∧
      ((⟨2, 0, 0⟩ : V3 ℝ).mulM ⟨⟨1, 0, 0⟩, ⟨0, 1, 0⟩, ⟨0, 0, 1⟩⟩).z = 0 ∧
      PointClear (1 / 2 ^ 20) (2 ^ 11 * ((2 ^ 3) ^ 2 * (1 / 2 ^ 50))) ⟨⟨1, 0, 0⟩, ⟨0, 1, 0⟩, ⟨0, 0, 1⟩⟩ us (roughDim l).metas c!"from" ⟨0, 2, 5⟩ ∧
      PointClear (1 / 2 ^ 20) (2 ^ 11 * ((2 ^ 3) ^ 2 * (1 / 2 ^ 50))) ⟨⟨1, 0, 0⟩, ⟨0, 1, 0⟩, ⟨0, 0, 1⟩⟩ us (roughDim l).metas c!"to" ⟨4, 2, 5⟩ ∧
      shown ⟨2, 0, 0⟩ ⟨0, 2, 5⟩ ⟨4, 2, 5⟩ = 4 ∧ MustSee (1 / 2 ^ 20) ⟨⟨1, 0, 0⟩, ⟨0, 1, 0⟩, ⟨0, 0, 1⟩⟩ us ⟨0, 2, 5⟩ := by
  obtain ⟨file, hfile⟩ := duo_file
  have hbd := sane_bd (α := F64) (by norm_num) duo_sane file hfile
  have hM : Models.Bd 3 [(c!"m", some file)] := by
    intro e he
    simp only [List.mem_singleton] at he
    subst he
    exact ⟨_, rfl, hbd⟩
  have hve : ViewError (R := binary64 .nearest (fun _ => true) (fun _ => true)) [] (1 / 2 ^ 50) := Or.inl ⟨by simp [NamedView, look], rfl⟩
  have hts : TameScale (R := binary64 .nearest (fun _ => true) (fun _ => true)) [] := by
    intro a b h
    have : (a, b) = ((1, 1) : Int × Int) := by
      simp only [look, scaleOf] at h
      cases h; rfl
    cases this; norm_num
  refine ⟨file, hfile, hM, hve, hts, ?_, flDim_largest, _, duo_described, ?_, ?_, ?_, ?_, ?_, ⟨_, List.mem_cons_self, by simp [V3.mulM]; norm_num, by simp [Tri.corners]⟩⟩
  · have hR := binary64_accurate .nearest (fun _ => true) (fun _ => true)
    obtain ⟨c0, hc0⟩ := content_bd flEnv insSorter_ok rfl [(c!"m", some file)] (k := 3) (by norm_num) hM (.draw c!"m" [] [] 1)
      (by simp [Drawable.LocBd]) (by intro m hm; simp at hm)
    obtain ⟨proj, ls, g1, g2, -, g3, -⟩ := turned_bd (n := 3) (by norm_num) flEnv.sorter insSorter_ok _ hbd matZP
      (viewOf_bd (none : Option (Meta F64)) (by simp) matZP rfl)
    have hc0t : c0.1 = true := by
      rcases draw_sum _ _ _ _ _ _ c0 hc0 with ⟨-, -, -, h⟩ | ⟨sc, rot, loc, file', pr, ls', cs, hD, hcs, -, h, -⟩
      · exact absurd ⟨_, _, _, _, _, _, ⟨by simp, rfl, rfl, rfl, ⟨_, rfl, rfl⟩, g1, by rw [g2]; exact g3⟩⟩ h
      · cases hcs
        exact h.2 (by simp)
    obtain ⟨sc, rot, loc, file', proj', ls', r, kept, k, p, off, F⟩ := draw_frame hR flEnv insSorter_ok rfl _ (by norm_num) hM c!"m" [] (by simp) hve.tame hts [] 1 c0 hc0 hc0t
    have ef : file' = file := by
      obtain ⟨e, he, he'⟩ := F.drawn.model
      simp at he
      subst he
      exact (Option.some.inj he').symm
    subst ef
    obtain ⟨hfine, r', hr', -, hnear⟩ := view_fine hR [] hve rot F.drawn.view
    obtain rfl := askedView_unique hr' F.asked
    have er : r' = ⟨⟨1, 0, 0⟩, ⟨0, 1, 0⟩, ⟨0, 0, 1⟩⟩ := askedView_unique F.asked asked_top
    have hus := described_stored hR ⟨one_le_pow₀ (by norm_num), pow_le_pow_right₀ (by norm_num) (by norm_num)⟩ duo_described hfile
    obtain ⟨c, hc⟩ := content_bd flEnv insSorter_ok rfl [(c!"m", some file')] (k := 3) (by norm_num) hM (.draw c!"m" [] [roughDim l] b)
      (by simp [Drawable.LocBd]) (by intro m hm; simp at hm)
    refine ⟨c, hc, ?_⟩
    rcases draw_sum _ _ _ _ _ _ c hc with ⟨-, -, -, h⟩ | ⟨sc', rot', loc', file'', pr, ls'', cs, hD, hcs, -, h, -⟩
    · exact absurd ⟨_, _, _, _, _, _, ⟨by simp, rfl, rfl, rfl, ⟨_, rfl, rfl⟩, g1, by rw [g2]; exact g3⟩⟩ h
    obtain ⟨rfl, rfl, rfl, rfl, rfl, rfl⟩ := drawn_unique F.drawn hD
    refine h.2 ⟨?_, by simp⟩
    intro x hx
    obtain ⟨d, hd, hdk⟩ := forall₂_right_mem hcs hx
    rw [List.mem_singleton] at hd
    subst hd
    have hne : proj'.points ≠ [] := by
      obtain ⟨f, -, t, -, p, -, -, hin⟩ := (view_points hR (by norm_num) F hus).2 ⟨0, 2, 5⟩ ⟨_, List.mem_cons_self, by rw [er]; simp [V3.mulM]; norm_num, by simp [Tri.corners]⟩
      exact List.ne_nil_of_mem hin
    have hpts : (drawStart (initVis flEnv) sc rot loc proj'.cull ls').points = proj'.points := by
      show proj'.cull.points = _
      rw [F.culled]
    have hnear' : ∀ j (q : V3 F64) (a b : ℕ), ((Pt.func c!"near" (.val q a) b).invoke flEnv.junk proj'.points (flEnv.junk j)).1 = true := by
      intro j q a b
      rw [near_unfold flEnv.junk proj'.points (.val q a) b (flEnv.junk j) q [] hne (by simp [Pt.invoke])]
    obtain ⟨P, L, x', q, e1, -⟩ := label_meant (E := flEnv) (v := drawStart (initVis flEnv) sc rot loc proj'.cull ls') hR (by norm_num) F hus hfine hnear rfl hpts
      F.viewBd.2.2.2 (d := roughDim l) (by simp only [roughDim, GoodDim]; rw [exactly_def]; simp) (rough_asks l) flDim_largest (by rw [er]; simp [V3.mulM])
      (by simp [pointOf, roughDim, look, Pt.rot, Pt.invoke])
      (by
        have := fun q a b => hnear' 2 q a b
        simp only [pointOf, hpts]
        simp [roughDim, look, Pt.rot, this])
      (by
        have := fun q a b => hnear' 3 q a b
        simp only [pointOf, hpts]
        simp [roughDim, look, Pt.rot, this])
    rw [hdk] at e1
    injection e1 with e1
    rw [e1]
  · exact asked_top
  · simp [V3.mulM]
  · refine Or.inr ⟨⟨0, 2, 0⟩, ⟨_, _, _, rfl, rfl⟩, ⟨_, List.mem_cons_self, by simp [V3.mulM]; norm_num, by simp [Tri.corners]⟩, ?_⟩
    rintro c' ⟨t, ht, -, hc'⟩
    simp only [List.mem_cons, List.not_mem_nil, or_false] at ht
    rcases ht with rfl | rfl <;> simp only [Tri.corners, List.mem_cons, List.not_mem_nil, or_false] at hc' <;> rcases hc' with rfl | rfl | rfl <;>
      first
      | (left; rfl)
      | (right; simp [seenDist2, pageDist2, V3.mulM]; norm_num)
  · refine Or.inr ⟨⟨5, 2, 0⟩, ⟨_, _, _, rfl, rfl⟩, ⟨_, List.mem_cons_self, by simp [V3.mulM]; norm_num, by simp [Tri.corners]⟩, ?_⟩
    rintro c' ⟨t, ht, -, hc'⟩
    simp only [List.mem_cons, List.not_mem_nil, or_false] at ht
    rcases ht with rfl | rfl <;> simp only [Tri.corners, List.mem_cons, List.not_mem_nil, or_false] at hc' <;> rcases hc' with rfl | rfl | rfl <;>
      first
      | (left; rfl)
      | (right; simp [seenDist2, pageDist2, V3.mulM]; norm_num)
  · simp only [shown, len3, V3.dot]
    norm_num
    rw [show (4 : ℝ) = 2 ^ 2 by norm_num, Real.sqrt_sq (by norm_num)]
    norm_num

end S2P
