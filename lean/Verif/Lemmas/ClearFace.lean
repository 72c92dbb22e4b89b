import Verif.Lemmas.ClearPair
import Verif.Lemmas.AccuracyDraw

set_option linter.unusedSectionVars false
set_option linter.unusedVariables false
set_option linter.unusedSimpArgs false

/-! # Edges in full view are drawn in rounded arithmetic -/

namespace S2P

/-- the triangle hides nothing of the edge, but perhaps next to its end `P` -/
def ClearBut (M : ℝ) (E : Edge ℝ) (t : Tri ℝ) (P : V3 ℝ) : Prop :=
  (∀ p, p = E.1 ∨ p = E.2 → p = P ∨ NotBehind (M ^ 2 / 2 ^ 31) (M / 2 ^ 13) t p) ∧
  ∀ c d, t.HasSide (c, d) → ((c = P ∨ d = P) ∧ M ^ 2 / 2 ^ 15 ≤ |slant E.1 E.2 c d|) ∨ Apart (M ^ 2 / 2 ^ 31) E.1 E.2 c d ∨
    Higher (M / 2 ^ 13) E.1 E.2 c d ∨ Over (M ^ 2 / 2 ^ 15) (M / 2 ^ 13) (1 / 2) E.1 E.2 c d

section
variable {R : Rounding} (hR : R.Accurate)

theorem fl_le {p q : Fl R} {a b ε δ : ℝ} (hp : Fl.Near p a ε) (hq : Fl.Near q b δ) (h : FP.le p q = true) : a - ε ≤ b + δ := by
  obtain ⟨x, rfl, hx⟩ := hp
  obtain ⟨y, rfl, hy⟩ := hq
  change Ext.le (.fin x) (.fin y) = true at h
  simp [Ext.le] at h
  rw [abs_le] at hx hy
  linarith

/-! ## Points where edges cross -/

theorem met_touch {M : ℝ} (hM : Small M) {E F : Edge ℝ} {p q : V3 (Fl R)} (h : Met M E F p q) (w1 : E.1.Within (4 * M)) (w2 : E.2.Within (4 * M)) {P : V3 ℝ}
    (hE : P = E.1 ∨ P = E.2) (hF : P = F.1 ∨ P = F.2) (hκ : M ^ 2 / 2 ^ 15 ≤ |slant E.1 E.2 F.1 F.2|) : V3.NearTo p P (M / 2 ^ 18) := by
  have h1M := hM.one
  obtain ⟨s, t, a1, a2, a3, a4, a5, a6, a7, a8⟩ := h
  obtain ⟨s0, t0, b1, b2, b3⟩ := a8 hκ
  obtain ⟨s1, hs1⟩ : ∃ s1, edgeAt E s1 = P := by
    rcases hE with rfl | rfl
    · exact ⟨0, by ext <;> simp [edgeAt, V3.smul]⟩
    · exact ⟨1, by ext <;> simp [edgeAt, V3.smul]⟩
  obtain ⟨t1, ht1⟩ : ∃ t1, edgeAt F t1 = P := by
    rcases hF with rfl | rfl
    · exact ⟨0, by ext <;> simp [edgeAt, V3.smul]⟩
    · exact ⟨1, by ext <;> simp [edgeAt, V3.smul]⟩
  have hs0 : slant E.1 E.2 F.1 F.2 ≠ 0 := by
    intro h0
    rw [h0, abs_zero] at hκ
    have := hM.sq.1
    norm_num at hκ
    nlinarith
  have e4 := hs1.trans ht1.symm
  simp only [edgeAt, V3.smul, V3.xy, V2.mk.injEq, V3.add_x, V3.add_y, V3.sub_x, V3.sub_y] at b3
  have e5 := congrArg V3.x e4
  have e6 := congrArg V3.y e4
  simp only [edgeAt, V3.smul, V3.add_x, V3.add_y, V3.sub_x, V3.sub_y] at e5 e6
  have hss : (s0 - s1) * slant E.1 E.2 F.1 F.2 = 0 := by
    unfold slant
    linear_combination (F.2.y - F.1.y) * (b3.1 - e5) - (F.2.x - F.1.x) * (b3.2 - e6)
  have : s0 = s1 := by
    rcases mul_eq_zero.1 hss with h | h
    · linarith
    · exact absurd h hs0
  subst this
  have go : ∀ {x : Fl R} {a b : ℝ}, |a| ≤ 4 * M → |b| ≤ 4 * M → Fl.Near x (a + (b - a) * s) (M / 2 ^ 44) → Fl.Near x (a + (b - a) * s0) (M / 2 ^ 18) := by
    intro x a b ha hb hx
    have hd : |b - a| ≤ 8 * M := (abs_sub b a).trans (by linarith)
    refine (hx.trans (b := a + (b - a) * s0) (δ := M / 2 ^ 19) ?_).mono (by norm_num; linarith)
    rw [show a + (b - a) * s - (a + (b - a) * s0) = (b - a) * (s - s0) by ring, abs_mul]
    have := mul_le_mul hd b1 (abs_nonneg _) (by linarith)
    norm_num at *
    linarith
  rw [← hs1]
  exact ⟨go w1.1 w2.1 a5.1, go w1.2.1 w2.2.1 a5.2.1, go w1.2.2 w2.2.2 a5.2.2⟩

theorem met_higher {M : ℝ} (hM : Small M) {E F : Edge ℝ} {p q : V3 (Fl R)} (h : Met M E F p q) (hz : FP.le p.z q.z = true)
    (hh : Higher (M / 2 ^ 13) E.1 E.2 F.1 F.2) : False := by
  have h1M := hM.one
  obtain ⟨s, t, a1, a2, a3, a4, a5, a6, a7, a8⟩ := h
  have := fl_le a5.2.2 a6.2.2 hz
  simp only [edgeAt, V3.smul, V3.add_z, V3.sub_z] at this
  obtain ⟨h1, h2, h3, h4⟩ := hh
  have k1 : F.1.z + (F.2.z - F.1.z) * t ≤ max F.1.z F.2.z := by
    have := le_max_left F.1.z F.2.z
    have := le_max_right F.1.z F.2.z
    nlinarith
  have k2 : min E.1.z E.2.z ≤ E.1.z + (E.2.z - E.1.z) * s := by
    have := min_le_left E.1.z E.2.z
    have := min_le_right E.1.z E.2.z
    nlinarith
  have k3 : max F.1.z F.2.z + M / 2 ^ 13 ≤ min E.1.z E.2.z := by
    rcases max_choice F.1.z F.2.z with e | e <;> rcases min_choice E.1.z E.2.z with e' | e' <;> rw [e, e'] <;> assumption
  generalize max F.1.z F.2.z = u at *
  generalize min E.1.z E.2.z = w at *
  norm_num at *
  linarith

theorem met_over {M : ℝ} (hM : Small M) {E F : Edge ℝ} {p q : V3 (Fl R)} (h : Met M E F p q) (w1 : E.1.Within (4 * M)) (w2 : E.2.Within (4 * M))
    (w3 : F.1.Within (4 * M)) (w4 : F.2.Within (4 * M)) (hz : FP.le p.z q.z = true)
    (hh : Over (M ^ 2 / 2 ^ 15) (M / 2 ^ 13) (1 / 2) E.1 E.2 F.1 F.2) : False := by
  have h1M := hM.one
  obtain ⟨s, t, a1, a2, a3, a4, a5, a6, a7, a8⟩ := h
  obtain ⟨s0, t0, b1, b2, b3⟩ := a8 hh.1
  have hle := fl_le a5.2.2 a6.2.2 hz
  have b1' := abs_le.1 b1
  have b2' := abs_le.1 b2
  have hov := hh.2 s0 t0 (by norm_num at *; linarith) (by norm_num at *; linarith) (by norm_num at *; linarith) (by norm_num at *; linarith) b3
  simp only [edgeAt, V3.smul, V3.add_z, V3.sub_z] at hle hov
  have go : ∀ {a b u u0 : ℝ}, |a| ≤ 4 * M → |b| ≤ 4 * M → |u - u0| ≤ 1 / 2 ^ 22 → |(b - a) * u - (b - a) * u0| ≤ M / 2 ^ 19 := by
    intro a b u u0 ha hb hu
    have hd : |b - a| ≤ 8 * M := (abs_sub b a).trans (by linarith)
    rw [← mul_sub, abs_mul]
    have := mul_le_mul hd hu (abs_nonneg _) (by linarith)
    norm_num at *
    linarith
  have g1 := abs_le.1 (go w1.2.2 w2.2.2 b1)
  have g2 := abs_le.1 (go w3.2.2 w4.2.2 b2)
  norm_num at *
  linarith

/-- where the triangle's side is found to cross -/
theorem met_clear {M : ℝ} (hM : Small M) {E F : Edge ℝ} {p q : V3 (Fl R)} (h : Met M E F p q) (w1 : E.1.Within (4 * M)) (w2 : E.2.Within (4 * M))
    (w3 : F.1.Within (4 * M)) (w4 : F.2.Within (4 * M)) (hz : FP.le p.z q.z = true) {t : Tri ℝ} {P : V3 ℝ} (hP : P = E.1 ∨ P = E.2) (hc : ClearBut M E t P)
    (hF : t.HasSide F) : V3.NearTo p P (M / 2 ^ 18) := by
  rcases hc.2 F.1 F.2 hF with ⟨h1, h2⟩ | h1 | h1 | h1
  · exact met_touch hM h w1 w2 hP (h1.imp Eq.symm Eq.symm) h2
  · obtain ⟨s, t, -, -, -, -, -, -, a7, -⟩ := h
    exact absurd h1 a7
  · exact (met_higher hM h hz h1).elim
  · exact (met_over hM h w1 w2 w3 w4 hz h1).elim

/-! ## Ends behind a face -/

/-- the facet's numbers are real numbers, not large -/
structure FacetExact (M : ℝ) (f : Facet (Fl R)) : Prop where
  a : Exact f.e0 f.val.a M
  b : Exact f.e1 f.val.b M
  c : Exact f.e2 f.val.c M
  n : V3.NearTo f.norm f.val.n 0 ∧ f.val.n.Within 8
  r : Fl.Near f.r f.val.r 0

include hR

theorem dot_near {M : ℝ} (hM : Small M) {p n : V3 (Fl R)} {P N : V3 ℝ} (hp : Exact p P M) (hn : V3.NearTo n N 0 ∧ N.Within 8) :
    Fl.Near (p.dot n) (P.dot N) (M / 2 ^ 42) := by
  have h1 := hM.one
  have h2 := hM.top
  obtain ⟨⟨x1, y1, z1⟩, ⟨wx1, wy1, wz1⟩⟩ := hp
  obtain ⟨⟨x2, y2, z2⟩, ⟨wx2, wy2, wz2⟩⟩ := hn
  have pr : ∀ {x y : Fl R} {a b : ℝ}, Fl.Near x a 0 → Fl.Near y b 0 → |a| ≤ 4 * M → |b| ≤ 8 → Fl.Near (x * y) (a * b) (M / 2 ^ 46) ∧ |a * b| ≤ 32 * M := by
    intro x y a b hx hy ha hb
    refine ⟨(hx.mul hR hy ha hb (S := 32 * M) (by norm_num; linarith) (by norm_num; linarith) (top_of (by norm_num at h2 ⊢; linarith))).mono ?_, ?_⟩
    · norm_num; linarith
    · rw [abs_mul]
      have := mul_le_mul ha hb (abs_nonneg _) (by linarith)
      linarith
  obtain ⟨p1, q1⟩ := pr x1 x2 wx1 wx2
  obtain ⟨p2, q2⟩ := pr y1 y2 wy1 wy2
  obtain ⟨p3, q3⟩ := pr z1 z2 wz1 wz2
  unfold V3.dot
  generalize P.x * N.x = u1 at *
  generalize P.y * N.y = u2 at *
  generalize P.z * N.z = u3 at *
  have t1 := abs_add_le u1 u2
  have t2 := abs_add_le (u1 + u2) u3
  have s1 := p1.add hR p2 (S := 65 * M) (by norm_num; linarith) (by norm_num; linarith) (top_of (by norm_num at h2 ⊢; linarith))
  refine (s1.add hR p3 (S := 98 * M) (by norm_num; linarith) (by norm_num; linarith) (top_of (by norm_num at h2 ⊢; linarith))).mono ?_
  norm_num; linarith

theorem outside_near {M : ℝ} (hM : Small M) {a b p : V3 (Fl R)} {A B P : V3 ℝ} (ha : Exact a A M) (hb : Exact b B M) (hp : Exact p P M)
    (h : leftOf A B P ≤ -(M ^ 2 / 2 ^ 31)) : FP.le (FP.lit 0) ((b - a).x * (p - a).y - (b - a).y * (p - a).x : Fl R) = false := by
  obtain ⟨d1, c1⟩ := diff_near hR hM hb.1.1 ha.1.1 hb.2.1 ha.2.1
  obtain ⟨d2, c2⟩ := diff_near hR hM hb.1.2.1 ha.1.2.1 hb.2.2.1 ha.2.2.1
  obtain ⟨d3, c3⟩ := diff_near hR hM hp.1.1 ha.1.1 hp.2.1 ha.2.1
  obtain ⟨d4, c4⟩ := diff_near hR hM hp.1.2.1 ha.1.2.1 hp.2.2.1 ha.2.2.1
  obtain ⟨⟨⟨x, hx, hx2⟩, -⟩, -⟩ := cross_near hR hM d1 d4 d2 d3 c1 c4 c2 c3
  change (b - a).x * (p - a).y - (b - a).y * (p - a).x = _ at hx
  rw [hx, lit_zero]
  have h1 := hM.sq.1
  unfold leftOf at h
  generalize M ^ 2 = Q at *
  rw [abs_le] at hx2
  have : x < 0 := by norm_num at *; linarith
  show Ext.le (.fin 0) (.fin x) = false
  simp [Ext.le, this]

theorem behind_false {M : ℝ} (hM : Small M) {f : Facet (Fl R)} (hf : FacetExact M f) {p : V3 (Fl R)} {P : V3 ℝ} (hp : Exact p P M)
    (h : NotBehind (M ^ 2 / 2 ^ 31) (M / 2 ^ 13) f.val P) : behind f p = false := by
  have h1 := hM.one
  unfold behind
  simp only [Bool.and_eq_false_iff]
  rcases h with h | h | h | h
  · left; left; left
    obtain ⟨x, hx, hx2⟩ := dot_near hR hM hp hf.n
    obtain ⟨r, hr, hr2⟩ := hf.r
    rw [hx, hr]
    rw [abs_le] at hx2 hr2
    have : r ≤ x := by norm_num at *; linarith
    show Ext.lt (.fin x) (.fin r) = false
    simp [Ext.lt, this]
  · left; left; right
    exact outside_near hR hM hf.a hf.b hp h
  · left; right
    exact outside_near hR hM hf.b hf.c hp h
  · right
    exact outside_near hR hM hf.c hf.a hp h

/-! ## The spans found hidden -/

omit hR in
theorem exact_eq {p q : V3 (Fl R)} {a b : V3 ℝ} {M : ℝ} (hp : Exact p a M) (hq : Exact q b M) (h : SamePt p q) : a = b := by
  obtain ⟨⟨⟨x1, e1, k1⟩, ⟨x2, e2, k2⟩, ⟨x3, e3, k3⟩⟩, -⟩ := hp
  obtain ⟨⟨⟨y1, e4, k4⟩, ⟨y2, e5, k5⟩, ⟨y3, e6, k6⟩⟩, -⟩ := hq
  obtain ⟨h1, h2, h3⟩ := h
  rw [e1, e4] at h1
  rw [e2, e5] at h2
  rw [e3, e6] at h3
  change Ext.eq (.fin _) (.fin _) = true at h1 h2 h3
  simp [Ext.eq] at h1 h2 h3
  have z : ∀ {u w : ℝ}, |u - w| ≤ 0 → u = w := fun h => sub_eq_zero.1 (abs_nonpos_iff.1 h)
  ext
  · rw [← z k1, ← z k4, h1]
  · rw [← z k2, ← z k5, h2]
  · rw [← z k3, ← z k6, h3]

omit hR in
theorem side_exact {M : ℝ} {f : Facet (Fl R)} (hf : FacetExact M f) {sd : V3 (Fl R) × V3 (Fl R)} (h : sd ∈ sidesOf f) :
    Exact sd.1 sd.1.val M ∧ Exact sd.2 sd.2.val M ∧ f.val.HasSide (sd.1.val, sd.2.val) ∧ f.val.HasSide (sd.2.val, sd.1.val) := by
  simp only [sidesOf, List.mem_cons, List.not_mem_nil, or_false] at h
  rcases h with rfl | rfl | rfl
  · exact ⟨hf.a, hf.b, by simp [Tri.HasSide, Facet.val], by simp [Tri.HasSide, Facet.val]⟩
  · exact ⟨hf.b, hf.c, by simp [Tri.HasSide, Facet.val], by simp [Tri.HasSide, Facet.val]⟩
  · exact ⟨hf.c, hf.a, by simp [Tri.HasSide, Facet.val], by simp [Tri.HasSide, Facet.val]⟩

omit hR in
theorem edge_exact {M : ℝ} {s : STLFile (Fl R)} (hw : WellIndexed s) (hx : ∀ f ∈ s.facets, FacetExact M f) {e : Edge (Fl R)} (he : e ∈ s.edges) :
    Exact e.1 e.1.val M ∧ Exact e.2 e.2.val M := by
  obtain ⟨f, hf, sd, hsd, h⟩ := hw.edgeOk e he
  obtain ⟨a, b, -⟩ := side_exact (hx f hf) hsd
  rcases h with rfl | rfl
  · exact ⟨a, b⟩
  · exact ⟨b, a⟩

/-- the crossings recorded for an edge -/
theorem crosses_met {M : ℝ} (hM : Small M) {s : STLFile (Fl R)} (hw : WellIndexed s) (hx : ∀ f ∈ s.facets, FacetExact M f) {cs}
    (h : edgeCrosses s.edges s.unseen = .ok cs) {v : Nat} {m} (hm : cs[v]? = some m) {ev : Edge (Fl R)} (hv : s.edges[v]? = some ev) :
    ∀ c ∈ m, ∃ ek q, s.edges[c.1]? = some ek ∧ Met M (ev.1.val, ev.2.val) (ek.1.val, ek.2.val) c.2 q ∧ FP.le c.2.z q.z = true := by
  obtain ⟨cs', h1, h2, h3⟩ := edgeCrosses_ok s.edges s.unseen
  rw [h] at h1; injection h1 with h1; subst h1
  obtain ⟨e, hp⟩ := h3 v m hm
  intro c hc
  rw [e] at hc
  obtain ⟨x, hxm, rfl⟩ := List.mem_map.mp hc
  obtain ⟨hxm, hxv⟩ := List.mem_filter.mp hxm
  obtain ⟨v', u', ev', eu', -, -, g1, g2, g3⟩ := (mem_crossList s.edges s.unseen x).mp hxm
  obtain ⟨b1, b2⟩ := edge_exact hw hx (List.mem_of_getElem? g1)
  obtain ⟨b3, b4⟩ := edge_exact hw hx (List.mem_of_getElem? g2)
  obtain ⟨p, q, hpq, hz⟩ := crossPair_met hR hM (E := (ev'.1.val, ev'.2.val)) (F := (eu'.1.val, eu'.2.val)) b1 b2 b3 b4 x g3
  simp at hxv
  rcases hpq with ⟨rfl, hmet⟩ | ⟨rfl, hmet⟩
  · dsimp only at hxv; subst hxv
    rw [hv] at g1; injection g1 with g1; subst g1
    exact ⟨eu', q, g2, hmet, hz⟩
  · dsimp only at hxv; subst hxv
    rw [hv] at g2; injection g2 with g2; subst g2
    exact ⟨ev', q, g1, hmet, hz⟩

theorem cand_clear {M : ℝ} (hM : Small M) {s : STLFile (Fl R)} (hw : WellIndexed s) (hx : ∀ f ∈ s.facets, FacetExact M f) {cs}
    (h : edgeCrosses s.edges s.unseen = .ok cs) {v : Nat} {m} (hm : cs[v]? = some m) {ev : Edge (Fl R)} (hv : s.edges[v]? = some ev)
    {i : Nat} {f : Facet (Fl R)} {t : Nat × Nat × Nat} (hf : s.facets[i]? = some f) (ht : s.faceEdge[i]? = some t) {P : V3 ℝ}
    (hP : P = ev.1.val ∨ P = ev.2.val) (hc : ClearBut M (ev.1.val, ev.2.val) f.val P) (x) (hxc : x ∈ candList m ev f t) :
    V3.NearTo x.1 P (M / 2 ^ 18) := by
  have h1M := hM.one
  obtain ⟨a1, a2⟩ := edge_exact hw hx (List.mem_of_getElem? hv)
  have hfx := hx f (List.mem_of_getElem? hf)
  have hk := (edgeCrosses_on s.edges s.unseen cs h v m hm ev hv).1
  have hmet := crosses_met hR hM hw hx h hm hv
  obtain ⟨o1, o2, o3⟩ := hw.faceOk i f t hf ht
  have cr : ∀ k e, s.edges[k]? = some e → (∃ sd ∈ sidesOf f, SameEdge e sd.1 sd.2) → x ∈ crossPt m ev k → V3.NearTo x.1 P (M / 2 ^ 18) := by
    intro k e he hsd hxk
    obtain ⟨sd, hsd, hse⟩ := hsd
    obtain ⟨c, hcm, hck, rfl⟩ := (mem_crossPt m hk ev k x).mp hxk
    obtain ⟨ek, q, k1, k2, k3⟩ := hmet c hcm
    rw [hck, he] at k1; injection k1 with k1; subst k1
    obtain ⟨b1, b2⟩ := edge_exact hw hx (List.mem_of_getElem? he)
    obtain ⟨c1, c2, c3, c4⟩ := side_exact hfx hsd
    have hside : f.val.HasSide (e.1.val, e.2.val) := by
      rcases hse with ⟨g1, g2⟩ | ⟨g1, g2⟩
      · rw [exact_eq b1 c1 g1, exact_eq b2 c2 g2]; exact c3
      · rw [exact_eq b1 c2 g1, exact_eq b2 c1 g2]; exact c4
    exact met_clear hM k2 a1.2 a2.2 b1.2 b2.2 k3 hP hc hside
  have own : ∀ {p : V3 (Fl R)}, (p.val = ev.1.val ∨ p.val = ev.2.val) → Exact p p.val M → behind f p = true → V3.NearTo p P (M / 2 ^ 18) := by
    intro p hp he hb
    rcases hc.1 p.val hp with e | hn
    · have := he.1
      have l : (0 : ℝ) ≤ M / 2 ^ 18 := by positivity
      rw [e] at this
      exact ⟨this.1.mono l, this.2.1.mono l, this.2.2.mono l⟩
    · rw [behind_false hR hM hfx he hn] at hb
      cases hb
  unfold candList at hxc
  simp only [List.mem_append] at hxc
  rcases hxc with (((h | h) | h) | h) | h
  · split_ifs at h with hb
    · rw [List.mem_singleton] at h; subst h; exact own (Or.inl rfl) a1 hb
    · simp at h
  · split_ifs at h with hb
    · rw [List.mem_singleton] at h; subst h; exact own (Or.inr rfl) a2 hb
    · simp at h
  · obtain ⟨e, he, hse⟩ := o1; exact cr _ e he ⟨(f.e0, f.e1), by simp [sidesOf], hse⟩ h
  · obtain ⟨e, he, hse⟩ := o2; exact cr _ e he ⟨(f.e1, f.e2), by simp [sidesOf], hse⟩ h
  · obtain ⟨e, he, hse⟩ := o3; exact cr _ e he ⟨(f.e2, f.e0), by simp [sidesOf], hse⟩ h

omit hR in
/-- a face gives no span, or one between candidates -/
theorem faceHides_cand (S : Sorter) (hS : SortOK S) (cs : List (Nat × V3 (Fl R))) (v : Nat) (ev : Edge (Fl R)) (f : Facet (Fl R)) (el : Nat × Nat × Nat) (h)
    (hr : faceHides S cs v ev f el = .ok (some h)) :
    (v ≠ el.1 ∧ v ≠ el.2.1 ∧ v ≠ el.2.2) ∧ (∃ x ∈ candList cs ev f el, x.1 = h.1) ∧ ∃ x ∈ candList cs ev f el, x.1 = h.2 := by
  unfold faceHides at hr
  rw [hiddenPoints_eq] at hr
  dsimp only [bind, Except.bind, pure, Except.pure] at hr
  generalize candList cs ev f el = l at *
  split_ifs at hr with h0 h1
  · injection hr with hr; cases hr
  · injection hr with hr; cases hr
  · have hperm := hS.perm (fun l r : V3 (Fl R) × (Fl R) => FP.lt l.2 r.2) l
    generalize S.sort (fun l r : V3 (Fl R) × (Fl R) => FP.lt l.2 r.2) l = s at *
    split at hr
    · rename_i a b ha hb
      split_ifs at hr
      · injection hr with hr; cases hr
      · injection hr with hr; injection hr with hr; subst hr
        refine ⟨by tauto, ⟨a, hperm.subset (List.mem_of_mem_head? ha), rfl⟩, b, hperm.subset (List.mem_of_getLast? hb), rfl⟩
    · cases hr

/-! ## The lines left -/

theorem sqr_near {M : ℝ} (hM : Small M) {d : V3 (Fl R)} {y : V3 ℝ} (h : V3.NearTo d y 0) (hy : y.Within (9 * M)) :
    Fl.Near d.sqNorm (y.x * y.x + y.y * y.y + y.z * y.z) (M ^ 2 / 2 ^ 40) := by
  obtain ⟨s1, s2, s3⟩ := hM.sq
  have h1 := hM.one
  obtain ⟨x1, x2, x3⟩ := h
  obtain ⟨w1, w2, w3⟩ := hy
  have pr : ∀ {x : Fl R} {a : ℝ}, Fl.Near x a 0 → |a| ≤ 9 * M → Fl.Near (x * x) (a * a) (M ^ 2 / 2 ^ 44) ∧ |a * a| ≤ 81 * M ^ 2 := by
    intro x a hx ha
    have hb : |a * a| ≤ 81 * M ^ 2 := by
      rw [abs_mul]
      have := mul_le_mul ha ha (abs_nonneg _) (by linarith)
      nlinarith
    refine ⟨(hx.mul hR hx ha ha (S := 81 * M ^ 2) (by nlinarith) (by norm_num; linarith) (top_of (by norm_num at s3 ⊢; linarith))).mono ?_, hb⟩
    norm_num; linarith
  obtain ⟨p1, q1⟩ := pr x1 w1
  obtain ⟨p2, q2⟩ := pr x2 w2
  obtain ⟨p3, q3⟩ := pr x3 w3
  show Fl.Near (d.x * d.x + d.y * d.y + d.z * d.z) _ _
  generalize y.x * y.x = u1 at *
  generalize y.y * y.y = u2 at *
  generalize y.z * y.z = u3 at *
  have t1 := abs_add_le u1 u2
  have a1 := p1.add hR p2 (S := 163 * M ^ 2) (by norm_num; linarith) (by norm_num; linarith) (top_of (by norm_num at s3 ⊢; linarith))
  have t2 := abs_add_le (u1 + u2) u3
  refine (a1.add hR p3 (S := 245 * M ^ 2) (by norm_num; linarith) (by norm_num; linarith) (top_of (by norm_num at s3 ⊢; linarith))).mono ?_
  norm_num; linarith

/-- the difference of two points known to some accuracy -/
theorem diff_pts {M : ℝ} (hM : Small M) {p q : V3 (Fl R)} {P Q : V3 ℝ} (hp : V3.NearTo p P (M / 2 ^ 18)) (hq : V3.NearTo q Q (M / 2 ^ 18))
    (wp : P.Within (4 * M)) (wq : Q.Within (4 * M)) : ∃ y : V3 ℝ, V3.NearTo (p - q) y 0 ∧ (y - (P - Q)).Within (M / 2 ^ 16) ∧ y.Within (9 * M) := by
  have h1 := hM.one
  have h2 := hM.top
  have go : ∀ {x y : Fl R} {a b : ℝ}, Fl.Near x a (M / 2 ^ 18) → Fl.Near y b (M / 2 ^ 18) → |a| ≤ 4 * M → |b| ≤ 4 * M →
      ∃ z : ℝ, Fl.Near (x - y) z 0 ∧ |z - (a - b)| ≤ M / 2 ^ 16 ∧ |z| ≤ 9 * M := by
    intro x y a b hx hy ha hb
    have t := abs_sub a b
    obtain ⟨z, hz, hz2⟩ := hx.sub hR hy (S := 9 * M) (by norm_num; linarith) (by norm_num; linarith) (top_of (by norm_num at h2 ⊢; linarith))
    have hz3 : |z - (a - b)| ≤ M / 2 ^ 16 := hz2.trans (by norm_num; linarith)
    refine ⟨z, ⟨z, hz, by simp⟩, hz3, ?_⟩
    have := abs_add_le (z - (a - b)) (a - b)
    rw [sub_add_cancel] at this
    norm_num at *; linarith
  obtain ⟨x, a1, a2, a3⟩ := go hp.1 hq.1 wp.1 wq.1
  obtain ⟨y, b1, b2, b3⟩ := go hp.2.1 hq.2.1 wp.2.1 wq.2.1
  obtain ⟨z, c1, c2, c3⟩ := go hp.2.2 hq.2.2 wp.2.2 wq.2.2
  exact ⟨⟨x, y, z⟩, ⟨a1, b1, c1⟩, ⟨a2, b2, c2⟩, a3, b3, c3⟩

/-- points near one point -/
theorem sq_close {M : ℝ} (hM : Small M) {p q : V3 (Fl R)} {P : V3 ℝ} (hp : V3.NearTo p P (M / 2 ^ 18)) (hq : V3.NearTo q P (M / 2 ^ 18))
    (wp : P.Within (4 * M)) : ∃ z : ℝ, (p - q).sqNorm = (Ext.fin z : Ext ℝ) ∧ z ≤ M ^ 2 / 2 ^ 29 := by
  have h1 := hM.one
  obtain ⟨y, y1, y2, y3⟩ := diff_pts hR hM hp hq wp wp
  obtain ⟨z, hz, hz2⟩ := sqr_near hR hM y1 y3
  refine ⟨z, hz, ?_⟩
  obtain ⟨k1, k2, k3⟩ := y2
  simp only [V3.sub_x, V3.sub_y, V3.sub_z, sub_self, sub_zero] at k1 k2 k3
  have sq : ∀ {a : ℝ}, |a| ≤ M / 2 ^ 16 → a * a ≤ M ^ 2 / 2 ^ 32 := by
    intro a ha
    have := mul_le_mul ha ha (abs_nonneg _) (by positivity)
    rw [abs_mul_abs_self] at this
    refine this.trans (le_of_eq ?_)
    ring
  have := sq k1
  have := sq k2
  have := sq k3
  rw [abs_le] at hz2
  have := hM.sq.1
  generalize M ^ 2 = W at *
  norm_num at *
  linarith

/-- points near the ends of an edge that is not short -/
theorem sq_far {M : ℝ} (hM : Small M) {p q : V3 (Fl R)} {P Q : V3 ℝ} (hp : V3.NearTo p P (M / 2 ^ 18)) (hq : V3.NearTo q Q (M / 2 ^ 18))
    (wp : P.Within (4 * M)) (wq : Q.Within (4 * M)) (hf : FarApart (M / 2 ^ 11) P Q) :
    ∃ z : ℝ, (p - q).sqNorm = (Ext.fin z : Ext ℝ) ∧ M ^ 2 / 2 ^ 25 ≤ z := by
  have h1 := hM.one
  obtain ⟨y, y1, y2, y3⟩ := diff_pts hR hM hp hq wp wq
  obtain ⟨z, hz, hz2⟩ := sqr_near hR hM y1 y3
  refine ⟨z, hz, ?_⟩
  obtain ⟨k1, k2, k3⟩ := y2
  simp only [V3.sub_x, V3.sub_y, V3.sub_z] at k1 k2 k3
  have sq : ∀ {a b c : ℝ}, |a - (b - c)| ≤ M / 2 ^ 16 → M / 2 ^ 11 ≤ |c - b| → M ^ 2 / 2 ^ 24 ≤ a * a := by
    intro a b c ha hb
    have h3 : M / 2 ^ 12 ≤ |a| := by
      have := abs_add_le (b - c - a) a
      rw [sub_add_cancel, abs_sub_comm _ a, abs_sub_comm b c] at this
      norm_num at *
      linarith
    have := mul_le_mul h3 h3 (by positivity) (abs_nonneg _)
    rw [abs_mul_abs_self] at this
    refine le_trans (le_of_eq ?_) this
    ring
  have n1 := mul_self_nonneg y.x
  have n2 := mul_self_nonneg y.y
  have n3 := mul_self_nonneg y.z
  have hbig : M ^ 2 / 2 ^ 24 ≤ y.x * y.x + y.y * y.y + y.z * y.z := by
    rcases hf with h | h | h
    · have := sq k1 h; linarith
    · have := sq k2 h; linarith
    · have := sq k3 h; linarith
  rw [abs_le] at hz2
  have := hM.sq.1
  generalize M ^ 2 = W at *
  norm_num at *
  linarith

omit hR in
theorem spanLoop_keeps (p0 : V3 (Fl R)) : ∀ (hs : List (Edge (Fl R))) (frm : V3 (Fl R)) (d : Fl R) (acc : List (Line (Fl R))) (r),
    spanLoop p0 hs frm d acc = .ok r → ∀ l ∈ acc, l ∈ r.2
  | [], frm, d, acc, r, h, l, hl => by
    unfold spanLoop at h; injection h with h; subst h; exact hl
  | h :: hs, frm, d, acc, r, hr, l, hl => by
    unfold spanLoop at hr
    dsimp only at hr
    split_ifs at hr
    all_goals exact spanLoop_keeps p0 hs _ _ _ r hr l (by simp [hl])

/-- a line from near `P` to near `Q` -/
def JoinsNear (ε : ℝ) (P Q : V3 ℝ) (l : Line (Fl R)) : Prop :=
  ∃ a b : V3 (Fl R), V3.NearTo a P ε ∧ V3.NearTo b Q ε ∧ l = Line.of3 a b

theorem spanLoop_far {M : ℝ} (hM : Small M) {p0 : V3 (Fl R)} {P Q : V3 ℝ} (hp0 : V3.NearTo p0 P (M / 2 ^ 18)) (wp : P.Within (4 * M)) (wq : Q.Within (4 * M))
    (hf : FarApart (M / 2 ^ 11) P Q) : ∀ (hs : List (Edge (Fl R))) (frm : V3 (Fl R)) (d : Fl R) (acc : List (Line (Fl R))) (r),
    spanLoop p0 hs frm d acc = .ok r →
    (∀ h ∈ hs, ∃ T, (T = P ∨ T = Q) ∧ V3.NearTo h.1 T (M / 2 ^ 18) ∧ V3.NearTo h.2 T (M / 2 ^ 18)) → V3.NearTo frm P (M / 2 ^ 18) →
    (∃ z : ℝ, d = (Ext.fin z : Ext ℝ) ∧ z ≤ M ^ 2 / 2 ^ 29) →
    (∃ l ∈ r.2, JoinsNear (M / 2 ^ 18) P Q l) ∨ V3.NearTo r.1 P (M / 2 ^ 18)
  | [], frm, d, acc, r, h, _, hfr, _ => by
    unfold spanLoop at h; injection h with h; subst h; exact Or.inr hfr
  | h :: hs, frm, d, acc, r, hr, hh, hfr, hd => by
    unfold spanLoop at hr
    dsimp only at hr
    obtain ⟨T, hT, t1, t2⟩ := hh h (by simp)
    rcases hT with rfl | rfl
    · obtain ⟨n, hn, hn2⟩ := sq_close hR hM hp0 t2 wp
      have hd' : ∃ z : ℝ, (p0 - h.2).sqNorm = (Ext.fin z : Ext ℝ) ∧ z ≤ M ^ 2 / 2 ^ 29 := ⟨n, hn, hn2⟩
      split_ifs at hr
      all_goals
        refine spanLoop_far hM hp0 wp wq hf hs _ _ _ r hr (fun x hx => hh x (by simp [hx])) ?_ ?_
        · first | exact t2 | exact hfr
        · first | exact hd' | exact hd
    · obtain ⟨n, hn, hn2⟩ := sq_far hR hM hp0 t1 wp wq hf
      obtain ⟨z, rfl, hz⟩ := hd
      have hlt : FP.lt (show Fl R from (Ext.fin z : Ext ℝ)) (p0 - h.1).sqNorm = true := by
        rw [hn]
        show Ext.lt (.fin z) (.fin n) = true
        have := hM.sq.1
        generalize M ^ 2 = W at *
        have : z < n := by norm_num at *; linarith
        simp [Ext.lt, this]
      left
      rw [if_pos hlt] at hr
      split_ifs at hr
      all_goals
        exact ⟨Line.of3 frm h.1, spanLoop_keeps p0 hs _ _ _ r hr _ (by simp), frm, h.1, hfr, t1, rfl⟩

theorem edgeLines_far {M : ℝ} (hM : Small M) {p : Edge (Fl R)} {P Q : V3 ℝ} (h1 : V3.NearTo p.1 P (M / 2 ^ 18)) (h2 : V3.NearTo p.2 Q (M / 2 ^ 18))
    (wp : P.Within (4 * M)) (wq : Q.Within (4 * M)) (hf : FarApart (M / 2 ^ 11) P Q) (hs : List (Edge (Fl R)))
    (hh : ∀ h ∈ hs, ∃ T, (T = P ∨ T = Q) ∧ V3.NearTo h.1 T (M / 2 ^ 18) ∧ V3.NearTo h.2 T (M / 2 ^ 18)) (r) (h : edgeLines (FP.lit 0) p hs = .ok r) :
    ∃ l ∈ r, JoinsNear (M / 2 ^ 18) P Q l := by
  unfold edgeLines at h
  cases hl : spanLoop p.1 hs p.1 (FP.lit 0) [] with
  | error a => rw [hl] at h; cases h
  | ok x =>
    rw [hl] at h
    have hpos : 0 ≤ M ^ 2 / 2 ^ 29 := by positivity
    have := spanLoop_far hR hM h1 wp wq hf hs _ _ _ x hl hh h1 ⟨0, lit_zero R, hpos⟩
    dsimp only [bind, Except.bind, pure, Except.pure] at h
    rcases this with ⟨l, hl, hj⟩ | hn
    · split_ifs at h
      · injection h with h; subst h; exact ⟨l, by simp [hl], hj⟩
      · injection h with h; subst h; exact ⟨l, hl, hj⟩
    · obtain ⟨n, e, hn2⟩ := sq_far hR hM hn h2 wp wq hf
      have hlt : FP.lt (FP.lit 0 * FP.lit 0 : Fl R) (x.1 - p.2).sqNorm = true := by
        rw [e, lit_zero]
        have : ((show Fl R from (Ext.fin 0 : Ext ℝ)) * (show Fl R from (Ext.fin 0 : Ext ℝ)) : Fl R) = (Ext.fin 0 : Ext ℝ) := by
          show R.fix (Ext.mul (.fin 0) (.fin 0)) = _
          simp only [Ext.mul, mul_zero, fix_zero]
        have hlt : 0 < n := by
          have := hM.sq.1
          generalize M ^ 2 = W at *
          norm_num at *; linarith
        show FP.lt ((show Fl R from (Ext.fin 0 : Ext ℝ)) * (show Fl R from (Ext.fin 0 : Ext ℝ)) : Fl R) (show Fl R from (Ext.fin n : Ext ℝ)) = true
        rw [this]
        show Ext.lt (.fin 0) (.fin n) = true
        simp [Ext.lt, hlt]
      rw [if_pos hlt] at h
      injection h with h; subst h
      exact ⟨Line.of3 x.1 p.2, by simp, x.1, p.2, hn, h2, rfl⟩

/-- an edge offered for drawing, of which nothing is hidden -/
theorem toLines_far {M : ℝ} (hM : Small M) (S : Sorter) (hS : SortOK S) {s : STLFile (Fl R)} (hw : WellIndexed s) (hx : ∀ f ∈ s.facets, FacetExact M f)
    (ls) (h : s.toLines S = .ok ls) {v : Nat} {ev : Edge (Fl R)} (hv : s.edges[v]? = some ev) (hvu : v < s.unseen)
    (hf : FarApart (M / 2 ^ 11) ev.1.val ev.2.val)
    (hc : ∀ (i : Nat) (f : Facet (Fl R)) (t : Nat × Nat × Nat), s.facets[i]? = some f → s.faceEdge[i]? = some t →
      (v = t.1 ∨ v = t.2.1 ∨ v = t.2.2) ∨ ∃ P, (P = ev.1.val ∨ P = ev.2.val) ∧ ClearBut M (ev.1.val, ev.2.val) f.val P) :
    ∃ l ∈ ls, JoinsNear (M / 2 ^ 18) ev.1.val ev.2.val l := by
  have h1M := hM.one
  obtain ⟨a1, a2⟩ := edge_exact hw hx (List.mem_of_getElem? hv)
  unfold STLFile.toLines at h
  obtain ⟨cs, hcs, h⟩ := except_bind_ok h
  obtain ⟨hides, hm, h⟩ := except_bind_ok h
  have hfm := mapM_except_forall _ _ _ hm
  unfold generateLines at h
  obtain ⟨L, hg, h⟩ := except_bind_ok h
  injection h with h; subst h
  have hgf := mapM_except_forall _ _ _ hg
  obtain ⟨hlen, hget⟩ := List.forall₂_iff_get.1 hgf
  have hvl : v < L.length := by rw [← hlen]; simpa using hvu
  have hce := hget v (by simpa using hvu) hvl
  simp only [List.get_eq_getElem, List.getElem_range, hv, Bool.false_eq_true, if_false] at hce
  obtain ⟨hlen2, hget2⟩ := List.forall₂_iff_get.1 hfm
  have hvh : v < hides.length := by rw [← hlen2]; simpa using hvu
  have hg2 := hget2 v (by simpa using hvu) hvh
  simp only [List.get_eq_getElem, List.getElem_range, hv] at hg2
  rw [List.getElem?_eq_getElem hvh, Option.getD_some] at hce
  have l18 : (0 : ℝ) ≤ M / 2 ^ 18 := by positivity
  cases hcv : cs[v]? with
  | none => simp only [hcv] at hg2; cases hg2
  | some m =>
    simp only [hcv] at hg2
    have hh : ∀ hid ∈ hides[v], ∃ T, (T = ev.1.val ∨ T = ev.2.val) ∧ V3.NearTo hid.1 T (M / 2 ^ 18) ∧ V3.NearTo hid.2 T (M / 2 ^ 18) := by
      intro hid hhid
      unfold edgeHides at hg2
      obtain ⟨hs, hms, hg2⟩ := except_bind_ok hg2
      injection hg2 with hg2
      rw [← hg2] at hhid
      have := (hS.perm _ _).subset hhid
      obtain ⟨x, hxm, hxe⟩ := List.mem_filterMap.mp this
      simp only [id] at hxe; subst hxe
      obtain ⟨p, hp, hfp⟩ := forall₂_right_mem (mapM_except_forall _ _ _ hms) hxm
      obtain ⟨hne, ⟨x1, hx1, e1⟩, ⟨x2, hx2, e2⟩⟩ := faceHides_cand S hS m v ev p.1 p.2 hid hfp
      obtain ⟨i, hi⟩ := List.getElem?_of_mem hp
      rw [List.getElem?_zip_eq_some] at hi
      rcases hc i p.1 p.2 hi.1 hi.2 with hown | ⟨P, hP, hcl⟩
      · omega
      · refine ⟨P, hP, ?_, ?_⟩
        · rw [← e1]; exact cand_clear hR hM hw hx hcs hcv hv hi.1 hi.2 hP hcl x1 hx1
        · rw [← e2]; exact cand_clear hR hM hw hx hcs hcv hv hi.1 hi.2 hP hcl x2 hx2
    obtain ⟨l, hl, hj⟩ := edgeLines_far hR hM (P := ev.1.val) (Q := ev.2.val) ⟨a1.1.1.mono l18, a1.1.2.1.mono l18, a1.1.2.2.mono l18⟩
      ⟨a2.1.1.mono l18, a2.1.2.1.mono l18, a2.1.2.2.mono l18⟩ a1.2 a2.2 hf _ hh _ hce
    exact ⟨l, List.mem_flatten.2 ⟨_, List.getElem_mem hvl, hl⟩, hj⟩

end
end S2P
