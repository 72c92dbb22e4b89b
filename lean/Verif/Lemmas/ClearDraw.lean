import Verif.Lemmas.ClearTurn
import Verif.Lemmas.AccuracyFrame
import Verif.Props.Index

set_option linter.unusedSectionVars false
set_option linter.unusedVariables false
set_option linter.unusedSimpArgs false

/-! # Edges in full view are drawn: from the table of edges to the page -/

namespace S2P

theorem ClearBut.not_side {M : ℝ} (hM : 1 ≤ M) {E : Edge ℝ} {t : Tri ℝ} {P : V3 ℝ} (h : ClearBut M E t P) : ¬ t.HasSide E := by
  intro hs
  have hQ : 1 ≤ M ^ 2 := by nlinarith
  have z1 : slant E.1 E.2 E.1 E.2 = 0 := by unfold slant; ring
  have z2 : leftOf E.1 E.2 E.1 = 0 := by unfold leftOf; ring
  rcases h.2 E.1 E.2 hs with ⟨-, h⟩ | h | h | h
  · rw [z1, abs_zero] at h; norm_num at h; nlinarith
  · unfold Apart at h
    rw [z2] at h
    generalize M ^ 2 = Q at *
    norm_num at h
    rcases h with h | h | h | h <;> linarith [h.1]
  · have := h.1
    norm_num at this
    linarith
  · have := h.1
    rw [z1, abs_zero] at this; norm_num at this; nlinarith

section
variable {R : Rounding}

theorem near_val {x : Fl R} {a η : ℝ} (h : Fl.Near x a η) : Fl.Near x (Fl.val x) 0 ∧ |Fl.val x - a| ≤ η := by
  obtain ⟨b, rfl, hb⟩ := h
  exact ⟨Fl.near_fin b, hb⟩

theorem near_val3 {q : V3 (Fl R)} {a : V3 ℝ} {η : ℝ} (h : V3.NearTo q a η) : V3.NearTo q q.val 0 ∧ (q.val - a).Within η :=
  ⟨⟨(near_val h.1).1, (near_val h.2.1).1, (near_val h.2.2).1⟩, (near_val h.1).2, (near_val h.2.1).2, (near_val h.2.2).2⟩

theorem val_inj {p q : V3 (Fl R)} (hp : V3.NearTo p p.val 0) (hq : V3.NearTo q q.val 0) (h : p.val = q.val) : p = q := by
  have go : ∀ {x y : Fl R}, Fl.Near x (Fl.val x) 0 → Fl.Near y (Fl.val y) 0 → Fl.val x = Fl.val y → x = y := by
    intro x y hx hy e
    obtain ⟨b, rfl, -⟩ := hx
    obtain ⟨c, rfl, -⟩ := hy
    change b = c at e
    rw [e]
  ext1
  · exact go hp.1 hq.1 (congrArg V3.x h)
  · exact go hp.2.1 hq.2.1 (congrArg V3.y h)
  · exact go hp.2.2 hq.2.2 (congrArg V3.z h)

theorem samePt_exact {M : ℝ} {p q : V3 (Fl R)} (hp : Exact p p.val M) (hq : Exact q q.val M) : SamePt p q ↔ p.val = q.val := by
  constructor
  · exact exact_eq hp hq
  · intro h
    rw [val_inj hp.1 hq.1 h]
    obtain ⟨⟨⟨x1, e1, k1⟩, ⟨x2, e2, k2⟩, ⟨x3, e3, k3⟩⟩, -⟩ := hq
    refine ⟨?_, ?_, ?_⟩
    · rw [e1]; show Ext.eq (.fin _) (.fin _) = true; simp [Ext.eq]
    · rw [e2]; show Ext.eq (.fin _) (.fin _) = true; simp [Ext.eq]
    · rw [e3]; show Ext.eq (.fin _) (.fin _) = true; simp [Ext.eq]

theorem dot_normals (hR : R.Accurate) {n m : V3 (Fl R)} {N N' : V3 ℝ} (hn : V3.NearTo n N (1 / 2 ^ 20)) (hm : V3.NearTo m N' (1 / 2 ^ 20))
    (wn : N.Within 6) (wm : N'.Within 6) (h : N.dot N' ≤ 97 / 100) : FP.lt (n.dot m) (FP.lit (98 / 100)) = true := by
  have pr : ∀ {x y : Fl R} {a b : ℝ}, Fl.Near x a (1 / 2 ^ 20) → Fl.Near y b (1 / 2 ^ 20) → |a| ≤ 6 → |b| ≤ 6 → Fl.Near (x * y) (a * b) (1 / 2 ^ 15) ∧ |a * b| ≤ 36 := by
    intro x y a b hx hy ha hb
    refine ⟨(hx.mul hR hy ha hb (S := 37) (by norm_num) (by norm_num) (top_of (by norm_num))).mono ?_, ?_⟩
    · norm_num
    · rw [abs_mul]
      have := mul_le_mul ha hb (abs_nonneg _) (by norm_num)
      linarith
  obtain ⟨p1, q1⟩ := pr hn.1 hm.1 wn.1 wm.1
  obtain ⟨p2, q2⟩ := pr hn.2.1 hm.2.1 wn.2.1 wm.2.1
  obtain ⟨p3, q3⟩ := pr hn.2.2 hm.2.2 wn.2.2 wm.2.2
  unfold V3.dot at *
  generalize N.x * N'.x = u1 at *
  generalize N.y * N'.y = u2 at *
  generalize N.z * N'.z = u3 at *
  have t1 := abs_add_le u1 u2
  have t2 := abs_add_le (u1 + u2) u3
  have s1 := p1.add hR p2 (S := 73) (by norm_num; linarith) (by norm_num) (top_of (by norm_num))
  obtain ⟨z, hz, hz2⟩ := s1.add hR p3 (S := 110) (by norm_num; linarith) (by norm_num) (top_of (by norm_num))
  obtain ⟨l, hl, hl2⟩ := Fl.near_lit hR (98 / 100) (S := 1) (by norm_num) (by norm_num) (top_of (by norm_num))
  rw [hz, hl]
  show Ext.lt (.fin z) (.fin l) = true
  rw [abs_le] at hz2 hl2
  have : z < l := by norm_num at *; linarith
  simp [Ext.lt, this]

/-- a point with an error, scaled and moved -/
theorem page_coarse (hR : R.Accurate) {M k P o : ℝ} (h : PageMid M k P) (ho : |o| ≤ 4 * (M * |k|) + 2 * P + 1) {p : Fl R} {a : ℝ}
    (hp : Fl.Near p a (M / 2 ^ 17)) (ha : |a| ≤ 9 * M) :
    Fl.Near (p * (show Fl R from (Ext.fin k : Ext ℝ)) + (show Fl R from (Ext.fin o : Ext ℝ))) (a * k + o) ((M * |k| + P + 1) / 2 ^ 16) := by
  have h1M := h.mid.one
  have hk := abs_nonneg k
  have hP := h.loc0
  have hMk : 0 ≤ M * |k| := mul_nonneg (by linarith) hk
  have m := hp.mul hR (Fl.near_fin k) ha le_rfl (S := 10 * (M * |k|) + 1) (by norm_num; nlinarith) (by norm_num; linarith) (h.small (by linarith))
  have hak : |a * k| ≤ 9 * (M * |k|) := by rw [abs_mul]; nlinarith
  have t := abs_add_le (a * k) o
  have e : |k| * (M / 2 ^ 17) = M * |k| / 2 ^ 17 := by ring
  refine (m.add hR (Fl.near_fin o) (S := 14 * (M * |k|) + 2 * P + 3) ?_ (by norm_num; linarith) (h.small (by linarith))).mono ?_
  · rw [e]; norm_num at *; linarith
  · rw [e]; norm_num at *; linarith

/-! ## A facet turned -/

/-- corners as stored, with the points they stand for -/
def pairs (f : Facet (Fl R)) (t : Tri ℝ) : List (V3 (Fl R) × V3 ℝ) := [(f.e0, t.a), (f.e1, t.b), (f.e2, t.c)]

/-- what is known of a facet `f` that stands for the triangle `t` and was turned; `Rel` tells which stored points stand for which -/
structure Turned (Rel : V3 (Fl R) → V3 ℝ → Prop) (δ M : ℝ) (rot : M3 (Fl R)) (r : M3 ℝ) (f : Facet (Fl R)) (t : Tri ℝ) : Prop where
  rel : ∀ z ∈ pairs f t, Rel z.1 z.2
  exact : ∀ z ∈ pairs f t, Exact (z.1.mulM rot) (z.1.mulM rot).val M
  shift : ∀ z ∈ pairs f t, Shifted M (z.2.mulM r) (z.1.mulM rot).val
  normal : V3.NearTo (f.norm.mulM rot) (t.n.mulM r) δ ∧ (t.n.mulM r).Within 6
  dist : Fl.Near f.r t.r (M / 2 ^ 18)

/-- a stored point stands for one point, and no two of them for the same -/
def OneToOne (Rel : V3 (Fl R) → V3 ℝ → Prop) : Prop := ∀ p q a, Rel p a → Rel q a → p = q

theorem shift_size {n : ℕ} {a a' : V3 ℝ} (h : Shifted (2 ^ n) a a') : a'.Within (4 * 2 ^ n) := by
  have h1 : (1 : ℝ) ≤ 2 ^ n := one_le_pow₀ (by norm_num)
  obtain ⟨k6, k4⟩ := h
  have go : ∀ {x y : ℝ}, |x - y| ≤ 2 ^ n / 2 ^ 38 → |y| ≤ 3 * 2 ^ n → |x| ≤ 4 * 2 ^ n := by
    intro x y h2 h3
    have := abs_add_le (x - y) y
    rw [sub_add_cancel] at this
    norm_num at *
    linarith
  exact ⟨go k6.1 k4.1, go k6.2.1 k4.2.1, go k6.2.2 k4.2.2⟩

/-- a facet stands for the triangle given by its own numbers -/
theorem turned_ok (hR : R.Accurate) {n : ℕ} (hn : n ≤ 40) {file : STLFile (Fl R)} (hs : file.Bd n) (hsn : SaneNormals file) {rot : M3 (Fl R)} {r : M3 ℝ}
    (hr : IsRotation r) (hm : M3.NearTo rot r (1 / 2 ^ 40)) {f : Facet (Fl R)} (hf : f ∈ file.facets) :
    Turned (fun p a => V3.NearTo p a 0) (1 / 2 ^ 37) (2 ^ n) rot r f f.val := by
  have hMid : Mid ((2 : ℝ) ^ n) := ⟨one_le_pow₀ (by norm_num), pow_le_pow_right₀ (by norm_num) (by omega)⟩
  have hMid2 : Mid (2 : ℝ) := ⟨by norm_num, by
    have : (2 : ℝ) ^ 1 ≤ 2 ^ 600 := pow_le_pow_right₀ (by norm_num) (by norm_num)
    simpa using this⟩
  have h1 := hMid.one
  have key : ∀ z ∈ pairs f f.val, V3.NearTo z.1 z.2 0 ∧ Exact (z.1.mulM rot) (z.1.mulM rot).val (2 ^ n) ∧ Shifted (2 ^ n) (z.2.mulM r) (z.1.mulM rot).val := by
    intro z hz
    have hz' : z.1 ∈ f.corners ∧ z.2 = z.1.val := by
      simp only [pairs, List.mem_cons, List.not_mem_nil, or_false] at hz
      rcases hz with rfl | rfl | rfl <;> simp [Facet.corners, Facet.val]
    rw [hz'.2]
    obtain ⟨k1, k2⟩ := bd_val (by omega) (hs f hf z.1 hz'.1)
    obtain ⟨k3, k4⟩ := mulM_near hR hMid k1 k2 hm hr
    obtain ⟨k5, k6⟩ := near_val3 k3
    exact ⟨k1, ⟨k5, shift_size ⟨k6, k4⟩⟩, k6, k4⟩
  obtain ⟨k1, k2⟩ := bd_val (R := R) (n := 1) (by norm_num) (hsn f hf).1
  rw [pow_one] at k2
  obtain ⟨k3, k4⟩ := mulM_near hR hMid2 k1 k2 hm hr
  refine ⟨fun p hp => (key p hp).1, fun p hp => (key p hp).2.1, fun p hp => (key p hp).2.2, ⟨?_, by norm_num at k4; exact k4⟩, (hsn f hf).2.mono (by positivity)⟩
  norm_num at k3 ⊢
  exact k3

theorem near_oneToOne : OneToOne (R := R) (fun p a => V3.NearTo p a 0) := by
  have go : ∀ {x y : Fl R} {a : ℝ}, Fl.Near x a 0 → Fl.Near y a 0 → x = y := by
    rintro x y a ⟨b, rfl, hb⟩ ⟨c, rfl, hc⟩
    rw [abs_nonpos_iff, sub_eq_zero] at hb hc
    rw [hb, hc]
  intro p q a hp hq
  ext1
  · exact go hp.1 hq.1
  · exact go hp.2.1 hq.2.1
  · exact go hp.2.2 hq.2.2

theorem Turned.facetExact {Rel : V3 (Fl R) → V3 ℝ → Prop} {δ M : ℝ} (hδ : δ ≤ 1 / 2 ^ 20) {rot : M3 (Fl R)} {r : M3 ℝ} {f : Facet (Fl R)} {t : Tri ℝ}
    (h : Turned Rel δ M rot r f t) : FacetExact M (rotFacet rot f) := by
  obtain ⟨⟨k1, k2⟩, k3⟩ := And.intro (near_val3 h.normal.1) h.normal.2
  refine ⟨h.exact (f.e0, t.a) (by simp [pairs]), h.exact (f.e1, t.b) (by simp [pairs]), h.exact (f.e2, t.c) (by simp [pairs]), ⟨k1, ?_⟩, (near_val h.dist).1⟩
  have go : ∀ {x y : ℝ}, |x - y| ≤ δ → |y| ≤ 6 → |x| ≤ 8 := by
    intro x y h2 h3
    have := abs_add_le (x - y) y
    rw [sub_add_cancel] at this
    norm_num at *
    linarith
  exact ⟨go k2.1 k3.1, go k2.2.1 k3.2.1, go k2.2.2 k3.2.2⟩

/-- sides of a facet turned are sides of the triangle, seen -/
theorem turned_side {rot : M3 (Fl R)} {r : M3 ℝ} {f : Facet (Fl R)} {t : Tri ℝ} {c d : V3 ℝ} (h : (rotFacet rot f).val.HasSide (c, d)) :
    ∃ x ∈ pairs f t, ∃ y ∈ pairs f t, c = (x.1.mulM rot).val ∧ d = (y.1.mulM rot).val ∧ (t.seenIn r).HasSide (x.2.mulM r, y.2.mulM r) := by
  unfold Tri.HasSide at h
  simp only [Prod.mk.injEq] at h
  rcases h with ⟨rfl, rfl⟩ | ⟨rfl, rfl⟩ | ⟨rfl, rfl⟩ | ⟨rfl, rfl⟩ | ⟨rfl, rfl⟩ | ⟨rfl, rfl⟩
  · exact ⟨(f.e0, t.a), by simp [pairs], (f.e1, t.b), by simp [pairs], rfl, rfl, by simp [Tri.HasSide, Tri.seenIn]⟩
  · exact ⟨(f.e1, t.b), by simp [pairs], (f.e2, t.c), by simp [pairs], rfl, rfl, by simp [Tri.HasSide, Tri.seenIn]⟩
  · exact ⟨(f.e2, t.c), by simp [pairs], (f.e0, t.a), by simp [pairs], rfl, rfl, by simp [Tri.HasSide, Tri.seenIn]⟩
  · exact ⟨(f.e1, t.b), by simp [pairs], (f.e0, t.a), by simp [pairs], rfl, rfl, by simp [Tri.HasSide, Tri.seenIn]⟩
  · exact ⟨(f.e2, t.c), by simp [pairs], (f.e1, t.b), by simp [pairs], rfl, rfl, by simp [Tri.HasSide, Tri.seenIn]⟩
  · exact ⟨(f.e0, t.a), by simp [pairs], (f.e2, t.c), by simp [pairs], rfl, rfl, by simp [Tri.HasSide, Tri.seenIn]⟩

/-- and the other way round -/
theorem side_turned (rot : M3 (Fl R)) {r : M3 ℝ} (f : Facet (Fl R)) {t : Tri ℝ} {c d : V3 ℝ} (h : (t.seenIn r).HasSide (c, d)) :
    ∃ x ∈ pairs f t, ∃ y ∈ pairs f t, c = x.2.mulM r ∧ d = y.2.mulM r ∧ (rotFacet rot f).val.HasSide ((x.1.mulM rot).val, (y.1.mulM rot).val) := by
  unfold Tri.HasSide at h
  simp only [Prod.mk.injEq] at h
  rcases h with ⟨rfl, rfl⟩ | ⟨rfl, rfl⟩ | ⟨rfl, rfl⟩ | ⟨rfl, rfl⟩ | ⟨rfl, rfl⟩ | ⟨rfl, rfl⟩
  · exact ⟨(f.e0, t.a), by simp [pairs], (f.e1, t.b), by simp [pairs], rfl, rfl, by simp [Tri.HasSide, rotFacet, Facet.val]⟩
  · exact ⟨(f.e1, t.b), by simp [pairs], (f.e2, t.c), by simp [pairs], rfl, rfl, by simp [Tri.HasSide, rotFacet, Facet.val]⟩
  · exact ⟨(f.e2, t.c), by simp [pairs], (f.e0, t.a), by simp [pairs], rfl, rfl, by simp [Tri.HasSide, rotFacet, Facet.val]⟩
  · exact ⟨(f.e1, t.b), by simp [pairs], (f.e0, t.a), by simp [pairs], rfl, rfl, by simp [Tri.HasSide, rotFacet, Facet.val]⟩
  · exact ⟨(f.e2, t.c), by simp [pairs], (f.e1, t.b), by simp [pairs], rfl, rfl, by simp [Tri.HasSide, rotFacet, Facet.val]⟩
  · exact ⟨(f.e0, t.a), by simp [pairs], (f.e2, t.c), by simp [pairs], rfl, rfl, by simp [Tri.HasSide, rotFacet, Facet.val]⟩

theorem rotation_inj {r : M3 ℝ} (hr : IsRotation r) {a b : V3 ℝ} (h : a.mulM r = b.mulM r) : a = b := by
  have h1 := hr.1 (a - b) (a - b)
  have e : (a - b).mulM r = a.mulM r - b.mulM r := by ext <;> simp [V3.mulM] <;> ring
  rw [e, h] at h1
  simp [V3.dot] at h1
  have q1 := mul_self_nonneg (a.x - b.x)
  have q2 := mul_self_nonneg (a.y - b.y)
  have q3 := mul_self_nonneg (a.z - b.z)
  ext
  · have : (a.x - b.x) * (a.x - b.x) = 0 := by linarith
    linarith [mul_self_eq_zero.1 this]
  · have : (a.y - b.y) * (a.y - b.y) = 0 := by linarith
    linarith [mul_self_eq_zero.1 this]
  · have : (a.z - b.z) * (a.z - b.z) = 0 := by linarith
    linarith [mul_self_eq_zero.1 this]

theorem two_corners {t : Tri ℝ} {a b : V3 ℝ} (hab : a ≠ b) (ha : a ∈ t.corners) (hb : b ∈ t.corners) : t.HasSide (a, b) := by
  simp only [Tri.corners, List.mem_cons, List.not_mem_nil, or_false] at ha hb
  unfold Tri.HasSide
  simp only [Prod.mk.injEq]
  rcases ha with rfl | rfl | rfl <;> rcases hb with rfl | rfl | rfl <;> first | exact absurd rfl hab | tauto

/-- a facet that hides nothing of an edge hides nothing of the edge as turned by the program -/
theorem clear_turned {M : ℝ} (hM : 1 ≤ M) {Rel : V3 (Fl R) → V3 ℝ → Prop} (ho : OneToOne Rel) {δ : ℝ} (hδ : δ ≤ 1 / 2 ^ 20)
    {rot : M3 (Fl R)} {r : M3 ℝ} (hr : IsRotation r) {f : Facet (Fl R)} {t : Tri ℝ} (hf : Turned Rel δ M rot r f t) {p q : V3 (Fl R) × V3 ℝ}
    (hp : Rel p.1 p.2) (hq : Rel q.1 q.2) (sp : Shifted M (p.2.mulM r) (p.1.mulM rot).val) (sq : Shifted M (q.2.mulM r) (q.1.mulM rot).val)
    (hne : p.2.mulM r ≠ q.2.mulM r)
    (hc : ClearOf (M ^ 2 / 2 ^ 30) (M ^ 2 / 2 ^ 14) (M / 2 ^ 12) (p.2.mulM r) (q.2.mulM r) (t.seenIn r)) :
    ((t.seenIn r).HasSide (p.2.mulM r, q.2.mulM r) ∧ (rotFacet rot f).val.HasSide ((p.1.mulM rot).val, (q.1.mulM rot).val)) ∨
    ∃ P, (P = (p.1.mulM rot).val ∨ P = (q.1.mulM rot).val) ∧ ClearBut M ((p.1.mulM rot).val, (q.1.mulM rot).val) (rotFacet rot f).val P := by
  have same : ∀ {x y : V3 (Fl R) × V3 ℝ}, Rel x.1 x.2 → Rel y.1 y.2 → x.2.mulM r = y.2.mulM r → (x.1.mulM rot).val = (y.1.mulM rot).val := by
    intro x y hx hy h
    rw [ho x.1 y.1 y.2 (by rw [← rotation_inj hr h]; exact hx) hy]
  rcases hc with hs | ⟨h1, h2⟩
  · left
    refine ⟨hs, ?_⟩
    obtain ⟨x, hx, y, hy, e1, e2, h⟩ := side_turned rot f hs
    rw [same hp (hf.rel x hx) e1, same hq (hf.rel y hy) e2]
    exact h
  · by_cases hside : (t.seenIn r).HasSide (p.2.mulM r, q.2.mulM r)
    · left
      refine ⟨hside, ?_⟩
      obtain ⟨x, hx, y, hy, e1, e2, h⟩ := side_turned rot f hside
      rw [same hp (hf.rel x hx) e1, same hq (hf.rel y hy) e2]
      exact h
    right
    have nb : ∀ {z : V3 (Fl R) × V3 ℝ}, Shifted M (z.2.mulM r) (z.1.mulM rot).val → NotBehind (M ^ 2 / 2 ^ 30) (M / 2 ^ 12) (t.seenIn r) (z.2.mulM r) →
        NotBehind (M ^ 2 / 2 ^ 31) (M / 2 ^ 13) (rotFacet rot f).val (z.1.mulM rot).val := by
      intro z hz h
      have hn := (near_val3 hf.normal.1).2
      exact NotBehind.shift (t := t.seenIn r) (t' := (rotFacet rot f).val) hM (hf.shift (f.e0, t.a) (by simp [pairs])) (hf.shift (f.e1, t.b) (by simp [pairs]))
        (hf.shift (f.e2, t.c) (by simp [pairs])) hz ⟨hn.1.trans hδ, hn.2.1.trans hδ, hn.2.2.trans hδ⟩ hf.normal.2 (near_val hf.dist).2 h
    have sidecorner : ∀ {c d : V3 ℝ}, (t.seenIn r).HasSide (c, d) → c ∈ (t.seenIn r).corners ∧ d ∈ (t.seenIn r).corners := by
      intro c d h
      unfold Tri.HasSide at h
      simp only [Prod.mk.injEq] at h
      rcases h with ⟨rfl, rfl⟩ | ⟨rfl, rfl⟩ | ⟨rfl, rfl⟩ | ⟨rfl, rfl⟩ | ⟨rfl, rfl⟩ | ⟨rfl, rfl⟩ <;> simp [Tri.corners]
    -- the end at which the triangle has a corner, if there is one
    obtain ⟨w, hw, hother⟩ : ∃ w, (w = p ∨ w = q) ∧ ∀ z, (z = p ∨ z = q) → z.2.mulM r ∈ (t.seenIn r).corners → z.2.mulM r = w.2.mulM r := by
      by_cases ha : p.2.mulM r ∈ (t.seenIn r).corners
      · refine ⟨p, Or.inl rfl, ?_⟩
        rintro z (rfl | rfl) hz
        · rfl
        · exact absurd (two_corners hne ha hz) hside
      · refine ⟨q, Or.inr rfl, ?_⟩
        rintro z (rfl | rfl) hz
        · exact absurd hz ha
        · rfl
    have hwn : Rel w.1 w.2 := by rcases hw with rfl | rfl <;> assumption
    refine ⟨(w.1.mulM rot).val, hw.imp (fun h => by rw [h]) (fun h => by rw [h]), ?_, ?_⟩
    · have go : ∀ z, (z = p ∨ z = q) → Rel z.1 z.2 → Shifted M (z.2.mulM r) (z.1.mulM rot).val →
          (z.1.mulM rot).val = (w.1.mulM rot).val ∨ NotBehind (M ^ 2 / 2 ^ 31) (M / 2 ^ 13) (rotFacet rot f).val (z.1.mulM rot).val := by
        intro z hz hzn hzs
        rcases h1 (z.2.mulM r) (hz.imp (fun h => by rw [h]) (fun h => by rw [h])) with h | h
        · exact Or.inl (same hzn hwn (hother z hz h))
        · exact Or.inr (nb hzs h)
      rintro z (rfl | rfl)
      · exact go p (Or.inl rfl) hp sp
      · exact go q (Or.inr rfl) hq sq
    · intro c d hcd
      obtain ⟨x, hx, y, hy, rfl, rfl, hxy⟩ := turned_side (r := r) (t := t) hcd
      have sx := hf.shift x hx
      have sy := hf.shift y hy
      rcases h2 _ _ hxy with ⟨ht, hk⟩ | h | h | h
      · refine Or.inl ⟨?_, slant_keep hM sp sq sx sy hk⟩
        obtain ⟨cx, cy⟩ := sidecorner hxy
        have tx : ∀ z, (z = p ∨ z = q) → x.2.mulM r = z.2.mulM r → (x.1.mulM rot).val = (w.1.mulM rot).val := by
          intro z hz e
          refine same (hf.rel x hx) hwn ?_
          rw [e]
          exact hother z hz (by rw [← e]; exact cx)
        have ty : ∀ z, (z = p ∨ z = q) → y.2.mulM r = z.2.mulM r → (y.1.mulM rot).val = (w.1.mulM rot).val := by
          intro z hz e
          refine same (hf.rel y hy) hwn ?_
          rw [e]
          exact hother z hz (by rw [← e]; exact cy)
        rcases ht with (h | h) | (h | h)
        · exact Or.inl (tx p (Or.inl rfl) h)
        · exact Or.inr (ty p (Or.inl rfl) h)
        · exact Or.inl (tx q (Or.inr rfl) h)
        · exact Or.inr (ty q (Or.inr rfl) h)
      · exact Or.inr (Or.inl (h.shift hM sp sq sx sy))
      · exact Or.inr (Or.inr (Or.inl (h.shift hM sp sq sx sy)))
      · exact Or.inr (Or.inr (Or.inr (h.shift hM sp sq sx sy)))

/-! ## The table of edges -/

theorem side_entry {M : ℝ} {s : STLFile (Fl R)} (hw : WellIndexed s) (hx : ∀ f ∈ s.facets, FacetExact M f) {i : Nat} {f : Facet (Fl R)} {t : Nat × Nat × Nat}
    (hf : s.facets[i]? = some f) (ht : s.faceEdge[i]? = some t) {c d : V3 ℝ} (h : f.val.HasSide (c, d)) :
    ∃ k e, s.edges[k]? = some e ∧ (k = t.1 ∨ k = t.2.1 ∨ k = t.2.2) ∧ ((e.1.val = c ∧ e.2.val = d) ∨ (e.1.val = d ∧ e.2.val = c)) := by
  have hfx := hx f (List.mem_of_getElem? hf)
  obtain ⟨⟨e1, a1, b1⟩, ⟨e2, a2, b2⟩, ⟨e3, a3, b3⟩⟩ := hw.faceOk i f t hf ht
  have go : ∀ {e : Edge (Fl R)} {x y : V3 (Fl R)}, e ∈ s.edges → Exact x x.val M → Exact y y.val M → SameEdge e x y →
      (e.1.val = x.val ∧ e.2.val = y.val) ∨ (e.1.val = y.val ∧ e.2.val = x.val) := by
    intro e x y he hx' hy' h
    obtain ⟨q1, q2⟩ := edge_exact hw hx he
    exact h.imp (fun h => ⟨exact_eq q1 hx' h.1, exact_eq q2 hy' h.2⟩) (fun h => ⟨exact_eq q1 hy' h.1, exact_eq q2 hx' h.2⟩)
  have g1 := go (List.mem_of_getElem? a1) hfx.a hfx.b b1
  have g2 := go (List.mem_of_getElem? a2) hfx.b hfx.c b2
  have g3 := go (List.mem_of_getElem? a3) hfx.c hfx.a b3
  unfold Tri.HasSide at h
  simp only [Prod.mk.injEq] at h
  rcases h with ⟨rfl, rfl⟩ | ⟨rfl, rfl⟩ | ⟨rfl, rfl⟩ | ⟨rfl, rfl⟩ | ⟨rfl, rfl⟩ | ⟨rfl, rfl⟩
  · exact ⟨_, e1, a1, by simp, g1⟩
  · exact ⟨_, e2, a2, by simp, g2⟩
  · exact ⟨_, e3, a3, by simp, g3⟩
  · exact ⟨_, e1, a1, by simp, g1.symm⟩
  · exact ⟨_, e2, a2, by simp, g2.symm⟩
  · exact ⟨_, e3, a3, by simp, g3.symm⟩

theorem entry_unique {M : ℝ} {s : STLFile (Fl R)} (hw : WellIndexed s) (hx : ∀ f ∈ s.facets, FacetExact M f) {k v : Nat} {e ev : Edge (Fl R)}
    (hk : s.edges[k]? = some e) (hv : s.edges[v]? = some ev)
    (h : (e.1.val = ev.1.val ∧ e.2.val = ev.2.val) ∨ (e.1.val = ev.2.val ∧ e.2.val = ev.1.val)) : k = v := by
  obtain ⟨a1, a2⟩ := edge_exact hw hx (List.mem_of_getElem? hk)
  obtain ⟨b1, b2⟩ := edge_exact hw hx (List.mem_of_getElem? hv)
  have s1 : SameEdge e ev.1 ev.2 := h.imp (fun h => ⟨(samePt_exact a1 b1).2 h.1, (samePt_exact a2 b2).2 h.2⟩)
    (fun h => ⟨(samePt_exact a1 b2).2 h.1, (samePt_exact a2 b1).2 h.2⟩)
  have s2 : SameEdge ev e.1 e.2 := h.imp (fun h => ⟨(samePt_exact b1 a1).2 h.1.symm, (samePt_exact b2 a2).2 h.2.symm⟩)
    (fun h => ⟨(samePt_exact b1 a2).2 h.2.symm, (samePt_exact b2 a1).2 h.1.symm⟩)
  obtain ⟨hk1, rfl⟩ := List.getElem?_eq_some_iff.1 hk
  obtain ⟨hv1, rfl⟩ := List.getElem?_eq_some_iff.1 hv
  have hp := List.pairwise_iff_getElem.1 hw.distinct
  rcases lt_trichotomy k v with hlt | heq | hgt
  · exact absurd s1 (hp k v hk1 hv1 hlt)
  · exact heq
  · exact absurd s2 (hp v k hv1 hk1 hgt)

theorem front_may {Rel : V3 (Fl R) → V3 ℝ → Prop} {δ : ℝ} {rot : M3 (Fl R)} {r : M3 ℝ} {f : Facet (Fl R)} {t : Tri ℝ} {M : ℝ} (hf : Turned Rel δ M rot r f t)
    (h : (!FP.le (rotFacet rot f).norm.z (FP.lit 0)) = true) : -δ < (t.n.mulM r).z := by
  obtain ⟨z, hz, hz2⟩ := hf.normal.1.2.2
  have hle : FP.le (rotFacet rot f).norm.z (FP.lit 0) = decide (z ≤ 0) := by
    show FP.le (f.norm.mulM rot).z (FP.lit 0) = _
    rw [hz, lit_zero]; rfl
  rw [hle] at h
  rw [abs_le] at hz2
  norm_num at h hz2 ⊢
  linarith

theorem faces_front {Rel : V3 (Fl R) → V3 ℝ → Prop} {δ : ℝ} {rot : M3 (Fl R)} {r : M3 ℝ} {f : Facet (Fl R)} {t : Tri ℝ} {M : ℝ} (hf : Turned Rel δ M rot r f t)
    (h : δ < (t.n.mulM r).z) : (!FP.le (rotFacet rot f).norm.z (FP.lit 0)) = true := by
  obtain ⟨z, hz, hz2⟩ := hf.normal.1.2.2
  have hle : FP.le (rotFacet rot f).norm.z (FP.lit 0) = decide (z ≤ 0) := by
    show FP.le (f.norm.mulM rot).z (FP.lit 0) = _
    rw [hz, lit_zero]; rfl
  rw [hle]
  rw [abs_le] at hz2
  norm_num at h hz2 ⊢
  linarith

theorem InFullView.swap {δ M : ℝ} {r : M3 ℝ} {ts : List (Tri ℝ)} {a b : V3 ℝ} (h : InFullView δ M r ts a b) : InFullView δ M r ts b a := by
  refine ⟨?_, ?_, ?_, h.far.swap⟩
  · obtain ⟨f, h1, h2, h3⟩ := h.side
    exact ⟨f, h1, h2, h3.swap⟩
  · exact h.crease.imp (fun h a b c d => h a b c.swap d.swap)
  · exact fun f hf hm => (h.clear f hf hm).swap

theorem forall₂_mem_left {α β : Type} {P : α → β → Prop} {as : List α} {bs : List β} (h : List.Forall₂ P as bs) {a : α} (ha : a ∈ as) : ∃ b ∈ bs, P a b := by
  induction h with
  | nil => cases ha
  | cons h1 _ ih =>
    rcases List.mem_cons.1 ha with rfl | ha
    · exact ⟨_, List.mem_cons_self, h1⟩
    · obtain ⟨b, hb, h⟩ := ih ha
      exact ⟨b, List.mem_cons_of_mem _ hb, h⟩

theorem forall₂_pairwise {α β : Type} {P : α → β → Prop} {Q : β → β → Prop} {as : List α} {bs : List β} (h : List.Forall₂ P as bs) (hq : bs.Pairwise Q) :
    as.Pairwise (fun a a' => ∃ b b', P a b ∧ P a' b' ∧ b ∈ bs ∧ b' ∈ bs ∧ Q b b') := by
  induction h with
  | nil => exact .nil
  | @cons a b as bs h1 h2 ih =>
    rw [List.pairwise_cons] at hq
    refine List.Pairwise.cons ?_ ((ih hq.2).imp ?_)
    · intro a' ha'
      obtain ⟨b', hb', h⟩ := forall₂_mem_left h2 ha'
      exact ⟨b, b', h1, h, List.mem_cons_self, List.mem_cons_of_mem _ hb', hq.1 b' hb'⟩
    · rintro x y ⟨b, b', k1, k2, k3, k4, k5⟩
      exact ⟨b, b', k1, k2, List.mem_cons_of_mem _ k3, List.mem_cons_of_mem _ k4, k5⟩

/-- the edge in full view, taken as the table has it -/
theorem clear_at (hR : R.Accurate) (S : Sorter) (hS : SortOK S) {n : ℕ} (hn : n ≤ 40) {file proj : STLFile (Fl R)} (hs : file.Bd n)
    {Rel : V3 (Fl R) → V3 ℝ → Prop} (ho : OneToOne Rel) {δ : ℝ} (hδ : δ ≤ 1 / 2 ^ 20) {rot : M3 (Fl R)} (hvb : rot.ViewBd) {r : M3 ℝ} (hr : IsRotation r)
    {ts : List (Tri ℝ)} (hT : List.Forall₂ (Turned Rel δ (2 ^ n) rot r) file.facets ts) (h : file.rotate rot = .ok proj)
    (hw : WellIndexed proj) (hx : ∀ f ∈ proj.facets, FacetExact (2 ^ n) f)
    (h3 : proj.facets.Perm ((file.facets.map (rotFacet rot)).filter (fun f => !FP.le f.norm.z (FP.lit 0))))
    {ls} (hl : proj.toLines S = .ok ls) {p q : V3 (Fl R) × V3 ℝ} (hp : Rel p.1 p.2) (hq : Rel q.1 q.2)
    (sp : Shifted (2 ^ n) (p.2.mulM r) (p.1.mulM rot).val) (sq : Shifted (2 ^ n) (q.2.mulM r) (q.1.mulM rot).val)
    {v : Nat} {ev : Edge (Fl R)} (hv : proj.edges[v]? = some ev) (e1 : ev.1.val = (p.1.mulM rot).val) (e2 : ev.2.val = (q.1.mulM rot).val)
    (hfull : InFullView δ (2 ^ n) r ts (p.2.mulM r) (q.2.mulM r)) :
    ∃ l ∈ ls, JoinsNear (2 ^ n / 2 ^ 18) (p.1.mulM rot).val (q.1.mulM rot).val l := by
  have h1M : (1 : ℝ) ≤ 2 ^ n := one_le_pow₀ (by norm_num)
  have hSm : Small ((2 : ℝ) ^ n) := ⟨h1M, pow_le_pow_right₀ (by norm_num) (by omega)⟩
  have hne : p.2.mulM r ≠ q.2.mulM r := by
    intro e
    have := hfull.far
    unfold FarApart at this
    rw [e] at this
    norm_num at this
    have := pow_pos (show (0 : ℝ) < 2 by norm_num) n
    linarith
  have hsrc : ∀ f' ∈ proj.facets, ∃ g ∈ file.facets, f' = rotFacet rot g ∧ ∃ t ∈ ts, Turned Rel δ (2 ^ n) rot r g t ∧ -δ < (t.n.mulM r).z := by
    intro f' hf'
    obtain ⟨h4, h5⟩ := List.mem_filter.1 (h3.subset hf')
    obtain ⟨g, hg, rfl⟩ := List.mem_map.1 h4
    obtain ⟨t, ht, htu⟩ := forall₂_mem_left hT hg
    exact ⟨g, hg, rfl, t, ht, htu, front_may htu h5⟩
  have hcl : ∀ g t, t ∈ ts → Turned Rel δ (2 ^ n) rot r g t → -δ < (t.n.mulM r).z → _ :=
    fun g t ht htu hmay => clear_turned h1M ho hδ hr htu hp hq sp sq hne (hfull.clear t ht hmay)
  have hback : ∀ g t, t ∈ ts → Turned Rel δ (2 ^ n) rot r g t → -δ < (t.n.mulM r).z →
      (rotFacet rot g).val.HasSide ((p.1.mulM rot).val, (q.1.mulM rot).val) → (t.seenIn r).HasSide (p.2.mulM r, q.2.mulM r) := by
    intro g t ht htu hmay hsd
    rcases hcl g t ht htu hmay with h | ⟨P, -, h⟩
    · exact h.1
    · exact absurd hsd (h.not_side h1M)
  -- it is no crease that is left out
  have hcrease : proj.facets.Pairwise (fun f g => f.val.HasSide ((p.1.mulM rot).val, (q.1.mulM rot).val) → g.val.HasSide ((p.1.mulM rot).val, (q.1.mulM rot).val) →
      FP.lt (f.norm.dot g.norm) (FP.lit (98 / 100)) = true ∧ FP.lt (g.norm.dot f.norm) (FP.lit (98 / 100)) = true) := by
    refine (List.Perm.pairwise_iff (fun {x y} hxy h1 h2 => (hxy h2 h1).symm) h3).2 ?_
    rw [List.filter_map, List.pairwise_map]
    have hsub : List.Sublist (file.facets.filter ((fun f : Facet (Fl R) => !FP.le f.norm.z (FP.lit 0)) ∘ rotFacet rot)) file.facets := List.filter_sublist
    refine List.Pairwise.imp_of_mem ?_ ((forall₂_pairwise hT hfull.crease).sublist hsub)
    rintro f g hf hg ⟨t, u, tf, tg, ht, hu, hfg⟩ s1 s2
    obtain ⟨hf1, hf2⟩ := List.mem_filter.1 hf
    obtain ⟨hg1, hg2⟩ := List.mem_filter.1 hg
    have mf := front_may tf hf2
    have mg := front_may tg hg2
    have hd := hfg mf mg (hback f t ht tf mf s1) (hback g u hu tg mg s2)
    have hd1 : (t.n.mulM r).dot (u.n.mulM r) ≤ 97 / 100 := by rw [hr.1]; exact hd
    have hd2 : (u.n.mulM r).dot (t.n.mulM r) ≤ 97 / 100 := by
      have : (u.n.mulM r).dot (t.n.mulM r) = (t.n.mulM r).dot (u.n.mulM r) := by unfold V3.dot; ring
      rw [this]; exact hd1
    have nf : V3.NearTo (f.norm.mulM rot) (t.n.mulM r) (1 / 2 ^ 20) := ⟨tf.normal.1.1.mono hδ, tf.normal.1.2.1.mono hδ, tf.normal.1.2.2.mono hδ⟩
    have ng : V3.NearTo (g.norm.mulM rot) (u.n.mulM r) (1 / 2 ^ 20) := ⟨tg.normal.1.1.mono hδ, tg.normal.1.2.1.mono hδ, tg.normal.1.2.2.mono hδ⟩
    exact ⟨dot_normals hR nf ng tf.normal.2 tg.normal.2 hd1, dot_normals hR ng nf tg.normal.2 tf.normal.2 hd2⟩
  have hvu : v < proj.unseen := by
    have hfok : ∀ f ∈ proj.facets, Facet.Ok f := by
      intro f hf
      obtain ⟨g, hg, rfl, -⟩ := hsrc f hf
      have : ∀ p ∈ g.corners, V3.Ok (p.mulM rot) := fun q hq => ((hs g hg q hq).mulM (by omega) hvb.1 hvb.2.1 hvb.2.2.1).ok
      exact ⟨this g.e0 (by simp [Facet.corners]), this g.e1 (by simp [Facet.corners]), this g.e2 (by simp [Facet.corners])⟩
    have hidx : index proj.facets = .ok proj := by
      unfold STLFile.rotate at h
      obtain ⟨s', k1, k2, -⟩ := C21_index (cullFacets (file.facets.map (rotFacet rot))) (by
        intro f hf
        have := (cullFacets_perm _).subset hf
        obtain ⟨g, hg, rfl⟩ := List.mem_map.1 (List.mem_filter.1 this).1
        have : ∀ p ∈ g.corners, V3.Ok (p.mulM rot) := fun q hq => ((hs g hg q hq).mulM (by omega) hvb.1 hvb.2.1 hvb.2.2.1).ok
        exact ⟨this g.e0 (by simp [Facet.corners]), this g.e1 (by simp [Facet.corners]), this g.e2 (by simp [Facet.corners])⟩)
      rw [k1] at h
      injection h with h
      subst h
      rw [k2]; exact k1
    obtain ⟨i, j, f, g, hi, hj, si, sj, hmin, hiff⟩ := C22_drawn_edges proj.facets hfok proj hidx v ev hv
    rw [hiff]
    by_cases hij : i = j
    · exact Or.inl hij
    right
    have hside : ∀ f ∈ proj.facets, HasSide f ev → f.val.HasSide ((p.1.mulM rot).val, (q.1.mulM rot).val) := by
      rintro f hf ⟨sd, hsd, hse⟩
      obtain ⟨x1, x2, x3, x4⟩ := side_exact (hx f hf) hsd
      obtain ⟨y1, y2⟩ := edge_exact hw hx (List.mem_of_getElem? hv)
      rw [← e1, ← e2]
      rcases hse with ⟨q1, q2⟩ | ⟨q1, q2⟩
      · rw [exact_eq y1 x1 q1, exact_eq y2 x2 q2]; exact x3
      · rw [exact_eq y1 x2 q1, exact_eq y2 x1 q2]; exact x4
    have hlt : i < j := by
      have := (hmin j g hj sj).1
      omega
    obtain ⟨hi1, rfl⟩ := List.getElem?_eq_some_iff.1 hi
    obtain ⟨hj1, rfl⟩ := List.getElem?_eq_some_iff.1 hj
    exact (List.pairwise_iff_getElem.1 hcrease i j hi1 hj1 hlt (hside _ (List.getElem_mem _) si) (hside _ (List.getElem_mem _) sj)).1
  have hfar := hfull.far.shift h1M sp sq
  have := toLines_far hR hSm S hS hw hx ls hl hv hvu (by rw [e1, e2]; exact hfar) (by
    intro i f' t hf' ht
    obtain ⟨g, hg, rfl, u, hu, htu, hmay⟩ := hsrc f' (List.mem_of_getElem? hf')
    rcases hcl g u hu htu hmay with h | ⟨P, hP, h⟩
    · left
      obtain ⟨k, e, hk, hkt, hvals⟩ := side_entry hw hx hf' ht h.2
      have : k = v := entry_unique hw hx hk hv (by rw [e1, e2]; exact hvals)
      subst this
      exact hkt
    · right
      rw [e1, e2]
      exact ⟨P, hP, h⟩)
  rw [e1, e2] at this
  exact this

/-- an edge in full view is among the lines of the drawing in the plane -/
theorem view_clear (hR : R.Accurate) (S : Sorter) (hS : SortOK S) {n : ℕ} (hn : n ≤ 40) {file proj : STLFile (Fl R)} (hs : file.Bd n)
    {Rel : V3 (Fl R) → V3 ℝ → Prop} (ho : OneToOne Rel) {δ : ℝ} (hδ : δ ≤ 1 / 2 ^ 20) {rot : M3 (Fl R)} (hvb : rot.ViewBd) {r : M3 ℝ} (hr : IsRotation r)
    {ts : List (Tri ℝ)} (hT : List.Forall₂ (Turned Rel δ (2 ^ n) rot r) file.facets ts) (h : file.rotate rot = .ok proj)
    {ls} (hl : proj.toLines S = .ok ls) {a b : V3 ℝ} (hfull : InFullView δ (2 ^ n) r ts a b) :
    proj.facets ≠ [] ∧ a.Within (3 * 2 ^ n) ∧ b.Within (3 * 2 ^ n) ∧ ∃ l ∈ ls, ∃ u w : V3 (Fl R), l = Line.of3 u w ∧
      ((V3.NearTo u a (2 ^ n / 2 ^ 17) ∧ V3.NearTo w b (2 ^ n / 2 ^ 17)) ∨ (V3.NearTo u b (2 ^ n / 2 ^ 17) ∧ V3.NearTo w a (2 ^ n / 2 ^ 17))) := by
  have h1M : (1 : ℝ) ≤ 2 ^ n := one_le_pow₀ (by norm_num)
  obtain ⟨s', h1, hw, h3⟩ := C21_rotate file rot (by
    intro f hf
    have : ∀ p ∈ f.corners, V3.Ok (p.mulM rot) := fun q hq => ((hs f hf q hq).mulM (by omega) hvb.1 hvb.2.1 hvb.2.2.1).ok
    exact ⟨this f.e0 (by simp [Facet.corners]), this f.e1 (by simp [Facet.corners]), this f.e2 (by simp [Facet.corners])⟩)
  rw [h] at h1; injection h1 with h1; subst h1
  have hx : ∀ f ∈ proj.facets, FacetExact (2 ^ n) f := by
    intro f hf
    obtain ⟨g, hg, rfl⟩ := List.mem_map.1 (List.mem_filter.1 (h3.subset hf)).1
    obtain ⟨t, -, htu⟩ := forall₂_mem_left hT hg
    exact htu.facetExact hδ
  obtain ⟨t0, ht0, hz0, hs0⟩ := hfull.side
  obtain ⟨f0, hf0, htu⟩ := forall₂_right hT t0 ht0
  obtain ⟨p, hp, q, hq, rfl, rfl, hsd⟩ := side_turned rot f0 hs0
  have hmem : rotFacet rot f0 ∈ proj.facets :=
    h3.symm.subset (List.mem_filter.2 ⟨List.mem_map_of_mem hf0, faces_front htu hz0⟩)
  obtain ⟨i, hi⟩ := List.getElem?_of_mem hmem
  have hi1 := (List.getElem?_eq_some_iff.1 hi).1
  have ht : proj.faceEdge[i]? = some (proj.faceEdge[i]'(by rw [hw.faceLen]; exact hi1)) := List.getElem?_eq_getElem _
  obtain ⟨v, ev, hv, -, hor⟩ := side_entry hw hx hi ht hsd
  have pf := htu.rel p hp
  have qf := htu.rel q hq
  have ps := htu.shift p hp
  have qs := htu.shift q hq
  have near : ∀ {u : V3 (Fl R)} {z : V3 (Fl R) × V3 ℝ}, V3.NearTo u (z.1.mulM rot).val (2 ^ n / 2 ^ 18) → Shifted (2 ^ n) (z.2.mulM r) (z.1.mulM rot).val →
      V3.NearTo u (z.2.mulM r) (2 ^ n / 2 ^ 17) := by
    intro u z hu hz
    have go : ∀ {x : Fl R} {s t : ℝ}, Fl.Near x s (2 ^ n / 2 ^ 18) → |s - t| ≤ 2 ^ n / 2 ^ 38 → Fl.Near x t (2 ^ n / 2 ^ 17) := by
      rintro x s t ⟨y, rfl, hy⟩ hst
      refine ⟨y, rfl, ?_⟩
      have := abs_sub_le y s t
      generalize (2 : ℝ) ^ n = M at *
      norm_num at hy hst ⊢
      linarith
    exact ⟨go hu.1 hz.1.1, go hu.2.1 hz.1.2.1, go hu.2.2 hz.1.2.2⟩
  refine ⟨List.ne_nil_of_mem hmem, ps.2, qs.2, ?_⟩
  rcases hor with ⟨e1, e2⟩ | ⟨e1, e2⟩
  · obtain ⟨l, hl, u, w, k1, k2, rfl⟩ := clear_at hR S hS hn hs ho hδ hvb hr hT h hw hx h3 hl pf qf ps qs hv e1 e2 hfull
    exact ⟨_, hl, u, w, rfl, Or.inl ⟨near k1 ps, near k2 qs⟩⟩
  · obtain ⟨l, hl, u, w, k1, k2, rfl⟩ := clear_at hR S hS hn hs ho hδ hvb hr hT h hw hx h3 hl qf pf qs ps hv e1 e2 hfull.swap
    exact ⟨_, hl, u, w, rfl, Or.inr ⟨near k1 qs, near k2 ps⟩⟩

/-- **The drawing.**  The edges in full view are drawn, at the scale and the place asked for; `ts` is what the facets of the file stand for. -/
theorem draw_clear (hR : R.Accurate) (E : Env (Fl R)) (hS : SortOK E.sorter) (hJ : E.junkM = ⟨V3.zero, V3.zero, V3.zero⟩)
    (stl : Models (Fl R)) {n : ℕ} (hn : n ≤ 40) (hM : stl.Bd n) (name : Str) (ms : List (Meta (Fl R))) (hf : ∀ m ∈ ms, m.val.LocBd) (hv : TameView ms)
    (hs : TameScale ms) (dims : List (DimN (Fl R))) (line : Nat) (c) (h : content E stl (.draw name ms dims line) = .ok c) (hc : c.1 = true) :
    ∃ file r kept k p off, (∃ e, stl.find? (fun e => decide (e.1 = name)) = some e ∧ e.2 = some file) ∧ AskedView ms r ∧ IsRotation r ∧
      NearlySeen r file kept (1 / 2 ^ 37) ∧ NearlyProjects file ms kept k p off (inkError (2 ^ n) k p) ∧ file.Bd n ∧
      (∀ (Rel : V3 (Fl R) → V3 ℝ → Prop) (δ : ℝ) (ts : List (Tri ℝ)), OneToOne Rel → δ ≤ 1 / 2 ^ 20 →
        (∀ rot : M3 (Fl R), M3.NearTo rot r (1 / 2 ^ 40) → List.Forall₂ (Turned Rel δ (2 ^ n) rot r) file.facets ts) →
        ∀ a b, InFullView δ (2 ^ n) r ts a b →
        ∃ l ∈ c.2.1.lines, LineJoins ((2 ^ n * |k| + (|p.x| + |p.y|) + 1) / 2 ^ 16) (a.xy.moved k off) (b.xy.moved k off) l) := by
  obtain ⟨sc, rot, loc, file, proj, ls, r, kept, k, p, off, F⟩ := draw_frame hR E hS hJ stl (by omega) hM name ms hf hv hs dims line c h hc
  have hd := F.drawn
  refine ⟨file, r, _, k, p, off, hd.model, F.asked, F.rotation, ⟨kept, rfl, F.keptIn, F.keptIff⟩, F.placed, F.bd, ?_⟩
  intro Rel δ ts ho hδ hT a b hfull
  obtain ⟨Ps, -, e⟩ := C38_drawing E stl name ms dims line c h _ _ _ _ _ _ hd (by rw [hJ]; exact F.viewBd.2.2.2)
  have hto := hd.lines
  rw [F.culled] at hto
  obtain ⟨hne, wa, wb, l, hl, u, w, rfl, hor⟩ := view_clear hR E.sorter hS hn F.bd ho hδ F.viewBd F.rotation (hT rot F.near) hd.turned hto hfull
  have hkept : kept ≠ [] := by
    rintro rfl
    have := F.perm
    simp at this
    exact hne this
  obtain ⟨hoff, o1, o2⟩ := F.offset hkept
  have pt : ∀ {u : V3 (Fl R)} {z : V3 ℝ}, z.Within (3 * 2 ^ n) → V3.NearTo u z (2 ^ n / 2 ^ 17) →
      V2.NearTo (u.xy.moved (projScale sc) (projOffset loc proj.limits (projScale sc))) (z.xy.moved k off) ((2 ^ n * |k| + (|p.x| + |p.y|) + 1) / 2 ^ 16) := by
    intro u z hz hu
    have hpos : (0 : ℝ) ≤ 2 ^ n := by positivity
    rw [hoff, F.scale]
    exact ⟨page_coarse hR F.mid o1 hu.1 (hz.1.trans (by linarith)), page_coarse hR F.mid o2 hu.2.1 (hz.2.1.trans (by linarith))⟩
  refine ⟨⟨u.xy.moved (projScale sc) (projOffset loc proj.limits (projScale sc)), w.xy.moved (projScale sc) (projOffset loc proj.limits (projScale sc))⟩, ?_, ?_⟩
  · rw [e, F.culled]
    have : (OutPage.ofLines ls).lines = ls := rfl
    refine List.mem_map.2 ⟨Line.of3 u w, (mem_sum_lines _).2 ⟨_, List.mem_cons_self, by rw [this]; exact hl⟩, rfl⟩
  · exact hor.imp (fun h => ⟨pt wa h.1, pt wb h.2⟩) (fun h => ⟨pt wb h.1, pt wa h.2⟩)

end
end S2P
