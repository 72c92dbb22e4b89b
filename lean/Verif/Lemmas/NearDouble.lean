import Verif.Spec.NearDouble
import Verif.Lemmas.SolidText
import Verif.Lemmas.AccuracyFrame
import Verif.Lemmas.Nearest
import Verif.Props.AccuracyDim
import Verif.Props.Points

set_option linter.unusedSectionVars false
set_option linter.unusedVariables false
set_option linter.unusedSimpArgs false

/-! # `near` in rounded arithmetic -/

namespace S2P

section
variable {R : Rounding}

theorem near_eq {x y : Fl R} {a b ε δ : ℝ} (hx : Fl.Near x a ε) (hy : Fl.Near y b δ) (h : FP.eq x y = true) : x = y := by
  obtain ⟨c, rfl, -⟩ := hx
  obtain ⟨d, rfl, -⟩ := hy
  have : decide (c = d) = true := h
  rw [of_decide_eq_true this]

theorem near_eqv {p q : V3 (Fl R)} {a b : V3 ℝ} {ε δ : ℝ} (hp : V3.NearTo p a ε) (hq : V3.NearTo q b δ) (h : p.eqv q = true) : p = q := by
  simp only [V3.eqv, Bool.and_eq_true] at h
  ext1
  · exact near_eq hp.1 hq.1 h.1.1
  · exact near_eq hp.2.1 hq.2.1 h.1.2
  · exact near_eq hp.2.2 hq.2.2 h.2

theorem near_ok {x : Fl R} {a ε : ℝ} (hx : Fl.Near x a ε) : FP.Ok x := by
  obtain ⟨c, rfl, -⟩ := hx
  show decide (c = c) = true
  simp

theorem near_ok3 {p : V3 (Fl R)} {a : V3 ℝ} {ε : ℝ} (hp : V3.NearTo p a ε) : p.Ok := ⟨near_ok hp.1, near_ok hp.2.1, near_ok hp.2.2⟩

theorem not_lt_near {x y : Fl R} {a b ε δ : ℝ} (hx : Fl.Near x a ε) (hy : Fl.Near y b δ) (h : FP.lt x y = false) : b ≤ a + (ε + δ) := by
  obtain ⟨c, rfl, hc⟩ := hx
  obtain ⟨d, rfl, hd⟩ := hy
  have : decide (c < d) = false := h
  have h1 := not_lt.1 (of_decide_eq_false this)
  rw [abs_le] at hc hd
  linarith

theorem lt_max_near {x : Fl R} {a ε : ℝ} (hx : Fl.Near x a ε) (h : |a| + ε ≤ 2 ^ 1000) : FP.lt x (FP.dblMax : Fl R) = true := by
  obtain ⟨c, rfl, hc⟩ := hx
  show decide (c < (2 : ℝ) ^ 1024 - 2 ^ 971) = true
  have h1 : (2 : ℝ) ^ 1000 + 2 ^ 971 < 2 ^ 1024 := by
    have e1 : (2 : ℝ) ^ 1000 = 2 ^ 971 * 2 ^ 29 := by rw [← pow_add]
    have e2 : (2 : ℝ) ^ 1024 = 2 ^ 971 * 2 ^ 53 := by rw [← pow_add]
    rw [e1, e2]
    clear e1 e2 h
    have : (0 : ℝ) < 2 ^ 971 := by positivity
    generalize (2 : ℝ) ^ 971 = z at *
    norm_num
    linarith
  have h2 : c ≤ |a| + ε := by
    rw [abs_le] at hc
    have := le_abs_self a
    linarith
  generalize (2 : ℝ) ^ 1024 = z at *
  generalize (2 : ℝ) ^ 971 = z' at *
  generalize (2 : ℝ) ^ 1000 = z'' at *
  exact decide_eq_true (by linarith)

variable (hR : R.Accurate)
include hR

/-- one coordinate of the distance -/
theorem sqdiff_near {M η : ℝ} (hM : Small M) (hη : Fine η) {x y : Fl R} {a b : ℝ} (hx : Fl.Near x a (8 * (M * η))) (hy : Fl.Near y b (10 * (M * η)))
    (ha : |a| ≤ 2 * M) (hb : |b| ≤ 2 * M) : Fl.Near ((x - y) * (x - y)) ((a - b) * (a - b)) (200 * (M ^ 2 * η)) := by
  have h1 := hM.one
  have h2 := hM.top
  have e1 := hη.lo
  have e2 := hη.hi
  have hm : M / 2 ^ 50 ≤ M * η := by
    have := mul_le_mul_of_nonneg_left e1 (by linarith : (0 : ℝ) ≤ M)
    linarith
  have hm' : M * η ≤ M / 2 ^ 40 := by
    have := mul_le_mul_of_nonneg_left e2 (by linarith : (0 : ℝ) ≤ M)
    linarith
  have hd : |a - b| ≤ 4 * M := (abs_sub _ _).trans (by linarith)
  have s := hx.sub hR hy (S := 5 * M) (by norm_num at *; linarith) (by norm_num at *; linarith) (top_of (by norm_num at *; linarith))
  have s' := s.mono (δ := 21 * (M * η)) (by norm_num at *; linarith)
  have hsq := hM.sq
  have m := s'.mul hR s' hd hd (S := 17 * M ^ 2) (by
      have h3 : 4 * M + 21 * (M * η) ≤ 4 * M + 21 * (M / 2 ^ 40) := by linarith
      have h0 : 0 ≤ 4 * M + 21 * (M * η) := by
        have : 0 ≤ M * η := le_trans (by positivity) hm
        linarith
      calc (4 * M + 21 * (M * η)) * (4 * M + 21 * (M * η)) ≤ (4 * M + 21 * (M / 2 ^ 40)) * (4 * M + 21 * (M / 2 ^ 40)) := mul_le_mul h3 h3 h0 (by positivity)
        _ = (4 + 21 / 2 ^ 40) ^ 2 * M ^ 2 := by ring
        _ ≤ 17 * M ^ 2 := mul_le_mul_of_nonneg_right (by norm_num) (by positivity)) (by
      have := hsq.1; generalize M ^ 2 = z at *; norm_num at *; linarith) (top_of (by
      have := hsq.2.2; generalize M ^ 2 = z at *; norm_num at *; linarith))
  refine m.mono ?_
  have k1 : M ^ 2 / 2 ^ 50 ≤ M ^ 2 * η := by
    have := mul_le_mul_of_nonneg_left e1 (by positivity : (0 : ℝ) ≤ M ^ 2)
    linarith
  have k2 : M * η * (M * η) ≤ M ^ 2 * η := by
    have : M * η * (M * η) = M ^ 2 * η * η := by ring
    rw [this]
    have h0 : 0 ≤ M ^ 2 * η := le_trans (by positivity) k1
    have := mul_le_mul_of_nonneg_left (e2.trans (by norm_num : (1 : ℝ) / 2 ^ 40 ≤ 1 / 2 ^ 20)) h0
    norm_num at *
    linarith
  have k3 : M * η * (M * η) ≤ M ^ 2 * η / 2 ^ 40 := by
    have : M * η * (M * η) = M ^ 2 * η * η := by ring
    rw [this]
    have h0 : 0 ≤ M ^ 2 * η := le_trans (by positivity) k1
    have := mul_le_mul_of_nonneg_left e2 h0
    linarith
  have e : 4 * M * (21 * (M * η)) + 4 * M * (21 * (M * η)) + 21 * (M * η) * (21 * (M * η)) + 17 * M ^ 2 / 2 ^ 51
      = 168 * (M ^ 2 * η) + 441 * (M * η * (M * η)) + 17 * M ^ 2 / 2 ^ 51 := by ring
  rw [e]
  have h0 : 0 ≤ M ^ 2 * η := le_trans (by positivity) k1
  generalize M ^ 2 * η = z at *
  generalize M * η * (M * η) = z' at *
  generalize M ^ 2 = z'' at *
  norm_num at *
  linarith

/-- the distance the search computes -/
theorem nearDist_near {M η : ℝ} (hM : Small M) (hη : Fine η) {t q : V3 (Fl R)} {T c : V3 ℝ} (ht : V3.NearTo t T (8 * (M * η))) (hT : T.Within (2 * M))
    (hq : V3.NearTo q c (10 * (M * η))) (hc : c.Within (2 * M)) :
    Fl.Near (nearDist ⟨t.x, t.y, FP.lit 0⟩ q) (pageDist2 c T) (2 ^ 10 * (M ^ 2 * η)) ∧ |pageDist2 c T| + 2 ^ 10 * (M ^ 2 * η) ≤ 2 ^ 1000 := by
  have e1 := hη.lo
  have e2 := hη.hi
  have hsq := hM.sq
  have h1 := hM.one
  have h0' : 0 ≤ M * η := mul_nonneg (by linarith) (le_trans (by positivity) e1)
  have nx := sqdiff_near hR hM hη ht.1 hq.1 hT.1 hc.1
  have ny := sqdiff_near hR hM hη ht.2.1 hq.2.1 hT.2.1 hc.2.1
  have z1 : Fl.Near (FP.lit 0 : Fl R) 0 (8 * (M * η)) := by rw [lit_zero]; exact (Fl.near_fin 0).mono (by linarith)
  have z2 : Fl.Near (FP.lit 0 : Fl R) 0 (10 * (M * η)) := by rw [lit_zero]; exact (Fl.near_fin 0).mono (by linarith)
  have nz := sqdiff_near hR hM hη z1 z2 (by simp; linarith) (by simp; linarith)
  have k1 : M ^ 2 / 2 ^ 50 ≤ M ^ 2 * η := by
    have := mul_le_mul_of_nonneg_left e1 (by positivity : (0 : ℝ) ≤ M ^ 2)
    linarith
  have k2 : M ^ 2 * η ≤ M ^ 2 / 2 ^ 40 := by
    have := mul_le_mul_of_nonneg_left e2 (by positivity : (0 : ℝ) ≤ M ^ 2)
    linarith
  have sq : ∀ {a b : ℝ}, |a| ≤ 2 * M → |b| ≤ 2 * M → 0 ≤ (a - b) * (a - b) ∧ (a - b) * (a - b) ≤ 16 * M ^ 2 := by
    intro a b ha hb
    have hd : |a - b| ≤ 4 * M := (abs_sub _ _).trans (by linarith)
    refine ⟨mul_self_nonneg _, ?_⟩
    rw [← abs_mul_abs_self (a - b)]
    calc |a - b| * |a - b| ≤ 4 * M * (4 * M) := mul_le_mul hd hd (abs_nonneg _) (by linarith)
      _ = 16 * M ^ 2 := by ring
  obtain ⟨x0, x1⟩ := sq hT.1 hc.1
  obtain ⟨y0, y1⟩ := sq hT.2.1 hc.2.1
  have hp : pageDist2 c T = (T.x - c.x) * (T.x - c.x) + (T.y - c.y) * (T.y - c.y) := by unfold pageDist2; ring
  have s1 := nx.add hR ny (S := 40 * M ^ 2) (by
    rw [abs_of_nonneg (by linarith)]
    generalize M ^ 2 * η = z at *
    generalize M ^ 2 = z' at *
    norm_num at *
    linarith) (by generalize M ^ 2 = z' at *; norm_num at *; linarith) (top_of (by generalize M ^ 2 = z' at *; norm_num at *; linarith))
  have s1' := s1.mono (δ := 420 * (M ^ 2 * η)) (by
    generalize M ^ 2 * η = z at *
    generalize M ^ 2 = z' at *
    norm_num at *
    linarith)
  have s2 := s1'.add hR nz (S := 40 * M ^ 2) (by
    rw [abs_of_nonneg (by linarith)]
    generalize M ^ 2 * η = z at *
    generalize M ^ 2 = z' at *
    norm_num at *
    linarith) (by generalize M ^ 2 = z' at *; norm_num at *; linarith) (top_of (by generalize M ^ 2 = z' at *; norm_num at *; linarith))
  have s2' := s2.mono (δ := 2 ^ 10 * (M ^ 2 * η)) (by
    generalize M ^ 2 * η = z at *
    generalize M ^ 2 = z' at *
    norm_num at *
    linarith)
  constructor
  · rw [hp]
    have : (T.x - c.x) * (T.x - c.x) + (T.y - c.y) * (T.y - c.y) = (T.x - c.x) * (T.x - c.x) + (T.y - c.y) * (T.y - c.y) + (0 - 0) * (0 - 0) := by ring
    rw [this]
    exact s2'
  · rw [hp, abs_of_nonneg (by linarith)]
    refine top_of ?_
    generalize M ^ 2 * η = z at *
    generalize M ^ 2 = z' at *
    norm_num at *
    linarith

/-- what `near` picks out of a list of points -/
theorem near_picks {M η : ℝ} (hM : Small M) (hη : Fine η) {t : V3 (Fl R)} {T : V3 ℝ} (ht : V3.NearTo t T (8 * (M * η))) (hT : T.Within (2 * M))
    {ps : List (V3 (Fl R))} (hne : ps ≠ []) (hps : ∀ q ∈ ps, ∃ c : V3 ℝ, V3.NearTo q c (10 * (M * η)) ∧ c.Within (2 * M)) (junk : Nat → V3 (Fl R)) (l l' : Nat)
    (ret : V3 (Fl R)) :
    ∃ X, (Pt.func c!"near" (.val t l) l').invoke junk ps ret = (true, X, []) ∧ ∃ q ∈ ps, X.x = q.x ∧ X.y = q.y ∧ (X.z = q.z ∨ X.z = FP.lit 0) ∧
      ∀ q' ∈ ps, ∀ c c' : V3 ℝ, V3.NearTo q c (10 * (M * η)) → c.Within (2 * M) → V3.NearTo q' c' (10 * (M * η)) → c'.Within (2 * M) →
        pageDist2 c T ≤ pageDist2 c' T + 2 ^ 11 * (M ^ 2 * η) := by
  have e1 := hη.lo
  have e2 := hη.hi
  have h1 := hM.one
  rw [near_unfold junk ps (.val t l) l' ret t [] hne (by simp [Pt.invoke])]
  refine ⟨_, rfl, ?_⟩
  split_ifs with hm
  · unfold setMem at hm
    rw [List.any_eq_true] at hm
    obtain ⟨q, hq, hqt⟩ := hm
    obtain ⟨c0, hc0, -⟩ := hps q hq
    have hqt' : order q t = false ∧ order t q = false := by simpa using hqt
    have e : q = t := near_eqv hc0 ht ((order_tie q t (near_ok3 hc0) (near_ok3 ht)).1 hqt')
    refine ⟨q, hq, by rw [e], by rw [e], Or.inl (by rw [e]), ?_⟩
    intro q' hq' c c' hc wc hc' wc'
    rw [e] at hc
    have hn : 0 ≤ pageDist2 c' T := by unfold pageDist2; positivity
    have go : ∀ {x : Fl R} {a b : ℝ}, Fl.Near x a (8 * (M * η)) → Fl.Near x b (10 * (M * η)) → (b - a) ^ 2 ≤ (18 * (M * η)) ^ 2 := by
      rintro x a b ⟨d, rfl, hd⟩ ⟨d', hd', hd2⟩
      injection hd' with hd'
      subst hd'
      refine sq_le_sq' ?_ ?_ <;> · rw [abs_le] at hd hd2; linarith
    have gx := go ht.1 hc.1
    have gy := go ht.2.1 hc.2.1
    have k : (18 * (M * η)) ^ 2 ≤ M ^ 2 * η := by
      have h0 : 0 ≤ M ^ 2 * η := mul_nonneg (by positivity) (le_trans (by positivity) e1)
      have : (18 * (M * η)) ^ 2 = M ^ 2 * η * (324 * η) := by ring
      rw [this]
      have : M ^ 2 * η * (324 * η) ≤ M ^ 2 * η * 1 := mul_le_mul_of_nonneg_left (by norm_num at *; linarith) h0
      linarith
    have h0 : 0 ≤ M ^ 2 * η := mul_nonneg (by positivity) (le_trans (by positivity) e1)
    have : pageDist2 c T ≤ 2 * (M ^ 2 * η) := by unfold pageDist2; linarith
    linarith
  · have hok : ∀ q ∈ ps, FP.Ok (nearDist (⟨t.x, t.y, FP.lit 0⟩ : V3 (Fl R)) q) := by
      intro q hq
      obtain ⟨c, hc, wc⟩ := hps q hq
      exact near_ok (nearDist_near hR hM hη ht hT hc wc).1
    obtain ⟨q0, hq0⟩ := List.exists_mem_of_ne_nil ps hne
    rcases nearLoop_spec ⟨t.x, t.y, FP.lit 0⟩ ps FP.dblMax ret hok with ⟨-, h2⟩ | ⟨q, hq, h3, -, h4⟩
    · obtain ⟨c, hc, wc⟩ := hps q0 hq0
      obtain ⟨n1, n2⟩ := nearDist_near hR hM hη ht hT hc wc
      have := lt_max_near n1 n2
      rw [h2 q0 hq0] at this
      cases this
    · refine ⟨q, hq, by rw [h3], by rw [h3], Or.inr (by rw [h3]), ?_⟩
      intro q' hq' c c' hc wc hc' wc'
      have n1 := (nearDist_near hR hM hη ht hT hc wc).1
      have n2 := (nearDist_near hR hM hη ht hT hc' wc').1
      have := not_lt_near n2 n1 (h4 q' hq')
      linarith

omit hR in
theorem mem_pairs_left {f : Facet (Fl R)} (t : Tri ℝ) {p : V3 (Fl R)} (h : p ∈ f.corners) : ∃ a ∈ t.corners, (p, a) ∈ pairs f t := by
  simp only [Facet.corners, Tri.corners, pairs, List.mem_cons, List.not_mem_nil, or_false] at *
  rcases h with rfl | rfl | rfl
  · exact ⟨t.a, by simp, by simp⟩
  · exact ⟨t.b, by simp, by simp⟩
  · exact ⟨t.c, by simp, by simp⟩

omit hR in
theorem mem_pairs_right (f : Facet (Fl R)) {t : Tri ℝ} {a : V3 ℝ} (h : a ∈ t.corners) : ∃ p ∈ f.corners, (p, a) ∈ pairs f t := by
  simp only [Facet.corners, Tri.corners, pairs, List.mem_cons, List.not_mem_nil, or_false] at *
  rcases h with rfl | rfl | rfl
  · exact ⟨f.e0, by simp, by simp⟩
  · exact ⟨f.e1, by simp, by simp⟩
  · exact ⟨f.e2, by simp, by simp⟩

/-- a stored corner, turned -/
theorem stored_turned {n : ℕ} (hn : n ≤ 40) {η : ℝ} (hη : Fine η) {rot : M3 (Fl R)} {r : M3 ℝ} (hr : IsRotation r) (hm : M3.NearTo rot r η)
    {f : Facet (Fl R)} {t : Tri ℝ} (hb : ∀ p ∈ f.corners, V3.Bd n p) (h : Stored (2 ^ n) f t) {p : V3 (Fl R)} {a : V3 ℝ} (hp : p ∈ f.corners)
    (hz : (p, a) ∈ pairs f t) :
    V3.NearTo (p.mulM rot) (p.val.mulM r) (8 * (2 ^ n * η)) ∧ V3.NearTo (p.mulM rot) (a.mulM r) (10 * (2 ^ n * η)) ∧ (a.mulM r).Within (2 * 2 ^ n) ∧
      len3 (p.val.mulM r) ≤ 7 / 4 * 2 ^ n ∧ (p.val.mulM r - a.mulM r).Within (2 * (2 ^ n * η)) := by
  have h1 : (1 : ℝ) ≤ 2 ^ n := one_le_pow₀ (by norm_num)
  have hle : (2 : ℝ) ^ n ≤ 2 ^ 40 := pow_le_pow_right₀ (by norm_num) hn
  have top : (2 : ℝ) ^ n ≤ 2 ^ 1000 := pow_le_pow_right₀ (by norm_num) (by omega)
  have hW : Wide ((2 : ℝ) ^ n) := ⟨le_trans (by norm_num) h1, pow_le_pow_right₀ (by norm_num) (by omega)⟩
  obtain ⟨v1, v2⟩ := bd_val (by omega) (hb p hp)
  obtain ⟨⟨q, hq, e⟩, w⟩ := h.corners _ hz
  have e : q.real = a := e
  have w : a.Within (2 ^ n) := w
  have na : V3.NearTo p a (2 ^ n / 2 ^ 51) := by
    have := reads_near hR h1 top (by rw [e]; exact w) hq
    rwa [e] at this
  have n1 := mulM_near' hR hW hη v1 v2 hm hr
  have hd := turn_diff hr (near_val3 na).2
  have hη' : 3 * (2 ^ n / 2 ^ 51) ≤ 2 * ((2 : ℝ) ^ n * η) := by
    have key : ∀ M : ℝ, 0 ≤ M → 3 * (M / 2 ^ 51) ≤ 2 * (M * η) := by
      intro M hM
      have := mul_le_mul_of_nonneg_left hη.lo hM
      linarith
    exact key _ (by linarith)
  have hd' : (p.val.mulM r - a.mulM r).Within (2 * (2 ^ n * η)) := ⟨hd.1.trans hη', hd.2.1.trans hη', hd.2.2.trans hη'⟩
  have l : ∀ {b : V3 ℝ}, b.Within (2 ^ n) → len3 (b.mulM r) ≤ 7 / 4 * 2 ^ n := by
    intro b hb
    rw [rot_len hr]
    exact len_within (by linarith) hb
  refine ⟨n1, ⟨?_, ?_, ?_⟩, within_len ((l w).trans (by linarith)), l v2, hd'⟩
  · exact (n1.1.trans hd'.1).mono (by linarith)
  · exact (n1.2.1.trans hd'.2.1).mono (by linarith)
  · exact (n1.2.2.trans hd'.2.2).mono (by linarith)

/-- whether the facet is kept, by the normal of the triangle -/
theorem stored_faces {r : M3 ℝ} (hr : IsRotation r) {M : ℝ} {f : Facet (Fl R)} {t : Tri ℝ} (h : Stored M f t) :
    (FP.Bd 1 f.norm.x ∧ FP.Bd 1 f.norm.y ∧ FP.Bd 1 f.norm.z) ∧ |(f.norm.val.mulM r).z - (t.n.mulM r).z| ≤ 3 * (1 / 2 ^ 22) := by
  refine ⟨?_, (turn_diff hr (near_val3 h.normal).2).2.2⟩
  have go : ∀ {x : Fl R} {a : ℝ}, Fl.Near x a (1 / 2 ^ 22) → |a| ≤ 1 → FP.Bd 1 x := by
    rintro x a ⟨b, rfl, hb⟩ ha
    refine (bd_iff R (by norm_num) _).2 ⟨b, rfl, ?_⟩
    rw [abs_le] at *
    constructor <;> norm_num at * <;> linarith
  exact ⟨go h.normal.1 h.unit.1, go h.normal.2.1 h.unit.2.1, go h.normal.2.2 h.unit.2.2⟩

/-- the points of a view, by the triangles described -/
theorem view_points {E : Env (Fl R)} {stl : Models (Fl R)} {n : ℕ} (hn : n ≤ 40) {name : Str} {ms : List (Meta (Fl R))} {sc rot loc file proj ls r kept k p off}
    (F : Framed E stl n name ms sc rot loc file proj ls r kept k p off) {us : List (Tri ℝ)} (hu : List.Forall₂ (Stored (2 ^ n)) file.facets us) :
    (∀ q ∈ proj.points, ∃ f ∈ file.facets, ∃ t ∈ us, Stored (2 ^ n) f t ∧ -(1 / 2 ^ 20) < (t.n.mulM r).z ∧ ∃ p ∈ f.corners, ∃ a ∈ t.corners,
      (p, a) ∈ pairs f t ∧ q = p.mulM rot) ∧
    ∀ c, MustSee (1 / 2 ^ 20) r us c → ∃ f ∈ file.facets, ∃ t, Stored (2 ^ n) f t ∧ ∃ p ∈ f.corners, (p, c) ∈ pairs f t ∧ p.mulM rot ∈ proj.points := by
  have ok : ∀ f ∈ kept, ∀ p ∈ f.corners, (p.mulM rot).Ok := fun f hf p hp => near_ok3 (F.corners f hf p hp).1
  have hmem : ∀ g, g ∈ proj.facets ↔ ∃ f ∈ kept, g = rotFacet rot f := by
    intro g
    rw [F.perm.mem_iff, List.mem_map]
    exact ⟨fun ⟨f, a, b⟩ => ⟨f, a, b.symm⟩, fun ⟨f, a, b⟩ => ⟨f, a, b.symm⟩⟩
  obtain ⟨i1, i2, -⟩ := C18_points proj (by
    intro g hg
    obtain ⟨f, hf, rfl⟩ := (hmem g).1 hg
    exact ⟨ok f hf f.e0 (by simp [Facet.corners]), ok f hf f.e1 (by simp [Facet.corners]), ok f hf f.e2 (by simp [Facet.corners])⟩)
  constructor
  · intro q hq
    obtain ⟨g, hg, h⟩ := i1 q hq
    obtain ⟨f, hf, rfl⟩ := (hmem g).1 hg
    obtain ⟨p, hp, rfl⟩ : ∃ p ∈ f.corners, q = p.mulM rot := by
      rcases h with rfl | rfl | rfl
      · exact ⟨f.e0, by simp [Facet.corners], rfl⟩
      · exact ⟨f.e1, by simp [Facet.corners], rfl⟩
      · exact ⟨f.e2, by simp [Facet.corners], rfl⟩
    obtain ⟨t, ht, hst⟩ := forall₂_left_mem hu (F.keptIn f hf)
    obtain ⟨s1, s2⟩ := stored_faces hR F.rotation hst
    have := (F.keptIff f (F.keptIn f hf) s1).2 hf
    obtain ⟨a, ha, hz⟩ := mem_pairs_left t hp
    refine ⟨f, F.keptIn f hf, t, ht, hst, ?_, p, hp, a, ha, hz, rfl⟩
    rw [abs_le] at s2
    norm_num at *
    linarith
  · rintro c ⟨t, ht, hz, hc⟩
    obtain ⟨f, hf, hst⟩ := forall₂_right_mem hu ht
    obtain ⟨s1, s2⟩ := stored_faces hR F.rotation hst
    have hk := (F.keptIff f hf s1).1 (by
      rw [abs_le] at s2
      norm_num at *
      linarith)
    obtain ⟨p, hp, hpz⟩ := mem_pairs_right f hc
    refine ⟨f, hf, t, hst, p, hp, hpz, ?_⟩
    obtain ⟨q, hq, q1, q2, q3⟩ := i2 _ ((hmem _).2 ⟨f, hk, rfl⟩) (p.mulM rot) (by
      simp only [Facet.corners, List.mem_cons, List.not_mem_nil, or_false] at hp
      rcases hp with rfl | rfl | rfl
      · exact Or.inl rfl
      · exact Or.inr (Or.inl rfl)
      · exact Or.inr (Or.inr rfl))
    obtain ⟨g, hg, h⟩ := i1 q hq
    obtain ⟨f', hf', rfl⟩ := (hmem g).1 hg
    obtain ⟨p', hp', rfl⟩ : ∃ p ∈ f'.corners, q = p.mulM rot := by
      rcases h with rfl | rfl | rfl
      · exact ⟨f'.e0, by simp [Facet.corners], rfl⟩
      · exact ⟨f'.e1, by simp [Facet.corners], rfl⟩
      · exact ⟨f'.e2, by simp [Facet.corners], rfl⟩
    have e := near_eqv (F.corners f' hf' p' hp').1 (F.corners f hk p hp).1 (by simp [V3.eqv, q1, q2, q3])
    rwa [e] at hq

/-- a point of a dimension, as computed, and what it means -/
theorem point_meant {E : Env (Fl R)} {stl : Models (Fl R)} {n : ℕ} (hn : n ≤ 40) {name : Str} {ms : List (Meta (Fl R))} {sc rot loc file proj ls r kept k p off}
    (F : Framed E stl n name ms sc rot loc file proj ls r kept k p off) {us : List (Tri ℝ)} (hu : List.Forall₂ (Stored (2 ^ n)) file.facets us)
    {η : ℝ} (hη : Fine η) (hm : M3.NearTo rot r η) {v : Vis (Fl R)} (hv : v.rotation = rot) (hp : v.points = proj.points)
    {ds : List (Meta (Fl R))} {nm : Str} (hA : PointAsked (2 ^ n) ds nm) (j : Nat) (hsome : pointOf E v j ds nm ≠ none) :
    ∃ X c Y, pointOf E v j ds nm = some X ∧ PointMeant (1 / 2 ^ 20) (2 ^ 11 * ((2 ^ n) ^ 2 * η)) r us ds nm c ∧ V3.NearTo X Y (8 * (2 ^ n * η)) ∧
      len3 Y ≤ 7 / 4 * 2 ^ n ∧ |Y.x - (c.mulM r).x| ≤ 2 * (2 ^ n * η) ∧ |Y.y - (c.mulM r).y| ≤ 2 * (2 ^ n * η) := by
  have h1 : (1 : ℝ) ≤ 2 ^ n := one_le_pow₀ (by norm_num)
  have hSm : Small ((2 : ℝ) ^ n) := ⟨h1, pow_le_pow_right₀ (by norm_num) hn⟩
  have hW : Wide ((2 : ℝ) ^ n) := ⟨le_trans (by norm_num) h1, pow_le_pow_right₀ (by norm_num) (by omega)⟩
  have hMη : 0 ≤ 2 * ((2 : ℝ) ^ n * η) := mul_nonneg (by norm_num) (mul_nonneg (by linarith) (le_trans (by positivity) hη.lo))
  have hr := F.rotation
  have l : ∀ {b : V3 ℝ}, b.Within (2 ^ n) → len3 (b.mulM r) ≤ 7 / 4 * 2 ^ n := by
    intro b hb
    rw [rot_len hr]
    exact len_within (by linarith) hb
  obtain ⟨w, hw, h | h⟩ := hA
  · have nw := mulM_near' (R := R) hR hW hη (v := (w.fin : V3 (Ext ℝ))) ⟨Fl.near_fin _, Fl.near_fin _, Fl.near_fin _⟩ hw hm hr
    refine ⟨_, w, w.mulM r, literal_rot h j, Or.inl h, by rw [hv]; exact nw, l hw, ?_, ?_⟩ <;> · rw [sub_self, abs_zero]; exact hMη
  · have nw := mulM_near' (R := R) hR hW hη (v := (w.fin : V3 (Ext ℝ))) ⟨Fl.near_fin _, Fl.near_fin _, Fl.near_fin _⟩ hw hm hr
    have hN := h
    obtain ⟨m, l1, l2, g1, g2⟩ := h
    change look (α := Fl R) ds nm = some m at g1
    change m.val = (MetaVal.pt (Pt.func c!"near" (.val (w.fin : V3 (Ext ℝ)) l1) l2) : MetaVal (Fl R)) at g2
    obtain ⟨vp1, vp2⟩ := view_points hR hn F hu
    have hne : proj.points ≠ [] := by
      intro h0
      apply hsome
      unfold pointOf
      simp only [g1, g2, Pt.rot, hp, h0]
      rfl
    have hps : ∀ q ∈ proj.points, ∃ c : V3 ℝ, V3.NearTo q c (10 * (2 ^ n * η)) ∧ c.Within (2 * 2 ^ n) := by
      intro q hq
      obtain ⟨f, hf, t, ht, hst, -, p, hp, a, ha, hz, rfl⟩ := vp1 q hq
      obtain ⟨-, s2, s3, -⟩ := stored_turned hR hn hη hr hm (F.bd f hf) hst hp hz
      exact ⟨_, s2, s3⟩
    obtain ⟨X, hX, q, hq, x1, x2, x3, hmin⟩ := near_picks hR hSm hη nw (within_len ((l hw).trans (by linarith))) hne hps E.junk l1 l2 (E.junk j)
    obtain ⟨f, hf, t, ht, hst, hz, p, hp', a, ha, hpa, rfl⟩ := vp1 q hq
    obtain ⟨s1, s2, s3, s4, s5⟩ := stored_turned hR hn hη hr hm (F.bd f hf) hst hp' hpa
    have hpt : pointOf E v j ds nm = some X := by
      unfold pointOf
      simp only [g1, g2, Pt.rot, hp, hv]
      rw [hX]
      rfl
    have hpick : PickedBy (1 / 2 ^ 20) (2 ^ 11 * ((2 ^ n) ^ 2 * η)) r us w a := by
      refine ⟨⟨t, ht, hz, ha⟩, fun c' hc' => ?_⟩
      obtain ⟨f', hf', t', hst', p', hp'', hz', hin⟩ := vp2 c' hc'
      obtain ⟨-, k2, k3, -⟩ := stored_turned hR hn hη hr hm (F.bd f' hf') hst' hp'' hz'
      exact hmin _ hin _ _ s2 s3 k2 k3
    rcases x3 with x3 | x3
    · refine ⟨X, a, p.val.mulM r, hpt, Or.inr ⟨w, hN, hpick⟩, ⟨?_, ?_, ?_⟩, s4, s5.1, s5.2.1⟩
      · rw [x1]; exact s1.1
      · rw [x2]; exact s1.2.1
      · rw [x3]; exact s1.2.2
    · refine ⟨X, a, ⟨(p.val.mulM r).x, (p.val.mulM r).y, 0⟩, hpt, Or.inr ⟨w, hN, hpick⟩, ⟨?_, ?_, ?_⟩, le_trans ?_ s4, s5.1, s5.2.1⟩
      · rw [x1]; exact s1.1
      · rw [x2]; exact s1.2.1
      · rw [x3, lit_zero]; exact (Fl.near_fin 0).mono (by linarith)
      · unfold len3
        apply Real.sqrt_le_sqrt
        have := sq_nonneg (p.val.mulM r).z
        simp only
        linarith

end
end S2P
