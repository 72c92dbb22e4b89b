import Verif.Lemmas.CircleNear
import Verif.Lemmas.Fetch

set_option linter.unusedSectionVars false
set_option linter.unusedVariables false
set_option linter.unusedSimpArgs false

/-! # Locating a circle in double arithmetic -/

namespace S2P

theorem dist2_self0 (a : V2 ℝ) : dist2 a a = 0 := by unfold dist2; ring

theorem dist2_tri (a b e : V2 ℝ) : dist2 a b ≤ 2 * (dist2 a e + dist2 b e) := by
  unfold dist2
  nlinarith [sq_nonneg ((a.x - e.x) + (b.x - e.x)), sq_nonneg ((a.y - e.y) + (b.y - e.y))]

theorem dist2_pos0 (a b : V2 ℝ) : 0 ≤ dist2 a b := by unfold dist2; positivity

section
variable {R : Rounding} (hR : R.Accurate)

theorem V2.toFl_inj {p q : V2 ℝ} (h : V2.toFl R p = V2.toFl R q) : p = q := by
  have h1 := congrArg V2.x h
  have h2 := congrArg V2.y h
  have i1 : (Ext.fin p.x : Ext ℝ) = .fin q.x := h1
  have i2 : (Ext.fin p.y : Ext ℝ) = .fin q.y := h2
  injection i1 with i1; injection i2 with i2
  exact V2.ext i1 i2

include hR

/-- a squared distance computed in doubles -/
theorem sqDist_near {M : ℝ} (h1 : 1 ≤ M) (h16 : M ≤ 2 ^ 16) {p q : V2 ℝ} (hp : |p.x| ≤ M ∧ |p.y| ≤ M) (hq : |q.x| ≤ M ∧ |q.y| ≤ M) :
    Gauge (V2.toFl R p - V2.toFl R q).sqNorm (dist2 p q) (8 * M ^ 2) 8 := by
  have sz : ∀ c : ℝ, 1 ≤ c → c ≤ 8 → Sized (c * M) ∧ Sized (c * M ^ 2) := by
    intro c c1 c8
    have a1 : 1 ≤ c * M := by nlinarith
    have a2 : c * M ≤ 8 * 2 ^ 16 := by nlinarith
    have b1 : 1 ≤ c * M ^ 2 := by nlinarith [one_le_pow₀ (n := 2) h1]
    have b2 : c * M ^ 2 ≤ 8 * (2 ^ 16) ^ 2 := by
      have : M ^ 2 ≤ (2 ^ 16) ^ 2 := pow_le_pow_left₀ (by linarith) h16 2
      nlinarith [sq_nonneg M]
    exact ⟨⟨le_trans (by norm_num) a1, a2.trans (by norm_num)⟩, ⟨le_trans (by norm_num) b1, b2.trans (by norm_num)⟩⟩
  have d : ∀ {x y : Fl R} {a b : ℝ}, Gauge x a M 0 → Gauge y b M 0 → Gauge (x - y) (a - b) (2 * M) 2 := by
    intro x y a b ha hb
    have := Gauge.sub hR ha hb (by rw [← two_mul]; exact (sz 2 (by norm_num) (by norm_num)).1) le_rfl (by norm_num)
    exact this.to rfl (by ring) (by norm_num)
  have e : ∀ {x : Fl R} {a : ℝ}, Gauge x a (2 * M) 2 → Gauge (x * x) (a * a) (4 * M ^ 2) 6 := by
    intro x a h
    exact (Gauge.mul hR h h (by rw [show 2 * M * (2 * M) = 4 * M ^ 2 by ring]; exact (sz 4 (by norm_num) (by norm_num)).2) (by norm_num) (by norm_num) (by norm_num) (by norm_num)).to
      rfl (by ring) (by norm_num)
  have f : ∀ {x y : Fl R} {a b : ℝ}, Gauge x a (2 * M) 2 → Gauge y b (2 * M) 2 → Gauge (x * x + y * y) (a * a + b * b) (8 * M ^ 2) 8 := by
    intro x y a b ha hb
    have := Gauge.add hR (e ha) (e hb) (by rw [show 4 * M ^ 2 + 4 * M ^ 2 = 8 * M ^ 2 by ring]; exact (sz 8 (by norm_num) (by norm_num)).2) (by norm_num) (by norm_num)
    exact this.to rfl (by ring) (by norm_num)
  have g := f (d (gauge_fin (R := R) hp.1) (gauge_fin hq.1)) (d (gauge_fin (R := R) hp.2) (gauge_fin hq.2))
  rw [show dist2 p q = (p.x - q.x) * (p.x - q.x) + (p.y - q.y) * (p.y - q.y) by unfold dist2; ring]
  exact g

theorem sqDist_near' {M : ℝ} (h1 : 1 ≤ M) (h16 : M ≤ 2 ^ 16) {p q : V2 ℝ} (hp : |p.x| ≤ M ∧ |p.y| ≤ M) (hq : |q.x| ≤ M ∧ |q.y| ≤ M) :
    Fl.Near (V2.toFl R p - V2.toFl R q).sqNorm (dist2 p q) (M ^ 2 / 2 ^ 45) :=
  (sqDist_near hR h1 h16 hp hq).2.mono (le_of_eq (by ring))

/-- the near-duplicate test -/
theorem dup_near {M : ℝ} (h1 : 1 ≤ M) (h16 : M ≤ 2 ^ 16) {t p e : V2 ℝ} (ht : |t.x| ≤ M ∧ |t.y| ≤ M) (hp : |p.x| ≤ M ∧ |p.y| ≤ M) (he : |e.x| ≤ M ∧ |e.y| ≤ M)
    (ha : M ^ 2 / 2 ^ 30 ≤ dist2 p t) :
    (p = e → nearDup (V2.toFl R t) (V2.toFl R p) (V2.toFl R e) = true) ∧ (nearDup (V2.toFl R t) (V2.toFl R p) (V2.toFl R e) = true → dist2 p e ≤ dist2 p t / 90) := by
  have g1 := sqDist_near hR h1 h16 hp ht
  have g2 := sqDist_near' hR h1 h16 hp he
  have M2 : 1 ≤ M ^ 2 := one_le_pow₀ h1
  have M2' : M ^ 2 ≤ (2 ^ 16) ^ 2 := pow_le_pow_left₀ (by linarith) h16 2
  have gl := gauge_lit hR (1 / 100) (B := 1 / 100) (by norm_num) ⟨by norm_num, by norm_num⟩
  have g3 := (Gauge.mul hR g1 gl ⟨le_trans (by norm_num) (show (8 : ℝ) * 1 * (1 / 100) ≤ 8 * M ^ 2 * (1 / 100) by gcongr),
    le_trans (show 8 * M ^ 2 * (1 / 100) ≤ 8 * (2 ^ 16) ^ 2 * (1 / 100) by gcongr) (by norm_num)⟩ (by norm_num) (by norm_num) (by norm_num) (by norm_num)).2.mono (δ := M ^ 2 / 2 ^ 45) (by
    rw [show (8 + 1 + 2) * (8 * M ^ 2 * (1 / 100)) / 2 ^ 51 = 88 / 100 * (M ^ 2 / 2 ^ 51) by ring, show M ^ 2 / 2 ^ 45 = 64 * (M ^ 2 / 2 ^ 51) by ring]
    have : 0 ≤ M ^ 2 / 2 ^ 51 := by positivity
    linarith)
  have ec : dist2 p t * (((1 / 100 : ℚ) : ℝ)) = dist2 p t / 100 := by push_cast; ring
  rw [ec] at g3
  have e30 : M ^ 2 / 2 ^ 30 = 2 ^ 15 * (M ^ 2 / 2 ^ 45) := by ring
  have p45 : 0 < M ^ 2 / 2 ^ 45 := by positivity
  rw [e30] at ha
  constructor
  · rintro rfl
    unfold nearDup
    have h3 : FP.lt (V2.toFl R p - V2.toFl R p).sqNorm (cDist (V2.toFl R t) (V2.toFl R p) * FP.lit (1 / 100)) = true := by
      refine lt_of_near g2 g3 ?_
      rw [dist2_self0]
      norm_num at ha ⊢
      linarith
    rw [FPOrd.lt_irrefl, h3]
    rfl
  · intro h
    unfold nearDup at h
    simp only [Bool.and_eq_true, Bool.not_eq_true'] at h
    have := near_lt g2 g3 h.2
    norm_num at ha
    linarith

/-- what is fetched at a circle -/
theorem fetch_rim {p0 : V2 ℝ} {ps : List (V2 ℝ)} {t m : V2 ℝ} {r : ℝ} {N : ℕ} {M A η : ℝ} (h : RimAt p0 ps t m r N M A η) :
    ∃ x y z, closest ((p0 :: ps).map (V2.toFl R)) 3 (V2.toFl R t) = [x, y, z].map (V2.toFl R) ∧ x ≠ y ∧ x ≠ z ∧ y ≠ z ∧ ∀ e ∈ [x, y, z], e ∈ p0 :: ps ∧ OnRim m r η e := by
  obtain ⟨m1, m16, hB⟩ := h.near
  obtain ⟨a, b, c, habc, hpw, hoff⟩ := h.three
  have ht := hB t (by simp)
  have hq : ∀ q ∈ p0 :: ps, |q.x| ≤ M ∧ |q.y| ≤ M := fun q hq => hB q (by simp at hq ⊢; tauto)
  have cd : ∀ q ∈ p0 :: ps, Fl.Near (cDist (V2.toFl R t) (V2.toFl R q)) (dist2 q t) (M ^ 2 / 2 ^ 45) := fun q hq' => sqDist_near' hR m1 m16 (hq q hq') ht
  have p45 : 0 < M ^ 2 / 2 ^ 45 := by positivity
  have e40 : M ^ 2 / 2 ^ 40 = 32 * (M ^ 2 / 2 ^ 45) := by ring
  have e30 : M ^ 2 / 2 ^ 30 = 2 ^ 15 * (M ^ 2 / 2 ^ 45) := by ring
  have sepne : ∀ x ∈ [a, b, c], ∀ y ∈ [a, b, c], dist2 x t ≤ 16 * dist2 x y ∧ dist2 y t ≤ 16 * dist2 x y →
      ∀ e ∈ (p0 :: ps).map (V2.toFl R), StandIn (V2.toFl R t) e (V2.toFl R x) → ¬ StandIn (V2.toFl R t) e (V2.toFl R y) := by
    intro x hx y hy ⟨s1, s2⟩ e he ex ey
    obtain ⟨e, hm, rfl⟩ := List.mem_map.1 he
    have rep : ∀ x ∈ [a, b, c], StandIn (V2.toFl R t) (V2.toFl R e) (V2.toFl R x) → dist2 x e ≤ dist2 x t / 90 := by
      intro x hx ex
      rcases ex with ex | ex
      · rw [V2.toFl_inj ex, dist2_self0]
        have := dist2_pos0 x t
        positivity
      · exact (dup_near hR m1 m16 ht (hq x (habc x hx).1) (hq e hm) (h.away x (habc x hx).1)).2 ex
    have r1 := rep x hx ex
    have r2 := rep y hy ey
    have r3 := dist2_tri x y e
    have ax := h.away x (habc x hx).1
    linarith
  obtain ⟨x, y, z, h1, h2, h3, h4, h5⟩ := fetch_three (V2.toFl R t) (V2.toFl R p0) (ps.map (V2.toFl R)) (by
      intro q hq'
      rw [← List.map_cons] at hq'
      obtain ⟨q, hm, rfl⟩ := List.mem_map.1 hq'
      exact near_ok (cd q hm)) (by
      intro q hq'
      obtain ⟨q, hm, rfl⟩ := List.mem_map.1 hq'
      have hm' : q ∈ p0 :: ps := by simp [hm]
      exact (dup_near hR m1 m16 ht (hq q hm') (hq q hm') (h.away q hm')).1 rfl) (V2.toFl R a) (V2.toFl R b) (V2.toFl R c) (by
      intro x hx
      rw [← List.map_cons]
      simp only [List.mem_cons, List.not_mem_nil, or_false] at hx
      rcases hx with rfl | rfl | rfl
      · exact List.mem_map_of_mem (habc a (by simp)).1
      · exact List.mem_map_of_mem (habc b (by simp)).1
      · exact List.mem_map_of_mem (habc c (by simp)).1) (by
      have : ∀ x ∈ [a, b, c], FP.lt (cDist (V2.toFl R t) (V2.toFl R x)) (cDist (V2.toFl R t) (V2.toFl R p0)) = true := by
        intro x hx
        obtain ⟨i1, -, i2⟩ := habc x hx
        refine lt_of_near (cd x i1) (cd p0 (by simp)) ?_
        linarith
      intro x hx
      simp only [List.mem_cons, List.not_mem_nil, or_false] at hx
      rcases hx with rfl | rfl | rfl
      · exact this a (by simp)
      · exact this b (by simp)
      · exact this c (by simp)) (by
      rw [← List.map_cons]
      rw [List.pairwise_cons, List.pairwise_cons] at hpw ⊢
      refine ⟨?_, ?_, by simp⟩
      · intro u hu
        simp only [List.mem_cons, List.not_mem_nil, or_false] at hu
        rcases hu with rfl | rfl
        · exact sepne a (by simp) b (by simp) (hpw.1 b (by simp))
        · exact sepne a (by simp) c (by simp) (hpw.1 c (by simp))
      · intro u hu
        simp only [List.mem_cons, List.not_mem_nil, or_false] at hu
        subst hu
        exact sepne b (by simp) c (by simp) (hpw.2.1 c (by simp)))
  rw [← List.map_cons] at h1 h5
  have back : ∀ e ∈ [x, y, z], ∃ q ∈ p0 :: ps, V2.toFl R q = e ∧ OnRim m r η q := by
    intro e he
    obtain ⟨i1, u, hu, i2⟩ := h5 e he
    obtain ⟨q, hm, rfl⟩ := List.mem_map.1 i1
    refine ⟨q, hm, rfl, ?_⟩
    rcases hoff q hm with h' | ⟨-, h'⟩
    · exact h'
    exfalso
    obtain ⟨v, hv, rfl⟩ : ∃ v ∈ [a, b, c], V2.toFl R v = u := by
      simp only [List.mem_cons, List.not_mem_nil, or_false] at hu
      rcases hu with rfl | rfl | rfl
      · exact ⟨a, by simp, rfl⟩
      · exact ⟨b, by simp, rfl⟩
      · exact ⟨c, by simp, rfl⟩
    have := not_lt_near (cd v (habc v hv).1) (cd q hm) i2
    have := h' v hv
    linarith
  obtain ⟨x', hx, rfl, ox⟩ := back x (by simp)
  obtain ⟨y', hy, rfl, oy⟩ := back y (by simp)
  obtain ⟨z', hz, rfl, oz⟩ := back z (by simp)
  refine ⟨x', y', z', h1, fun e => h2 (by rw [e]), fun e => h3 (by rw [e]), fun e => h4 (by rw [e]), ?_⟩
  intro e he
  simp only [List.mem_cons, List.not_mem_nil, or_false] at he
  rcases he with rfl | rfl | rfl
  · exact ⟨hx, ox⟩
  · exact ⟨hy, oy⟩
  · exact ⟨hz, oz⟩

theorem rimErr_mono {n N M A η D : ℝ} (hn : 0 ≤ n) (hnN : n ≤ N) (hM : 0 ≤ M) (hA : 0 < A) (hη : 0 ≤ η) (hD : A ^ 2 ≤ D) :
    64 * (n + 1) ^ 4 * M ^ 4 / (2 ^ 51 * D) * M + 3 * (n + 1) ^ 3 * M ^ 3 * η / D ≤ rimErr N M A η := by
  unfold rimErr
  have hA2 : 0 < A ^ 2 := by positivity
  have hD0 : 0 < D := lt_of_lt_of_le hA2 hD
  have : 0 ≤ n + 1 := by linarith
  have : 0 ≤ N + 1 := by linarith
  have : 0 ≤ 3 * (N + 1) ^ 3 * M ^ 3 * η := by positivity
  gcongr

/-- fitting any points of the rim -/
theorem fit_rim {p0 : V2 ℝ} {ps : List (V2 ℝ)} {t m : V2 ℝ} {r : ℝ} {N : ℕ} {M A η : ℝ} (h : RimAt p0 ps t m r N M A η) (qs : List (V2 ℝ)) (hqs : ∀ q ∈ qs, q ∈ p0 :: ps ∧ OnRim m r η q)
    (hlen : qs.length ≤ N) {x y z : V2 ℝ} (hx : x ∈ qs) (hy : y ∈ qs) (hz : z ∈ qs) (hxy : x ≠ y) (hxz : x ≠ z) (hyz : y ≠ z) :
    16 * M / 2 ^ 51 ≤ rimErr N M A η ∧
    ∃ c rad, findCircle (qs.map (V2.toFl R)) = some (c, rad) ∧ Fl.Near c.x m.x (rimErr N M A η) ∧ Fl.Near c.y m.y (rimErr N M A η) ∧
      Fl.Near rad r (8 * M * rimErr N M A η / r) := by
  obtain ⟨m1, m16, hB⟩ := h.near
  obtain ⟨hr, hrM⟩ := h.rad
  obtain ⟨hη, -⟩ := h.slack
  obtain ⟨hA, harea⟩ := h.area
  obtain ⟨-, hN3, hN9⟩ := h.few
  have M0 : 0 < M := by linarith
  have hq : ∀ q ∈ p0 :: ps, |q.x| ≤ M ∧ |q.y| ≤ M := fun q hq => hB q (by simp at hq ⊢; tauto)
  have hsub : [x, y, z].Subperm qs := List.subperm_of_subset (by simp [hxy, hxz, hyz]) (by
    intro u hu
    simp only [List.mem_cons, List.not_mem_nil, or_false] at hu
    rcases hu with rfl | rfl | rfl
    · exact hx
    · exact hy
    · exact hz)
  have har := harea x (hqs x hx).1 y (hqs y hy).1 z (hqs z hz).1 (hqs x hx).2 (hqs y hy).2 (hqs z hz).2 hxy hxz hyz
  have hD := gramDet_area hsub hA.le har
  have hA4 : A ≤ 4 * M ^ 2 := by
    have := twiceArea_le M0.le (hq x (hqs x hx).1) (hq y (hqs y hy).1) (hq z (hqs z hz).1)
    linarith
  have hA2 : A ^ 2 ≤ 16 * M ^ 4 := by
    calc A ^ 2 ≤ (4 * M ^ 2) ^ 2 := pow_le_pow_left₀ hA.le hA4 2
      _ = 16 * M ^ 4 := by ring
  have hA20 : 0 < A ^ 2 := by positivity
  have hl3 : 3 ≤ qs.length := by have := hsub.length_le; simpa using this
  have hl3' : (3 : ℝ) ≤ qs.length := by exact_mod_cast hl3
  have hlN : (qs.length : ℝ) ≤ N := by exact_mod_cast hlen
  have hN3' : (3 : ℝ) ≤ N := by exact_mod_cast hN3
  have hN9' : (N : ℝ) + 1 ≤ 2 ^ 9 := by
    have : N + 1 ≤ 2 ^ 9 := hN9
    exact_mod_cast this
  have hterm : 0 ≤ 3 * ((N : ℝ) + 1) ^ 3 * M ^ 3 * η / A ^ 2 := by positivity
  have he1 : 16 * M / 2 ^ 51 ≤ rimErr N M A η := by
    unfold rimErr
    refine le_trans ?_ (le_add_of_nonneg_right hterm)
    rw [div_mul_eq_mul_div, div_le_div_iff₀ (by positivity) (by positivity)]
    have h256 : (256 : ℝ) ≤ ((N : ℝ) + 1) ^ 4 := by
      calc (256 : ℝ) = 4 ^ 4 := by norm_num
        _ ≤ ((N : ℝ) + 1) ^ 4 := pow_le_pow_left₀ (by norm_num) (by linarith) 4
    calc 16 * M * (2 ^ 51 * A ^ 2) = 16 * A ^ 2 * (M * 2 ^ 51) := by ring
      _ ≤ 16 * (16 * M ^ 4) * (M * 2 ^ 51) := by gcongr
      _ ≤ 64 * 256 * M ^ 4 * (M * 2 ^ 51) := by
        have : 0 ≤ M ^ 4 * (M * 2 ^ 51) := by positivity
        nlinarith
      _ ≤ 64 * ((N : ℝ) + 1) ^ 4 * M ^ 4 * (M * 2 ^ 51) := by gcongr
      _ = _ := by ring
  refine ⟨he1, ?_⟩
  have hcond := h.cond
  have hr2 : r ^ 2 ≤ M ^ 2 := pow_le_pow_left₀ hr.le hrM 2
  have he0 : 0 ≤ rimErr N M A η := le_trans (by positivity) he1
  refine findCircle_near hR (N := qs.length + 1) (M := M) ⟨by linarith, by linarith, m1, m16⟩ qs rfl (fun q h' => hq q (hqs q h').1) ?_ hη (hB m (by simp)) hr hrM
    (fun q h' => (hqs q h').2) (rimErr_mono hR (by positivity) hlN M0.le hA hη hD) he1 (by nlinarith)
  refine le_trans ?_ hD
  have : 64 * ((N : ℝ) + 1) ^ 4 * M ^ 4 / (2 ^ 51 * A ^ 2) * M ≤ M / 2000 := by
    have h1 : 64 * ((N : ℝ) + 1) ^ 4 * M ^ 4 / (2 ^ 51 * A ^ 2) * M ≤ rimErr N M A η := by unfold rimErr; linarith
    refine h1.trans ?_
    rw [le_div_iff₀ (by norm_num)]
    have : M * (rimErr N M A η * 2000) ≤ M * M := by nlinarith
    exact le_of_mul_le_mul_left this M0
  have h2 : 64 * ((N : ℝ) + 1) ^ 4 * M ^ 4 / (2 ^ 51 * A ^ 2) ≤ 1 := by
    have : 64 * ((N : ℝ) + 1) ^ 4 * M ^ 4 / (2 ^ 51 * A ^ 2) * M ≤ 1 * M := by linarith
    exact le_of_mul_le_mul_right this M0
  rw [div_le_one (by positivity)] at h2
  rw [div_le_iff₀ (by positivity)]
  calc 64 * ((qs.length : ℝ) + 1) ^ 4 * M ^ 4 ≤ 64 * ((N : ℝ) + 1) ^ 4 * M ^ 4 := by gcongr
    _ ≤ 2 ^ 51 * A ^ 2 := h2
    _ = A ^ 2 * 2 ^ 51 := by ring

/-- the limits between which corners are taken -/
theorem rim_window {r : ℝ} (hrlow : 1 / 2 ^ 20 ≤ r) (hr16 : r ≤ 2 ^ 16) {rad : Fl R} (hrad' : Fl.Near rad r (r / 250)) :
    Fl.Near (rad * (FP.lit 1 - FP.lit (1 / 10))) (r * (9 / 10)) (4 / 1000 * r) ∧ Fl.Near (rad * (FP.lit 1 + FP.lit (1 / 10))) (r * (11 / 10)) (5 / 1000 * r) ∧
    Fl.Near (rad * (FP.lit 1 - FP.lit (1 / 10)) * (rad * (FP.lit 1 - FP.lit (1 / 10)))) (r * (9 / 10) * (r * (9 / 10))) (8 / 1000 * r ^ 2) ∧
    Fl.Near (rad * (FP.lit 1 + FP.lit (1 / 10)) * (rad * (FP.lit 1 + FP.lit (1 / 10)))) (r * (11 / 10) * (r * (11 / 10))) (12 / 1000 * r ^ 2) := by
  have hr : 0 < r := lt_of_lt_of_le (by norm_num) hrlow
  have hr2low : 1 / 2 ^ 40 ≤ r ^ 2 := by
    calc (1 / 2 ^ 40 : ℝ) = (1 / 2 ^ 20) ^ 2 := by norm_num
      _ ≤ r ^ 2 := pow_le_pow_left₀ (by norm_num) hrlow 2
  have hr2up : r ^ 2 ≤ 2 ^ 32 := by
    calc r ^ 2 ≤ (2 ^ 16) ^ 2 := pow_le_pow_left₀ hr.le hr16 2
      _ = 2 ^ 32 := by norm_num
  have huge : ∀ {S : ℝ}, S ≤ 2 ^ 100 → S ≤ 2 ^ 1000 := fun hS => hS.trans (pow_le_pow_right₀ (by norm_num) (by norm_num))
  -- the factors
  have l1 := Fl.near_lit hR 1 (S := 1) (by norm_num) (by norm_num) (huge (by norm_num))
  have l2 := Fl.near_lit hR (1 / 10) (S := 1) (by norm_num [abs_of_pos]) (by norm_num) (huge (by norm_num))
  rw [show ((1 : ℚ) : ℝ) = 1 by norm_num] at l1
  rw [show ((1 / 10 : ℚ) : ℝ) = 1 / 10 by norm_num] at l2
  have k1 := (Fl.Near.sub hR l1 l2 (S := 2) (by norm_num [abs_of_pos]) (by norm_num) (huge (by norm_num))).mono (δ := 1 / 10 ^ 6) (by norm_num)
  have k2 := (Fl.Near.add hR l1 l2 (S := 2) (by norm_num [abs_of_pos]) (by norm_num) (huge (by norm_num))).mono (δ := 1 / 10 ^ 6) (by norm_num)
  rw [show (1 - 1 / 10 : ℝ) = 9 / 10 by norm_num] at k1
  rw [show (1 + 1 / 10 : ℝ) = 11 / 10 by norm_num] at k2
  have ar : |r| ≤ r := (abs_of_pos hr).le
  -- the bounds
  have lo := (Fl.Near.mul hR hrad' k1 ar (B := 9 / 10) (by norm_num [abs_of_pos]) (S := 2 * r) (by nlinarith) (le_trans (by norm_num) (hrlow.trans (by linarith)))
    (huge (le_trans (show 2 * r ≤ 2 * 2 ^ 16 by linarith) (by norm_num)))).mono (δ := 4 / 1000 * r) (by nlinarith)
  have hi := (Fl.Near.mul hR hrad' k2 ar (B := 11 / 10) (by norm_num [abs_of_pos]) (S := 2 * r) (by nlinarith) (le_trans (by norm_num) (hrlow.trans (by linarith)))
    (huge (le_trans (show 2 * r ≤ 2 * 2 ^ 16 by linarith) (by norm_num)))).mono (δ := 5 / 1000 * r) (by nlinarith)
  have alo : |r * (9 / 10)| ≤ 9 / 10 * r := by rw [abs_of_pos (by positivity)]; linarith
  have ahi : |r * (11 / 10)| ≤ 11 / 10 * r := by rw [abs_of_pos (by positivity)]; linarith
  have S2a : 1 / 2 ^ 100 ≤ 2 * r ^ 2 := le_trans (by norm_num) (hr2low.trans (by linarith))
  have S2b : 2 * r ^ 2 ≤ 2 ^ 1000 := huge (le_trans (show 2 * r ^ 2 ≤ 2 * 2 ^ 32 by linarith) (by norm_num))
  have lo2 := (Fl.Near.mul hR lo lo alo alo (S := 2 * r ^ 2) (by nlinarith) S2a S2b).mono (δ := 8 / 1000 * r ^ 2) (by nlinarith)
  have hi2 := (Fl.Near.mul hR hi hi ahi ahi (S := 2 * r ^ 2) (by nlinarith) S2a S2b).mono (δ := 12 / 1000 * r ^ 2) (by nlinarith)
  exact ⟨lo, hi, lo2, hi2⟩

/-- the distance of a corner from the centre found -/
theorem rim_dist {M ε : ℝ} (m1 : 1 ≤ M) (m16 : M ≤ 2 ^ 16) (he1 : 16 * M / 2 ^ 51 ≤ ε) (hεM : ε ≤ M / 2000) {q m : V2 ℝ} (hqq : |q.x| ≤ M ∧ |q.y| ≤ M) (hm : |m.x| ≤ M ∧ |m.y| ≤ M)
    {c : V2 (Fl R)} (hx : Fl.Near c.x m.x ε) (hy : Fl.Near c.y m.y ε) : Fl.Near (V2.toFl R q - c).sqNorm (dist2 q m) (22 * (M * ε)) := by
  have M0 : 0 < M := by linarith
  have hM2 : 1 ≤ M ^ 2 := one_le_pow₀ m1
  have he0 : 0 ≤ ε := le_trans (by positivity) he1
  have hMε : 16 * M ^ 2 / 2 ^ 51 ≤ M * ε := by
    have := mul_le_mul_of_nonneg_left he1 M0.le
    refine le_trans (le_of_eq ?_) this
    ring
  have huge : ∀ {S : ℝ}, S ≤ 2 ^ 100 → S ≤ 2 ^ 1000 := fun hS => hS.trans (pow_le_pow_right₀ (by norm_num) (by norm_num))
  have one : ∀ {u v : ℝ} {w x : Fl R}, |u| ≤ M → |v| ≤ M → Fl.Near w u 0 → Fl.Near x v ε → Fl.Near (w - x) (u - v) (2 * ε) := by
    intro u v w x hu hv hw hx
    refine (Fl.Near.sub hR hw hx (S := 4 * M) ?_ (le_trans (by norm_num) (show (1 : ℝ) ≤ 4 * M by linarith)) (huge (le_trans (show 4 * M ≤ 4 * 2 ^ 16 by linarith) (by norm_num)))).mono ?_
    · have := (abs_sub u v).trans (add_le_add hu hv)
      linarith
    · linarith
  have sq : ∀ {u v : ℝ} {x : Fl R}, |u| ≤ M → |v| ≤ M → Fl.Near x (u - v) (2 * ε) → Fl.Near (x * x) ((u - v) * (u - v)) (10 * (M * ε)) := by
    intro u v x hu hv hx
    have huv : |u - v| ≤ 2 * M := (abs_sub u v).trans (by linarith)
    refine (Fl.Near.mul hR hx hx huv huv (S := 9 * M ^ 2) (by nlinarith) (le_trans (by norm_num) (show (1 : ℝ) ≤ 9 * M ^ 2 by linarith))
      (huge (le_trans (show 9 * M ^ 2 ≤ 9 * (2 ^ 16) ^ 2 by gcongr) (by norm_num)))).mono ?_
    have : 9 * M ^ 2 / 2 ^ 51 ≤ M * ε := by linarith
    nlinarith
  have fin := Fl.Near.add hR (sq hqq.1 hm.1 (one hqq.1 hm.1 (Fl.near_fin (R := R) q.x) hx)) (sq hqq.2 hm.2 (one hqq.2 hm.2 (Fl.near_fin (R := R) q.y) hy)) (S := 20 * M ^ 2) (by
    have e : (q.x - m.x) * (q.x - m.x) + (q.y - m.y) * (q.y - m.y) ≤ 8 * M ^ 2 := by
      have a1 : |q.x - m.x| ≤ 2 * M := (abs_sub _ _).trans (by linarith [hqq.1, hm.1])
      have a2 : |q.y - m.y| ≤ 2 * M := (abs_sub _ _).trans (by linarith [hqq.2, hm.2])
      rw [← abs_mul_abs_self (q.x - m.x), ← abs_mul_abs_self (q.y - m.y)]
      have := mul_le_mul a1 a1 (abs_nonneg _) (by linarith)
      have := mul_le_mul a2 a2 (abs_nonneg _) (by linarith)
      nlinarith
    rw [abs_of_nonneg (add_nonneg (mul_self_nonneg _) (mul_self_nonneg _))]
    nlinarith) (le_trans (by norm_num) (show (1 : ℝ) ≤ 20 * M ^ 2 by linarith)) (huge (le_trans (show 20 * M ^ 2 ≤ 20 * (2 ^ 16) ^ 2 by gcongr) (by norm_num)))
  rw [show (q.x - m.x) * (q.x - m.x) + (q.y - m.y) * (q.y - m.y) = dist2 q m by unfold dist2; ring] at fin
  have fin' : Fl.Near (V2.toFl R q - c).sqNorm (dist2 q m) _ := fin
  refine fin'.mono ?_
  have : 20 * M ^ 2 / 2 ^ 51 ≤ 2 * (M * ε) := by linarith
  linarith

/-- which corners are fitted in the end -/
theorem between_rim {p0 : V2 ℝ} {ps : List (V2 ℝ)} {t m : V2 ℝ} {r : ℝ} {N : ℕ} {M A η : ℝ} (h : RimAt p0 ps t m r N M A η) (he1 : 16 * M / 2 ^ 51 ≤ rimErr N M A η) {c : V2 (Fl R)} {rad : Fl R}
    (hx : Fl.Near c.x m.x (rimErr N M A η)) (hy : Fl.Near c.y m.y (rimErr N M A η)) (hrad : Fl.Near rad r (8 * M * rimErr N M A η / r)) :
    ∃ qs : List (V2 ℝ), between ((p0 :: ps).map (V2.toFl R)) (rad * (FP.lit 1 - FP.lit (1 / 10))) (rad * (FP.lit 1 + FP.lit (1 / 10))) c = qs.map (V2.toFl R) ∧
      qs.length ≤ N ∧ ∀ q, q ∈ qs ↔ q ∈ p0 :: ps ∧ OnRim m r η q := by
  classical
  obtain ⟨m1, m16, hB⟩ := h.near
  obtain ⟨hr, hrM⟩ := h.rad
  obtain ⟨hη, hslack⟩ := h.slack
  obtain ⟨a, b, c', -, -, hoff⟩ := h.three
  have hcond := h.cond
  set ε := rimErr N M A η with hε
  have M0 : 0 < M := by linarith
  have hq : ∀ q ∈ p0 :: ps, |q.x| ≤ M ∧ |q.y| ≤ M := fun q hq => hB q (by simp at hq ⊢; tauto)
  have hm := hB m (by simp)
  have he0 : 0 ≤ ε := le_trans (by positivity) he1
  have hr2 : r ^ 2 ≤ M ^ 2 := pow_le_pow_left₀ hr.le hrM 2
  have hMε : 16 * M ^ 2 / 2 ^ 51 ≤ M * ε := by
    have := mul_le_mul_of_nonneg_left he1 M0.le
    refine le_trans (le_of_eq ?_) this
    ring
  have hεM : ε ≤ M / 2000 := by
    rw [le_div_iff₀ (by norm_num)]
    have : M * (ε * 2000) ≤ M * M := by nlinarith
    exact le_of_mul_le_mul_left this M0
  have hρ : 8 * M * ε / r ≤ r / 250 := by
    rw [div_le_iff₀ hr]
    nlinarith
  have hρ0 : 0 ≤ 8 * M * ε / r := by positivity
  have hrad' := hrad.mono hρ
  have hM2 : 1 ≤ M ^ 2 := one_le_pow₀ m1
  have hr2low : 1 / 2 ^ 40 ≤ r ^ 2 := by
    have : 16 * 1 / 2 ^ 51 ≤ M * ε := le_trans (by gcongr) hMε
    norm_num at this ⊢
    linarith
  have hr2up : r ^ 2 ≤ 2 ^ 32 := by
    calc r ^ 2 ≤ M ^ 2 := hr2
      _ ≤ (2 ^ 16) ^ 2 := pow_le_pow_left₀ M0.le m16 2
      _ = 2 ^ 32 := by norm_num
  have hrlow : 1 / 2 ^ 20 ≤ r := by
    by_contra hc
    push Not at hc
    have : r ^ 2 < (1 / 2 ^ 20) ^ 2 := pow_lt_pow_left₀ hc hr.le (by norm_num)
    norm_num at this hr2low
    linarith
  obtain ⟨lo, hi, lo2, hi2⟩ := rim_window hR hrlow (hrM.trans m16) hrad'
  have dm : ∀ q ∈ p0 :: ps, Fl.Near (V2.toFl R q - c).sqNorm (dist2 q m) (11 / 1000 * r ^ 2) := fun q hqm =>
    (rim_dist hR m1 m16 he1 hεM (hq q hqm) hm hx hy).mono (by nlinarith)
  have nopass : (FP.lt (rad * (FP.lit 1 + FP.lit (1 / 10))) (FP.lit 0) || FP.lt (rad * (FP.lit 1 + FP.lit (1 / 10))) (rad * (FP.lit 1 - FP.lit (1 / 10)))) = false := by
    rw [(lt_zero_near hi).2 (by linarith), not_lt_of_near hi lo (by linarith)]
    rfl
  refine ⟨(p0 :: ps).filter (fun q => decide (OnRim m r η q)), ?_, ?_, ?_⟩
  · unfold between
    rw [nopass, if_neg (by simp), List.filter_map]
    congr 1
    apply List.filter_congr
    intro q hqm
    have d := dm q hqm
    have pos : 0 < r ^ 2 := by positivity
    simp only [Function.comp]
    by_cases ho : OnRim m r η q
    · rw [decide_eq_true ho]
      have h1 := ho
      unfold OnRim at h1
      rw [abs_le] at h1
      rw [lt_of_near lo2 d (by nlinarith), lt_of_near d hi2 (by nlinarith)]
      rfl
    · rw [decide_eq_false ho]
      rcases (hoff q hqm).resolve_left ho with ⟨hin | hout, -⟩
      · rw [not_lt_of_near lo2 d (by nlinarith)]
        rfl
      · rw [not_lt_of_near d hi2 (by nlinarith)]
        exact Bool.and_false _
  · exact h.few.1
  · intro q
    rw [List.mem_filter, decide_eq_true_iff]

/-- **The circle located in doubles.** -/
theorem locate_rim {p0 : V2 ℝ} {ps : List (V2 ℝ)} {t m : V2 ℝ} {r : ℝ} {N : ℕ} {M A η : ℝ} (h : RimAt p0 ps t m r N M A η) {pts : List (V3 (Fl R))}
    (hp : pts.map V3.xy = (p0 :: ps).map (V2.toFl R)) :
    ∃ c rad, locate pts (V2.toFl R t) = some (c, rad) ∧ Fl.Near c.x m.x (rimErr N M A η) ∧ Fl.Near c.y m.y (rimErr N M A η) ∧
      Fl.Near rad r (8 * M * rimErr N M A η / r) := by
  obtain ⟨x, y, z, h1, hxy, hxz, hyz, h2⟩ := fetch_rim hR h
  obtain ⟨he1, c1, r1, f1, n1, n2, n3⟩ := fit_rim hR h [x, y, z] h2 h.few.2.1 (by simp) (by simp) (by simp) hxy hxz hyz
  obtain ⟨qs, b1, b2, b3⟩ := between_rim hR h he1 n1 n2 n3
  obtain ⟨-, c2, r2, f2, k⟩ := fit_rim hR h qs (fun q hq => (b3 q).1 hq) b2 ((b3 x).2 (h2 x (by simp))) ((b3 y).2 (h2 y (by simp))) ((b3 z).2 (h2 z (by simp))) hxy hxz hyz
  refine ⟨c2, r2, ?_, k⟩
  unfold locate
  simp only [hp, h1, f1, b1, f2]

end
end S2P
