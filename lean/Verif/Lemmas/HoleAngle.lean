import Verif.Lemmas.HoleSpan
import Verif.Lemmas.AngleMeant

set_option linter.unusedSectionVars false
set_option linter.unusedVariables false
set_option linter.unusedSimpArgs false

/-! # Angles between lines through the centres of round parts -/

namespace S2P

theorem noTurn_rotation : IsRotation (⟨⟨1, 0, 0⟩, ⟨0, 1, 0⟩, ⟨0, 0, 1⟩⟩ : M3 ℝ) := by
  constructor <;> simp [IsOrtho, M3.det, V3.dot, V3.cross, V3.mulM]

theorem noTurn (u : V3 ℝ) : u.mulM ⟨⟨1, 0, 0⟩, ⟨0, 1, 0⟩, ⟨0, 0, 1⟩⟩ = u := by
  ext <;> simp [V3.mulM]

theorem along_leg {w e : V2 ℝ} (h : Along w e) : LegDir ⟨⟨1, 0, 0⟩, ⟨0, 1, 0⟩, ⟨0, 0, 1⟩⟩ ⟨w.x, w.y, 0⟩ e := by
  obtain ⟨h1, c, hc, h2⟩ := h
  refine ⟨h1, c, hc, ?_⟩
  rw [noTurn]
  show (⟨w.x, w.y⟩ : V2 ℝ) = _
  rw [← h2]

theorem angle2_flat (w w' : V2 ℝ) : angleBetween ⟨w.x, w.y, 0⟩ ⟨w'.x, w'.y, 0⟩ = angle2 w w' := by
  simp [angleBetween, angle2, len3, V2.len, V2.dot]

theorem sq_small {s : ℝ} (h0 : 0 < s) (h1 : s ≤ 1) : s ^ 2 ≤ s := by nlinarith

/-- the bound of `angle_ink` is within `angleError` -/
theorem ink_coarse {R : Rounding} {M k ν s : ℝ} {off : V2 ℝ} (h1 : 1 ≤ M) (hk0 : 0 < k) (hν : 0 ≤ ν) {X P1 P2 E1 E2 : V2 ℝ} {L : ℝ} {b : OutPage (Fl R)} (s0 : 0 < s)
    (hb : AngleInk (8 * (M * k) * (95 * ν) + 600 * (95 * ν / s) + (|off.x| + |off.y|) / 2 ^ 45 + 1 / 2 ^ 14) (5 * (95 * ν)) X P1 P2 E1 E2 L b) :
    AngleInk (angleError M k ν s off) (2 ^ 9 * ν) X P1 P2 E1 E2 L b := by
  have hMkη : 0 ≤ M * k * ν := mul_nonneg (mul_nonneg (by linarith) hk0.le) hν
  have hdiv : 0 ≤ ν / s := div_nonneg hν s0.le
  have hle : 8 * (M * k) * (95 * ν) + 600 * (95 * ν / s) + (|off.x| + |off.y|) / 2 ^ 45 + 1 / 2 ^ 14 ≤ angleError M k ν s off := by
    unfold angleError
    rw [mul_div_assoc 95]
    generalize ν / s = ζ at *
    generalize (|off.x| + |off.y|) / 2 ^ 45 = ω at *
    nlinarith
  have hle2 : 5 * (95 * ν) ≤ 2 ^ 9 * ν := by norm_num; linarith
  obtain ⟨b1, c, b2, b3, b4, b5, b6⟩ := hb
  refine ⟨b1.imp (fun _ _ hl => ⟨⟨hl.1.1.mono hle, hl.1.2.mono hle⟩, ⟨hl.2.1.mono hle, hl.2.2.mono hle⟩⟩), c, b2, ⟨b3.1.mono hle, b3.2.mono hle⟩, b4.mono hle, ?_, ?_⟩
  · obtain ⟨z, z1, z4, z2, z3⟩ := b5; exact ⟨z, z1, z4, z2.trans hle2, z3.trans hle2⟩
  · obtain ⟨z, z1, z4, z2, z3⟩ := b6; exact ⟨z, z1, z4, z2.trans hle2, z3.trans hle2⟩

section
variable {R : Rounding} (hR : R.Accurate)
include hR

/-- an angle, from the points and legs as computed -/
theorem angle_core {E : Env (Fl R)} {stl : Models (Fl R)} {n : ℕ} (hn : n ≤ 40) {name : Str} {ms : List (Meta (Fl R))} {sc rot loc file proj ls r kept k p off}
    (F : Framed E stl n name ms sc rot loc file proj ls r kept k p off) {η : ℝ} (hη : Fine η) (hk1 : 1 / 2 ^ 40 ≤ k) (hne : kept ≠ [])
    {v : Vis (Fl R)} (hvs : v.scale = projScale sc)
    (hvd : v.d = projOffset loc proj.limits (projScale sc)) (hj : v.rotation.eqv E.junkM = false)
    {d : DimN (Fl R)} (hkind : d.kind = .angle) (hg : GoodDim d.kind d.metas) {g : Fl R → Str} (hfmt : formatOf E c!"%.1f" d.metas = some g)
    {a x N Q N' Q' : V3 (Fl R)} (pa : pointOf E v 0 d.metas c!"at" = some a) (px : pointOf E v 1 d.metas c!"apex" = some x)
    (e1 : legOf E v 2 x d.metas c!"from_dir" c!"from_point" = some (N, Q)) (e2 : legOf E v 4 x d.metas c!"to_dir" c!"to_point" = some (N', Q'))
    {A X P P' : V3 ℝ} (na : V3.NearTo a A (8 * (2 ^ n * η))) (nx : V3.NearTo x X (8 * (2 ^ n * η))) (nf : V3.NearTo Q P (8 * (2 ^ n * η))) (nt : V3.NearTo Q' P' (8 * (2 ^ n * η)))
    (la : len3 A ≤ 7 / 4 * 2 ^ n) (lx : len3 X ≤ 7 / 4 * 2 ^ n) (lf : len3 P ≤ 7 / 4 * 2 ^ n) (lt : len3 P' ≤ 7 / 4 * 2 ^ n)
    {w w' : V2 ℝ} {K : ℝ} (hK : 1 ≤ K) (hw : w ≠ ⟨0, 0⟩) (hw' : w' ≠ ⟨0, 0⟩)
    (k1 : V3.NearTo N ((⟨w.x, w.y, 0⟩ : V3 ℝ).sdiv (len3 ⟨w.x, w.y, 0⟩)) (5 * (19 * (K * η))))
    (k2 : V3.NearTo N' ((⟨w'.x, w'.y, 0⟩ : V3 ℝ).sdiv (len3 ⟨w'.x, w'.y, 0⟩)) (5 * (19 * (K * η))))
    (hflat : 2 ^ 28 * (K * η) ≤ Real.sin (angle2 w w') ^ 2) :
    ∃ b L, dimContent E v d = .ok (true, b, L) ∧
      (∃ z y, b.text = [⟨z, g y ++ c!" deg", true, false⟩] ∧
        Fl.Near y (angle2 w w' * 180 / Real.pi) (2 ^ 18 * (K * η) / Real.sin (angle2 w w')) ∧ V2.NearTo z (A.xy.onPage k off) (inkError (2 ^ n) k p)) ∧
      ∀ e e', Along w e → Along w' e' →
        (0 < e.x * e'.y - e.y * e'.x → AngleInk (angleError (2 ^ n) k (K * η) (e.x * e'.y - e.y * e'.x) off) (2 ^ 9 * (K * η))
          (X.xy.onPage k off) (P.xy.onPage k off) (P'.xy.onPage k off) e e' (len3 (A - X) * k) b) ∧
        (0 < e'.x * e.y - e'.y * e.x → AngleInk (angleError (2 ^ n) k (K * η) (e'.x * e.y - e'.y * e.x) off) (2 ^ 9 * (K * η))
          (X.xy.onPage k off) (P'.xy.onPage k off) (P.xy.onPage k off) e' e (len3 (A - X) * k) b) := by
  have hr := noTurn_rotation
  have h1 : (1 : ℝ) ≤ 2 ^ n := one_le_pow₀ (by norm_num)
  have hSm : Small ((2 : ℝ) ^ n) := ⟨h1, pow_le_pow_right₀ (by norm_num) hn⟩
  have hη0 : 0 < η := lt_of_lt_of_le (by positivity) hη.lo
  have hKη1 : η ≤ K * η := by nlinarith
  have ne : ∀ {w : V2 ℝ}, w ≠ ⟨0, 0⟩ → (⟨w.x, w.y, 0⟩ : V3 ℝ) ≠ ⟨0, 0, 0⟩ := by
    intro w h h'
    rw [V3.mk.injEq] at h'
    exact h (V2.ext h'.1 h'.2.1)
  rw [← angle2_flat] at hflat
  have hs0 : 0 < Real.sin (angleBetween ⟨w.x, w.y, 0⟩ ⟨w'.x, w'.y, 0⟩) := by
    have h0 : 0 ≤ Real.sin (angleBetween ⟨w.x, w.y, 0⟩ ⟨w'.x, w'.y, 0⟩) := Real.sin_nonneg_of_nonneg_of_le_pi (Real.arccos_nonneg _) (Real.arccos_le_pi _)
    rcases h0.lt_or_eq with h0 | h0
    · exact h0
    · rw [← h0] at hflat
      norm_num at hflat
      nlinarith
  have hs1 : Real.sin (angleBetween ⟨w.x, w.y, 0⟩ ⟨w'.x, w'.y, 0⟩) ≤ 1 := Real.sin_le_one _
  have hs2 : Real.sin (angleBetween ⟨w.x, w.y, 0⟩ ⟨w'.x, w'.y, 0⟩) ^ 2 ≤ 1 := by nlinarith
  have hKη : K * η ≤ 1 / 2 ^ 24 := by norm_num at hflat ⊢; linarith
  have hηlo := hη.lo
  have hang' : angleBetween ⟨w'.x, w'.y, 0⟩ ⟨w.x, w.y, 0⟩ = angleBetween ⟨w.x, w.y, 0⟩ ⟨w'.x, w'.y, 0⟩ := by
    unfold angleBetween; congr 1; ring
  have c1 : 19 / 2 ^ 50 ≤ 19 * (K * η) := by norm_num at hηlo ⊢; linarith
  have c2 : 1152 * (19 * (K * η)) ≤ Real.sin (angleBetween ⟨w.x, w.y, 0⟩ ⟨w'.x, w'.y, 0⟩) ^ 2 := by norm_num at hflat; linarith
  have c3 : 19 * (K * η) ≤ 1 / 2 ^ 19 := by norm_num at hKη ⊢; linarith
  have a1 := angle_near hR c1 k1 k2 (ne hw) (ne hw') hs0 c2 c3
  have a2 := angle_near hR c1 k2 k1 (ne hw') (ne hw) (by rw [hang']; exact hs0) (by rw [hang']; exact c2) c3
  rw [hang'] at a2
  have bound : ∀ {y : Fl R}, Fl.Near y (angleBetween ⟨w.x, w.y, 0⟩ ⟨w'.x, w'.y, 0⟩ * 180 / Real.pi) (8400 * (19 * (K * η)) / Real.sin (angleBetween ⟨w.x, w.y, 0⟩ ⟨w'.x, w'.y, 0⟩)) →
      Fl.Near y (angle2 w w' * 180 / Real.pi) (2 ^ 18 * (K * η) / Real.sin (angle2 w w')) := by
    intro y hy
    rw [← angle2_flat]
    refine hy.mono (div_le_div_of_nonneg_right ?_ hs0.le)
    norm_num; linarith
  -- the unit vectors
  have ex : ∀ {w : V2 ℝ}, w ≠ ⟨0, 0⟩ → ∃ e, LegDir ⟨⟨1, 0, 0⟩, ⟨0, 1, 0⟩, ⟨0, 0, 1⟩⟩ ⟨w.x, w.y, 0⟩ e := fun h =>
    legDir_exists (by rw [noTurn]; exact ne h) (by rw [noTurn])
  have nz : ∀ w : V2 ℝ, (V3.mulM (⟨w.x, w.y, 0⟩ : V3 ℝ) ⟨⟨1, 0, 0⟩, ⟨0, 1, 0⟩, ⟨0, 0, 1⟩⟩).z = 0 := fun w => by rw [noTurn]
  have turn : ∀ {e e'}, LegDir ⟨⟨1, 0, 0⟩, ⟨0, 1, 0⟩, ⟨0, 0, 1⟩⟩ ⟨w.x, w.y, 0⟩ e → LegDir ⟨⟨1, 0, 0⟩, ⟨0, 1, 0⟩, ⟨0, 0, 1⟩⟩ ⟨w'.x, w'.y, 0⟩ e' →
      V3.NearTo N (⟨e.x, e.y, 0⟩ : V3 ℝ) (95 * (K * η)) ∧ V3.NearTo N' (⟨e'.x, e'.y, 0⟩ : V3 ℝ) (95 * (K * η)) ∧
      len3 (⟨e.x, e.y, 0⟩ : V3 ℝ) = 1 ∧ len3 (⟨e'.x, e'.y, 0⟩ : V3 ℝ) = 1 ∧
      Real.sin (angleBetween ⟨w.x, w.y, 0⟩ ⟨w'.x, w'.y, 0⟩) = |e.x * e'.y - e.y * e'.x| ∧ Fl.Near (N'.cross N).z (e'.x * e.y - e'.y * e.x) (7 * (95 * (K * η))) := by
    intro e e' he he'
    obtain ⟨u1, u2, -⟩ := legDir_unit he (nz w)
    obtain ⟨w1, w2, -⟩ := legDir_unit he' (nz w')
    rw [noTurn] at u1 w1
    rw [u1] at k1
    rw [w1] at k2
    have k1' : V3.NearTo N (⟨e.x, e.y, 0⟩ : V3 ℝ) (95 * (K * η)) := k1.mono (by linarith)
    have k2' : V3.NearTo N' (⟨e'.x, e'.y, 0⟩ : V3 ℝ) (95 * (K * η)) := k2.mono (by linarith)
    exact ⟨k1', k2', u2, w2, sin_legs hr he he' (nz w) (nz w'),
      turn_near hR k1' k2' (within_len u2.le) (within_len w2.le) (by norm_num at hηlo ⊢; linarith) (by norm_num at hflat ⊢; linarith)⟩
  have hnz : FP.eq (N'.cross N).z (FP.lit 0) = false := by
    obtain ⟨e, he⟩ := ex hw
    obtain ⟨e', he'⟩ := ex hw'
    obtain ⟨-, -, -, -, hsin, b, hb, hb2⟩ := turn he he'
    have hb0 : b ≠ 0 := by
      rintro rfl
      rw [zero_sub, abs_neg, show e'.x * e.y - e'.y * e.x = -(e.x * e'.y - e.y * e'.x) by ring, abs_neg, ← hsin] at hb2
      norm_num at hflat
      nlinarith
    rw [hb, lit_zero]
    show Ext.eq (K := ℝ) (.fin b) (.fin 0) = false
    simp [Ext.eq, hb0]
  have hP : drawnItems E v d.kind d.metas = some (if FP.lt (FP.lit 0) (N'.cross N).z then angleItems g v.scale a x N' Q' N Q else angleItems g v.scale a x N Q N' Q') := by
    rw [hkind]
    simp only [drawnItems, pa, px, e1, e2, hfmt, bind, Option.bind, hnz, Bool.false_eq_true, if_false]
    split <;> rfl
  obtain ⟨L, eq⟩ := (dimContent_items E v d hj).1 _ hg hP
  refine ⟨_, L, eq, ?_⟩
  obtain ⟨hoff, o1, o2⟩ := F.offset hne
  have hk0 : 0 < k := lt_of_lt_of_le (by positivity) hk1
  have hkk : |k| = k := abs_of_pos hk0
  have hk2 : k ≤ 2 ^ 40 := by have := F.mid.scale; rwa [hkk] at this
  have hMk : (2 : ℝ) ^ n * k ≤ 2 ^ 40 * 2 ^ 40 := mul_le_mul hSm.top hk2 hk0.le (by positivity)
  have big : 4 * ((2 : ℝ) ^ n * |k|) + 2 * (|p.x| + |p.y|) + 1 ≤ 2 ^ 200 := by
    have := F.mid.loc
    rw [hkk]
    norm_num at this hMk ⊢
    linarith
  have place : V2.NearTo (a.xy.moved v.scale v.d) (A.xy.onPage k off) (inkError (2 ^ n) k p) := by
    rw [hvs, hvd, hoff, F.scale]
    have go : ∀ {x : Fl R} {z o : ℝ}, Fl.Near x z (8 * (2 ^ n * η)) → |z| ≤ 7 / 4 * 2 ^ n →
        |o| ≤ 4 * (2 ^ n * |k|) + 2 * (|p.x| + |p.y|) + 1 →
        Fl.Near (x * (show Fl R from (Ext.fin k : Ext ℝ)) + (show Fl R from (Ext.fin o : Ext ℝ))) (z * k + o) (inkError (2 ^ n) k p) := by
      intro x z o g1 g3 g4
      have e1 : (2 : ℝ) ^ n * η ≤ 2 ^ n / 1099511627776 := by
        have := mul_le_mul_of_nonneg_left hη.hi (show (0 : ℝ) ≤ 2 ^ n by linarith)
        rwa [show (2 : ℝ) ^ n * (1 / 2 ^ 40) = 2 ^ n / 1099511627776 by norm_num; ring] at this
      refine page_near hR F.mid g4 (g1.mono ?_) (by linarith)
      norm_num; linarith
    have la' := within_len la
    exact ⟨go na.1 la'.1 o1, go na.2.1 la'.2.1 o2⟩
  constructor
  · cases FP.lt (FP.lit 0) (N'.cross N).z with
    | true => exact ⟨_, _, rfl, bound a2, place⟩
    | false => exact ⟨_, _, rfl, bound a1, place⟩
  · intro e e' he he'
    obtain ⟨k1', k2', u2, w2, hsin, hcr⟩ := turn (along_leg he) (along_leg he')
    rw [hsin] at hflat hs0 hs1
    rw [sq_abs] at hflat
    have l0 : Fl.Near (FP.lit 0 : Fl R) 0 0 := by rw [lit_zero R]; exact Fl.near_fin 0
    have size : ∀ s, 0 < s → s ≤ 1 → 2 ^ 28 * (K * η) ≤ s ^ 2 → AngleSize (2 ^ n) k (1 / k) η (95 * (K * η)) s off := by
      intro s s0 s1 s2
      exact ⟨hSm, unit_of hk1 hk2, hη, by linarith, s0, s1, by norm_num at s2 ⊢; linarith, o1.trans big, o2.trans big⟩
    constructor
    · intro hp
      have hsm := size _ hp (by rw [abs_of_pos hp] at hs1; exact hs1) hflat
      have hlt : FP.lt (FP.lit 0) (N'.cross N).z = false := by
        cases hc : FP.lt (FP.lit 0) (N'.cross N).z with
        | false => rfl
        | true =>
          have := near_lt l0 hcr hc
          have hcl := hsm.clear
          have hone := hsm.one
          have hq := sq_small hp hone
          have hν : 0 < K * η := by linarith
          norm_num at hcl
          linarith
      rw [hlt, if_neg (by simp)]
      refine ink_coarse h1 hk0 (by linarith) hp ?_
      exact angle_ink hR hsm (hvs.trans F.scale) (hvd.trans hoff) k1' k2' u2 w2 rfl rfl rfl na nx nf nt la lx lf lt g
    · intro hp
      have e3 : e.x * e'.y - e.y * e'.x = -(e'.x * e.y - e'.y * e.x) := by ring
      rw [e3] at hflat hs1
      rw [abs_neg, abs_of_pos hp] at hs1
      rw [neg_sq] at hflat
      have hsm := size _ hp hs1 hflat
      have hlt : FP.lt (FP.lit 0) (N'.cross N).z = true := by
        cases hc : FP.lt (FP.lit 0) (N'.cross N).z with
        | true => rfl
        | false =>
          have := not_lt_near l0 hcr hc
          have hcl := hsm.clear
          have hone := hsm.one
          have hq := sq_small hp hone
          have hν : 0 < K * η := by linarith
          norm_num at hcl
          linarith
      rw [hlt, if_pos rfl]
      refine ink_coarse h1 hk0 (by linarith) hp ?_
      exact angle_ink hR hsm (hvs.trans F.scale) (hvd.trans hoff) k2' k1' w2 u2 rfl rfl rfl na nx nt nf la lx lt lf g

/-- what `near` answers is at depth 0, unless the point given is seen where a corner is and at another depth -/
theorem near_flat {M η : ℝ} (hM : Small M) (hη : Fine η) {t : V3 (Fl R)} {T : V3 ℝ} (ht : V3.NearTo t T (8 * (M * η))) (hT : T.Within (2 * M))
    {ps : List (V3 (Fl R))} (hne : ps ≠ []) (hps : ∀ q ∈ ps, ∃ c : V3 ℝ, V3.NearTo q c (10 * (M * η)) ∧ c.Within (2 * M) ∧ (T.z = 0 ∨ 2 ^ 11 * (M ^ 2 * η) < pageDist2 c T))
    (junk : Nat → V3 (Fl R)) (l l' : Nat) (ret X : V3 (Fl R)) (hX : (Pt.func c!"near" (.val t l) l').invoke junk ps ret = (true, X, [])) : Fl.Near X.z 0 (8 * (M * η)) := by
  have e1 := hη.lo
  have e2 := hη.hi
  have h1 := hM.one
  have hMη : 0 ≤ 8 * (M * η) := mul_nonneg (by norm_num) (mul_nonneg (by linarith) (le_trans (by positivity) e1))
  rw [near_unfold junk ps (.val t l) l' ret t [] hne (by simp [Pt.invoke])] at hX
  simp only [Prod.mk.injEq, true_and, and_true] at hX
  subst hX
  split_ifs with hm
  · unfold setMem at hm
    rw [List.any_eq_true] at hm
    obtain ⟨q, hq, hqt⟩ := hm
    obtain ⟨c, hc, -, hz | hfar⟩ := hps q hq
    · rw [← hz]; exact ht.2.2
    · exfalso
      have hqt' : order q t = false ∧ order t q = false := by simpa using hqt
      have e : q = t := near_eqv hc ht ((order_tie q t (near_ok3 hc) (near_ok3 ht)).1 hqt')
      rw [e] at hc
      have go : ∀ {x : Fl R} {a b : ℝ}, Fl.Near x a (8 * (M * η)) → Fl.Near x b (10 * (M * η)) → (b - a) ^ 2 ≤ (18 * (M * η)) ^ 2 := by
        rintro x a b ⟨d, rfl, hd⟩ ⟨d', hd', hd2⟩
        injection hd' with hd'
        subst hd'
        refine sq_le_sq' ?_ ?_ <;> · rw [abs_le] at hd hd2; linarith
      have gx := go ht.1 hc.1
      have gy := go ht.2.1 hc.2.1
      have h0 : 0 ≤ M ^ 2 * η := mul_nonneg (by positivity) (le_trans (by positivity) e1)
      have k : (18 * (M * η)) ^ 2 ≤ M ^ 2 * η := by
        have : (18 * (M * η)) ^ 2 = M ^ 2 * η * (324 * η) := by ring
        rw [this]
        have : M ^ 2 * η * (324 * η) ≤ M ^ 2 * η * 1 := mul_le_mul_of_nonneg_left (by norm_num at *; linarith) h0
        linarith
      have : pageDist2 c T ≤ 2 * (M ^ 2 * η) := by unfold pageDist2; linarith
      linarith
  · have hok : ∀ q ∈ ps, FP.Ok (nearDist (⟨t.x, t.y, FP.lit 0⟩ : V3 (Fl R)) q) := by
      intro q hq
      obtain ⟨c, hc, wc, -⟩ := hps q hq
      exact near_ok (nearDist_near hR hM hη ht hT hc wc).1
    obtain ⟨q0, hq0⟩ := List.exists_mem_of_ne_nil ps hne
    rcases nearLoop_spec ⟨t.x, t.y, FP.lit 0⟩ ps FP.dblMax ret hok with ⟨-, h2⟩ | ⟨q, hq, h3, -, h4⟩
    · obtain ⟨c, hc, wc, -⟩ := hps q0 hq0
      obtain ⟨n1, n2⟩ := nearDist_near hR hM hη ht hT hc wc
      have := lt_max_near n1 n2
      rw [h2 q0 hq0] at this
      cases this
    · rw [h3]
      show Fl.Near (FP.lit 0) 0 _
      rw [lit_zero]; exact (Fl.near_fin 0).mono hMη

/-- a corner picked by `near` at depth 0, as computed -/
theorem corner_flat {E : Env (Fl R)} {stl : Models (Fl R)} {n : ℕ} (hn : n ≤ 40) {name : Str} {ms : List (Meta (Fl R))} {sc rot loc file proj ls r kept k p off}
    (F : Framed E stl n name ms sc rot loc file proj ls r kept k p off) {us : List (Tri ℝ)} (hu : List.Forall₂ (Stored (2 ^ n)) file.facets us)
    {η : ℝ} (hη : Fine η) (hm : M3.NearTo rot r η) {v : Vis (Fl R)} (hv : v.rotation = rot) (hp : v.points = proj.points)
    {ds : List (Meta (Fl R))} {nm : Str} {w c : V3 ℝ} (hN : NearOf (K := ℝ) ds nm w) (hw : w.Within (2 ^ n))
    (hc : PointClear (1 / 2 ^ 20) (2 ^ 11 * ((2 ^ n) ^ 2 * η)) r us ds nm c)
    (hz : (w.mulM r).z = 0 ∨ ∀ c', MaySee (1 / 2 ^ 20) r us c' → 2 ^ 11 * ((2 ^ n) ^ 2 * η) < seenDist2 r c' w) (j : Nat) :
    ∃ X Y, pointOf E v j ds nm = some X ∧ V3.NearTo X Y (8 * (2 ^ n * η)) ∧ len3 Y ≤ 7 / 4 * 2 ^ n ∧ Y.z = 0 ∧ Nearby (2 * (2 ^ n * η)) Y.xy (seenAt r c) := by
  have h1 : (1 : ℝ) ≤ 2 ^ n := one_le_pow₀ (by norm_num)
  have hSm : Small ((2 : ℝ) ^ n) := ⟨h1, pow_le_pow_right₀ (by norm_num) hn⟩
  have hW : Wide ((2 : ℝ) ^ n) := ⟨le_trans (by norm_num) h1, pow_le_pow_right₀ (by norm_num) (by omega)⟩
  have hr := F.rotation
  have l : ∀ {b : V3 ℝ}, b.Within (2 ^ n) → len3 (b.mulM r) ≤ 7 / 4 * 2 ^ n := by
    intro b hb
    rw [rot_len hr]
    exact len_within (by linarith) hb
  have nw := mulM_near' (R := R) hR hW hη (v := (w.fin : V3 (Ext ℝ))) ⟨Fl.near_fin _, Fl.near_fin _, Fl.near_fin _⟩ hw hm hr
  have hN' := hN
  obtain ⟨m, l1, l2, g1, g2⟩ := hN
  change look (α := Fl R) ds nm = some m at g1
  change m.val = (MetaVal.pt (Pt.func c!"near" (.val (w.fin : V3 (Ext ℝ)) l1) l2) : MetaVal (Fl R)) at g2
  obtain ⟨vp1, vp2⟩ := view_points hR hn F hu
  have hne : proj.points ≠ [] := by
    rcases hc with hc | ⟨w', h', hmust, -⟩
    · exact (literal_not_near hc hN').elim
    obtain ⟨f', -, t', -, p', -, -, hin⟩ := vp2 c hmust
    intro h0; rw [h0] at hin; cases hin
  have hps : ∀ q ∈ proj.points, ∃ c : V3 ℝ, V3.NearTo q c (10 * (2 ^ n * η)) ∧ c.Within (2 * 2 ^ n) ∧ ((w.mulM r).z = 0 ∨ 2 ^ 11 * ((2 ^ n) ^ 2 * η) < pageDist2 c (w.mulM r)) := by
    intro q hq
    obtain ⟨f, hf, t, ht, hst, hδ, p, hp, a, ha, hpa, rfl⟩ := vp1 q hq
    obtain ⟨-, s2, s3, -⟩ := stored_turned hR hn hη hr hm (F.bd f hf) hst hp hpa
    exact ⟨_, s2, s3, hz.imp id fun h => h a ⟨t, ht, hδ, ha⟩⟩
  have hT := within_len ((l hw).trans (by linarith : 7 / 4 * (2 : ℝ) ^ n ≤ 2 * 2 ^ n))
  obtain ⟨X, hX, -⟩ := near_picks hR hSm hη nw hT hne (fun q hq => (hps q hq).imp fun c h => ⟨h.1, h.2.1⟩) E.junk l1 l2 (E.junk j)
  have hpt : pointOf E v j ds nm = some X := by
    unfold pointOf
    simp only [g1, g2, Pt.rot, hp, hv]
    rw [hX]
    rfl
  obtain ⟨X', c', Y, e1, e2, e3, e4, e5, e6⟩ := point_meant hR hn F hu hη hm hv hp ⟨w, hw, Or.inr hN'⟩ j (by rw [hpt]; simp)
  rw [hpt] at e1
  cases e1
  have hcc := meant_clear e2 hc
  simp only [V2.ext_iff, V3.xy] at hcc
  rw [hcc.1] at e5
  rw [hcc.2] at e6
  refine ⟨X, ⟨Y.x, Y.y, 0⟩, hpt, ⟨e3.1, e3.2.1, near_flat hR hSm hη nw hT hne hps E.junk l1 l2 (E.junk j) X hX⟩, le_trans ?_ e4, rfl, e5, e6⟩
  unfold len3
  apply Real.sqrt_le_sqrt
  have := sq_nonneg Y.z
  simp only
  linarith

/-- a point at depth 0, as computed -/
theorem flat_point {E : Env (Fl R)} {stl : Models (Fl R)} {n : ℕ} (hn : n ≤ 40) {name : Str} {ms : List (Meta (Fl R))} {sc rot loc file proj ls r kept k p off}
    (F : Framed E stl n name ms sc rot loc file proj ls r kept k p off) {us : List (Tri ℝ)} (hu : List.Forall₂ (Stored (2 ^ n)) file.facets us)
    {η : ℝ} (hη : Fine η) (hm : M3.NearTo rot r η) {v : Vis (Fl R)} (hv : v.rotation = rot) (hp : v.points = proj.points)
    {ds : List (Meta (Fl R))} {nm : Str} {m : V2 ℝ} {ε : ℝ} (h : FlatSeen (NamedView ms) r us (2 ^ n) η ds nm m ε) (j : Nat) :
    ∃ X Y, pointOf E v j ds nm = some X ∧ V3.NearTo X Y (8 * (2 ^ n * η)) ∧ len3 Y ≤ 7 / 4 * 2 ^ n ∧ Y.z = 0 ∧ Nearby ε Y.xy m := by
  have h1 : (1 : ℝ) ≤ 2 ^ n := one_le_pow₀ (by norm_num)
  have hM : Wide ((2 : ℝ) ^ n) := ⟨le_trans (by norm_num) h1, pow_le_pow_right₀ (by norm_num) (by omega)⟩
  have hMη : 0 ≤ 8 * ((2 : ℝ) ^ n * η) := mul_nonneg (by norm_num) (mul_nonneg (by linarith) (le_trans (by positivity) hη.lo))
  cases h with
  | point c hc hw hz =>
    refine ⟨_, c.mulM r, literal_rot hc j, ?_, by rw [rot_len F.rotation]; exact len_within (by linarith) hw, hz, by simp [Nearby, seenAt]⟩
    rw [hv]
    exact mulM_near' hR hM hη ⟨Fl.near_fin _, Fl.near_fin _, Fl.near_fin _⟩ hw hm F.rotation
  | corner w c hN hw hc hz => exact corner_flat hR hn F hu hη hm hv hp hN hw hc hz j
  | centre q l l' line m ρ N B A s hl hq hB hs =>
    obtain ⟨t, p0, ps, ht, hps, hrim⟩ := hole_rim hR hn F hu hη hm hq hB hs
    obtain ⟨c, rad, hc, cx, cy, -⟩ := locate_rim hR hrim hps
    have h3 := rim_three hR hrim hps
    obtain ⟨x, hx1, hx2⟩ := cx
    obtain ⟨y, hy1, hy2⟩ := cy
    have hε := rim_small hR hrim
    obtain ⟨mx, my⟩ := hrim.near.2.2 _ (show m ∈ t :: m :: p0 :: ps by simp)
    have hB1 := hrim.near.1
    refine ⟨⟨c.x, c.y, FP.lit 0⟩, ⟨x, y, 0⟩, ?_, ⟨?_, ?_, ?_⟩, ?_, rfl, hx2, hy2⟩
    · have hX : (Pt.func c!"center" (.val (V3.mulM (α := Fl R) (q.fin : V3 (Ext ℝ)) rot) l) l').invoke E.junk proj.points (E.junk j) = (true, ⟨c.x, c.y, FP.lit 0⟩, []) := by
        have hne : (c!"center" : Str) ≠ c!"near" := by decide
        simp only [Pt.invoke, if_neg hne, if_true, if_neg h3, ht, hc]
      unfold pointOf
      rw [hl]
      simp only [Pt.rot, hv, hp]
      rw [hX]
      rfl
    · exact ⟨x, hx1, by simpa using hMη⟩
    · exact ⟨y, hy1, by simpa using hMη⟩
    · rw [lit_zero]; exact (Fl.near_fin 0).mono hMη
    · have bd : ∀ {a b : ℝ}, |a - b| ≤ rimErr N B A (s + 4 * (B * (10 * (2 ^ n * η)))) → |b| ≤ B → |a| ≤ 6 / 5 * 2 ^ n := by
        intro a b h1 h2
        have : |a| ≤ |a - b| + |b| := by simpa using abs_add_le (a - b) b
        linarith
      have b1 := bd hx2 mx
      have b2 := bd hy2 my
      unfold len3
      rw [Real.sqrt_le_left (by positivity)]
      have q1 := sq_le_sq' (neg_le_of_abs_le b1) (le_of_abs_le b1)
      have q2 := sq_le_sq' (neg_le_of_abs_le b2) (le_of_abs_le b2)
      simp only
      nlinarith [sq_nonneg ((2 : ℝ) ^ n)]

/-- a leg, as computed -/
theorem arm_near {E : Env (Fl R)} {stl : Models (Fl R)} {n : ℕ} (hn : n ≤ 40) {name : Str} {ms : List (Meta (Fl R))} {sc rot loc file proj ls r kept k p off}
    (F : Framed E stl n name ms sc rot loc file proj ls r kept k p off) {us : List (Tri ℝ)} (hu : List.Forall₂ (Stored (2 ^ n)) file.facets us)
    {η : ℝ} (hη : Fine η) (hm : M3.NearTo rot r η) {v : Vis (Fl R)} (hv : v.rotation = rot) (hp : v.points = proj.points)
    {ds : List (Meta (Fl R))} {dn pn : Str} {l : Arm} (h : ArmAsks (NamedView ms) r us (2 ^ n) η ds dn pn l) {x : V3 (Fl R)} {X : V3 ℝ}
    (nx : V3.NearTo x X (8 * (2 ^ n * η))) (lx : len3 X ≤ 7 / 4 * 2 ^ n) (hX : X.z = 0) {K : ℝ} (hK : 1 ≤ K) (j : Nat) :
    ∃ N Q P w, legOf E v j x ds dn pn = some (N, Q) ∧ V3.NearTo Q P (8 * (2 ^ n * η)) ∧ len3 P ≤ 7 / 4 * 2 ^ n ∧ l.Goes r X.xy P.xy w ∧
      (l.Long (2 ^ n) K w → K * η ≤ 1 / 2 ^ 24 → w ≠ ⟨0, 0⟩ ∧ V3.NearTo N ((⟨w.x, w.y, 0⟩ : V3 ℝ).sdiv (len3 ⟨w.x, w.y, 0⟩)) (5 * (19 * (K * η)))) := by
  have h1 : (1 : ℝ) ≤ 2 ^ n := one_le_pow₀ (by norm_num)
  have h40 : (2 : ℝ) ^ n ≤ 2 ^ 40 := pow_le_pow_right₀ (by norm_num) hn
  have hM : Wide ((2 : ℝ) ^ n) := ⟨le_trans (by norm_num) h1, pow_le_pow_right₀ (by norm_num) (by omega)⟩
  have hη1 := hη.lo
  have hη0 : 0 < η := lt_of_lt_of_le (by positivity) hη1
  have hKη1 : η ≤ K * η := by nlinarith
  cases l with
  | along u =>
    obtain ⟨hl, ⟨U, hU⟩, hz⟩ := h
    have hlit := literal_rot (E := E) (v := v) hl j
    have wU : Wide U := ⟨hU.2.2.2.2.1, hU.2.2.2.2.2⟩
    have lu := hU.len
    have lu0 : 0 < len3 u := lt_of_lt_of_le (lt_of_lt_of_le (by positivity) wU.lo) lu.1
    have nu := mulM_near' (R := R) hR wU hη (v := (u.fin : V3 (Ext ℝ))) ⟨Fl.near_fin _, Fl.near_fin _, Fl.near_fin _⟩ ⟨hU.1, hU.2.1, hU.2.2.1⟩ hm F.rotation
    obtain ⟨-, nn⟩ := unit_near hR wU hη nu (by rw [rot_len F.rotation]; exact lu.1) (by rw [rot_len F.rotation]; exact lu.2)
    have e : (⟨(seenAt r u).x, (seenAt r u).y, 0⟩ : V3 ℝ) = u.mulM r := by
      ext
      · rfl
      · rfl
      · exact hz.symm
    obtain ⟨m, l0, g1, g2⟩ := hl
    change look (α := Fl R) ds dn = some m at g1
    refine ⟨_, x, X, seenAt r u, by unfold legOf; rw [g1]; simp only [hlit]; rfl, nx, lx, ⟨rfl, rfl⟩, fun _ _ => ⟨?_, ?_⟩⟩
    · intro h0
      rw [h0] at e
      have := rot_len F.rotation u
      rw [← e] at this
      rw [← this] at lu0
      simp [len3] at lu0
    · rw [e, hv]
      exact nn.mono (by linarith)
  | through p' ε =>
    obtain ⟨hnone, hflat⟩ := h
    obtain ⟨Q, Y, pq, nq, lq, hqz, hnear⟩ := flat_point hR (E := E) hn F hu hη hm hv hp hflat (j + 1)
    refine ⟨_, Q, Y, Y.xy - X.xy, by unfold legOf; rw [hnone]; simp only [pq]; rfl, nq, lq, ⟨hnear, rfl⟩, fun hlong hKη => ?_⟩
    have e : (⟨(Y.xy - X.xy).x, (Y.xy - X.xy).y, 0⟩ : V3 ℝ) = Y - X := by
      ext
      · rfl
      · rfl
      · show (0 : ℝ) = Y.z - X.z
        rw [hqz, hX]; norm_num
    have el : (Y.xy - X.xy).len = len3 (Y - X) := by
      rw [← e]
      simp [V2.len, len3]
    change (2 : ℝ) ^ n ≤ K * (Y.xy - X.xy).len at hlong
    rw [el] at hlong
    rw [e]
    have hL0 : 0 ≤ len3 (Y - X) := Real.sqrt_nonneg _
    have hK26 : K ≤ 2 ^ 26 := by
      have : K * (1 / 2 ^ 50) ≤ K * η := mul_le_mul_of_nonneg_left hη1 (by linarith)
      norm_num at this hKη ⊢
      linarith
    have hlo : 1 / 2 ^ 40 ≤ len3 (Y - X) := by
      have := mul_le_mul_of_nonneg_right hK26 hL0
      norm_num at this ⊢
      linarith
    have hhi : len3 (Y - X) ≤ 2 ^ 200 := by
      have := len3_tri Y X
      have : (2 : ℝ) ^ 43 ≤ 2 ^ 200 := pow_le_pow_right₀ (by norm_num) (by norm_num)
      norm_num at h40 this ⊢
      linarith
    have wq := within_len lq
    have wx := within_len lx
    have g1 : (2 : ℝ) ^ n * (1 / 1125899906842624) ≤ 2 ^ n * η := mul_le_mul_of_nonneg_left (by norm_num at hη1 ⊢; linarith) (by linarith)
    have g2 : (2 : ℝ) ^ n * η ≤ 2 ^ n * (1 / 1099511627776) := mul_le_mul_of_nonneg_left (by have := hη.hi; norm_num at this ⊢; linarith) (by linarith)
    have one : ∀ {x y : Fl R} {b c : ℝ}, Fl.Near x b (8 * (2 ^ n * η)) → Fl.Near y c (8 * (2 ^ n * η)) → |b| ≤ 7 / 4 * 2 ^ n → |c| ≤ 7 / 4 * 2 ^ n →
        Fl.Near (x - y) (b - c) (19 * (2 ^ n * η)) := by
      intro x y b c h1 h2 h3 h4
      have := abs_sub b c
      exact (h1.sub hR h2 (S := 4 * 2 ^ n) (by linarith) (hM.bot (by linarith)) (hM.top (by linarith))).mono (by norm_num; linarith)
    have nd : V3.NearTo (Q - x) (Y - X) (19 * (2 ^ n * η)) :=
      ⟨one nq.1 nx.1 wq.1 wx.1, one nq.2.1 nx.2.1 wq.2.1 wx.2.1, one nq.2.2 nx.2.2 wq.2.2 wx.2.2⟩
    have mono : 19 * (2 ^ n * η) ≤ len3 (Y - X) * (19 * (K * η)) := by
      have := mul_le_mul_of_nonneg_right hlong hη0.le
      nlinarith
    obtain ⟨-, kk⟩ := unit_near2 hR (U := len3 (Y - X)) (δ := 19 * (K * η)) ⟨hlo, hhi⟩ (by norm_num at hη1 ⊢; linarith) (by norm_num at hKη ⊢; linarith) (nd.mono mono)
      le_rfl (by linarith)
    refine ⟨?_, kk.mono (by norm_num at hη1 ⊢; linarith)⟩
    intro h0
    have : (Y.xy - X.xy).len = 0 := by rw [h0]; simp [V2.len]
    rw [el] at this
    rw [this] at hlo
    norm_num at hlo

/-- one angle -/
theorem turn_meant {E : Env (Fl R)} {stl : Models (Fl R)} {n : ℕ} (hn : n ≤ 40) {name : Str} {ms : List (Meta (Fl R))} {sc rot loc file proj ls r kept k p off}
    (F : Framed E stl n name ms sc rot loc file proj ls r kept k p off) {us : List (Tri ℝ)} (hus : List.Forall₂ (Stored (2 ^ n)) file.facets us)
    {η : ℝ} (hη : Fine η) (hm : M3.NearTo rot r η) (hk1 : 1 / 2 ^ 40 ≤ k) (hne : kept ≠ [])
    {v : Vis (Fl R)} (hv : v.rotation = rot) (hp : v.points = proj.points) (hvs : v.scale = projScale sc)
    (hvd : v.d = projOffset loc proj.limits (projScale sc)) (hj : v.rotation.eqv E.junkM = false)
    {d : DimN (Fl R)} {g : Fl R → Str} {a : V3 ℝ} {x : V2 ℝ} {εx : ℝ} {l l' : Arm} {K : ℝ} (h : TurnAsks E (NamedView ms) r us (2 ^ n) η d g a x εx l l' K) :
    ∃ P L, dimContent E v d = .ok (true, P, L) ∧ TurnDone (2 ^ n) η r k p off g a x εx l l' K P := by
  have h1 : (1 : ℝ) ≤ 2 ^ n := one_le_pow₀ (by norm_num)
  have hM : Wide ((2 : ℝ) ^ n) := ⟨le_trans (by norm_num) h1, pow_le_pow_right₀ (by norm_num) (by omega)⟩
  have pa := literal_rot (E := E) (v := v) h.label 0
  rw [hv] at pa
  have na := mulM_near' (R := R) hR hM hη (v := (a.fin : V3 (Ext ℝ))) ⟨Fl.near_fin _, Fl.near_fin _, Fl.near_fin _⟩ h.within hm F.rotation
  have la : len3 (a.mulM r) ≤ 7 / 4 * 2 ^ n := by rw [rot_len F.rotation]; exact len_within (by linarith) h.within
  obtain ⟨X, X', px, nx, lx, xz, hx⟩ := flat_point hR (E := E) hn F hus hη hm hv hp h.apex 1
  obtain ⟨N, Q, P, w, e1, nq, lq, go1, n1⟩ := arm_near hR (E := E) hn F hus hη hm hv hp h.from_ nx lx xz h.size 2
  obtain ⟨N', Q', P', w', e2, nq', lq', go2, n2⟩ := arm_near hR (E := E) hn F hus hη hm hv hp h.to_ nx lx xz h.size 4
  obtain ⟨long1, long2, hwide⟩ := h.wide _ _ _ _ _ hx go1 go2
  have hKη : K * η ≤ 1 / 2 ^ 24 := by
    have := Real.sin_le_one (angle2 w w')
    have := Real.neg_one_le_sin (angle2 w w')
    have : Real.sin (angle2 w w') ^ 2 ≤ 1 := by nlinarith
    norm_num at hwide ⊢
    linarith
  obtain ⟨w0, k1⟩ := n1 long1 hKη
  obtain ⟨w0', k2⟩ := n2 long2 hKη
  obtain ⟨b, L, eq, htext, hink⟩ := angle_core hR hn F hη hk1 hne hvs hvd hj h.kind h.good h.fmt pa px e1 e2 na nx nq nq' la lx lq lq' h.size w0 w0' k1 k2 hwide
  refine ⟨b, L, eq, X'.xy, P.xy, w, P'.xy, w', hx, go1, go2, htext, ?_⟩
  have e3 : (⟨X'.xy.x, X'.xy.y, 0⟩ : V3 ℝ) = X' := by
    ext
    · rfl
    · rfl
    · exact xz.symm
  rw [e3]
  exact hink

end
end S2P
