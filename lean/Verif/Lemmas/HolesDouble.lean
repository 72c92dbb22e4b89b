import Verif.Spec.HolesDouble
import Verif.Lemmas.LocateNear
import Verif.Props.NearDouble

set_option linter.unusedSectionVars false
set_option linter.unusedVariables false
set_option linter.unusedSimpArgs false

/-! # Centres of rims as points of a linear dimension, in double arithmetic -/

namespace S2P

section
variable {R : Rounding} (hR : R.Accurate)
include hR

/-- at a clear rim there are three points -/
theorem rim_three {p0 : V2 ℝ} {ps : List (V2 ℝ)} {t m : V2 ℝ} {r : ℝ} {N : ℕ} {M A η : ℝ} (h : RimAt p0 ps t m r N M A η) {pts : List (V3 (Fl R))}
    (hpts : pts.map V3.xy = (p0 :: ps).map (V2.toFl R)) : ¬ pts.length < 3 := by
  intro h3
  obtain ⟨x, y, z, -, hxy, hxz, hyz, hm⟩ := fetch_rim hR h
  have hsub : [x, y, z] ⊆ p0 :: ps := fun e he => (hm e he).1
  have h1 := (List.subperm_of_subset (by simp [hxy, hxz, hyz]) hsub).length_le
  have h2 := congrArg List.length hpts
  rw [List.length_map, List.length_map] at h2
  simp only [List.length_cons, List.length_nil] at h1 h2
  omega

/-- the error of the centre is small against the radius -/
theorem rim_small {p0 : V2 ℝ} {ps : List (V2 ℝ)} {t m : V2 ℝ} {r : ℝ} {N : ℕ} {M A η : ℝ} (h : RimAt p0 ps t m r N M A η) : rimErr N M A η ≤ M / 2000 := by
  have h1 := h.cond
  obtain ⟨m1, -, -⟩ := h.near
  obtain ⟨r1, r2⟩ := h.rad
  rw [le_div_iff₀ (by norm_num)]
  have : r ^ 2 ≤ M * M := by nlinarith
  nlinarith

/-- the value of a point of this kind -/
theorem spot_point {E : Env (Fl R)} {stl : Models (Fl R)} {n : ℕ} (hn : n ≤ 40) {name : Str} {ms : List (Meta (Fl R))} {sc rot loc file proj ls r kept k p off}
    (F : Framed E stl n name ms sc rot loc file proj ls r kept k p off) {us : List (Tri ℝ)} (hu : List.Forall₂ (Stored (2 ^ n)) file.facets us)
    {η : ℝ} (hη : Fine η) (hm : M3.NearTo rot r η) {v : Vis (Fl R)} (hv : v.rotation = rot) (hp : v.points = proj.points)
    {ds : List (Meta (Fl R))} {nm : Str} {s : V2 ℝ} {ε : ℝ} (hA : SeenSpot rot r us proj.points (2 ^ n) η ds nm s ε) (j : Nat) :
    ∃ X Y, pointOf E v j ds nm = some X ∧ V3.NearTo X Y (8 * (2 ^ n * η)) ∧ len3 Y ≤ 7 / 4 * 2 ^ n ∧ |Y.x - s.x| ≤ ε ∧ |Y.y - s.y| ≤ ε := by
  have h1 : (1 : ℝ) ≤ 2 ^ n := one_le_pow₀ (by norm_num)
  have hMη : 0 ≤ 8 * ((2 : ℝ) ^ n * η) := mul_nonneg (by norm_num) (mul_nonneg (by linarith) (le_trans (by positivity) hη.lo))
  cases hA with
  | corner c ha hc =>
    have hsome : pointOf E v j ds nm ≠ none := by
      obtain ⟨w, hw, h | h⟩ := ha
      · rw [literal_rot h j]; simp
      · rcases hc with hc | ⟨w', h', hmust, -⟩
        · exact (literal_not_near hc h).elim
        obtain ⟨f', -, t', -, p', -, -, hin⟩ := (view_points hR hn F hu).2 c hmust
        obtain ⟨m, l1, l2, g1, g2⟩ := h
        change look (α := Fl R) ds nm = some m at g1
        change m.val = (MetaVal.pt (Pt.func c!"near" (.val (w.fin : V3 (Ext ℝ)) l1) l2) : MetaVal (Fl R)) at g2
        have hne : proj.points ≠ [] := by intro h0; rw [h0] at hin; cases hin
        have hi : ∀ ret, ∃ X, (Pt.func c!"near" (.val (V3.mulM (α := Fl R) (w.fin : V3 (Ext ℝ)) v.rotation) l1) l2).invoke E.junk proj.points ret = (true, X, []) := by
          intro ret
          have hemp : proj.points.isEmpty = false := by cases hq : proj.points <;> simp_all
          simp only [Pt.invoke, hemp, if_true, Bool.false_eq_true, if_false]
          split <;> exact ⟨_, rfl⟩
        obtain ⟨X, hX⟩ := hi (E.junk j)
        unfold pointOf
        simp only [g1, g2, Pt.rot, hp]
        rw [hX]
        simp
    obtain ⟨X, c', Y, e1, e2, e3, e4, e5, e6⟩ := point_meant hR hn F hu hη hm hv hp ha j hsome
    have := meant_clear e2 hc
    simp only [V2.ext_iff, V3.xy] at this
    rw [this.1] at e5
    rw [this.2] at e6
    exact ⟨X, Y, e1, e3, e4, e5, e6⟩
  | centre q l l' line t p0 ps m ρ N B A s' hl ht hps hrim hB =>
    obtain ⟨c, rad, hc, cx, cy, -⟩ := locate_rim hR hrim hps
    have h3 := rim_three hR hrim hps
    obtain ⟨x, hx1, hx2⟩ := cx
    obtain ⟨y, hy1, hy2⟩ := cy
    have hε := rim_small hR hrim
    obtain ⟨mx, my⟩ := hrim.near.2.2 _ (show s ∈ t :: s :: p0 :: ps by simp)
    have hB1 := hrim.near.1
    refine ⟨⟨c.x, c.y, FP.lit 0⟩, ⟨x, y, 0⟩, ?_, ⟨?_, ?_, ?_⟩, ?_, hx2, hy2⟩
    · have hX : (Pt.func c!"center" (.val (q.mulM rot) l) l').invoke E.junk proj.points (E.junk j) = (true, ⟨c.x, c.y, FP.lit 0⟩, []) := by
        have hne : (c!"center" : Str) ≠ c!"near" := by decide
        simp only [Pt.invoke, if_neg hne, if_true, if_neg h3, ht, hc]
      unfold pointOf
      rw [hl]
      simp only [Pt.rot, hv, hp]
      rw [hX]
      rfl
    · exact ⟨x, hx1, by simpa using hMη⟩
    · exact ⟨y, hy1, by simpa using hMη⟩
    · rw [lit_zero]; exact (Fl.near_fin 0).mono hMη
    · have bd : ∀ {a b : ℝ}, |a - b| ≤ rimErr N B A s' → |b| ≤ B → |a| ≤ 6 / 5 * 2 ^ n := by
        intro a b h1 h2
        have : |a| ≤ |a - b| + |b| := by simpa using abs_add_le (a - b) b
        linarith
      have b1 := bd hx2 mx
      have b2 := bd hy2 my
      unfold len3
      rw [Real.sqrt_le_left (by positivity)]
      have q1 := sq_le_sq' (neg_le_of_abs_le b1) (le_of_abs_le b1)
      have q2 := sq_le_sq' (neg_le_of_abs_le b2) (le_of_abs_le b2)
      simp only
      nlinarith [sq_nonneg ((2 : ℝ) ^ n)]

end
end S2P
