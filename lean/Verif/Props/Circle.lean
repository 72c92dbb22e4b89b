import Verif.Lemmas.Circle
import Verif.Model.Page

/-! # Point searches and circle fitting: C08 to C13 -/

set_option linter.unusedSectionVars false
set_option linter.unusedVariables false

namespace S2P

/-! ## C08 -/

section
variable {α : Type} [FP α]

/-- C08 [any FP]: on a non-empty point set `near(p)` succeeds exactly when `p` does, with the same diagnostics. -/
theorem C08_succeeds (junk : Nat → V3 α) (ps : List (V3 α)) (arg : Pt α) (line : Nat) (ret : V3 α) (hne : ps ≠ []) :
    ((Pt.func c!"near" arg line).invoke junk ps ret).1 = (arg.invoke (fun n => junk (n + 1)) ps (junk 0)).1 ∧
    ((Pt.func c!"near" arg line).invoke junk ps ret).2.2 = (arg.invoke (fun n => junk (n + 1)) ps (junk 0)).2.2 := by
  obtain ⟨⟨b, t, ds⟩, h⟩ : ∃ r, arg.invoke (fun n => junk (n + 1)) ps (junk 0) = r := ⟨_, rfl⟩
  rw [h]
  cases b with
  | true => rw [near_unfold junk ps arg line ret t ds hne h]; exact ⟨rfl, rfl⟩
  | false =>
    have hb : ps.isEmpty = false := by cases ps <;> simp_all
    simp only [Pt.invoke, if_true, hb, Bool.false_eq_true, if_false, h]
    exact ⟨trivial, trivial⟩

/-- C08 [IEEE comparisons]: with rounding, the result minimises the computed distance, provided some computed distance is below the
largest double. -/
theorem C08_rounded [FPOrd α] (junk : Nat → V3 α) (ps : List (V3 α)) (arg : Pt α) (line : Nat) (ret t : V3 α) (ds : List Diag)
    (h : arg.invoke (fun n => junk (n + 1)) ps (junk 0) = (true, t, ds))
    (hok : ∀ q ∈ ps, FP.Ok (((⟨t.x, t.y, FP.lit 0⟩ : V3 α) - ⟨q.x, q.y, FP.lit 0⟩).sqNorm))
    (hmax : ∃ q ∈ ps, FP.lt (((⟨t.x, t.y, FP.lit 0⟩ : V3 α) - ⟨q.x, q.y, FP.lit 0⟩).sqNorm) FP.dblMax = true) :
    ∃ r, (Pt.func c!"near" arg line).invoke junk ps ret = (true, r, ds) ∧
      (r = t ∨ ∃ q ∈ ps, r = ⟨q.x, q.y, FP.lit 0⟩ ∧ ∀ q' ∈ ps,
        FP.lt (((⟨t.x, t.y, FP.lit 0⟩ : V3 α) - ⟨q'.x, q'.y, FP.lit 0⟩).sqNorm)
          (((⟨t.x, t.y, FP.lit 0⟩ : V3 α) - ⟨q.x, q.y, FP.lit 0⟩).sqNorm) = false) := by
  obtain ⟨q0, hq0, hlt⟩ := hmax
  have hne : ps ≠ [] := by rintro rfl; cases hq0
  rw [near_unfold junk ps arg line ret t ds hne h]
  refine ⟨_, rfl, ?_⟩
  split_ifs with hm
  · exact Or.inl rfl
  · right
    rcases nearLoop_spec ⟨t.x, t.y, FP.lit 0⟩ ps FP.dblMax ret hok with ⟨_, h2⟩ | ⟨q, hq, h1, _, h3⟩
    · have := h2 q0 hq0
      unfold nearDist at this
      rw [hlt] at this; cases this
    · exact ⟨q, hq, h1, h3⟩
end

section
variable {K : Type} [Field K] [LinearOrder K] [IsStrictOrderedRing K] [FloorRing K] [Trans K]

/-- C08 [exact arithmetic]: on a non-empty set of finite vertices, when the argument evaluates to `t`, `near` succeeds with `t` if it is
a vertex, and otherwise with the page projection of a vertex at minimal page distance from `t`. -/
theorem C08_near (junk : Nat → V3 (Ext K)) (qs : List (V3 K)) (arg : Pt (Ext K)) (line : Nat) (ret : V3 (Ext K)) (t : V3 K)
    (ds : List Diag) (hne : qs ≠ [])
    (h : arg.invoke (fun n => junk (n + 1)) (qs.map V3.fin) (junk 0) = (true, t.fin, ds)) :
    ∃ r : V3 K, (Pt.func c!"near" arg line).invoke junk (qs.map V3.fin) ret = (true, r.fin, ds) ∧ NearResult qs t r := by
  rw [near_unfold junk _ arg line ret t.fin ds (by simpa using hne) h]
  by_cases hm : setMem (qs.map V3.fin) t.fin = true
  · rw [if_pos hm]
    have := (setMem_fin qs t).mp hm
    exact ⟨t, rfl, fun _ => rfl, fun hc => absurd this hc⟩
  · rw [if_neg hm]
    have hm' : t ∉ qs := fun hc => hm ((setMem_fin qs t).mpr hc)
    rcases nearLoop_spec (⟨Ext.fin t.x, Ext.fin t.y, FP.lit 0⟩ : V3 (Ext K)) (qs.map V3.fin) FP.dblMax ret (by
      intro q hq
      obtain ⟨q, _, rfl⟩ := List.mem_map.mp hq
      rw [nearDist_fin]; exact Ext.ok_fin _) with ⟨_, h2⟩ | ⟨q, hq, h1, _, h3⟩
    · exfalso
      obtain ⟨q, hq⟩ := List.exists_mem_of_ne_nil qs hne
      have := h2 q.fin (List.mem_map.mpr ⟨q, hq, rfl⟩)
      rw [nearDist_fin] at this
      exact absurd this (by simp [FP.lt, FP.dblMax, Ext.lt])
    · obtain ⟨q, hq', rfl⟩ := List.mem_map.mp hq
      refine ⟨⟨q.x, q.y, 0⟩, ?_, fun hc => absurd hc hm', fun _ => ⟨q, hq', rfl, ?_⟩⟩
      · simp only [V3.fin_x, V3.fin_y] at h1 ⊢
        rw [h1]
        simp [V3.map]
      · intro q' hq'
        have := h3 q'.fin (List.mem_map.mpr ⟨q', hq', rfl⟩)
        rw [nearDist_fin, nearDist_fin] at this
        simpa using this

end

/-- the hypotheses of `C08_near` hold, and the second case occurs: the vertex (3,0,7) is nearest to (2,1,0) -/
example : ((Pt.func c!"near" (.val (V3.fin ⟨2, 1, 0⟩) 1) 1).invoke (fun _ => V3.zero) (([⟨0, 0, 0⟩, ⟨3, 0, 7⟩] : List (V3 ℚ)).map V3.fin)
    V3.zero) = (true, V3.fin ⟨3, 0, 0⟩, []) := by decide +kernel
/-- and the first: a vertex is returned as it is, with its depth -/
example : ((Pt.func c!"near" (.val (V3.fin ⟨3, 0, 7⟩) 1) 1).invoke (fun _ => V3.zero) (([⟨0, 0, 0⟩, ⟨3, 0, 7⟩] : List (V3 ℚ)).map V3.fin)
    V3.zero) = (true, V3.fin ⟨3, 0, 7⟩, []) := by decide +kernel
/-- an empty set fails -/
example : ((Pt.func c!"near" (.val (V3.fin ⟨3, 0, 7⟩) 1) 1).invoke (fun _ => V3.zero) ([] : List (V3 (Ext ℚ))) V3.zero).1 = false := by
  decide +kernel

/-! ## C09 -/

section
variable {α : Type} [FP α] [FPOrd α]

/-- C09, the true part [IEEE comparisons, distances not NaN]: at most `count` of the given points are returned, in order of distance,
and every given point is returned, or is not closer than any returned point, or is a near-duplicate of a returned point (same distance
from the target, closer to it than a tenth of that).  Missing from the claim: that `count` points are returned whenever there are so many
(`C09_false`). -/
theorem C09_closest_partial (ps : List (V2 α)) (count : Int) (hc : 1 ≤ count) (tgt : V2 α)
    (hok : ∀ q ∈ ps, FP.Ok (q - tgt).sqNorm) :
    ((closest ps count tgt).length : Int) ≤ count ∧
    (closest ps count tgt).Subperm ps ∧
    (closest ps count tgt).Pairwise (fun a b => FP.lt (b - tgt).sqNorm (a - tgt).sqNorm = false) ∧
    (∀ p ∈ ps, p ∈ closest ps count tgt ∨
      (∀ q ∈ closest ps count tgt, FP.lt (p - tgt).sqNorm (q - tgt).sqNorm = false) ∨
      ∃ e ∈ closest ps count tgt, FP.lt (e - tgt).sqNorm (p - tgt).sqNorm = false ∧ FP.lt (p - tgt).sqNorm (e - tgt).sqNorm = false ∧
        FP.lt (p - e).sqNorm ((p - tgt).sqNorm * FP.lit (1 / 100)) = true) := by
  have inv := cinv_closest count.toNat (by omega) tgt ps hok
  have e : closest ps count tgt = (ps.foldl (closestStep count.toNat tgt) []).map (·.2) := by
    unfold closest; rw [if_neg (by omega)]
  rw [e]
  obtain ⟨c, hceq⟩ : ∃ c, ps.foldl (closestStep count.toNat tgt) [] = c := ⟨_, rfl⟩
  rw [hceq] at inv ⊢
  refine ⟨?_, inv.sub, ?_, ?_⟩
  · have := inv.len
    simp; omega
  · rw [List.pairwise_map]
    refine inv.sorted.imp_of_mem ?_
    intro a b ha hb h
    rw [inv.keyed a ha, inv.keyed b hb] at h
    exact h
  · intro p hp
    rcases inv.omitted p hp with h | h | ⟨x, hx, h⟩
    · exact Or.inl h
    · right; left
      intro q hq
      obtain ⟨x, hx, rfl⟩ := List.mem_map.mp hq
      have := h x hx
      rw [inv.keyed x hx] at this
      exact this
    · right; right
      refine ⟨x.2, List.mem_map.mpr ⟨x, hx, rfl⟩, ?_⟩
      unfold nearDup cDist at h
      simp only [Bool.and_eq_true, Bool.not_eq_true'] at h
      exact ⟨h.1.1, h.1.2, h.2⟩

/-- C09 [IEEE comparisons]: the first point returned is a nearest one, and one is returned when any is given. -/
theorem C09_nearest_partial (ps : List (V2 α)) (count : Int) (hc : 1 ≤ count) (tgt : V2 α) (hne : ps ≠ [])
    (hok : ∀ q ∈ ps, FP.Ok (q - tgt).sqNorm) :
    ∃ p, (closest ps count tgt).head? = some p ∧ p ∈ ps ∧ ∀ q ∈ ps, FP.lt (q - tgt).sqNorm (p - tgt).sqNorm = false := by
  obtain ⟨h1, h2, h3, h4⟩ := C09_closest_partial ps count hc tgt hok
  have inv := cinv_closest count.toNat (by omega) tgt ps hok
  have e : closest ps count tgt = (ps.foldl (closestStep count.toNat tgt) []).map (·.2) := by
    unfold closest; rw [if_neg (by omega)]
  have hcne : closest ps count tgt ≠ [] := by rw [e]; simpa using inv.some hne
  obtain ⟨L, hL⟩ : ∃ L, closest ps count tgt = L := ⟨_, rfl⟩
  rw [hL] at h2 h3 h4 hcne ⊢
  match L, hcne with
  | p :: L, _ =>
    refine ⟨p, rfl, h2.subset (by simp), ?_⟩
    intro q hq
    rw [List.pairwise_cons] at h3
    rcases h4 q hq with h | h | ⟨x, hx, h, h', _⟩
    · rcases List.mem_cons.mp h with rfl | h
      · exact FPOrd.lt_irrefl _
      · exact h3.1 q h
    · exact h p (by simp)
    · rcases List.mem_cons.mp hx with rfl | hx
      · exact h'
      · exact FP.not_lt_trans (hok x (h2.subset (by simp [hx]))) (h3.1 x hx) h'

/-- C09, how many are returned [IEEE comparisons]: with no near-duplicates, `count` points or all the points that are not farther than
the FIRST point of the list, whichever is less. -/
theorem C09_count_partial (p0 : V2 α) (rest : List (V2 α)) (count : Int) (hc : 1 ≤ count) (tgt : V2 α)
    (hok : ∀ q ∈ p0 :: rest, FP.Ok (q - tgt).sqNorm)
    (hnd : (p0 :: rest).Pairwise (fun a b => ¬ (FP.lt (a - tgt).sqNorm (b - tgt).sqNorm = false ∧
      FP.lt (b - tgt).sqNorm (a - tgt).sqNorm = false ∧ FP.lt (b - a).sqNorm ((b - tgt).sqNorm * FP.lit (1 / 100)) = true))) :
    ((closest (p0 :: rest) count tgt).length : Int) =
      min count ((p0 :: rest).countP (fun p => !FP.lt (p0 - tgt).sqNorm (p - tgt).sqNorm)) := by
  have n := ninv_closest count.toNat (by omega) tgt p0 rest hok (hnd.imp (by
    intro a b h
    unfold nearDup cDist
    by_contra hc
    simp only [Bool.not_eq_false, Bool.and_eq_true, Bool.not_eq_true'] at hc
    exact h ⟨hc.1.1, hc.1.2, hc.2⟩))
  have e : closest (p0 :: rest) count tgt = ((p0 :: rest).foldl (closestStep count.toNat tgt) []).map (·.2) := by
    unfold closest; rw [if_neg (by omega)]
  have := n.len
  rw [e, List.length_map, this]
  unfold cDist
  omega

end

/-- C09 as stated is false: asked for the 3 closest of (1,0), (2,0), (0,3), the search returns only (1,0), because the first point offered
already makes every later one "too far". -/
theorem C09_false : closest (([⟨1, 0⟩, ⟨2, 0⟩, ⟨0, 3⟩] : List (V2 ℚ)).map V2.fin) 3 (V2.fin ⟨0, 0⟩) = [V2.fin ⟨1, 0⟩] := by
  decide +kernel

/-- offered in the opposite order all three are returned -/
example : closest (([⟨0, 3⟩, ⟨2, 0⟩, ⟨1, 0⟩] : List (V2 ℚ)).map V2.fin) 3 (V2.fin ⟨0, 0⟩) =
    ([⟨1, 0⟩, ⟨2, 0⟩, ⟨0, 3⟩] : List (V2 ℚ)).map V2.fin := by decide +kernel
/-- hypotheses of the theorems above on that list -/
example : ∀ q ∈ ([⟨0, 3⟩, ⟨2, 0⟩, ⟨1, 0⟩] : List (V2 ℚ)).map V2.fin, FP.Ok (q - V2.fin ⟨0, 0⟩).sqNorm := by
  intro q hq
  obtain ⟨x, _, rfl⟩ := List.mem_map.mp hq
  rw [V2.fin_sub, V2.fin_sqNorm]; exact Ext.ok_fin _

example : (([⟨0, 3⟩, ⟨2, 0⟩, ⟨1, 0⟩] : List (V2 ℚ)).map V2.fin).Pairwise (fun a b =>
    ¬ (FP.lt (a - V2.fin ⟨0, 0⟩).sqNorm (b - V2.fin ⟨0, 0⟩).sqNorm = false ∧
      FP.lt (b - V2.fin ⟨0, 0⟩).sqNorm (a - V2.fin ⟨0, 0⟩).sqNorm = false ∧
      FP.lt (b - a).sqNorm ((b - V2.fin ⟨0, 0⟩).sqNorm * FP.lit (1 / 100)) = true)) := by decide +kernel

/-! ## C10 -/

/-- C10 [exact arithmetic over ℝ]: the filter keeps exactly the points at a distance strictly between the bounds, in order and with
multiplicity.  When `mx < 0` or `mx < mn` the right-hand side is empty, see `C10_none`. -/
theorem C10_between (ps : List (V2 ℝ)) (mn mx : ℝ) (h0 : 0 ≤ mn) (c : V2 ℝ) :
    between (ps.map V2.fin) (Ext.fin mn) (Ext.fin mx) c.fin =
      (ps.filter (fun p => decide (mn < dist p c ∧ dist p c < mx))).map V2.fin := between_fin ps mn mx h0 c

/-- C10 [any FP]: nothing is returned for a negative or reversed interval. -/
theorem C10_none {α : Type} [FP α] (ps : List (V2 α)) (mn mx : α) (c : V2 α) (h : FP.lt mx (FP.lit 0) = true ∨ FP.lt mx mn = true) :
    between ps mn mx c = [] := by
  unfold between
  rw [if_pos (by simpa using h)]

example : between (([⟨3, 4⟩, ⟨1, 0⟩, ⟨0, 6⟩, ⟨3, 4⟩, ⟨5, 0⟩, ⟨4, 0⟩] : List (V2 ℚ)).map V2.fin) (Ext.fin 4) (Ext.fin 6) (V2.fin ⟨0, 0⟩) =
    ([⟨3, 4⟩, ⟨3, 4⟩, ⟨5, 0⟩] : List (V2 ℚ)).map V2.fin := by decide +kernel

/-! ## C11 -/

/-- C11 [exact arithmetic over ℝ]: points not all on one line that lie on a circle of radius `r` are fitted by exactly that circle. -/
theorem C11_exact (ps : List (V2 ℝ)) (c : V2 ℝ) (r : ℝ) (h : ∀ p ∈ ps, dist p c = r) (hl : ¬ OnOneLine ps) :
    findCircle (ps.map V2.fin) = some (c.fin, Ext.fin r) := by
  have hne : ps ≠ [] := by rintro rfl; exact hl (onOneLine_short _ (by simp))
  obtain ⟨p0, hp0⟩ := List.exists_mem_of_ne_nil ps hne
  have hr : 0 ≤ r := by rw [← h p0 hp0]; exact Real.sqrt_nonneg _
  have hf : IsFit ps c (r ^ 2) := isFit_circle ps c (r ^ 2) (fun p hp => by
    rw [← h p hp, dist, Real.sq_sqrt (dist2_nonneg _ _)])
  obtain ⟨h1, h2⟩ := isFit_unique ps hl c (r ^ 2) hf
  rw [findCircle_fin ps hl, ← h1, ← h2, Real.sqrt_sq hr]

/-- C11 [any FP]: fewer than three points are reported as failure, three or more are not. -/
theorem C11_few {α : Type} [FP α] (ps : List (V2 α)) : findCircle ps = none ↔ ps.length < 3 := by
  unfold findCircle
  split_ifs with h <;> simp [h]

/-- not all on one line, on the circle of radius 5 around (1, 1) -/
theorem circle_example : (∀ p ∈ ([⟨6, 1⟩, ⟨1, 6⟩, ⟨4, 5⟩, ⟨-4, 1⟩] : List (V2 ℝ)), dist p ⟨1, 1⟩ = 5) ∧
    ¬ OnOneLine ([⟨6, 1⟩, ⟨1, 6⟩, ⟨4, 5⟩, ⟨-4, 1⟩] : List (V2 ℝ)) := by
  constructor
  · intro p hp
    have h5 : Real.sqrt 25 = 5 := by
      rw [show (25 : ℝ) = 5 ^ 2 by norm_num]; exact Real.sqrt_sq (by norm_num)
    simp only [List.mem_cons, List.not_mem_nil, or_false] at hp
    rcases hp with rfl | rfl | rfl | rfl <;> unfold dist dist2 <;> norm_num <;> exact h5
  · rintro ⟨a, b, c, hab, h⟩
    have h1 := h ⟨6, 1⟩ (by simp)
    have h2 := h ⟨1, 6⟩ (by simp)
    have h3 := h ⟨-4, 1⟩ (by simp)
    simp only at h1 h2 h3
    rcases hab with h0 | h0 <;> apply h0 <;> linarith

example : findCircle (([⟨6, 1⟩, ⟨1, 6⟩, ⟨4, 5⟩, ⟨-4, 1⟩] : List (V2 ℝ)).map V2.fin) = some (V2.fin ⟨1, 1⟩, Ext.fin 5) :=
  C11_exact _ _ _ circle_example.1 circle_example.2

/-! ## C12 -/

/-- C12 [exact arithmetic over ℝ]: for points not all on one line the fit is the unique minimiser of the sum of squared algebraic
residuals, its radius is positive and the squared radius is the mean squared distance to the centre. -/
theorem C12_least_squares (ps : List (V2 ℝ)) (hl : ¬ OnOneLine ps) :
    ∃ (c : V2 ℝ) (r : ℝ), findCircle (ps.map V2.fin) = some (c.fin, Ext.fin r) ∧ 0 < r ∧
      (∀ c' s', cost ps c (r ^ 2) ≤ cost ps c' s') ∧
      (∀ c' s', cost ps c' s' ≤ cost ps c (r ^ 2) → c' = c ∧ s' = r ^ 2) ∧
      r ^ 2 = (ps.map (fun p => dist p c ^ 2)).sum / ps.length := by
  have hf := fit_isFit ps hl
  have hp := fit_pos ps hl
  have hsq : Real.sqrt (fitS ps) ^ 2 = fitS ps := Real.sq_sqrt hp.le
  have hlen : (0 : ℝ) < ps.length := by
    have : ¬ ps.length < 3 := fun hc => hl (onOneLine_short ps hc)
    exact_mod_cast (show 0 < ps.length by omega)
  refine ⟨fitC ps, Real.sqrt (fitS ps), findCircle_fin ps hl, Real.sqrt_pos.mpr hp, ?_, ?_, ?_⟩
  · intro c' s'
    rw [hsq, fit_cost ps _ c' _ s' hf]
    have := sum_map_nonneg' ps (fun p => (residual c' s' p - residual (fitC ps) (fitS ps) p) ^ 2) (fun p _ => sq_nonneg _)
    linarith
  · intro c' s' hle
    rw [hsq, fit_cost ps _ c' _ s' hf] at hle
    have h0 := sum_map_nonneg' ps (fun p => (residual c' s' p - residual (fitC ps) (fitS ps) p) ^ 2) (fun p _ => sq_nonneg _)
    have hz := sum_map_sq_zero ps (fun p => residual c' s' p - residual (fitC ps) (fitS ps) p) (by linarith)
    have hf' : IsFit ps c' s' := by
      have e : ∀ p ∈ ps, residual c' s' p = residual (fitC ps) (fitS ps) p := fun p hp => by have := hz p hp; linarith
      refine ⟨?_, ?_, ?_⟩
      · rw [sum_map_congr' ps _ _ e]; exact hf.one
      · rw [sum_map_congr' ps _ (fun p => residual (fitC ps) (fitS ps) p * p.x) (fun p hp => by rw [e p hp])]; exact hf.x
      · rw [sum_map_congr' ps _ (fun p => residual (fitC ps) (fitS ps) p * p.y) (fun p hp => by rw [e p hp])]; exact hf.y
    rw [hsq]
    exact isFit_unique ps hl c' s' hf'
  · have hm := fit_mean ps _ _ hf
    rw [hsq, eq_div_iff hlen.ne', mul_comm, hm]
    apply sum_map_congr'
    intro p _
    rw [dist, Real.sq_sqrt (dist2_nonneg _ _)]

/-- C12 [exact arithmetic over ℝ]: moving all points moves the centre and keeps the radius. -/
theorem C12_translate (ps : List (V2 ℝ)) (hl : ¬ OnOneLine ps) (t c : V2 ℝ) (r : ℝ)
    (h : findCircle (ps.map V2.fin) = some (c.fin, Ext.fin r)) :
    findCircle ((ps.map (fun p : V2 ℝ => (⟨p.x + t.x, p.y + t.y⟩ : V2 ℝ))).map V2.fin) = some (V2.fin ⟨c.x + t.x, c.y + t.y⟩, Ext.fin r) := by
  have e : (ps.map (fun p : V2 ℝ => (⟨p.x + t.x, p.y + t.y⟩ : V2 ℝ))) = ps.map (· + t) := rfl
  have hl' : ¬ OnOneLine (ps.map (· + t)) := fun hc => hl ((onOneLine_move ps t).mp hc)
  obtain ⟨h1, h2⟩ := isFit_unique _ hl' _ _ (isFit_move ps t _ _ (fit_isFit ps hl))
  rw [findCircle_fin ps hl] at h
  simp only [Option.some.injEq, Prod.mk.injEq, Ext.fin_inj] at h
  have hx := congrArg V2.x h.1
  have hy := congrArg V2.y h.1
  simp only [V2.fin_x, V2.fin_y, Ext.fin_inj] at hx hy
  rw [e, findCircle_fin _ hl', ← h1, ← h2, h.2, ← hx, ← hy]
  rfl

/-- C12 [exact arithmetic over ℝ]: scaling all points by `k ≠ 0` scales the centre by `k` and the radius by `|k|`. -/
theorem C12_scale (ps : List (V2 ℝ)) (hl : ¬ OnOneLine ps) (k : ℝ) (hk : k ≠ 0) (c : V2 ℝ) (r : ℝ)
    (h : findCircle (ps.map V2.fin) = some (c.fin, Ext.fin r)) :
    findCircle ((ps.map (fun p : V2 ℝ => (⟨k * p.x, k * p.y⟩ : V2 ℝ))).map V2.fin) = some (V2.fin ⟨k * c.x, k * c.y⟩, Ext.fin (|k| * r)) := by
  have e : (ps.map (fun p : V2 ℝ => (⟨k * p.x, k * p.y⟩ : V2 ℝ))) = ps.map (V2.times k) := rfl
  have hl' : ¬ OnOneLine (ps.map (V2.times k)) := fun hc => hl ((onOneLine_scale ps k hk).mp hc)
  obtain ⟨h1, h2⟩ := isFit_unique _ hl' _ _ (isFit_scale ps k _ _ (fit_isFit ps hl))
  rw [findCircle_fin ps hl] at h
  simp only [Option.some.injEq, Prod.mk.injEq, Ext.fin_inj] at h
  have hx := congrArg V2.x h.1
  have hy := congrArg V2.y h.1
  simp only [V2.fin_x, V2.fin_y, Ext.fin_inj] at hx hy
  rw [e, findCircle_fin _ hl', ← h1, ← h2, ← hx, ← hy, ← h.2, Real.sqrt_mul (sq_nonneg k), Real.sqrt_sq_eq_abs]
  rfl

/-- C12: the normal equations are singular exactly when the points lie on one line, so "has a unique fit" is "not on one line". -/
theorem C12_singular (ps : List (V2 ℝ)) (hne : ps ≠ []) :
    OnOneLine ps ↔ (fitRes (ps.map V2.fin)).x.isFin = false := by
  constructor
  · intro h; exact (fitRes_notFin ps hne h).1
  · intro h
    by_contra hl
    rw [fitRes_fin ps hl] at h
    cases h

/-- a fit with residuals: the points are not on one circle -/
example : ¬ OnOneLine ([⟨6, 1⟩, ⟨1, 6⟩, ⟨4, 5⟩, ⟨-4, 1⟩, ⟨2, 2⟩] : List (V2 ℝ)) := by
  rintro ⟨a, b, c, hab, h⟩
  exact circle_example.2 ⟨a, b, c, hab, fun p hp => h p (by simp at hp ⊢; tauto)⟩

/-! ## C13 -/

/-- vertices dropped to the page -/
def flat (qs : List (V3 ℝ)) : List (V2 ℝ) := qs.map V3.xy

theorem closest_fin (ps : List (V2 ℝ)) (tgt : V2 ℝ) (count : Int) (hc : 1 ≤ count) :
    ∃ l : List (V2 ℝ), closest (ps.map V2.fin) count tgt.fin = l.map V2.fin ∧ (∀ p ∈ l, p ∈ ps) ∧ (l.length : Int) ≤ count := by
  have hok : ∀ q ∈ ps.map V2.fin, FP.Ok (q - tgt.fin).sqNorm := by
    intro q hq
    obtain ⟨q, _, rfl⟩ := List.mem_map.mp hq
    rw [V2.fin_sub, V2.fin_sqNorm]; exact Ext.ok_fin _
  obtain ⟨h1, h2, _, _⟩ := C09_closest_partial (ps.map V2.fin) count hc tgt.fin hok
  have hall : ∀ x ∈ closest (ps.map V2.fin) count tgt.fin, ∃ p ∈ ps, V2.fin p = x := fun x hx => List.mem_map.mp (h2.subset hx)
  obtain ⟨L, hL⟩ : ∃ L, closest (ps.map V2.fin) count tgt.fin = L := ⟨_, rfl⟩
  rw [hL] at hall h1 ⊢
  have : ∃ l : List (V2 ℝ), L = l.map V2.fin ∧ ∀ p ∈ l, p ∈ ps := by
    clear hL h1
    induction L with
    | nil => exact ⟨[], rfl, by simp⟩
    | cons x L ih =>
      obtain ⟨l, hl, hs⟩ := ih (fun y hy => hall y (by simp [hy]))
      obtain ⟨p, hp, rfl⟩ := hall x (by simp)
      exact ⟨p :: l, by rw [hl]; rfl, by
        intro q hq
        rcases List.mem_cons.mp hq with rfl | hq
        · exact hp
        · exact hs q hq⟩
  obtain ⟨l, hl, hs⟩ := this
  refine ⟨l, hl, hs, ?_⟩
  rw [hl] at h1
  simpa using h1

/-- What locating a circle does, in exact arithmetic: three nearby vertices give a first circle; the vertices within a tenth of its radius
from it are fitted again. -/
theorem locate_fin (qs : List (V3 ℝ)) (t : V2 ℝ) (near : List (V2 ℝ)) (hnear : closest ((flat qs).map V2.fin) 3 t.fin = near.map V2.fin)
    (hl : ¬ OnOneLine near) :
    ∃ (c1 : V2 ℝ) (r1 : ℝ), 0 < r1 ∧ (∀ p ∈ near, dist p c1 = r1) ∧
      (∀ p ∈ near, p ∈ (flat qs).filter (fun p => decide (r1 * (9 / 10) < dist p c1 ∧ dist p c1 < r1 * (11 / 10)))) ∧
      locate (qs.map V3.fin) t.fin =
        findCircle (((flat qs).filter (fun p => decide (r1 * (9 / 10) < dist p c1 ∧ dist p c1 < r1 * (11 / 10)))).map V2.fin) := by
  obtain ⟨l, hl1, hl2, hl3⟩ := closest_fin (flat qs) t 3 (by norm_num)
  have hll : near = l := by
    have : near.map V2.fin = l.map V2.fin := by rw [← hnear, hl1]
    exact List.map_injective_iff.mpr (fun a b h => by
      have hx := congrArg V2.x h
      have hy := congrArg V2.y h
      simp only [V2.fin_x, V2.fin_y, Ext.fin_inj] at hx hy
      ext <;> assumption) this
  subst hll
  have h3 : 3 ≤ near.length := by
    by_contra hc
    exact hl (onOneLine_short near (by omega))
  have hp := fit_pos near hl
  have hr := Real.sqrt_pos.mpr hp
  have hd : ∀ p ∈ near, dist p (fitC near) = Real.sqrt (fitS near) := by
    have h3' : near.length = 3 := by omega
    match near, h3' with
    | [a, b, d], _ =>
      intro p hp
      unfold dist
      rw [fit_three a b d hl p hp]
  refine ⟨fitC near, Real.sqrt (fitS near), hr, hd, ?_, ?_⟩
  · intro p hp
    rw [List.mem_filter]
    refine ⟨hl2 p hp, ?_⟩
    rw [hd p hp]
    simp only [decide_eq_true_eq]
    constructor <;> linarith
  · have e : (qs.map V3.fin).map V3.xy = (flat qs).map V2.fin := by
      simp [flat, List.map_map, Function.comp_def]
    unfold locate
    simp only [e, hnear, findCircle_fin near hl]
    have e1 : ((1 : ℚ) : ℝ) = 1 := by norm_num
    have e2 : ((1 / 10 : ℚ) : ℝ) = 1 / 10 := by norm_num
    simp only [Ext.lit_eq, e1, e2, Ext.fin_sub, Ext.fin_add, Ext.fin_mul]
    rw [show (1 - 1 / 10 : ℝ) = 9 / 10 by norm_num, show (1 + 1 / 10 : ℝ) = 11 / 10 by norm_num,
      between_fin _ _ _ (by positivity)]

theorem locate_line (qs : List (V3 ℝ)) (t : V2 ℝ) (near : List (V2 ℝ)) (hnear : closest ((flat qs).map V2.fin) 3 t.fin = near.map V2.fin)
    (hl : OnOneLine near) : locate (qs.map V3.fin) t.fin = none := by
  have e : (qs.map V3.fin).map V3.xy = (flat qs).map V2.fin := by
    simp [flat, List.map_map, Function.comp_def]
  unfold locate
  simp only [e, hnear]
  by_cases h3 : near.length < 3
  · rw [(C11_few _).mpr (by simpa using h3)]
  · have hne : near ≠ [] := by rintro rfl; simp at h3
    have hx := (fitRes_notFin near hne hl).1
    have : findCircle (near.map V2.fin) = some (⟨(fitRes (near.map V2.fin)).x, (fitRes (near.map V2.fin)).y⟩,
        FP.sqrt ((fitRes (near.map V2.fin)).z + (fitRes (near.map V2.fin)).x * (fitRes (near.map V2.fin)).x +
          (fitRes (near.map V2.fin)).y * (fitRes (near.map V2.fin)).y)) := by
      unfold findCircle; rw [if_neg (by simpa using h3)]
    rw [this]
    simp only []
    rw [between_notFin _ _ _ _ _ hx]
    exact (C11_few _).mpr (by simp)

/-- C13 [exact arithmetic over ℝ]: locating a circle succeeds exactly when the nearby vertices found are not on one line.  (Fewer than
three points always are.) -/
theorem C13_succeeds_iff (qs : List (V3 ℝ)) (t : V2 ℝ) (near : List (V2 ℝ))
    (hnear : closest ((flat qs).map V2.fin) 3 t.fin = near.map V2.fin) :
    (∃ c r, locate (qs.map V3.fin) t.fin = some (c, r)) ↔ ¬ OnOneLine near := by
  constructor
  · rintro ⟨c, r, h⟩ hl
    rw [locate_line qs t near hnear hl] at h; cases h
  · intro hl
    obtain ⟨c1, r1, hr1, hd, hsub, h⟩ := locate_fin qs t near hnear hl
    have hl' : ¬ OnOneLine ((flat qs).filter (fun p => decide (r1 * (9 / 10) < dist p c1 ∧ dist p c1 < r1 * (11 / 10)))) := by
      rintro ⟨a, b, k, hab, hh⟩
      exact hl ⟨a, b, k, hab, fun p hp => hh p (hsub p hp)⟩
    rw [h, findCircle_fin _ hl']
    exact ⟨_, _, rfl⟩

/-- C13 [exact arithmetic over ℝ]: a located circle has a finite centre and a finite positive radius.  It is the least-squares circle of
the vertices `sel` within a tenth of the radius from a circle through three vertices; when those lie on one circle it is that circle. -/
theorem C13_sound (qs : List (V3 ℝ)) (t : V2 ℝ) (c : V2 (Ext ℝ)) (r : Ext ℝ) (h : locate (qs.map V3.fin) t.fin = some (c, r)) :
    ∃ (c' : V2 ℝ) (r' : ℝ), c = c'.fin ∧ r = Ext.fin r' ∧ 0 < r' ∧
      ∃ (near : List (V2 ℝ)) (c1 : V2 ℝ) (r1 : ℝ), closest ((flat qs).map V2.fin) 3 t.fin = near.map V2.fin ∧
        near.length = 3 ∧ ¬ OnOneLine near ∧ (∀ p ∈ near, p ∈ flat qs ∧ dist p c1 = r1) ∧
        ∀ sel, sel = (flat qs).filter (fun p => decide (r1 * (9 / 10) < dist p c1 ∧ dist p c1 < r1 * (11 / 10))) →
          (∀ c'' s'', cost sel c' (r' ^ 2) ≤ cost sel c'' s'') ∧
          ∀ c'' r'', (∀ p ∈ sel, dist p c'' = r'') → c' = c'' ∧ r' = r'' := by
  obtain ⟨near, hnear, hsub, hlen⟩ := closest_fin (flat qs) t 3 (by norm_num)
  have hl : ¬ OnOneLine near := (C13_succeeds_iff qs t near hnear).mp ⟨c, r, h⟩
  obtain ⟨c1, r1, hr1, hd, hsel, hloc⟩ := locate_fin qs t near hnear hl
  obtain ⟨sel, hsel'⟩ : ∃ sel, (flat qs).filter (fun p => decide (r1 * (9 / 10) < dist p c1 ∧ dist p c1 < r1 * (11 / 10))) = sel := ⟨_, rfl⟩
  rw [hsel'] at hsel hloc
  have hl' : ¬ OnOneLine sel := by
    rintro ⟨a, b, k, hab, hh⟩
    exact hl ⟨a, b, k, hab, fun p hp => hh p (hsel p hp)⟩
  obtain ⟨c', r', hc', hr', hmin, _, _⟩ := C12_least_squares sel hl'
  rw [hloc, hc'] at h
  simp only [Option.some.injEq, Prod.mk.injEq] at h
  refine ⟨c', r', h.1.symm, h.2.symm, hr', near, c1, r1, hnear, ?_, hl, fun p hp => ⟨hsub p hp, hd p hp⟩, ?_⟩
  · have : ¬ near.length < 3 := fun hc => hl (onOneLine_short near hc)
    omega
  · rintro _ rfl
    rw [hsel']
    refine ⟨hmin, ?_⟩
    intro c'' r'' hcirc
    have := C11_exact sel c'' r'' hcirc hl'
    rw [hc'] at this
    simp only [Option.some.injEq, Prod.mk.injEq, Ext.fin_inj] at this
    refine ⟨?_, this.2⟩
    have hx := congrArg V2.x this.1
    have hy := congrArg V2.y this.1
    simp only [V2.fin_x, V2.fin_y, Ext.fin_inj] at hx hy
    ext <;> assumption

/-- C13 for `center(p)`: on success the value is a finite point of depth zero, the centre of a located circle. -/
theorem C13_center (junk : Nat → V3 (Ext ℝ)) (qs : List (V3 ℝ)) (arg : Pt (Ext ℝ)) (line : Nat) (ret : V3 (Ext ℝ)) (t : V3 ℝ)
    (ds : List Diag) (h : arg.invoke (fun n => junk (n + 1)) (qs.map V3.fin) (junk 0) = (true, t.fin, ds)) :
    (locate (qs.map V3.fin) t.xy.fin = none ∧ ((Pt.func c!"center" arg line).invoke junk (qs.map V3.fin) ret).1 = false) ∨
    ∃ (c : V2 ℝ) (r : ℝ), 0 < r ∧ locate (qs.map V3.fin) t.xy.fin = some (c.fin, Ext.fin r) ∧
      (Pt.func c!"center" arg line).invoke junk (qs.map V3.fin) ret = (true, V3.fin ⟨c.x, c.y, 0⟩, ds) := by
  have hname : (c!"center" = c!"near") = False := by decide
  by_cases h3 : qs.length < 3
  · left
    constructor
    · obtain ⟨near, hnear, hsub, hlen⟩ := closest_fin (flat qs) t.xy 3 (by norm_num)
      refine locate_line qs t.xy near hnear (onOneLine_short near ?_)
      have hok : ∀ q ∈ (flat qs).map V2.fin, FP.Ok (q - t.xy.fin).sqNorm := by
        intro q hq
        obtain ⟨q, _, rfl⟩ := List.mem_map.mp hq
        rw [V2.fin_sub, V2.fin_sqNorm]; exact Ext.ok_fin _
      have := (C09_closest_partial ((flat qs).map V2.fin) 3 (by norm_num) t.xy.fin hok).2.1.length_le
      rw [hnear] at this
      simp [flat] at this
      omega
    · simp only [Pt.invoke, hname, if_false, if_true, List.length_map, h3]
  · cases hloc : locate (qs.map V3.fin) t.xy.fin with
    | none =>
      left
      refine ⟨rfl, ?_⟩
      simp only [Pt.invoke, hname, if_false, if_true, List.length_map, h3, h, V3.fin_xy, hloc]
    | some cr =>
      obtain ⟨c, r⟩ := cr
      right
      obtain ⟨c', r', rfl, rfl, hr', _⟩ := C13_sound qs t.xy c r hloc
      refine ⟨c', r', hr', rfl, ?_⟩
      simp only [Pt.invoke, hname, if_false, if_true, List.length_map, h3, h, V3.fin_xy, hloc]
      simp [V3.map]

/-- C13 for `dia` and `rad`: whenever the circle lookup of a dimension succeeds on finite vertices with a finite target, the circle it hands
to the drawing code has finite centre and positive finite radius. -/
theorem C13_dimension (E : Env (Ext ℝ)) (s s' : DimSt (Ext ℝ)) (line : Nat) (seen seen' : Seen) (cc : Circ (Ext ℝ)) (qs : List (V3 ℝ))
    (hq : s.vis.points = qs.map V3.fin)
    (h : getCenter E s line seen = .ok (some cc, seen', s')) :
    ∃ t : V2 (Ext ℝ), locate s.vis.points t = some (cc.center, cc.rad) ∧
      ∀ t' : V2 ℝ, t = t'.fin → ∃ (c : V2 ℝ) (r : ℝ), cc.center = c.fin ∧ cc.rad = Ext.fin r ∧ 0 < r := by
  have hpts : ∀ (s1 : DimSt (Ext ℝ)) (i : Nat) (ret : V3 (Ext ℝ)) (x : Bool × V3 (Ext ℝ) × DimSt (Ext ℝ)),
      getRotated E s1 i ret = .ok x → x.2.2.vis.points = s1.vis.points := by
    intro s1 i ret x hx
    unfold getRotated at hx
    split at hx
    · cases hx
    · split at hx
      · cases hx
      · split at hx
        · cases hx; rfl
        · cases hx; rfl
  unfold getCenter at h
  dsimp only at h
  split at h
  · split at h
    · cases h
    · simp only [bind, Except.bind] at h
      split at h
      · cases h
      · rename_i x1 hx1
        split at h
        · cases h
        · rename_i x2 hx2
          split at h
          · cases h
          · rename_i x3 hx3
            have p1 := hpts _ _ _ _ hx1
            have p2 := hpts _ _ _ _ hx2
            have p3 := hpts _ _ _ _ hx3
            split at h
            · cases h
            · split at h
              · cases h
              · rename_i c r hloc
                cases h
                rw [p3, p2, p1] at hloc
                refine ⟨_, hloc, ?_⟩
                intro t' ht'
                rw [hq, ht'] at hloc
                obtain ⟨c', r', h1, h2, h3, _⟩ := C13_sound qs t' c r hloc
                exact ⟨c', r', h1, h2, h3⟩
  · cases h

/-- the premises occur: the first circle goes through three of the four vertices, and the lookup succeeds with the true circle -/
example : closest (([⟨-4, 1⟩, ⟨1, 6⟩, ⟨6, 1⟩] : List (V2 ℚ)).map V2.fin) 3 (V2.fin ⟨2, 1⟩) =
    ([⟨6, 1⟩, ⟨1, 6⟩, ⟨-4, 1⟩] : List (V2 ℚ)).map V2.fin := by decide +kernel
example : locate (([⟨-4, 1, 0⟩, ⟨1, 6, 0⟩, ⟨6, 1, 0⟩] : List (V3 ℚ)).map V3.fin) (V2.fin ⟨2, 1⟩) = some (V2.fin ⟨1, 1⟩, Ext.fin 5) := by
  decide +kernel
/-- collinear neighbours fail -/
example : locate (([⟨5, 1, 0⟩, ⟨4, 1, 0⟩, ⟨3, 1, 0⟩] : List (V3 ℚ)).map V3.fin) (V2.fin ⟨2, 1⟩) = none := by decide +kernel

end S2P
