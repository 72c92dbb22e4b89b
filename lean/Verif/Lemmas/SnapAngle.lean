import Verif.Spec.SnapAngle
import Verif.Lemmas.Snap
import Verif.Lemmas.FacetView

set_option linter.unusedSectionVars false
set_option linter.unusedVariables false
set_option linter.unusedSimpArgs false

/-! # Angles at points picked by `near`: lemmas -/

namespace S2P

theorem picks_near_corner {r : M3 ℝ} {file : STLFile (Ext ℝ)} {p : V3 ℝ} (h : SeenCorner r file p) (l l' : Nat) :
    Picks r file (.func c!"near" (.val p.fin l) l') p :=
  .near _ _ p p (.literal p l) ⟨h, fun w _ => by
    unfold seenDist2 pageDist2
    nlinarith [sq_nonneg ((w.mulM r).x - (p.mulM r).x), sq_nonneg ((w.mulM r).y - (p.mulM r).y)]⟩

/-- the value of `near` of a literal point -/
theorem near_literal {r : M3 ℝ} (hr : IsRotation r) {file : STLFile (Ext ℝ)} {qs : List (V3 ℝ)} (hq : ∀ q, q ∈ qs ↔ ∃ v, SeenCorner r file v ∧ q = v.mulM r)
    (p : V3 ℝ) (l l' : Nat) (junk : Nat → V3 (Ext ℝ)) (ret : V3 (Ext ℝ))
    (hok : (((Pt.func c!"near" (.val p.fin l) l').rot r.fin).invoke junk (qs.map V3.fin) ret).1 = true) :
    (SeenCorner r file p → (((Pt.func c!"near" (.val p.fin l) l').rot r.fin).invoke junk (qs.map V3.fin) ret).2.1 = (p.mulM r).fin) ∧
    (¬ SeenCorner r file p → ∃ v, NearestCorner r file p v ∧
      (((Pt.func c!"near" (.val p.fin l) l').rot r.fin).invoke junk (qs.map V3.fin) ret).2.1 = (v.onPage r).fin) := by
  have hne : qs ≠ [] := by
    rintro rfl
    simp [Pt.rot, Pt.invoke] at hok
  obtain ⟨q, k1, k2, k3⟩ := C08_near junk qs ((Pt.val p.fin l).rot r.fin) l' ret (p.mulM r) [] hne (by
    simp only [Pt.rot, Pt.invoke, V3.fin_mulM])
  have hv : (((Pt.func c!"near" (.val p.fin l) l').rot r.fin).invoke junk (qs.map V3.fin) ret).2.1 = q.fin := congrArg (fun x => x.2.1) k1
  rw [hv]
  constructor
  · intro hs
    rw [k2 ((hq _).2 ⟨p, hs, rfl⟩)]
  · intro hs
    obtain ⟨q0, hq0, e, hmin⟩ := k3 (fun hm => by
      obtain ⟨v, h1, h2⟩ := (hq _).1 hm
      exact hs (by rw [rot_inj hr h2]; exact h1))
    obtain ⟨v, hv1, rfl⟩ := (hq q0).1 hq0
    exact ⟨v, ⟨hv1, fun w hw => hmin _ ((hq _).2 ⟨w, hw, rfl⟩)⟩, by rw [e]; rfl⟩

/-- if all corners seen are in the plane of the drawing, an expression has the value of the corner picked -/
theorem invoke_picks_level {r : M3 ℝ} {file : STLFile (Ext ℝ)} {qs : List (V3 ℝ)} (hq : ∀ q, q ∈ qs ↔ ∃ v, SeenCorner r file v ∧ q = v.mulM r)
    (hz : ∀ v, SeenCorner r file v → (v.mulM r).z = 0) :
    ∀ (e : Pt (Ext ℝ)) (junk : Nat → V3 (Ext ℝ)) (ret : V3 (Ext ℝ)), e.NearOnly → e.IsFin → ((e.rot r.fin).invoke junk (qs.map V3.fin) ret).1 = true →
      ∃ (v : V3 ℝ), Picks r file e v ∧ ((e.rot r.fin).invoke junk (qs.map V3.fin) ret).2.1 = (v.mulM r).fin
  | .val p l, junk, ret, _, hf, _ => by
    obtain ⟨a, rfl⟩ := hf
    exact ⟨a, .literal a l, rfl⟩
  | .func n e l, junk, ret, ⟨hn, he⟩, hf, hok => by
    subst hn
    have hne : qs ≠ [] := by
      rintro rfl
      simp [Pt.rot, Pt.invoke] at hok
    have hsub := (C08_succeeds junk (qs.map V3.fin) (e.rot r.fin) l ret (by simpa using hne)).1
    have hok' : ((e.rot r.fin).invoke (fun n => junk (n + 1)) (qs.map V3.fin) (junk 0)).1 = true := by
      rw [← hsub]; exact hok
    obtain ⟨v, h1, h2⟩ := invoke_picks_level hq hz e (fun n => junk (n + 1)) (junk 0) he hf hok'
    obtain ⟨q, k1, k2, k3⟩ := C08_near junk qs (e.rot r.fin) l ret (v.mulM r) ((e.rot r.fin).invoke (fun n => junk (n + 1)) (qs.map V3.fin) (junk 0)).2.2 hne
      (by rw [← h2, ← hok'])
    by_cases hp : v.mulM r ∈ qs
    · obtain ⟨w, hw, e'⟩ := (hq _).1 hp
      refine ⟨w, .near e l v w h1 ⟨hw, fun u _ => ?_⟩, ?_⟩
      · unfold seenDist2
        rw [e']
        unfold pageDist2
        nlinarith [sq_nonneg ((u.mulM r).x - (w.mulM r).x), sq_nonneg ((u.mulM r).y - (w.mulM r).y)]
      · rw [← e', ← k2 hp]
        exact congrArg (fun x => x.2.1) k1
    · obtain ⟨q0, hq0, e, hmin⟩ := k3 hp
      obtain ⟨w, hw, rfl⟩ := (hq q0).1 hq0
      have eq : q = w.mulM r := by
        rw [e]
        ext
        · rfl
        · rfl
        · exact (hz w hw).symm
      refine ⟨w, .near _ l v w h1 ⟨hw, fun u hu => hmin _ ((hq _).2 ⟨u, hu, rfl⟩)⟩, ?_⟩
      rw [← eq]
      exact congrArg (fun x => x.2.1) k1

theorem invoke_keeps {r : M3 ℝ} (hr : IsRotation r) {file : STLFile (Ext ℝ)} {qs : List (V3 ℝ)} (hq : ∀ q, q ∈ qs ↔ ∃ v, SeenCorner r file v ∧ q = v.mulM r)
    (e : Pt (Ext ℝ)) (hk : e.Keeps r file) (hf : e.IsFin) (junk : Nat → V3 (Ext ℝ)) (ret : V3 (Ext ℝ))
    (hok : ((e.rot r.fin).invoke junk (qs.map V3.fin) ret).1 = true) :
    ∃ v, Picks r file e v ∧ ((e.rot r.fin).invoke junk (qs.map V3.fin) ret).2.1 = (v.mulM r).fin := by
  rcases hk with ⟨p, l, rfl⟩ | ⟨p, l, l', rfl, hp⟩ | ⟨hn, hz⟩
  · exact ⟨p, .literal p l, rfl⟩
  · exact ⟨p, picks_near_corner hp l l', (near_literal hr hq p l l' junk ret hok).1 hp⟩
  · exact invoke_picks_level hq hz e junk ret hn hf hok

theorem invoke_beside {r : M3 ℝ} (hr : IsRotation r) {file : STLFile (Ext ℝ)} {qs : List (V3 ℝ)} (hq : ∀ q, q ∈ qs ↔ ∃ v, SeenCorner r file v ∧ q = v.mulM r)
    (e : Pt (Ext ℝ)) (hk : e.Beside r file) (junk : Nat → V3 (Ext ℝ)) (ret : V3 (Ext ℝ))
    (hok : ((e.rot r.fin).invoke junk (qs.map V3.fin) ret).1 = true) :
    ∃ v, Picks r file e v ∧ ((e.rot r.fin).invoke junk (qs.map V3.fin) ret).2.1 = (v.onPage r).fin := by
  obtain ⟨p, l, l', rfl, hp⟩ := hk
  obtain ⟨v, h1, h2⟩ := (near_literal hr hq p l l' junk ret hok).2 hp
  exact ⟨v, .near _ _ p v (.literal p l) h1, h2⟩

theorem angleBetween_comm (u w : V3 ℝ) : angleBetween u w = angleBetween w u := by
  unfold angleBetween
  congr 1
  rw [mul_comm (len3 u)]
  congr 1
  ring

theorem cross_normalized (U W : V3 ℝ) : ∃ k, 0 ≤ k ∧ (W.fin.normalized.cross U.fin.normalized).z = Ext.fin (-(k * (U.x * W.y - U.y * W.x))) ∧
    (U.x * W.y - U.y * W.x ≠ 0 → 0 < k) := by
  by_cases h1 : U = ⟨0, 0, 0⟩
  · subst h1
    refine ⟨0, le_refl _, ?_, by simp⟩
    rw [normalized_zero]
    by_cases h2 : W = ⟨0, 0, 0⟩
    · subst h2; rw [normalized_zero]; simp [V3.cross, V3.map]
    · rw [normalized_real h2]; simp [V3.cross, V3.map]
  · by_cases h2 : W = ⟨0, 0, 0⟩
    · subst h2
      refine ⟨0, le_refl _, ?_, by simp⟩
      rw [normalized_zero, normalized_real h1]; simp [V3.cross, V3.map]
    · have p1 := len3_pos h1
      have p2 := len3_pos h2
      refine ⟨1 / (len3 U * len3 W), by positivity, ?_, fun _ => by positivity⟩
      rw [normalized_real h1, normalized_real h2]
      simp only [V3.cross, V3.map, V3.sdiv, Ext.fin_mul, Ext.fin_sub, Ext.fin_inj]
      field_simp
      ring

/-- the label of an accepted angle, whatever its points came from -/
theorem angle_text (E : Env (Ext ℝ)) (v : Vis (Ext ℝ)) (ms : List (Meta (Ext ℝ))) (a x p q : V3 ℝ) (g : Ext ℝ → Str)
    (ha : pointOf E v 0 ms c!"at" = some a.fin) (hx : pointOf E v 1 ms c!"apex" = some x.fin) (hfd : look ms c!"from_dir" = none)
    (htd : look ms c!"to_dir" = none) (hp : pointOf E v 3 ms c!"from_point" = some p.fin) (hq : pointOf E v 5 ms c!"to_point" = some q.fin)
    (hg : formatOf E c!"%.1f" ms = some g) (P) (hP : drawnItems E v .angle ms = some P) :
    P.text = [⟨a.xy.fin, g (.fin (degrees (angleBetween (p - x) (q - x)))) ++ c!" deg", true, false⟩] := by
  have hf : legOf E v 2 x.fin ms c!"from_dir" c!"from_point" = some ((p - x).fin.normalized, p.fin) := by
    unfold legOf; rw [hfd]; simp only [hp, Option.map_some, V3.fin_sub]
  have ht : legOf E v 4 x.fin ms c!"to_dir" c!"to_point" = some ((q - x).fin.normalized, q.fin) := by
    unfold legOf; rw [htd]; simp only [hq, Option.map_some, V3.fin_sub]
  simp only [drawnItems, ha, hx, hf, ht, hg, bind, Option.bind] at hP
  obtain ⟨k, hk0, hkz, -⟩ := cross_normalized (p - x) (q - x)
  rw [hkz] at hP
  simp only [Ext.lit_eq] at hP
  have e1 : (FP.eq (Ext.fin (-(k * ((p - x).x * (q - x).y - (p - x).y * (q - x).x)))) (Ext.fin ((0 : ℚ) : ℝ)) : Bool) =
      decide (-(k * ((p - x).x * (q - x).y - (p - x).y * (q - x).x)) = 0) := by simp
  have e2 : (FP.lt (Ext.fin ((0 : ℚ) : ℝ)) (Ext.fin (-(k * ((p - x).x * (q - x).y - (p - x).y * (q - x).x)))) : Bool) =
      decide (0 < -(k * ((p - x).x * (q - x).y - (p - x).y * (q - x).x))) := by simp
  simp only [e1, e2] at hP
  by_cases h0 : -(k * ((p - x).x * (q - x).y - (p - x).y * (q - x).x)) = 0
  · rw [if_pos (by simpa using h0)] at hP; cases hP
  rw [if_neg (by simpa using h0)] at hP
  by_cases h1 : 0 < -(k * ((p - x).x * (q - x).y - (p - x).y * (q - x).x))
  · rw [if_pos (by simpa using h1)] at hP
    injection hP with hP
    subst hP
    obtain ⟨α, β, δ, e, -⟩ := angleItems_real g v.scale a.fin x.fin _ _ q.fin p.fin a x (q - x) (p - x) rfl rfl rfl rfl (by
      by_contra hc
      have : 0 ≤ (p - x).x * (q - x).y - (p - x).y * (q - x).x := by nlinarith
      nlinarith [mul_nonneg hk0 this])
    rw [e, angleBetween_comm]
  · rw [if_neg (by simpa using h1)] at hP
    injection hP with hP
    subst hP
    obtain ⟨α, β, δ, e, -⟩ := angleItems_real g v.scale a.fin x.fin _ _ p.fin q.fin a x (p - x) (q - x) rfl rfl rfl rfl (by
      by_contra hc
      have : (p - x).x * (q - x).y - (p - x).y * (q - x).x ≤ 0 := by linarith
      have : 0 ≤ -(k * ((p - x).x * (q - x).y - (p - x).y * (q - x).x)) := by nlinarith [mul_nonneg hk0 (neg_nonneg.2 this)]
      exact h1 (lt_of_le_of_ne this (Ne.symm h0)))
    rw [e]

/-- an angle whose legs are not parallel on the page is drawn -/
theorem angle_accepts (E : Env (Ext ℝ)) (v : Vis (Ext ℝ)) (ms : List (Meta (Ext ℝ))) (a x p q : V3 ℝ) (g : Ext ℝ → Str)
    (ha : pointOf E v 0 ms c!"at" = some a.fin) (hx : pointOf E v 1 ms c!"apex" = some x.fin) (hfd : look ms c!"from_dir" = none)
    (htd : look ms c!"to_dir" = none) (hp : pointOf E v 3 ms c!"from_point" = some p.fin) (hq : pointOf E v 5 ms c!"to_point" = some q.fin)
    (hg : formatOf E c!"%.1f" ms = some g) (hne : (p - x).x * (q - x).y - (p - x).y * (q - x).x ≠ 0) : ∃ P, drawnItems E v .angle ms = some P := by
  have hf : legOf E v 2 x.fin ms c!"from_dir" c!"from_point" = some ((p - x).fin.normalized, p.fin) := by
    unfold legOf; rw [hfd]; simp only [hp, Option.map_some, V3.fin_sub]
  have ht : legOf E v 4 x.fin ms c!"to_dir" c!"to_point" = some ((q - x).fin.normalized, q.fin) := by
    unfold legOf; rw [htd]; simp only [hq, Option.map_some, V3.fin_sub]
  obtain ⟨k, hk0, hkz, hkp⟩ := cross_normalized (p - x) (q - x)
  simp only [drawnItems, ha, hx, hf, ht, hg, bind, Option.bind]
  have e1 : (FP.eq ((q - x).fin.normalized.cross (p - x).fin.normalized).z (FP.lit 0 : Ext ℝ) : Bool) = false := by
    rw [hkz]
    have := mul_ne_zero (hkp hne).ne' hne
    simpa using this
  rw [if_neg (by rw [e1]; simp)]
  split_ifs
  · exact ⟨_, rfl⟩
  · exact ⟨_, rfl⟩

end S2P
