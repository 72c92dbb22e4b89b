import Verif.Lemmas.StlMake
import Verif.Props.Index
import Mathlib.Tactic.Linarith
import Mathlib.Tactic.FieldSimp
import Mathlib.Tactic.Ring
import Mathlib.Analysis.SpecialFunctions.Pow.Real

/-! # C14, C15, C16, C17: reading models -/

namespace S2P
variable {α : Type} [FP α] [FPOrd α]

/-- No facet closed before the first unrecognised line has fewer than three vertices. -/
def NoShortFacet (α : Type) [FP α] (ls : List Str) : Prop :=
  ∀ (pre : List Str) (rs : List (StlLine α)), pre <+: ls → List.Forall₂ LineIs pre rs → ∀ b ∈ blocks rs, 3 ≤ b.2.length

/-- C14, success: if every line is recognised, the model is accepted; its facets are those of the closed blocks with non-zero
normal, in file order, each built from the first three vertices of its block; and its edge table is well formed. -/
theorem C14_accept (hc : ConvOk α) (content : Str) (ls : List Str) (hl : LinesOf content ls) (rs : List (StlLine α))
    (hr : List.Forall₂ LineIs ls rs) (h3 : ∀ b ∈ blocks rs, 3 ≤ b.2.length) :
    ∃ s : STLFile α, make content = .ok (some s) ∧ WellIndexed s ∧
      List.Forall₂ (fun b f => mkFacet b.1 (b.2.take 3) = .ok f) (blocks rs) s.facets := by
  have hls := linesOf_unique content ls hl
  subst hls
  obtain ⟨ms, hms, hf⟩ := foldlM_ok_of rs h3
  obtain ⟨s, h1, h2, h4⟩ := C21_index ms.facets (blocks_ok hc _ _ hr _ hf)
  refine ⟨s, ?_, h4, ?_⟩
  · unfold make
    rw [makeLoop_recognised _ rs (forall₂_classify _ _ hr), hms]
    simp [Except.map, bind, Except.bind, pure, Except.pure, h1]
  · rw [h2]
    exact hf.imp fun b f h => by rw [mkFacet_take]; exact h

/-- C14: as long as no closed facet is short of vertices, reading fails iff some line is unrecognised. -/
theorem C14_reject_iff (hc : ConvOk α) (content : Str) (ls : List Str) (hl : LinesOf content ls) (h3 : NoShortFacet α ls) :
    make (α := α) content = .ok none ↔ ∃ l ∈ ls, ∀ r : StlLine α, ¬ LineIs l r := by
  have hls := linesOf_unique content ls hl
  rcases split_lines (α := α) ls with ⟨rs, hr⟩ | ⟨pre, bad, post, rs, h1, h2, hb⟩
  · obtain ⟨s, hs, _⟩ := C14_accept hc content ls hl rs hr (h3 ls rs (List.prefix_refl _) hr)
    rw [hs]
    simp only [Except.ok.injEq, reduceCtorEq, false_iff, not_exists, not_and, not_forall, not_not]
    intro l hlm
    obtain ⟨i, hi⟩ := List.getElem?_of_mem hlm
    have hi' := (List.getElem?_eq_some_iff.1 hi).1
    have hlen := hr.length_eq
    have := (List.forall₂_iff_get.1 hr).2 i hi' (by omega)
    rw [List.get_eq_getElem, (List.getElem?_eq_some_iff.1 hi).2] at this
    exact ⟨_, this⟩
  · refine ⟨fun _ => ⟨bad, by rw [h1]; simp, hb⟩, fun _ => ?_⟩
    obtain ⟨ms, hms, _⟩ := foldlM_ok_of rs (h3 pre rs (by rw [h1]; exact List.prefix_append _ _) h2)
    unfold make
    rw [← hls, h1, makeLoop_bad pre rs bad post (forall₂_classify _ _ h2) (classify_none bad hb), hms]
    rfl

/-- the lines of a content exist, so the theorems above apply to every content -/
theorem C14_lines_exist (content : Str) : ∃ ls, LinesOf content ls ∧ ∀ ls', LinesOf content ls' → ls' = ls :=
  ⟨getLines content, linesOf_getLines content, fun _ h => linesOf_unique content _ h⟩

omit [FPOrd α] in
/-- a line has at most one reading -/
theorem C14_line_unique (l : Str) (r r' : StlLine α) (h : LineIs l r) (h' : LineIs l r') : r = r' := by
  have := (classify_iff l r).2 h
  rw [(classify_iff l r').2 h'] at this
  exact (Option.some.inj this).symm

/-- C15 is false of the code: this file makes the `Facet` constructor index an empty vector. -/
theorem C15_false : make (α := Ext ℚ) c!"facet normal 0 0 1\nendfacet\n" = .error .ub := by decide +kernel

/-- C15, the exact condition: reading goes out of bounds iff a facet with fewer than three vertices is closed before the
first unrecognised line.  Missing for the full property: the code has no guard for such facets. -/
theorem C15_ub_iff_partial (hc : ConvOk α) (content : Str) (ls : List Str) (hl : LinesOf content ls) :
    make (α := α) content = .error .ub ↔ ¬ NoShortFacet α ls := by
  have hls := linesOf_unique content ls hl
  constructor
  · intro hu h3
    rcases split_lines (α := α) ls with ⟨rs, hr⟩ | ⟨pre, bad, post, rs, h1, h2, hb⟩
    · obtain ⟨s, hs, _⟩ := C14_accept hc content ls hl rs hr (h3 ls rs (List.prefix_refl _) hr)
      rw [hs] at hu; cases hu
    · have := (C14_reject_iff hc content ls hl h3).2 ⟨bad, by rw [h1]; simp, hb⟩
      rw [this] at hu; cases hu
  · intro h3
    unfold NoShortFacet at h3
    simp only [not_forall, not_le] at h3
    obtain ⟨pre, rs, ⟨post, hp⟩, hr, b, hb, hlt⟩ := h3
    have herr := foldlM_short rs ⟨b, hb, hlt⟩
    have key : ∀ (pre : List Str) (rs : List (StlLine α)) (s : MakeState α), List.Forall₂ LineIs pre rs →
        rs.foldlM makeStep s = .error .ub → makeLoop (pre ++ post) s = .error .ub := by
      intro pre rs s hr
      induction hr generalizing s with
      | nil => intro h; simp [pure, Except.pure] at h
      | @cons l r ls rs h1 h2 ih =>
        intro h
        rw [List.cons_append, makeLoop, (classify_iff l r).2 h1]
        rw [List.foldlM_cons] at h
        simp only
        cases hs : makeStep s r with
        | error e => rw [hs] at h; simpa [bind, Except.bind] using h
        | ok s' => rw [hs] at h; exact ih s' h
    unfold make
    rw [← hls, ← hp, key pre rs _ hr herr]
    rfl

/-- C15, no other abnormal end: reading never fails a CHECK or throws. -/
theorem C15_no_other_abort_partial (hc : ConvOk α) (content : Str) :
    make (α := α) content ≠ .error .check ∧ make (α := α) content ≠ .error .exception := by
  have hl := linesOf_getLines content
  by_cases h3 : NoShortFacet α (getLines content)
  · rcases split_lines (α := α) (getLines content) with ⟨rs, hr⟩ | ⟨pre, bad, post, rs, h1, h2, hb⟩
    · obtain ⟨s, hs, _⟩ := C14_accept hc content _ hl rs hr (h3 _ rs (List.prefix_refl _) hr)
      rw [hs]; simp
    · have := (C14_reject_iff hc content _ hl h3).2 ⟨bad, by rw [h1]; simp, hb⟩
      rw [this]; simp
  · rw [(C15_ub_iff_partial hc content _ hl).2 h3]; simp

/-- C21 after loading: every accepted file has a sound and complete edge table. -/
theorem C21_make (hc : ConvOk α) (content : Str) (s : STLFile α) (h : make content = .ok (some s)) : WellIndexed s := by
  have hl := linesOf_getLines content
  by_cases h3 : NoShortFacet α (getLines content)
  · rcases split_lines (α := α) (getLines content) with ⟨rs, hr⟩ | ⟨pre, bad, post, rs, h1, h2, hb⟩
    · obtain ⟨s', hs, hw, _⟩ := C14_accept hc content _ hl rs hr (h3 _ rs (List.prefix_refl _) hr)
      rw [h] at hs; injection hs with hs; injection hs with hs; subst hs; exact hw
    · have := (C14_reject_iff hc content _ hl h3).2 ⟨bad, by rw [h1]; simp, hb⟩
      rw [this] at h; simp at h
  · rw [(C15_ub_iff_partial hc content _ hl).2 h3] at h; cases h

theorem convOk_ext {K : Type} [Field K] [LinearOrder K] [IsStrictOrderedRing K] [FloorRing K] [Trans K] : ConvOk (Ext K) := by
  intro q x h
  have : x = Ext.fin (q : K) := (Option.some.inj h).symm
  rw [this]; exact Ext.ok_fin _

/-! ## C16 -/

section C16

theorem cross_sqNorm_pos (a : V3 ℝ) (h : a ≠ ⟨0, 0, 0⟩) : 0 < a.sqNorm := by
  rcases lt_or_eq_of_le (V3.sqNorm_nonneg a) with h1 | h1
  · exact h1
  · exfalso; apply h
    simp only [V3.sqNorm, V3.dot] at h1
    have hx : a.x = 0 := by nlinarith [mul_self_nonneg a.x, mul_self_nonneg a.y, mul_self_nonneg a.z]
    have hy : a.y = 0 := by nlinarith [mul_self_nonneg a.x, mul_self_nonneg a.y, mul_self_nonneg a.z]
    have hz : a.z = 0 := by nlinarith [mul_self_nonneg a.x, mul_self_nonneg a.y, mul_self_nonneg a.z]
    ext <;> assumption

/-- C16: a facet built from three non-collinear vertices `a b c` and a declared normal `n`. -/
theorem C16_facet (n a b c : V3 ℝ) (h : (b - a).cross (c - a) ≠ ⟨0, 0, 0⟩) :
    ∃ (N e0 e2 : V3 ℝ) (r : ℝ),
      mkFacet n.fin [a.fin, b.fin, c.fin] = .ok ⟨N.fin, e0.fin, b.fin, e2.fin, Ext.fin r⟩ ∧
      -- unit length
      N.dot N = 1 ∧
      -- perpendicular to the three sides
      N.dot (b - e0) = 0 ∧ N.dot (e2 - b) = 0 ∧ N.dot (e0 - e2) = 0 ∧
      -- right-hand rule on the stored order
      (∃ k : ℝ, 0 < k ∧ (b - e0).cross (e2 - e0) = N.smul k) ∧
      -- not opposed to the declared normal
      0 ≤ n.dot N ∧
      -- the offset of the plane through the three corners
      r = N.dot e0 ∧ r = N.dot b ∧ r = N.dot e2 ∧
      -- the stored corners
      ((e0 = a ∧ e2 = c) ∨ (e0 = c ∧ e2 = a)) := by
  have hpos := cross_sqNorm_pos _ h
  generalize hC : (b - a).cross (c - a) = C at h hpos
  have hs : 0 < Real.sqrt C.sqNorm := Real.sqrt_pos.2 hpos
  have hss : Real.sqrt C.sqNorm * Real.sqrt C.sqNorm = C.sqNorm := Real.mul_self_sqrt hpos.le
  generalize hS : Real.sqrt C.sqNorm = S at hs hss
  have hnorm : (V3.normalized C.fin : V3 (Ext ℝ)) = (C.sdiv S).fin := by
    unfold V3.normalized V3.norm
    rw [V3.fin_sqNorm, Ext.lit_eq, Ext.fin_lt]
    rw [if_pos (by simpa using hpos), Ext.fin_sqrt _ hpos.le]
    show C.fin.sdiv (Ext.fin (Real.sqrt C.sqNorm)) = _
    rw [hS, V3.fin_sdiv _ _ hs.ne']
  have h1 : (C.sdiv S).dot (C.sdiv S) = 1 := by
    simp only [V3.dot, V3.sdiv]
    simp only [V3.sqNorm, V3.dot] at hss
    field_simp
    nlinarith
  have hab : C.dot (b - a) = 0 := by rw [← hC]; simp [V3.dot, V3.cross]; ring
  have hac : C.dot (c - a) = 0 := by rw [← hC]; simp [V3.dot, V3.cross]; ring
  have dd : ∀ v : V3 ℝ, (C.sdiv S).dot v = C.dot v / S := by
    intro v; simp only [V3.dot, V3.sdiv]; field_simp
  have sub : ∀ u v w : V3 ℝ, u.dot (v - w) = u.dot v - u.dot w := by
    intro u v w; simp [V3.dot]; ring
  have hab' : C.dot b = C.dot a := by rw [sub] at hab; linarith
  have hac' : C.dot c = C.dot a := by rw [sub] at hac; linarith
  have neg : ∀ v : V3 ℝ, ((C.sdiv S).smul (-1)).dot v = -(C.dot v / S) := by
    intro v; rw [← dd v]; simp [V3.dot, V3.smul]; ring
  by_cases hf : n.dot (C.sdiv S) < 0
  · refine ⟨(C.sdiv S).smul (-1), c, a, (C.sdiv S).smul (-1) |>.dot c, ?_, ?_, ?_, ?_, ?_, ?_, ?_, rfl, ?_, ?_, Or.inr ⟨rfl, rfl⟩⟩
    · simp only [mkFacet, V3.fin_sub, V3.fin_cross, hC, hnorm, V3.fin_dot, Ext.lit_eq, Ext.fin_lt, Rat.cast_zero, hf, decide_true, if_true]
      simp only [V3.fin_smul, V3.fin_dot, Ext.fin_add, Rat.cast_neg, Rat.cast_one]
      rw [Ext.fin_div _ _ (by norm_num)]
      simp only [Except.ok.injEq, Facet.mk.injEq, true_and]
      rw [neg, neg, neg, hab', hac']
      congr 1; push_cast; ring
    · refine Eq.trans ?_ h1; simp only [V3.dot, V3.smul]; ring
    · rw [neg, sub, hab', hac']; simp
    · rw [neg, sub, hab']; simp
    · rw [neg, sub, hac']; simp
    · refine ⟨S, hs, ?_⟩
      have : (b - c).cross (a - c) = -C := by
        rw [← hC]; ext <;> simp [V3.cross] <;> ring
      rw [this]
      ext <;> simp [V3.smul, V3.sdiv] <;> field_simp
    · have : n.dot ((C.sdiv S).smul (-1)) = - n.dot (C.sdiv S) := by simp [V3.dot, V3.smul]; ring
      rw [this]; linarith
    · rw [neg, neg, hab', hac']
    · rw [neg, neg, hac']
  · refine ⟨C.sdiv S, a, c, (C.sdiv S).dot a, ?_, h1, ?_, ?_, ?_, ?_, not_lt.1 hf, rfl, ?_, ?_, Or.inl ⟨rfl, rfl⟩⟩
    · simp only [mkFacet, V3.fin_sub, V3.fin_cross, hC, hnorm, V3.fin_dot, Ext.lit_eq, Ext.fin_lt, Rat.cast_zero, hf, decide_false, Bool.false_eq_true, if_false]
      simp only [Ext.fin_add]
      rw [Ext.fin_div _ _ (by norm_num)]
      simp only [Except.ok.injEq, Facet.mk.injEq, true_and]
      rw [dd, dd, dd, hab', hac']
      congr 1; push_cast; ring
    · rw [dd, hab]; simp
    · rw [dd, sub, hac', hab']; simp
    · rw [dd, sub, hac']; simp
    · refine ⟨S, hs, ?_⟩
      rw [hC]
      ext <;> simp [V3.smul, V3.sdiv] <;> field_simp
    · rw [dd, dd, hab']
    · rw [dd, dd, hac']

/-- C16, the excluded case: three collinear vertices give the zero normal and offset 0, whatever the declared normal. -/
theorem C16_degenerate (n a b c : V3 ℝ) (h : (b - a).cross (c - a) = ⟨0, 0, 0⟩) :
    mkFacet n.fin [a.fin, b.fin, c.fin] = .ok ⟨V3.fin ⟨0, 0, 0⟩, a.fin, b.fin, c.fin, Ext.fin 0⟩ := by
  have hz : (V3.normalized (V3.fin (⟨0, 0, 0⟩ : V3 ℝ))) = V3.fin ⟨0, 0, 0⟩ := by
    unfold V3.normalized; rw [V3.fin_sqNorm]; simp [V3.sqNorm, V3.dot]
  have hd : ∀ v : V3 ℝ, V3.dot ⟨0, 0, 0⟩ v = 0 := by intro v; simp [V3.dot]
  have hd' : ∀ v : V3 ℝ, V3.dot v ⟨0, 0, 0⟩ = 0 := by intro v; simp [V3.dot]
  simp only [mkFacet, V3.fin_sub, V3.fin_cross, h, hz, V3.fin_dot, hd, hd', Ext.lit_eq, Ext.fin_lt, Rat.cast_zero, lt_irrefl, decide_false,
    Bool.false_eq_true, if_false, Ext.fin_add]
  rw [Ext.fin_div _ _ (by norm_num)]; simp

/-- hypotheses of `C16_facet` on a concrete triangle whose declared normal points the other way -/
example : ((⟨1, 0, 0⟩ : V3 ℝ) - ⟨0, 0, 0⟩).cross ((⟨0, 1, 0⟩ : V3 ℝ) - ⟨0, 0, 0⟩) ≠ ⟨0, 0, 0⟩ := by
  intro h
  have := congrArg V3.z h
  simp [V3.cross] at this
example : mkFacet (V3.fin (⟨0, 0, -1⟩ : V3 ℚ)) [V3.fin ⟨0, 0, 0⟩, V3.fin ⟨1, 0, 0⟩, V3.fin ⟨0, 1, 0⟩] =
    .ok ⟨V3.fin ⟨0, 0, -1⟩, V3.fin ⟨0, 1, 0⟩, V3.fin ⟨1, 0, 0⟩, V3.fin ⟨0, 0, 0⟩, Ext.fin 0⟩ := by decide +kernel

end C16

end S2P
