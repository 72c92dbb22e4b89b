import Verif.Lemmas.SpanLoop
import Verif.Lemmas.ClearDraw

set_option linter.unusedSectionVars false
set_option linter.unusedVariables false
set_option linter.unusedSimpArgs false

/-! # Edges partly hidden, in rounded arithmetic: the part hidden by a facet -/

namespace S2P

/-- the triangle hides the part of the edge from `s` to `s'`, but for 2^-17 -/
structure PartBy (M : ℝ) (E : Edge ℝ) (t : Tri ℝ) (s s' : ℝ) : Prop where
  long : s + 1 / 2 ^ 10 ≤ s'
  first : (s = 0 ∧ BehindBy (M ^ 2 / 2 ^ 31) (M / 2 ^ 13) t E.1) ∨
    ∃ c d u, t.HasSide (c, d) ∧ |u - s| ≤ 1 / 2 ^ 17 ∧ PassesUnder (M ^ 2 / 2 ^ 15) (M / 2 ^ 13) (1 / 2 ^ 16) E.1 E.2 c d u
  last : (s' = 1 ∧ BehindBy (M ^ 2 / 2 ^ 31) (M / 2 ^ 13) t E.2) ∨
    ∃ c d u, t.HasSide (c, d) ∧ |u - s'| ≤ 1 / 2 ^ 17 ∧ PassesUnder (M ^ 2 / 2 ^ 15) (M / 2 ^ 13) (1 / 2 ^ 16) E.1 E.2 c d u
  near : NotBehind (M ^ 2 / 2 ^ 31) (M / 2 ^ 13) t E.1 ∨ s = 0
  far : NotBehind (M ^ 2 / 2 ^ 31) (M / 2 ^ 13) t E.2 ∨ s' = 1
  sides : ∀ c d, t.HasSide (c, d) → Apart (M ^ 2 / 2 ^ 31) E.1 E.2 c d ∨ Higher (M / 2 ^ 13) E.1 E.2 c d ∨ Over (M ^ 2 / 2 ^ 15) (M / 2 ^ 13) (1 / 2) E.1 E.2 c d ∨
    ∃ u, s - 1 / 2 ^ 17 ≤ u ∧ u ≤ s' + 1 / 2 ^ 17 ∧ PassesUnder (M ^ 2 / 2 ^ 15) (M / 2 ^ 13) (1 / 2 ^ 16) E.1 E.2 c d u

theorem PartBy.not_side {M : ℝ} (hM : 1 ≤ M) {E : Edge ℝ} {t : Tri ℝ} {s s' : ℝ} (h : PartBy M E t s s') : ¬ t.HasSide E := by
  intro hs
  have hQ : 1 ≤ M ^ 2 := by nlinarith
  have z1 : slant E.1 E.2 E.1 E.2 = 0 := by unfold slant; ring
  have z2 : leftOf E.1 E.2 E.1 = 0 := by unfold leftOf; ring
  rcases h.sides E.1 E.2 hs with h | h | h | ⟨u, -, -, h⟩
  · unfold Apart at h
    rw [z2] at h
    generalize M ^ 2 = Q at *
    norm_num at h
    rcases h with h | h | h | h <;> linarith [h.1]
  · have := h.1
    norm_num at this
    linarith
  · have := h.1
    rw [z1, abs_zero] at this; norm_num at this; nlinarith
  · have := h.1
    rw [z1, abs_zero] at this; norm_num at this; nlinarith

theorem PassesUnder.flip {κ ζ ρ : ℝ} {a b c d : V3 ℝ} {s : ℝ} (h : PassesUnder κ ζ ρ a b c d s) : PassesUnder κ ζ ρ a b d c s := by
  obtain ⟨h1, h2, h3, t, h4, h5, h6, h7⟩ := h
  have e : slant a b d c = - slant a b c d := by unfold slant; ring
  have e2 : edgeAt (d, c) (1 - t) = edgeAt (c, d) t := by ext <;> simp [edgeAt, V3.smul] <;> ring
  refine ⟨by rw [e, abs_neg]; exact h1, h2, h3, 1 - t, by linarith, by linarith, by rw [e2]; exact h6, by rw [e2]; exact h7⟩

section
variable {R : Rounding}

/-- where the crossing was found -/
theorem met_at {M : ℝ} (hM : Small M) {E F : Edge ℝ} {p q : V3 (Fl R)} (h : Met M E F p q) (hκ : M ^ 2 / 2 ^ 15 ≤ |slant E.1 E.2 F.1 F.2|) {u t : ℝ}
    (hut : (edgeAt E u).xy = (edgeAt F t).xy) : ∃ σ, At M E p σ ∧ |σ - u| ≤ 1 / 2 ^ 22 := by
  obtain ⟨s, t', a1, a2, a3, a4, a5, a6, a7, a8⟩ := h
  obtain ⟨s0, t0, b1, b2, b3⟩ := a8 hκ
  have hs0 : slant E.1 E.2 F.1 F.2 ≠ 0 := by
    intro h0
    rw [h0, abs_zero] at hκ
    have := hM.sq.1
    norm_num at hκ
    nlinarith [hM.one]
  have : s0 = u := mul_right_cancel₀ hs0 ((cramer b3).1.trans (cramer hut).1.symm)
  subst this
  exact ⟨s, ⟨a1, a2, a5⟩, b1⟩

theorem met_some {M : ℝ} {E F : Edge ℝ} {p q : V3 (Fl R)} (h : Met M E F p q) : ∃ σ, At M E p σ := by
  obtain ⟨s, t', a1, a2, a3, a4, a5, -⟩ := h
  exact ⟨s, a1, a2, a5⟩

variable (hR : R.Accurate)
include hR

/-- where candidates come from -/
theorem cand_cases {M : ℝ} (hM : Small M) {s : STLFile (Fl R)} (hw : WellIndexed s) (hx : ∀ f ∈ s.facets, FacetExact M f) {cs}
    (h : edgeCrosses s.edges s.unseen = .ok cs) {v : Nat} {m} (hm : cs[v]? = some m) {ev : Edge (Fl R)} (hv : s.edges[v]? = some ev)
    {i : Nat} {f : Facet (Fl R)} {t : Nat × Nat × Nat} (hf : s.facets[i]? = some f) (ht : s.faceEdge[i]? = some t) (x) (hxc : x ∈ candList m ev f t) :
    (x = (ev.1, FP.lit 0) ∧ behind f ev.1 = true) ∨ (x = (ev.2, (ev.1 - ev.2).sqNorm) ∧ behind f ev.2 = true) ∨
    (x.2 = (ev.1 - x.1).sqNorm ∧ ∃ (c d : V3 ℝ) (q : V3 (Fl R)), f.val.HasSide (c, d) ∧ c.Within (4 * M) ∧ d.Within (4 * M) ∧
      Met M (ev.1.val, ev.2.val) (c, d) x.1 q ∧ FP.le x.1.z q.z = true) := by
  have hfx := hx f (List.mem_of_getElem? hf)
  have hk := (edgeCrosses_on s.edges s.unseen cs h v m hm ev hv).1
  have hmet := crosses_met hR hM hw hx h hm hv
  obtain ⟨o1, o2, o3⟩ := hw.faceOk i f t hf ht
  have cr : ∀ k e, s.edges[k]? = some e → (∃ sd ∈ sidesOf f, SameEdge e sd.1 sd.2) → x ∈ crossPt m ev k → 
      (x.2 = (ev.1 - x.1).sqNorm ∧ ∃ (c d : V3 ℝ) (q : V3 (Fl R)), f.val.HasSide (c, d) ∧ c.Within (4 * M) ∧ d.Within (4 * M) ∧
      Met M (ev.1.val, ev.2.val) (c, d) x.1 q ∧ FP.le x.1.z q.z = true) := by
    intro k e he hsd hxk
    obtain ⟨sd, hsd, hse⟩ := hsd
    obtain ⟨c, hcm, hck, rfl⟩ := (mem_crossPt m hk ev k x).mp hxk
    obtain ⟨ek, q, k1, k2, k3⟩ := hmet c hcm
    rw [hck, he] at k1; injection k1 with k1; subst k1
    obtain ⟨b1, b2⟩ := edge_exact hw hx (List.mem_of_getElem? he)
    obtain ⟨c1, c2, c3, c4⟩ := side_exact hfx hsd
    have hside : f.val.HasSide (e.1.val, e.2.val) := by
      rcases hse with ⟨g1, g2⟩ | ⟨g1, g2⟩
      · rw [exact_eq b1 c1 g1, exact_eq b2 c2 g2]; exact c3
      · rw [exact_eq b1 c2 g1, exact_eq b2 c1 g2]; exact c4
    exact ⟨rfl, _, _, q, hside, b1.2, b2.2, k2, k3⟩
  unfold candList at hxc
  simp only [List.mem_append] at hxc
  rcases hxc with (((h | h) | h) | h) | h
  · split_ifs at h with hb
    · rw [List.mem_singleton] at h; subst h; exact Or.inl ⟨rfl, hb⟩
    · simp at h
  · split_ifs at h with hb
    · rw [List.mem_singleton] at h; subst h; exact Or.inr (Or.inl ⟨rfl, hb⟩)
    · simp at h
  · obtain ⟨e, he, hse⟩ := o1; exact Or.inr (Or.inr (cr _ e he ⟨(f.e0, f.e1), by simp [sidesOf], hse⟩ h))
  · obtain ⟨e, he, hse⟩ := o2; exact Or.inr (Or.inr (cr _ e he ⟨(f.e1, f.e2), by simp [sidesOf], hse⟩ h))
  · obtain ⟨e, he, hse⟩ := o3; exact Or.inr (Or.inr (cr _ e he ⟨(f.e2, f.e0), by simp [sidesOf], hse⟩ h))

/-- every candidate is on the edge; its key is its distance -/
theorem cand_at {M : ℝ} (hM : Small M) {s : STLFile (Fl R)} (hw : WellIndexed s) (hx : ∀ f ∈ s.facets, FacetExact M f) {cs}
    (h : edgeCrosses s.edges s.unseen = .ok cs) {v : Nat} {m} (hm : cs[v]? = some m) {ev : Edge (Fl R)} (hv : s.edges[v]? = some ev)
    {i : Nat} {f : Facet (Fl R)} {t : Nat × Nat × Nat} (hf : s.facets[i]? = some f) (ht : s.faceEdge[i]? = some t) (x) (hxc : x ∈ candList m ev f t) :
    ∃ σ, At M (ev.1.val, ev.2.val) x.1 σ := by
  obtain ⟨a1, a2⟩ := edge_exact hw hx (List.mem_of_getElem? hv)
  rcases cand_cases hR hM hw hx h hm hv hf ht x hxc with ⟨rfl, -⟩ | ⟨rfl, -⟩ | ⟨-, c, d, q, -, -, -, k, -⟩
  · exact ⟨0, at_first hM.one (E := (ev.1.val, ev.2.val)) a1⟩
  · exact ⟨1, at_last hM.one (E := (ev.1.val, ev.2.val)) a2⟩
  · exact met_some k

theorem cand_key {M L : ℝ} (hM : Small M) {s : STLFile (Fl R)} (hw : WellIndexed s) (hx : ∀ f ∈ s.facets, FacetExact M f) {cs}
    (h : edgeCrosses s.edges s.unseen = .ok cs) {v : Nat} {m} (hm : cs[v]? = some m) {ev : Edge (Fl R)} (hv : s.edges[v]? = some ev)
    (hE : Edgy M (ev.1.val, ev.2.val) L)
    {i : Nat} {f : Facet (Fl R)} {t : Nat × Nat × Nat} (hf : s.facets[i]? = some f) (ht : s.faceEdge[i]? = some t) (x) (hxc : x ∈ candList m ev f t)
    {σ : ℝ} (hσ : At M (ev.1.val, ev.2.val) x.1 σ) : ∃ z, Away L x.2 z σ := by
  obtain ⟨a1, a2⟩ := edge_exact hw hx (List.mem_of_getElem? hv)
  have h0 := at_first hM.one (E := (ev.1.val, ev.2.val)) a1
  have hLp : 0 < L := lt_of_lt_of_le (by have := hM.one; positivity) hE.low
  rcases cand_cases hR hM hw hx h hm hv hf ht x hxc with ⟨rfl, -⟩ | ⟨rfl, -⟩ | ⟨e, -⟩
  · -- the first end itself: how far `σ` can be from 0
    refine ⟨0, lit_zero R, hσ.1, ?_⟩
    have hd : ∀ {p : Fl R} {a b : ℝ}, Fl.Near p a 0 → Fl.Near p (a + (b - a) * σ) (M / 2 ^ 44) → ((b - a) * σ) ^ 2 ≤ (M / 2 ^ 44) ^ 2 := by
      rintro p a b ⟨y, rfl, hy⟩ ⟨z, hz, hz2⟩
      injection hz with hz
      subst hz
      rw [abs_nonpos_iff, sub_eq_zero] at hy
      subst hy
      rw [show y - (y + (b - y) * σ) = - ((b - y) * σ) by ring, abs_neg] at hz2
      rw [← sq_abs]
      exact pow_le_pow_left₀ (abs_nonneg _) hz2 2
    obtain ⟨q1, q2, q3⟩ := hσ.2.2
    have d1 := hd a1.1.1 q1
    have d2 := hd a1.1.2.1 q2
    have d3 := hd a1.1.2.2 q3
    have hs : σ ^ 2 * L ^ 2 ≤ 3 * (M / 2 ^ 44) ^ 2 := by
      rw [← hE.sq]
      simp only at d1 d2 d3 ⊢
      linarith
    have hl := pow_le_pow_left₀ (by have := hM.one; positivity) hE.low 2
    rw [zero_sub, abs_neg, abs_of_nonneg (by positivity)]
    have e1 : (M / 2 ^ 44) ^ 2 = M ^ 2 / 2 ^ 88 := by ring
    have e2 : (M / 2 ^ 11) ^ 2 = M ^ 2 / 2 ^ 22 := by ring
    rw [e1] at hs
    rw [e2] at hl
    generalize σ ^ 2 * L ^ 2 = T at *
    have := sq_nonneg M
    generalize M ^ 2 = Q at *
    generalize L ^ 2 = Q' at *
    norm_num at *
    linarith
  · exact away_at hR hM hE h0 hσ
  · rw [e]; exact away_at hR hM hE h0 hσ

/-- a side under which the edge passes gives a candidate -/
theorem cand_cross {M : ℝ} (hM : Small M) {s : STLFile (Fl R)} (hw : WellIndexed s) (hx : ∀ f ∈ s.facets, FacetExact M f) {cs}
    (h : edgeCrosses s.edges s.unseen = .ok cs) {v : Nat} (hvu : v < s.unseen) {m} (hm : cs[v]? = some m) {ev : Edge (Fl R)} (hv : s.edges[v]? = some ev)
    {i : Nat} {f : Facet (Fl R)} {t : Nat × Nat × Nat} (hf : s.facets[i]? = some f) (ht : s.faceEdge[i]? = some t) {c d : V3 ℝ} (hcd : f.val.HasSide (c, d))
    {u : ℝ} (hu : PassesUnder (M ^ 2 / 2 ^ 15) (M / 2 ^ 13) (1 / 2 ^ 16) ev.1.val ev.2.val c d u) :
    ∃ x ∈ candList m ev f t, ∃ σ, At M (ev.1.val, ev.2.val) x.1 σ ∧ |σ - u| ≤ 1 / 2 ^ 22 := by
  obtain ⟨a1, a2⟩ := edge_exact hw hx (List.mem_of_getElem? hv)
  obtain ⟨k, e, hk, hkt, hval⟩ := side_entry hw hx hf ht hcd
  obtain ⟨b1, b2⟩ := edge_exact hw hx (List.mem_of_getElem? hk)
  have hu' : PassesUnder (M ^ 2 / 2 ^ 15) (M / 2 ^ 13) (1 / 2 ^ 16) ev.1.val ev.2.val e.1.val e.2.val u := by
    rcases hval with ⟨e1, e2⟩ | ⟨e1, e2⟩
    · rw [e1, e2]; exact hu
    · rw [e1, e2]; exact hu.flip
  obtain ⟨h1, h2, h3, w, h4, h5, h6, h7⟩ := hu'
  have hne : v ≠ k := by
    rintro rfl
    rw [hv] at hk; injection hk with hk; subst hk
    have : slant ev.1.val ev.2.val ev.1.val ev.2.val = 0 := by unfold slant; ring
    rw [this, abs_zero] at h1
    have := hM.sq.1
    norm_num at h1; nlinarith [hM.one]
  obtain ⟨p, hp⟩ : ∃ p, (v, k, p) ∈ crossList s.edges s.unseen := by
    rcases lt_or_gt_of_ne hne with hlt | hgt
    · obtain ⟨p, hp⟩ := (crossPair_hit hR hM (v := v) (u := k) (E := (ev.1.val, ev.2.val)) (F := (e.1.val, e.2.val)) a1 a2 b1 b2 h1 (by norm_num at *; linarith) (by norm_num at *; linarith)
        (by norm_num at *; linarith) (by norm_num at *; linarith) h6).1 h7
      exact ⟨p, (mem_crossList _ _ _).2 ⟨v, k, ev, e, hvu, hlt, hv, hk, hp⟩⟩
    · have h1' : M ^ 2 / 2 ^ 15 ≤ |slant e.1.val e.2.val ev.1.val ev.2.val| := by rw [slant_symm, abs_neg]; exact h1
      obtain ⟨p, hp⟩ := (crossPair_hit hR hM (v := k) (u := v) (E := (e.1.val, e.2.val)) (F := (ev.1.val, ev.2.val)) b1 b2 a1 a2 h1' (by norm_num at *; linarith) (by norm_num at *; linarith)
        (by norm_num at *; linarith) (by norm_num at *; linarith) h6.symm).2 h7
      exact ⟨p, (mem_crossList _ _ _).2 ⟨k, v, e, ev, by omega, hgt, hk, hv, hp⟩⟩
  obtain ⟨cs', g1, g2, g3⟩ := edgeCrosses_ok s.edges s.unseen
  rw [h] at g1; injection g1 with g1; subst g1
  obtain ⟨em, hpw⟩ := g3 v m hm
  have hpm : (k, p) ∈ m := by
    rw [em]
    exact List.mem_map.2 ⟨(v, k, p), List.mem_filter.2 ⟨hp, by simp⟩, rfl⟩
  obtain ⟨ek, q, q1, q2, q3⟩ := crosses_met hR hM hw hx h hm hv (k, p) hpm
  rw [hk] at q1; injection q1 with q1; subst q1
  obtain ⟨σ, s1, s2⟩ := met_at hM q2 h1 h6
  refine ⟨(p, (ev.1 - p).sqNorm), ?_, σ, s1, s2⟩
  have hcp : (p, (ev.1 - p).sqNorm) ∈ crossPt m ev k := (mem_crossPt m hpw ev k _).2 ⟨(k, p), hpm, rfl, rfl⟩
  unfold candList
  simp only [List.mem_append]
  rcases hkt with rfl | rfl | rfl
  · exact Or.inl (Or.inl (Or.inr hcp))
  · exact Or.inl (Or.inr hcp)
  · exact Or.inr hcp

/-- candidates at a facet that hides a part -/
theorem cand_part {M : ℝ} (hM : Small M) {s : STLFile (Fl R)} (hw : WellIndexed s) (hx : ∀ f ∈ s.facets, FacetExact M f) {cs}
    (h : edgeCrosses s.edges s.unseen = .ok cs) {v : Nat} (hvu : v < s.unseen) {m} (hm : cs[v]? = some m) {ev : Edge (Fl R)} (hv : s.edges[v]? = some ev)
    {i : Nat} {f : Facet (Fl R)} {t : Nat × Nat × Nat} (hf : s.facets[i]? = some f) (ht : s.faceEdge[i]? = some t) {a b : ℝ}
    (hp : PartBy M (ev.1.val, ev.2.val) f.val a b) :
    (∀ x ∈ candList m ev f t, ∃ σ, At M (ev.1.val, ev.2.val) x.1 σ ∧ a - 1 / 2 ^ 16 ≤ σ ∧ σ ≤ b + 1 / 2 ^ 16) ∧
    (∃ x ∈ candList m ev f t, ∃ σ, At M (ev.1.val, ev.2.val) x.1 σ ∧ |σ - a| ≤ 1 / 2 ^ 16) ∧
    (∃ x ∈ candList m ev f t, ∃ σ, At M (ev.1.val, ev.2.val) x.1 σ ∧ |σ - b| ≤ 1 / 2 ^ 16) := by
  have h1M := hM.one
  obtain ⟨a1, a2⟩ := edge_exact hw hx (List.mem_of_getElem? hv)
  have hfx := hx f (List.mem_of_getElem? hf)
  have hlong := hp.long
  refine ⟨?_, ?_, ?_⟩
  · intro x hxc
    rcases cand_cases hR hM hw hx h hm hv hf ht x hxc with ⟨rfl, hb⟩ | ⟨rfl, hb⟩ | ⟨-, c, d, q, hcd, wc, wd, k, hz⟩
    · rcases hp.near with hn | e
      · rw [behind_false hR hM hfx a1 hn] at hb; cases hb
      · exact ⟨0, at_first h1M (E := (ev.1.val, ev.2.val)) a1, by rw [e]; norm_num, by norm_num at *; linarith⟩
    · rcases hp.far with hn | e
      · rw [behind_false hR hM hfx a2 hn] at hb; cases hb
      · exact ⟨1, at_last h1M (E := (ev.1.val, ev.2.val)) a2, by norm_num at *; linarith, by rw [e]; norm_num⟩
    · rcases hp.sides c d hcd with hs | hs | hs | ⟨u, u1, u2, hs⟩
      · obtain ⟨s, t, -, -, -, -, -, -, a7, -⟩ := k
        exact absurd hs a7
      · exact (met_higher hM k hz hs).elim
      · exact (met_over hM k a1.2 a2.2 wc wd hz hs).elim
      · obtain ⟨g1, -, -, w, -, -, g6, -⟩ := hs
        obtain ⟨σ, s1, s2⟩ := met_at hM k g1 g6
        rw [abs_le] at s2
        refine ⟨σ, s1, ?_, ?_⟩ <;> norm_num at * <;> linarith
  · rcases hp.first with ⟨e, hb⟩ | ⟨c, d, u, hcd, hu, hpu⟩
    · refine ⟨(ev.1, FP.lit 0), ?_, 0, at_first h1M (E := (ev.1.val, ev.2.val)) a1, by rw [e]; norm_num⟩
      unfold candList
      rw [if_pos (behind_true hR hM hfx a1 hb)]
      simp
    · obtain ⟨x, hxc, σ, s1, s2⟩ := cand_cross hR hM hw hx h hvu hm hv hf ht hcd hpu
      refine ⟨x, hxc, σ, s1, ?_⟩
      rw [abs_le] at *
      norm_num at *
      constructor <;> linarith
  · rcases hp.last with ⟨e, hb⟩ | ⟨c, d, u, hcd, hu, hpu⟩
    · refine ⟨(ev.2, (ev.1 - ev.2).sqNorm), ?_, 1, at_last h1M (E := (ev.1.val, ev.2.val)) a2, by rw [e]; norm_num⟩
      unfold candList
      rw [if_pos (behind_true hR hM hfx a2 hb)]
      simp
    · obtain ⟨x, hxc, σ, s1, s2⟩ := cand_cross hR hM hw hx h hvu hm hv hf ht hcd hpu
      refine ⟨x, hxc, σ, s1, ?_⟩
      rw [abs_le] at *
      norm_num at *
      constructor <;> linarith

/-- candidates at a facet that hides nothing are next to the end at which they meet -/
theorem cand_end {M : ℝ} (hM : Small M) {s : STLFile (Fl R)} (hw : WellIndexed s) (hx : ∀ f ∈ s.facets, FacetExact M f) {cs}
    (h : edgeCrosses s.edges s.unseen = .ok cs) {v : Nat} {m} (hm : cs[v]? = some m) {ev : Edge (Fl R)} (hv : s.edges[v]? = some ev)
    {i : Nat} {f : Facet (Fl R)} {t : Nat × Nat × Nat} (hf : s.facets[i]? = some f) (ht : s.faceEdge[i]? = some t) {P : V3 ℝ} {u : ℝ}
    (hP : (P = ev.1.val ∧ u = 0) ∨ (P = ev.2.val ∧ u = 1)) (hne : ev.1.val ≠ ev.2.val) (hc : ClearBut M (ev.1.val, ev.2.val) f.val P) (x) (hxc : x ∈ candList m ev f t) :
    ∃ σ, At M (ev.1.val, ev.2.val) x.1 σ ∧ |σ - u| ≤ 1 / 2 ^ 22 := by
  have h1M := hM.one
  obtain ⟨a1, a2⟩ := edge_exact hw hx (List.mem_of_getElem? hv)
  have hfx := hx f (List.mem_of_getElem? hf)
  have hPu : edgeAt (ev.1.val, ev.2.val) u = P := by
    rcases hP with ⟨rfl, rfl⟩ | ⟨rfl, rfl⟩ <;> ext <;> simp [edgeAt, V3.smul]
  rcases cand_cases hR hM hw hx h hm hv hf ht x hxc with ⟨rfl, hb⟩ | ⟨rfl, hb⟩ | ⟨-, c, d, q, hcd, wc, wd, k, hz⟩
  · rcases hc.1 _ (Or.inl rfl) with e | hn
    · refine ⟨0, at_first h1M (E := (ev.1.val, ev.2.val)) a1, ?_⟩
      rcases hP with ⟨rfl, rfl⟩ | ⟨rfl, rfl⟩
      · norm_num
      · exact absurd e hne
    · rw [behind_false hR hM hfx a1 hn] at hb; cases hb
  · rcases hc.1 _ (Or.inr rfl) with e | hn
    · refine ⟨1, at_last h1M (E := (ev.1.val, ev.2.val)) a2, ?_⟩
      rcases hP with ⟨rfl, rfl⟩ | ⟨rfl, rfl⟩
      · exact absurd e.symm hne
      · norm_num
    · rw [behind_false hR hM hfx a2 hn] at hb; cases hb
  · rcases hc.2 c d hcd with ⟨h1, h2⟩ | h1 | h1 | h1
    · obtain ⟨t1, ht1⟩ : ∃ t1, edgeAt (c, d) t1 = P := by
        rcases h1 with rfl | rfl
        · exact ⟨0, by ext <;> simp [edgeAt, V3.smul]⟩
        · exact ⟨1, by ext <;> simp [edgeAt, V3.smul]⟩
      exact met_at hM k h2 (u := u) (t := t1) (by rw [hPu, ht1])
    · obtain ⟨s, t, -, -, -, -, -, -, a7, -⟩ := k
      exact absurd h1 a7
    · exact (met_higher hM k hz h1).elim
    · exact (met_over hM k a1.2 a2.2 wc wd hz h1).elim

omit hR in
theorem two_le_length {α : Type} {l : List α} {x y : α} (hx : x ∈ l) (hy : y ∈ l) (h : x ≠ y) : 2 ≤ l.length := by
  match l, hx, hy with
  | [a], hx, hy => simp at hx hy; exact absurd (hx.trans hy.symm) h
  | a :: b :: l, _, _ => simp

/-- a facet that hides a part is found to do so -/
theorem faceHides_part {M L : ℝ} (hM : Small M) (S : Sorter) (hS : SortOK S) {s : STLFile (Fl R)} (hw : WellIndexed s) (hx : ∀ f ∈ s.facets, FacetExact M f) {cs}
    (h : edgeCrosses s.edges s.unseen = .ok cs) {v : Nat} (hvu : v < s.unseen) {m} (hm : cs[v]? = some m) {ev : Edge (Fl R)} (hv : s.edges[v]? = some ev)
    (hE : Edgy M (ev.1.val, ev.2.val) L)
    {i : Nat} {f : Facet (Fl R)} {t : Nat × Nat × Nat} (hf : s.facets[i]? = some f) (ht : s.faceEdge[i]? = some t) {a b : ℝ}
    (hp : PartBy M (ev.1.val, ev.2.val) f.val a b) (o) (ho : faceHides S m v ev f t = .ok o) :
    ∃ k u w, o = some k ∧ At M (ev.1.val, ev.2.val) k.1 u ∧ At M (ev.1.val, ev.2.val) k.2 w ∧ |u - a| ≤ 1 / 2 ^ 12 ∧ |w - b| ≤ 1 / 2 ^ 12 := by
  have h1M := hM.one
  have hLp : 0 < L := lt_of_lt_of_le (by positivity) hE.low
  have hlong := hp.long
  obtain ⟨a1, a2⟩ := edge_exact hw hx (List.mem_of_getElem? hv)
  have h0 := at_first h1M (E := (ev.1.val, ev.2.val)) a1
  obtain ⟨c1, ⟨xa, hxa, sa, ata, nsa⟩, ⟨xb, hxb, sb, atb, nsb⟩⟩ := cand_part hR hM hw hx h hvu hm hv hf ht hp
  have key : ∀ x ∈ candList m ev f t, ∀ {σ}, At M (ev.1.val, ev.2.val) x.1 σ → ∃ z, Away L x.2 z σ := fun x hxc σ hσ => cand_key hR hM hw hx h hm hv hE hf ht x hxc hσ
  have hown : ¬ (v = t.1 ∨ v = t.2.1 ∨ v = t.2.2) := by
    intro hvt
    obtain ⟨⟨e1, g1, k1⟩, ⟨e2, g2, k2⟩, ⟨e3, g3, k3⟩⟩ := hw.faceOk i f t hf ht
    have hfx := hx f (List.mem_of_getElem? hf)
    apply hp.not_side h1M
    have go : ∀ {sd : V3 (Fl R) × V3 (Fl R)}, sd ∈ sidesOf f → SameEdge ev sd.1 sd.2 → f.val.HasSide (ev.1.val, ev.2.val) := by
      intro sd hsd hse
      obtain ⟨c1, c2, c3, c4⟩ := side_exact hfx hsd
      rcases hse with ⟨g1, g2⟩ | ⟨g1, g2⟩
      · rw [exact_eq a1 c1 g1, exact_eq a2 c2 g2]; exact c3
      · rw [exact_eq a1 c2 g1, exact_eq a2 c1 g2]; exact c4
    rcases hvt with rfl | rfl | rfl
    · rw [hv] at g1; injection g1 with g1; subst g1; exact go (sd := (f.e0, f.e1)) (by simp [sidesOf]) k1
    · rw [hv] at g2; injection g2 with g2; subst g2; exact go (sd := (f.e1, f.e2)) (by simp [sidesOf]) k2
    · rw [hv] at g3; injection g3 with g3; subst g3; exact go (sd := (f.e2, f.e0)) (by simp [sidesOf]) k3
  unfold faceHides at ho
  rw [hiddenPoints_eq] at ho
  dsimp only [bind, Except.bind, pure, Except.pure] at ho
  rw [if_neg hown] at ho
  generalize candList m ev f t = l at *
  have hlen : ¬ l.length < 2 := by
    rw [not_lt]
    refine two_le_length hxa hxb ?_
    rintro rfl
    obtain ⟨z1, k1⟩ := key xa hxa ata
    obtain ⟨z2, k2⟩ := key xa hxa atb
    have := k1.1.symm.trans k2.1
    injection this with this
    have := away_le hLp k2 k1 this.ge
    rw [abs_le] at nsa nsb
    norm_num at *
    linarith
  rw [if_neg hlen] at ho
  have hperm := hS.perm (fun l r : V3 (Fl R) × (Fl R) => FP.lt l.2 r.2) l
  have hsorted := hS.sorted (fun l r : V3 (Fl R) × (Fl R) => FP.lt l.2 r.2) l (strictWeak_key (fun x => x ∈ l) Prod.snd (by
    intro x hxl
    obtain ⟨σ, hσ, -⟩ := c1 x hxl
    obtain ⟨z, hz⟩ := key x hxl hσ
    show FP.Ok x.2
    rw [hz.1]
    show Ext.eq (.fin z) (.fin z) = true
    simp [Ext.eq]))
  generalize S.sort (fun l r : V3 (Fl R) × (Fl R) => FP.lt l.2 r.2) l = srt at *
  split at ho
  swap
  · cases ho
  rename_i x y hhead hlast
  have hxm : x ∈ srt := List.mem_of_mem_head? hhead
  have hym : y ∈ srt := List.mem_of_getLast? hlast
  have hmin : ∀ z ∈ srt, FP.lt z.2 x.2 = false := by
    intro z hz
    match srt, hhead, hsorted with
    | w :: ws, hhead, hsorted =>
      simp at hhead; subst hhead
      rcases List.mem_cons.1 hz with rfl | hz
      · exact FPOrd.lt_irrefl _
      · exact (List.pairwise_cons.1 hsorted).1 z hz
  have hmax : ∀ z ∈ srt, FP.lt y.2 z.2 = false := by
    intro z hz
    obtain ⟨ws, rfl⟩ := List.getLast?_eq_some_iff.1 hlast
    rcases List.mem_append.1 hz with hz | hz
    · exact (List.pairwise_append.1 hsorted).2.2 z hz y (by simp)
    · rw [List.mem_singleton] at hz; subst hz; exact FPOrd.lt_irrefl _
  obtain ⟨u, hu, hu1, hu2⟩ := c1 x (hperm.subset hxm)
  obtain ⟨w, hw', hw1, hw2⟩ := c1 y (hperm.subset hym)
  obtain ⟨zx, kx⟩ := key x (hperm.subset hxm) hu
  obtain ⟨zy, ky⟩ := key y (hperm.subset hym) hw'
  obtain ⟨za, ka⟩ := key xa hxa ata
  obtain ⟨zb, kb⟩ := key xb hxb atb
  have m1 : u ≤ sa + 1 / 2 ^ 13 := by
    refine away_le hLp kx ka ?_
    by_contra hcon
    push Not at hcon
    have := (away_fl ka kx).2 hcon
    rw [hmin xa (hperm.symm.subset hxa)] at this
    cases this
  have m2 : sb ≤ w + 1 / 2 ^ 13 := by
    refine away_le hLp kb ky ?_
    by_contra hcon
    push Not at hcon
    have := (away_fl ky kb).2 hcon
    rw [hmax xb (hperm.symm.subset hxb)] at this
    cases this
  have n1 : |u - a| ≤ 1 / 2 ^ 12 := by
    rw [abs_le] at *; norm_num at *; constructor <;> linarith
  have n2 : |w - b| ≤ 1 / 2 ^ 12 := by
    rw [abs_le] at *; norm_num at *; constructor <;> linarith
  have hne : FP.eq (x.1 - y.1).sqNorm (FP.lit 0 : Fl R) = false := by
    obtain ⟨z, hz, hz2⟩ := dist_at hR hM hE hu hw'
    rw [hz, lit_zero]
    show Ext.eq (.fin z) (.fin 0) = false
    have hpos : 0 < z := by
      have hQ : 0 < L ^ 2 := by positivity
      have : (1 / 2 ^ 12) ^ 2 ≤ (w - u) ^ 2 := pow_le_pow_left₀ (by positivity) (by rw [abs_le] at n1 n2; norm_num at *; linarith) 2
      have := mul_le_mul_of_nonneg_right this hQ.le
      rw [abs_le] at hz2
      rw [show (u - w) ^ 2 = (w - u) ^ 2 by ring] at hz2
      generalize L ^ 2 = Q at *
      generalize (w - u) ^ 2 * Q = T at *
      norm_num at *
      linarith
    simp [Ext.eq, hpos.ne']
  rw [if_neg (by rw [hne]; simp)] at ho
  split_ifs at ho
  injection ho with ho; subst ho
  exact ⟨_, u, w, rfl, hu, hw', n1, n2⟩

end
end S2P
