import Verif.Lemmas.Crosses
import Verif.Lemmas.StlMake
import Mathlib.Tactic.Positivity

set_option linter.unusedSectionVars false
set_option linter.unusedVariables false

namespace S2P
variable {K : Type} [Field K] [LinearOrder K] [IsStrictOrderedRing K] [FloorRing K] [Trans K]

/-- squared length of an edge -/
def edgeLen2 (e : Edge K) : K := (e.2 - e.1).sqNorm

theorem V3.sqNorm_pos (a : V3 K) (h : a ≠ ⟨0, 0, 0⟩) : 0 < a.sqNorm := by
  rcases lt_or_eq_of_le (V3.sqNorm_nonneg a) with h1 | h1
  · exact h1
  · exfalso; apply h
    simp only [V3.sqNorm, V3.dot] at h1
    have hx : a.x = 0 := by nlinarith [mul_self_nonneg a.x, mul_self_nonneg a.y, mul_self_nonneg a.z]
    have hy : a.y = 0 := by nlinarith [mul_self_nonneg a.x, mul_self_nonneg a.y, mul_self_nonneg a.z]
    have hz : a.z = 0 := by nlinarith [mul_self_nonneg a.x, mul_self_nonneg a.y, mul_self_nonneg a.z]
    ext <;> assumption

theorem edgeLen2_pos (e : Edge K) (h : e.1 ≠ e.2) : 0 < edgeLen2 e := by
  apply V3.sqNorm_pos
  intro h0
  apply h
  have hx := congrArg V3.x h0
  have hy := congrArg V3.y h0
  have hz := congrArg V3.z h0
  simp at hx hy hz
  ext
  · linarith
  · linarith
  · linarith

theorem edgeAt_dist (e : Edge K) (s t : K) : (edgeAt e s - edgeAt e t).sqNorm = (s - t) * (s - t) * edgeLen2 e := by
  simp only [edgeAt, edgeLen2, V3.sqNorm, V3.dot, V3.sub_x, V3.sub_y, V3.sub_z, V3.add_x, V3.add_y, V3.add_z, V3.smul]
  ring

@[simp] theorem edgeAt_zero (e : Edge K) : edgeAt e 0 = e.1 := by
  ext <;> simp [edgeAt, V3.smul]
@[simp] theorem edgeAt_one (e : Edge K) : edgeAt e 1 = e.2 := by
  ext <;> simp [edgeAt, V3.smul]

theorem edgeAt_inj (e : Edge K) (h : e.1 ≠ e.2) (s t : K) (hst : edgeAt e s = edgeAt e t) : s = t := by
  have h1 := edgeAt_dist e s t
  rw [hst] at h1
  have h0 : (edgeAt e t - edgeAt e t).sqNorm = 0 := by simp [V3.sqNorm, V3.dot]
  rw [h0] at h1
  have := edgeLen2_pos e h
  have h2 : (s - t) * (s - t) = 0 := by
    rcases mul_eq_zero.1 h1.symm with h | h
    · exact h
    · linarith
  have := mul_self_eq_zero.1 h2
  linarith

theorem sq_lt_iff (L : K) (hL : 0 < L) (a b : K) (ha : 0 ≤ a) (hb : 0 ≤ b) : a * a * L < b * b * L ↔ a < b := by
  rw [mul_lt_mul_iff_left₀ hL]
  constructor
  · intro h; by_contra hc; nlinarith
  · intro h; nlinarith

theorem sq_le_iff (L : K) (hL : 0 < L) (a b : K) (ha : 0 ≤ a) (hb : 0 ≤ b) : a * a * L ≤ b * b * L ↔ a ≤ b := by
  rw [← not_lt, ← not_lt, sq_lt_iff L hL b a hb ha]

/-- the loop of GenerateLines on parameters -/
def segLoop : List (K × K) → K → List (K × K) × K
  | [], f => ([], f)
  | s :: r, f => ((if f < s.1 then [(f, s.1)] else []) ++ (segLoop r (max f s.2)).1, (segLoop r (max f s.2)).2)

theorem segLoop_ge (spans : List (K × K)) : ∀ f : K, f ≤ (segLoop spans f).2 ∧ ∀ s ∈ spans, s.2 ≤ (segLoop spans f).2 := by
  induction spans with
  | nil => intro f; simp [segLoop]
  | cons s r ih =>
    intro f
    have := ih (max f s.2)
    simp only [segLoop]
    refine ⟨le_trans (le_max_left _ _) this.1, ?_⟩
    intro x hx
    rcases List.mem_cons.1 hx with rfl | hx
    · exact le_trans (le_max_right _ _) this.1
    · exact this.2 x hx

theorem segLoop_le_one (spans : List (K × K)) (h : ∀ s ∈ spans, s.2 ≤ 1) : ∀ f : K, f ≤ 1 → (segLoop spans f).2 ≤ 1 := by
  induction spans with
  | nil => intro f hf; simpa [segLoop] using hf
  | cons s r ih =>
    intro f hf
    simp only [segLoop]
    exact ih (fun x hx => h x (by simp [hx])) _ (max_le hf (h s (by simp)))

theorem segLoop_cover (spans : List (K × K)) : ∀ (f t : K), f ≤ t →
    (∃ g ∈ (segLoop spans f).1, g.1 ≤ t ∧ t ≤ g.2) ∨ (∃ s ∈ spans, s.1 ≤ t ∧ t ≤ s.2) ∨ (segLoop spans f).2 ≤ t := by
  induction spans with
  | nil => intro f t h; simp [segLoop, h]
  | cons s r ih =>
    intro f t h
    simp only [segLoop]
    rcases lt_or_ge t s.1 with h1 | h1
    · left
      refine ⟨(f, s.1), ?_, h, h1.le⟩
      rw [if_pos (lt_of_le_of_lt h h1)]; simp
    · rcases le_or_gt t s.2 with h2 | h2
      · right; left; exact ⟨s, by simp, h1, h2⟩
      · rcases ih (max f s.2) t (max_le h h2.le) with ⟨g, hg, h3⟩ | ⟨g, hg, h3⟩ | h3
        · left; exact ⟨g, by simp [hg], h3⟩
        · right; left; exact ⟨g, by simp [hg], h3⟩
        · right; right; exact h3

theorem segLoop_segs (spans : List (K × K)) (hw : ∀ s ∈ spans, s.1 ≤ s.2) (hs : spans.Pairwise (fun a b => a.1 ≤ b.1)) : ∀ (f : K) (g : K × K),
    g ∈ (segLoop spans f).1 → f ≤ g.1 ∧ g.1 < g.2 ∧ g.2 ≤ (segLoop spans f).2 ∧ (∃ s ∈ spans, g.2 = s.1) ∧
      ∀ s ∈ spans, s.2 ≤ g.1 ∨ g.2 ≤ s.1 := by
  induction spans with
  | nil => intro f g h; simp [segLoop] at h
  | cons s r ih =>
    intro f g h
    rw [List.pairwise_cons] at hs
    simp only [segLoop, List.mem_append] at h
    have hge := segLoop_ge r (max f s.2)
    rcases h with h | h
    · split_ifs at h with hc
      · simp at h; subst h
        refine ⟨le_refl _, hc, ?_, ⟨s, by simp, rfl⟩, ?_⟩
        · simp only [segLoop]
          exact le_trans (le_trans (hw s (by simp)) (le_max_right _ _)) hge.1
        · intro x hx
          right
          rcases List.mem_cons.1 hx with rfl | hx
          · exact le_refl _
          · exact hs.1 x hx
      · simp at h
    · obtain ⟨h1, h2, h3, ⟨x, hx, hx'⟩, h5⟩ := ih (fun x hx => hw x (by simp [hx])) hs.2 _ g h
      refine ⟨le_trans (le_max_left _ _) h1, h2, by simpa [segLoop] using h3, ⟨x, by simp [hx], hx'⟩, ?_⟩
      intro y hy
      rcases List.mem_cons.1 hy with rfl | hy
      · left; exact le_trans (le_max_right _ _) h1
      · exact h5 y hy

theorem segLoop_ordered (spans : List (K × K)) (hw : ∀ s ∈ spans, s.1 ≤ s.2) (hs : spans.Pairwise (fun a b => a.1 ≤ b.1)) : ∀ f : K,
    (segLoop spans f).1.Pairwise (fun a b => a.2 ≤ b.1) := by
  induction spans with
  | nil => intro f; simp [segLoop]
  | cons s r ih =>
    intro f
    rw [List.pairwise_cons] at hs
    have hw' : ∀ x ∈ r, x.1 ≤ x.2 := fun x hx => hw x (by simp [hx])
    simp only [segLoop]
    rw [List.pairwise_append]
    refine ⟨by split_ifs <;> simp, ih hw' hs.2 _, ?_⟩
    intro a ha b hb
    split_ifs at ha with hc
    · simp at ha; subst ha
      have := segLoop_segs r hw' hs.2 _ b hb
      exact le_trans (le_trans (hw s (by simp)) (le_max_right _ _)) this.1
    · simp at ha

/-- all segments of an edge -/
def edgeSegs (spans : List (K × K)) : List (K × K) :=
  (segLoop spans 0).1 ++ (if (segLoop spans 0).2 < 1 then [((segLoop spans 0).2, 1)] else [])

/-- the 3D ends of the spans -/
def spanPts (e : Edge K) (s : K × K) : Edge (Ext K) := ((edgeAt e s.1).fin, (edgeAt e s.2).fin)

theorem dist_fin (e : Edge K) (t : K) : (e.1.fin - (edgeAt e t).fin).sqNorm = Ext.fin (t * t * edgeLen2 e) := by
  rw [V3.fin_sub, V3.fin_sqNorm]
  have := edgeAt_dist e 0 t
  rw [edgeAt_zero] at this
  rw [this]; congr 1; ring

theorem spanLoop_fin (e : Edge K) (hne : e.1 ≠ e.2) (spans : List (K × K)) (hs : ∀ s ∈ spans, 0 ≤ s.1 ∧ s.1 ≤ s.2) :
    ∀ (f : K) (acc : List (Line (Ext K))), 0 ≤ f →
    spanLoop e.1.fin (spans.map (spanPts e)) (edgeAt e f).fin (Ext.fin (f * f * edgeLen2 e)) acc =
      .ok ((edgeAt e (segLoop spans f).2).fin, acc ++ segLines e (segLoop spans f).1) := by
  have hL := edgeLen2_pos e hne
  induction spans with
  | nil => intro f acc hf; simp [spanLoop, segLoop, segLines]
  | cons s r ih =>
    intro f acc hf
    obtain ⟨h0, h1⟩ := hs s (by simp)
    have h2 : 0 ≤ s.2 := le_trans h0 h1
    simp only [List.map_cons, spanLoop, spanPts, dist_fin, Ext.fin_lt, Ext.fin_le, sq_lt_iff _ hL _ _ hf h0, sq_lt_iff _ hL _ _ hf h2,
      sq_le_iff _ hL _ _ h0 h2, h1, decide_true, if_true]
    have e1 : (if decide (f < s.2) = true then (edgeAt e s.2).fin else (edgeAt e f).fin) = (edgeAt e (max f s.2)).fin := by
      by_cases hc : f < s.2
      · simp [hc, max_eq_right hc.le]
      · simp [hc, max_eq_left (not_lt.1 hc)]
    have e2 : (if decide (f < s.2) = true then Ext.fin (s.2 * s.2 * edgeLen2 e) else Ext.fin (f * f * edgeLen2 e)) =
        Ext.fin (max f s.2 * max f s.2 * edgeLen2 e) := by
      by_cases hc : f < s.2
      · simp [hc, max_eq_right hc.le]
      · simp [hc, max_eq_left (not_lt.1 hc)]
    rw [e1, e2]
    refine (ih (fun x hx => hs x (by simp [hx])) (max f s.2) _ (le_trans hf (le_max_left _ _))).trans ?_
    simp only [segLoop, segLines, List.map_append]
    by_cases hc : f < s.1
    · simp [hc, Line.of3]
    · simp [hc]

theorem edgeLines_fin (e : Edge K) (hne : e.1 ≠ e.2) (spans : List (K × K)) (hs : ∀ s ∈ spans, 0 ≤ s.1 ∧ s.1 ≤ s.2 ∧ s.2 ≤ 1) :
    edgeLines (FP.lit 0) e.fin (spans.map (spanPts e)) = .ok (segLines e (edgeSegs spans)) := by
  have hL := edgeLen2_pos e hne
  unfold edgeLines
  have h := spanLoop_fin e hne spans (fun s hs' => ⟨(hs s hs').1, (hs s hs').2.1⟩) 0 [] (le_refl _)
  rw [edgeAt_zero] at h
  have hz : (Ext.fin (0 * 0 * edgeLen2 e) : Ext K) = FP.lit 0 := by simp
  rw [hz] at h
  have hle := segLoop_le_one spans (fun s h => (hs s h).2.2) 0 zero_le_one
  have hge := (segLoop_ge spans 0).1
  rw [h]
  simp only [bind, Except.bind, pure, Except.pure, List.nil_append]
  have hd : ((edgeAt e (segLoop spans 0).2).fin - e.2.fin).sqNorm = Ext.fin ((1 - (segLoop spans 0).2) * (1 - (segLoop spans 0).2) * edgeLen2 e) := by
    rw [V3.fin_sub, V3.fin_sqNorm]
    have := edgeAt_dist e (segLoop spans 0).2 1
    rw [edgeAt_one] at this
    rw [this]; congr 1; ring
  rw [hd]
  simp only [Ext.lit_eq, Rat.cast_zero, Ext.fin_mul, Ext.fin_lt]
  by_cases hc : (segLoop spans 0).2 < 1
  · have : (0 : K) * 0 < (1 - (segLoop spans 0).2) * (1 - (segLoop spans 0).2) * edgeLen2 e := by
      rw [zero_mul]; have : 0 < 1 - (segLoop spans 0).2 := by linarith
      positivity
    rw [if_pos (by simpa using this)]
    simp [edgeSegs, segLines, hc, Line.of3]
  · have h1 : (segLoop spans 0).2 = 1 := le_antisymm hle (not_lt.1 hc)
    rw [if_neg (by rw [h1]; simp)]
    simp [edgeSegs, hc]

/-- what `edgeSegs` draws -/
theorem edgeSegs_spec (spans : List (K × K)) (hs : ∀ s ∈ spans, 0 ≤ s.1 ∧ s.1 ≤ s.2 ∧ s.2 ≤ 1)
    (ho : spans.Pairwise (fun a b => a.1 ≤ b.1)) :
    (∀ g ∈ edgeSegs spans, 0 ≤ g.1 ∧ g.1 < g.2 ∧ g.2 ≤ 1) ∧
    (edgeSegs spans).Pairwise (fun a b => a.2 ≤ b.1) ∧
    (∀ t, 0 ≤ t → t ≤ 1 → (∃ g ∈ edgeSegs spans, g.1 ≤ t ∧ t ≤ g.2) ∨ ∃ s ∈ spans, s.1 ≤ t ∧ t ≤ s.2) ∧
    (∀ g ∈ edgeSegs spans, ∀ s ∈ spans, s.2 ≤ g.1 ∨ g.2 ≤ s.1) := by
  have hw : ∀ s ∈ spans, s.1 ≤ s.2 := fun s h => (hs s h).2.1
  have hle := segLoop_le_one spans (fun s h => (hs s h).2.2) 0 zero_le_one
  have hge := segLoop_ge spans 0
  have hsg := segLoop_segs spans hw ho 0
  unfold edgeSegs
  refine ⟨?_, ?_, ?_, ?_⟩
  · intro g hg
    rcases List.mem_append.1 hg with hg | hg
    · obtain ⟨h1, h2, h3, _⟩ := hsg g hg
      exact ⟨h1, h2, le_trans h3 hle⟩
    · split_ifs at hg with hc
      · simp at hg; subst hg; exact ⟨hge.1, hc, le_refl _⟩
      · simp at hg
  · rw [List.pairwise_append]
    refine ⟨segLoop_ordered spans hw ho 0, by split_ifs <;> simp, ?_⟩
    intro a ha b hb
    split_ifs at hb with hc
    · simp at hb; subst hb; exact (hsg a ha).2.2.1
    · simp at hb
  · intro t h0 h1
    rcases segLoop_cover spans 0 t h0 with ⟨g, hg, h⟩ | ⟨s, hs', h⟩ | h
    · left; exact ⟨g, by simp [hg], h⟩
    · right; exact ⟨s, hs', h⟩
    · rcases lt_or_eq_of_le hle with hlt | heq
      · left; exact ⟨((segLoop spans 0).2, 1), by simp [hlt], h, h1⟩
      · -- the last span ends at 1
        rcases segLoop_cover spans 0 t h0 with ⟨g, hg, h⟩ | ⟨s, hs', h⟩ | h'
        · left; exact ⟨g, by simp [hg], h⟩
        · right; exact ⟨s, hs', h⟩
        · have ht : t = 1 := le_antisymm h1 (by rw [heq] at h; exact h)
          right
          have : ∃ s ∈ spans, s.2 = (segLoop spans 0).2 := by
            have key : ∀ (l : List (K × K)) (f : K), f < (segLoop l f).2 → ∃ s ∈ l, s.2 = (segLoop l f).2 := by
              intro l
              induction l with
              | nil => intro f hf; simp [segLoop] at hf
              | cons a r ih =>
                intro f hf
                simp only [segLoop] at hf ⊢
                rcases lt_or_eq_of_le (segLoop_ge r (max f a.2)).1 with h | h
                · obtain ⟨s, hs, h'⟩ := ih _ h
                  exact ⟨s, by simp [hs], h'⟩
                · refine ⟨a, by simp, ?_⟩
                  rw [← h] at hf ⊢
                  rcases le_total f a.2 with h2 | h2
                  · rw [max_eq_right h2]
                  · rw [max_eq_left h2] at hf; exact absurd hf (lt_irrefl _)
            exact key spans 0 (by rw [heq]; exact zero_lt_one)
          obtain ⟨s, hs', h2⟩ := this
          exact ⟨s, hs', by rw [ht]; exact le_trans (hw s hs') (hs s hs').2.2, by rw [h2, heq, ht]⟩
  · intro g hg s hs'
    rcases List.mem_append.1 hg with hg | hg
    · exact (hsg g hg).2.2.2.2 s hs'
    · split_ifs at hg with hc
      · simp at hg; subst hg; left; exact hge.2 s hs'
      · simp at hg

end S2P
