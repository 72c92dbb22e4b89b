import Verif.Lemmas.ToLines
import Mathlib.Tactic.LinearCombination

set_option linter.unusedSectionVars false
set_option linter.unusedVariables false

namespace S2P
variable {K : Type} [Field K] [LinearOrder K] [IsStrictOrderedRing K] [FloorRing K] [Trans K]

/-- twice the signed page area of `a b p` -/
def area (a b p : V3 K) : K := (b.x - a.x) * (p.y - a.y) - (b.y - a.y) * (p.x - a.x)

theorem area_edge (a b : V3 K) (e : Edge K) (t : K) : area a b (edgeAt e t) = area a b e.1 + (area a b e.2 - area a b e.1) * t := by
  simp only [area, edgeAt, V3.add_x, V3.add_y, V3.smul, V3.sub_x, V3.sub_y]; ring

theorem dot_edge (n : V3 K) (e : Edge K) (t : K) : n.dot (edgeAt e t) = n.dot e.1 + (n.dot e.2 - n.dot e.1) * t := by
  simp only [V3.dot, edgeAt, V3.add_x, V3.add_y, V3.add_z, V3.smul, V3.sub_x, V3.sub_y, V3.sub_z]; ring

theorem behind_fin (f : Tri K) (p : V3 K) : behind f.fin p.fin = true ↔
    StrictlyBehind f p ∧ 0 ≤ area f.a f.b p ∧ 0 ≤ area f.b f.c p ∧ 0 ≤ area f.c f.a p := by
  unfold behind StrictlyBehind area
  simp only [V3.fin_sub, V3.fin_x, V3.fin_y, Ext.fin_mul, Ext.fin_sub, V3.fin_dot, Ext.fin_lt, Ext.lit_eq, Ext.fin_le, Rat.cast_zero,
    Bool.and_eq_true, decide_eq_true_eq, V3.sub_x, V3.sub_y]
  have : p.dot f.n = f.n.dot p := by simp only [V3.dot]; ring
  rw [this, and_assoc, and_assoc]

theorem Tri.Front.area_pos {f : Tri K} (h : f.Front) : 0 < area f.a f.b f.c := by
  obtain ⟨k, hk, hc⟩ := h.ccw
  have := congrArg V3.z hc
  simp only [V3.cross, V3.sub_x, V3.sub_y, V3.smul] at this
  have : area f.a f.b f.c = f.n.z * k := by simp only [area]; linear_combination this
  rw [this]; exact mul_pos h.facing hk

theorem area_sum (a b c p : V3 K) : area a b p + area b c p + area c a p = area a b c := by
  simp only [area]; ring

theorem inTri_iff (f : Tri K) (h : f.Front) (p : V3 K) :
    InTri f p ↔ 0 ≤ area f.a f.b p ∧ 0 ≤ area f.b f.c p ∧ 0 ≤ area f.c f.a p := by
  have hD := h.area_pos
  constructor
  · rintro ⟨u, v, w, hu, hv, hw, h1, hx, hy⟩
    have hu' : u = 1 - v - w := by linarith
    have e0 : area f.a f.b p = w * area f.a f.b f.c := by simp only [area]; rw [hx, hy, hu']; ring
    have e1 : area f.b f.c p = u * area f.a f.b f.c := by simp only [area]; rw [hx, hy, hu']; ring
    have e2 : area f.c f.a p = v * area f.a f.b f.c := by simp only [area]; rw [hx, hy, hu']; ring
    rw [e0, e1, e2]
    exact ⟨mul_nonneg hw hD.le, mul_nonneg hu hD.le, mul_nonneg hv hD.le⟩
  · rintro ⟨h0, h1, h2⟩
    refine ⟨area f.b f.c p / area f.a f.b f.c, area f.c f.a p / area f.a f.b f.c, area f.a f.b p / area f.a f.b f.c,
      div_nonneg h1 hD.le, div_nonneg h2 hD.le, div_nonneg h0 hD.le, ?_, ?_, ?_⟩
    · rw [← add_div, ← add_div, div_eq_one_iff_eq hD.ne', ← area_sum f.a f.b f.c p]; ring
    · have : p.x * area f.a f.b f.c = area f.b f.c p * f.a.x + area f.c f.a p * f.b.x + area f.a f.b p * f.c.x := by
        simp only [area]; ring
      rw [eq_comm, div_mul_eq_mul_div, div_mul_eq_mul_div, div_mul_eq_mul_div, ← add_div, ← add_div, div_eq_iff hD.ne', this]
    · have : p.y * area f.a f.b f.c = area f.b f.c p * f.a.y + area f.c f.a p * f.b.y + area f.a f.b p * f.c.y := by
        simp only [area]; ring
      rw [eq_comm, div_mul_eq_mul_div, div_mul_eq_mul_div, div_mul_eq_mul_div, ← add_div, ← add_div, div_eq_iff hD.ne', this]

theorem insideTri_iff (f : Tri K) (h : f.Front) (p : V3 K) :
    InsideTri f p ↔ 0 < area f.a f.b p ∧ 0 < area f.b f.c p ∧ 0 < area f.c f.a p := by
  have hD := h.area_pos
  constructor
  · rintro ⟨u, v, w, hu, hv, hw, h1, hx, hy⟩
    have hu' : u = 1 - v - w := by linarith
    have e0 : area f.a f.b p = w * area f.a f.b f.c := by simp only [area]; rw [hx, hy, hu']; ring
    have e1 : area f.b f.c p = u * area f.a f.b f.c := by simp only [area]; rw [hx, hy, hu']; ring
    have e2 : area f.c f.a p = v * area f.a f.b f.c := by simp only [area]; rw [hx, hy, hu']; ring
    rw [e0, e1, e2]
    exact ⟨mul_pos hw hD, mul_pos hu hD, mul_pos hv hD⟩
  · rintro ⟨h0, h1, h2⟩
    obtain ⟨u, v, w, hu, hv, hw, hs, hx, hy⟩ := (inTri_iff f h p).2 ⟨h0.le, h1.le, h2.le⟩
    have hu' : u = 1 - v - w := by linarith
    have e0 : area f.a f.b p = w * area f.a f.b f.c := by simp only [area]; rw [hx, hy, hu']; ring
    have e1 : area f.b f.c p = u * area f.a f.b f.c := by simp only [area]; rw [hx, hy, hu']; ring
    have e2 : area f.c f.a p = v * area f.a f.b f.c := by simp only [area]; rw [hx, hy, hu']; ring
    rw [e0] at h0; rw [e1] at h1; rw [e2] at h2
    exact ⟨u, v, w, pos_of_mul_pos_left h1 hD.le, pos_of_mul_pos_left h2 hD.le, pos_of_mul_pos_left h0 hD.le, hs, hx, hy⟩

/-- an affine function that is non-negative at both ends is so in between -/
theorem affine_nonneg (A B s1 s2 t : K) (h1 : 0 ≤ A + B * s1) (h2 : 0 ≤ A + B * s2) (ht1 : s1 ≤ t) (ht2 : t ≤ s2) : 0 ≤ A + B * t := by
  rcases le_total 0 B with hB | hB
  · have := mul_le_mul_of_nonneg_left ht1 hB; linarith
  · have := mul_le_mul_of_nonpos_left ht2 hB; linarith

theorem inTri_convex (f : Tri K) (h : f.Front) (e : Edge K) (s1 s2 t : K) (h1 : InTri f (edgeAt e s1)) (h2 : InTri f (edgeAt e s2))
    (ht1 : s1 ≤ t) (ht2 : t ≤ s2) : InTri f (edgeAt e t) := by
  rw [inTri_iff f h] at *
  simp only [area_edge] at *
  exact ⟨affine_nonneg _ _ s1 s2 t h1.1 h2.1 ht1 ht2, affine_nonneg _ _ s1 s2 t h1.2.1 h2.2.1 ht1 ht2,
    affine_nonneg _ _ s1 s2 t h1.2.2 h2.2.2 ht1 ht2⟩

theorem onOrBehind_convex (f : Tri K) (e : Edge K) (s1 s2 t : K) (h1 : OnOrBehind f (edgeAt e s1)) (h2 : OnOrBehind f (edgeAt e s2))
    (ht1 : s1 ≤ t) (ht2 : t ≤ s2) : OnOrBehind f (edgeAt e t) := by
  unfold OnOrBehind at *
  rw [dot_edge] at *
  have := affine_nonneg (f.r - f.n.dot e.1) (-(f.n.dot e.2 - f.n.dot e.1)) s1 s2 t (by linarith) (by linarith) ht1 ht2
  linarith

/-- `g` is the side `a b`, in one direction or the other -/
def IsSide (g : Edge K) (a b : V3 K) : Prop := g = (a, b) ∨ g = (b, a)

/-- the record `el` of a face points at its sides -/
def SidesAt (es : List (Edge K)) (f : Tri K) (el : Nat × Nat × Nat) : Prop :=
  (∃ g, es[el.1]? = some g ∧ IsSide g f.a f.b) ∧ (∃ g, es[el.2.1]? = some g ∧ IsSide g f.b f.c) ∧
  (∃ g, es[el.2.2]? = some g ∧ IsSide g f.c f.a)

theorem inTri_side (f : Tri K) (g : Edge K) (hg : IsSide g f.a f.b ∨ IsSide g f.b f.c ∨ IsSide g f.c f.a) (t : K) (t0 : 0 ≤ t) (t1 : t ≤ 1) :
    InTri f (edgeAt g t) := by
  have ht : 0 ≤ 1 - t := by linarith
  rcases hg with (rfl | rfl) | (rfl | rfl) | (rfl | rfl)
  · exact ⟨1 - t, t, 0, ht, t0, le_refl _, by ring, by simp [edgeAt, V3.smul]; ring, by simp [edgeAt, V3.smul]; ring⟩
  · exact ⟨t, 1 - t, 0, t0, ht, le_refl _, by ring, by simp [edgeAt, V3.smul]; ring, by simp [edgeAt, V3.smul]; ring⟩
  · exact ⟨0, 1 - t, t, le_refl _, ht, t0, by ring, by simp [edgeAt, V3.smul]; ring, by simp [edgeAt, V3.smul]; ring⟩
  · exact ⟨0, t, 1 - t, le_refl _, t0, ht, by ring, by simp [edgeAt, V3.smul]; ring, by simp [edgeAt, V3.smul]; ring⟩
  · exact ⟨t, 0, 1 - t, t0, le_refl _, ht, by ring, by simp [edgeAt, V3.smul]; ring, by simp [edgeAt, V3.smul]; ring⟩
  · exact ⟨1 - t, 0, t, ht, le_refl _, t0, by ring, by simp [edgeAt, V3.smul]; ring, by simp [edgeAt, V3.smul]; ring⟩

theorem side_plane (f : Tri K) (h : f.Front) (g : Edge K) (hg : IsSide g f.a f.b ∨ IsSide g f.b f.c ∨ IsSide g f.c f.a) (t : K) :
    f.n.dot (edgeAt g t) = f.r := by
  rw [dot_edge]
  rcases hg with (rfl | rfl) | (rfl | rfl) | (rfl | rfl) <;> simp [h.inA, h.inB, h.inC]

/-- candidates lie in the hidden region of the face -/
theorem cand_region (es : List (Edge K)) (unseen v : Nat) (e : Edge K) (cs : List (Nat × V3 (Ext K))) (hr : CrossRec es unseen v e cs)
    (f : Tri K) (h : f.Front) (el : Nat × Nat × Nat) (hel : SidesAt es f el) (t : K) (ht : Cand cs e f.fin el t) :
    InTri f (edgeAt e t) ∧ OnOrBehind f (edgeAt e t) := by
  obtain ⟨t0, t1, hc⟩ := ht
  rcases hc with ⟨rfl, hb⟩ | ⟨rfl, hb⟩ | ⟨c, hc, hn, hp⟩
  · rw [behind_fin] at hb
    rw [edgeAt_zero, inTri_iff f h]
    exact ⟨hb.2, le_of_lt hb.1⟩
  · rw [behind_fin] at hb
    rw [edgeAt_one, inTri_iff f h]
    exact ⟨hb.2, le_of_lt hb.1⟩
  · obtain ⟨g, q, _, hg, hq, _, s, t', _, _, t0', t1', hs, hxy, hz⟩ := (hr.mem c.1 c.2).1 hc
    rw [hp] at hq
    have hq' := (V3.fin_injective _ _).1 hq
    have hside : IsSide g f.a f.b ∨ IsSide g f.b f.c ∨ IsSide g f.c f.a := by
      rcases hn with hn | hn | hn
      · obtain ⟨g', h1, h2⟩ := hel.1
        rw [hn, h1] at hg; injection hg with hg; subst hg; exact Or.inl h2
      · obtain ⟨g', h1, h2⟩ := hel.2.1
        rw [hn, h1] at hg; injection hg with hg; subst hg; exact Or.inr (Or.inl h2)
      · obtain ⟨g', h1, h2⟩ := hel.2.2
        rw [hn, h1] at hg; injection hg with hg; subst hg; exact Or.inr (Or.inr h2)
    rw [hq']
    have hx : q.x = (edgeAt g t').x := congrArg V2.x hxy
    have hy : q.y = (edgeAt g t').y := congrArg V2.y hxy
    constructor
    · obtain ⟨u, v', w, hu, hv, hw, h1, hx', hy'⟩ := inTri_side f g hside t' t0' t1'
      exact ⟨u, v', w, hu, hv, hw, h1, by rw [hx, hx'], by rw [hy, hy']⟩
    · have hpl := side_plane f h g hside t'
      unfold OnOrBehind
      have := mul_le_mul_of_nonneg_left hz h.facing.le
      simp only [V3.dot] at hpl ⊢
      rw [hx, hy]; linarith

/-- Walking from parameter 0 towards 1, where a list of affine functions is positive at 1: the first place from which on none is negative. -/
theorem first_exit (l : List (K × K)) (h : ∀ g ∈ l, 0 < g.1 + g.2) :
    ∃ a, 0 ≤ a ∧ a < 1 ∧ (∀ g ∈ l, 0 ≤ g.1 + g.2 * a) ∧ ((a = 0 ∧ ∀ g ∈ l, 0 < g.1) ∨ ∃ g ∈ l, g.1 + g.2 * a = 0) := by
  induction l with
  | nil => exact ⟨0, le_refl _, zero_lt_one, by simp, Or.inl ⟨rfl, by simp⟩⟩
  | cons g l ih =>
    obtain ⟨a, a0, a1, hpos, hor⟩ := ih (fun x hx => h x (by simp [hx]))
    have hg := h g (by simp)
    rcases lt_trichotomy (g.1 + g.2 * a) 0 with hlt | heq | hgt
    · have hden : 0 < g.2 := by
        by_contra hc
        have := mul_le_mul_of_nonpos_left a1.le (not_lt.1 hc)
        linarith
      refine ⟨-g.1 / g.2, ?_, ?_, ?_, Or.inr ⟨g, by simp, ?_⟩⟩
      · apply div_nonneg _ hden.le
        have := mul_nonneg hden.le a0; linarith
      · rw [div_lt_one hden]; linarith
      · have e0 : g.1 + g.2 * (-g.1 / g.2) = 0 := by rw [mul_div_cancel₀ _ hden.ne']; ring
        intro x hx
        rcases List.mem_cons.1 hx with rfl | hx
        · rw [e0]
        · refine affine_nonneg x.1 x.2 a 1 _ (hpos x hx) (by have := h x (by simp [hx]); linarith) ?_ ?_
          · rw [le_div_iff₀ hden]; linarith
          · rw [div_le_one hden]; linarith
      · rw [mul_div_cancel₀ _ hden.ne']; ring
    · refine ⟨a, a0, a1, ?_, Or.inr ⟨g, by simp, heq⟩⟩
      intro x hx
      rcases List.mem_cons.1 hx with rfl | hx
      · rw [heq]
      · exact hpos x hx
    · refine ⟨a, a0, a1, ?_, ?_⟩
      · intro x hx
        rcases List.mem_cons.1 hx with rfl | hx
        · exact hgt.le
        · exact hpos x hx
      · rcases hor with ⟨rfl, h1⟩ | ⟨x, hx, h1⟩
        · left
          refine ⟨rfl, ?_⟩
          intro x hx
          rcases List.mem_cons.1 hx with rfl | hx
          · simpa using hgt
          · exact h1 x hx
        · right; exact ⟨x, by simp [hx], h1⟩

/-- a point of the page triangle on the line of a side is a point of that side -/
theorem on_side (f : Tri K) (h : f.Front) (a b : V3 K) (hab : (a = f.a ∧ b = f.b) ∨ (a = f.b ∧ b = f.c) ∨ (a = f.c ∧ b = f.a)) (p : V3 K) (hp : InTri f p) (h0 : area a b p = 0)
    (g : Edge K) (hg : IsSide g a b) : ∃ t, 0 ≤ t ∧ t ≤ 1 ∧ p.xy = (edgeAt g t).xy := by
  have hD := h.area_pos
  obtain ⟨u, v, w, hu, hv, hw, hs, hx, hy⟩ := hp
  have hu' : u = 1 - v - w := by linarith
  have e0 : area f.a f.b p = w * area f.a f.b f.c := by simp only [area]; rw [hx, hy, hu']; ring
  have e1 : area f.b f.c p = u * area f.a f.b f.c := by simp only [area]; rw [hx, hy, hu']; ring
  have e2 : area f.c f.a p = v * area f.a f.b f.c := by simp only [area]; rw [hx, hy, hu']; ring
  have key : ∃ t, 0 ≤ t ∧ t ≤ 1 ∧ p.xy = (edgeAt ((a, b) : Edge K) t).xy := by
    rcases hab with ⟨rfl, rfl⟩ | ⟨rfl, rfl⟩ | ⟨rfl, rfl⟩
    · rw [e0] at h0
      have hw0 : w = 0 := by rcases mul_eq_zero.1 h0 with h | h; exact h; exact absurd h hD.ne'
      subst hw0
      refine ⟨v, hv, by linarith, ?_⟩
      ext
      · simp [V3.xy, edgeAt, V3.smul, hx, hu']; ring
      · simp [V3.xy, edgeAt, V3.smul, hy, hu']; ring
    · rw [e1] at h0
      have hw0 : u = 0 := by rcases mul_eq_zero.1 h0 with h | h; exact h; exact absurd h hD.ne'
      have hv' : v = 1 - w := by linarith
      refine ⟨w, hw, by linarith, ?_⟩
      ext
      · simp [V3.xy, edgeAt, V3.smul, hx, hw0, hv']; ring
      · simp [V3.xy, edgeAt, V3.smul, hy, hw0, hv']; ring
    · rw [e2] at h0
      have hw0 : v = 0 := by rcases mul_eq_zero.1 h0 with h | h; exact h; exact absurd h hD.ne'
      have hw' : w = 1 - u := by linarith
      refine ⟨u, hu, by linarith, ?_⟩
      ext
      · simp [V3.xy, edgeAt, V3.smul, hx, hw0, hw']; ring
      · simp [V3.xy, edgeAt, V3.smul, hy, hw0, hw']; ring
  obtain ⟨t, t0, t1, ht⟩ := key
  rcases hg with rfl | rfl
  · exact ⟨t, t0, t1, ht⟩
  · refine ⟨1 - t, by linarith, by linarith, ?_⟩
    rw [ht]
    ext <;> simp [V3.xy, edgeAt, V3.smul] <;> ring

/-- From an end (`c` = 0 or 1) of an edge that has a point strictly inside a face at `t0`: there is a candidate between. -/
theorem cand_exists (es : List (Edge K)) (unseen v : Nat) (e : Edge K) (cs : List (Nat × V3 (Ext K))) (hr : CrossRec es unseen v e cs)
    (f : Tri K) (h : f.Front) (el : Nat × Nat × Nat) (hel : SidesAt es f el) (hv : ¬(v = el.1 ∨ v = el.2.1 ∨ v = el.2.2))
    (hbeh : ∀ t, 0 ≤ t → t ≤ 1 → InTri f (edgeAt e t) → OnOrBehind f (edgeAt e t))
    (c t0 : K) (hc : c = 0 ∨ c = 1) (h0 : 0 ≤ t0) (h1 : t0 ≤ 1) (hin : InsideTri f (edgeAt e t0))
    (hend : InsideTri f (edgeAt e c) → StrictlyBehind f (edgeAt e c)) :
    ∃ l, 0 ≤ l ∧ l < 1 ∧ Cand cs e f.fin el (c + l * (t0 - c)) := by
  rw [insideTri_iff f h] at hin
  have hArea : ∀ (a b : V3 K) (l : K), area a b (edgeAt e (c + l * (t0 - c))) =
      area a b (edgeAt e c) + (area a b (edgeAt e t0) - area a b (edgeAt e c)) * l := by
    intro a b l; simp only [area_edge]; ring
  obtain ⟨l, l0, l1, hnn, hor⟩ := first_exit
    [(area f.a f.b (edgeAt e c), area f.a f.b (edgeAt e t0) - area f.a f.b (edgeAt e c)),
     (area f.b f.c (edgeAt e c), area f.b f.c (edgeAt e t0) - area f.b f.c (edgeAt e c)),
     (area f.c f.a (edgeAt e c), area f.c f.a (edgeAt e t0) - area f.c f.a (edgeAt e c))] (by
      simp only [List.mem_cons, List.not_mem_nil, or_false]
      rintro g (rfl | rfl | rfl)
      · simpa using hin.1
      · simpa using hin.2.1
      · simpa using hin.2.2)
  simp only [List.mem_cons, List.not_mem_nil, or_false, forall_eq_or_imp, forall_eq, exists_eq_or_imp, exists_eq_left] at hnn hor
  simp only [← hArea] at hnn hor
  have hrange : 0 ≤ c + l * (t0 - c) ∧ c + l * (t0 - c) ≤ 1 := by
    rcases hc with rfl | rfl
    · constructor
      · have := mul_nonneg l0 h0; linarith
      · have := mul_le_mul l1.le h1 h0 zero_le_one; linarith
    · have h2 : 0 ≤ 1 - t0 := by linarith
      have h3 := mul_nonneg l0 h2
      have h4 := mul_le_mul l1.le (show 1 - t0 ≤ 1 by linarith) h2 zero_le_one
      constructor <;> linarith
  refine ⟨l, l0, l1, hrange.1, hrange.2, ?_⟩
  have hIn : InTri f (edgeAt e (c + l * (t0 - c))) := (inTri_iff f h _).2 hnn
  have hOn := hbeh _ hrange.1 hrange.2 hIn
  rcases hor with ⟨rfl, hins⟩ | hz
  · have hins' := (insideTri_iff f h _).2 hins
    have hsb := hend hins'
    have hb : behind f.fin (edgeAt e c).fin = true :=
      (behind_fin f _).2 ⟨hsb, hins.1.le, hins.2.1.le, hins.2.2.le⟩
    rcases hc with rfl | rfl
    · left; rw [edgeAt_zero] at hb; exact ⟨by ring, hb⟩
    · right; left; rw [edgeAt_one] at hb; exact ⟨by ring, hb⟩
  · right; right
    generalize c + l * (t0 - c) = t at *
    -- a crossing with one side
    have side : ∀ (n : Nat) (a b : V3 K) (g : Edge K), es[n]? = some g → IsSide g a b → (n = el.1 ∨ n = el.2.1 ∨ n = el.2.2) →
        ((a = f.a ∧ b = f.b) ∨ (a = f.b ∧ b = f.c) ∨ (a = f.c ∧ b = f.a)) → area a b (edgeAt e t) = 0 → 0 < area a b (edgeAt e t0) →
        ∃ c ∈ cs, (c.1 = el.1 ∨ c.1 = el.2.1 ∨ c.1 = el.2.2) ∧ c.2 = (edgeAt e t).fin := by
      intro n a b g hg hs hn hab hz hpos
      obtain ⟨t', t0', t1', hxy⟩ := on_side f h a b hab _ hIn hz g hs
      refine ⟨(n, (edgeAt e t).fin), (hr.mem _ _).2 ⟨g, edgeAt e t, ?_, hg, rfl, ?_, t, t', hrange.1, hrange.2, t0', t1', rfl, hxy, ?_⟩, hn, rfl⟩
      · intro hnv; subst hnv; exact hv hn
      · intro hpar
        rw [area_edge] at hz hpos
        have hconst : area a b e.2 - area a b e.1 = 0 := by
          simp only [PageParallel] at hpar
          rcases hs with rfl | rfl
          · simp only [area]; linear_combination -hpar
          · simp only [area]; linear_combination hpar
        rw [hconst] at hz hpos
        linarith
      · have hpl : f.n.dot (edgeAt g t') = f.r := side_plane f h g (by
          rcases hab with ⟨rfl, rfl⟩ | ⟨rfl, rfl⟩ | ⟨rfl, rfl⟩
          · exact Or.inl hs
          · exact Or.inr (Or.inl hs)
          · exact Or.inr (Or.inr hs)) t'
        have hx : (edgeAt e t).x = (edgeAt g t').x := congrArg V2.x hxy
        have hy : (edgeAt e t).y = (edgeAt g t').y := congrArg V2.y hxy
        unfold OnOrBehind at hOn
        rw [← hpl] at hOn
        simp only [V3.dot] at hOn
        rw [hx, hy] at hOn
        have : f.n.z * (edgeAt e t).z ≤ f.n.z * (edgeAt g t').z := by linarith
        exact le_of_mul_le_mul_left this h.facing
    obtain ⟨⟨g0, q0, s0⟩, ⟨g1, q1, s1⟩, ⟨g2, q2, s2⟩⟩ := hel
    rcases hz with hz | hz | hz
    · exact side el.1 f.a f.b g0 q0 s0 (Or.inl rfl) (Or.inl ⟨rfl, rfl⟩) hz hin.1
    · exact side el.2.1 f.b f.c g1 q1 s1 (Or.inr (Or.inl rfl)) (Or.inr (Or.inl ⟨rfl, rfl⟩)) hz hin.2.1
    · exact side el.2.2 f.c f.a g2 q2 s2 (Or.inr (Or.inr rfl)) (Or.inr (Or.inr ⟨rfl, rfl⟩)) hz hin.2.2

/-- points of a side are not strictly inside -/
theorem side_not_inside (f : Tri K) (h : f.Front) (g : Edge K) (hg : IsSide g f.a f.b ∨ IsSide g f.b f.c ∨ IsSide g f.c f.a) (t : K) :
    ¬ InsideTri f (edgeAt g t) := by
  rw [insideTri_iff f h]
  simp only [area_edge]
  rintro ⟨h0, h1, h2⟩
  rcases hg with (rfl | rfl) | (rfl | rfl) | (rfl | rfl)
  · have : area f.a f.b f.a + (area f.a f.b f.b - area f.a f.b f.a) * t = 0 := by simp only [area]; ring
    simp only at h0; linarith
  · have : area f.a f.b f.b + (area f.a f.b f.a - area f.a f.b f.b) * t = 0 := by simp only [area]; ring
    simp only at h0; linarith
  · have : area f.b f.c f.b + (area f.b f.c f.c - area f.b f.c f.b) * t = 0 := by simp only [area]; ring
    simp only at h1; linarith
  · have : area f.b f.c f.c + (area f.b f.c f.b - area f.b f.c f.c) * t = 0 := by simp only [area]; ring
    simp only at h1; linarith
  · have : area f.c f.a f.c + (area f.c f.a f.a - area f.c f.a f.c) * t = 0 := by simp only [area]; ring
    simp only at h2; linarith
  · have : area f.c f.a f.a + (area f.c f.a f.c - area f.c f.a f.a) * t = 0 := by simp only [area]; ring
    simp only at h2; linarith

end S2P
