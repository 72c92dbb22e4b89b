import Verif.Spec.Span
import Verif.Spec.Solid
import Verif.Lemmas.SpanTurn
import Verif.Props.Hidden

set_option linter.unusedSectionVars false
set_option linter.unusedVariables false
set_option linter.unusedSimpArgs false

/-! # What the words about hidden parts mean -/

namespace S2P

/-- a triangle, as seen, that faces the viewer: its corners are in its plane and, on the page, anticlockwise -/
structure Tri.Faces (t : Tri ℝ) : Prop where
  first : t.a.dot t.n = t.r
  second : t.b.dot t.n = t.r
  third : t.c.dot t.n = t.r
  up : 0 < t.n.z
  turn : 0 < leftOf t.a t.b t.c

/-- the triangle is before the point: the point is behind its plane and, on the page, inside of its outline -/
def Tri.Before (t : Tri ℝ) (p : V3 ℝ) : Prop := p.dot t.n < t.r ∧ 0 < leftOf t.a t.b p ∧ 0 < leftOf t.b t.c p ∧ 0 < leftOf t.c t.a p

theorem leftOf_at (c d a b : V3 ℝ) (u : ℝ) : leftOf c d (edgeAt (a, b) u) = leftOf c d a - u * slant a b c d := by
  simp only [leftOf, slant, edgeAt, V3.smul, V3.add_x, V3.add_y, V3.sub_x, V3.sub_y]; ring

theorem leftOf_xy {c d p q : V3 ℝ} (h : p.xy = q.xy) : leftOf c d p = leftOf c d q := by
  simp only [V3.xy, V2.mk.injEq] at h
  simp only [leftOf, h.1, h.2]

theorem dot_at (a b n : V3 ℝ) (u : ℝ) : (edgeAt (a, b) u).dot n = a.dot n + u * (b.dot n - a.dot n) := by
  simp only [V3.dot, edgeAt, V3.smul, V3.add_x, V3.add_y, V3.add_z, V3.sub_x, V3.sub_y, V3.sub_z]; ring

/-- the outline on the page, side by side -/
def Tri.outline (t : Tri ℝ) : List (Edge ℝ) := [(t.a, t.b), (t.b, t.c), (t.c, t.a)]

theorem before_iff (t : Tri ℝ) (p : V3 ℝ) : t.Before p ↔ p.dot t.n < t.r ∧ ∀ e ∈ t.outline, 0 < leftOf e.1 e.2 p := by
  simp [Tri.Before, Tri.outline]

theorem Tri.HasSide.out {t : Tri ℝ} {c d : V3 ℝ} (h : t.HasSide (c, d)) : (c, d) ∈ t.outline ∨ (d, c) ∈ t.outline := by
  unfold Tri.HasSide at h
  simp only [Prod.mk.injEq] at h
  simp only [Tri.outline, List.mem_cons, List.not_mem_nil, or_false, Prod.mk.injEq]
  tauto

theorem Tri.out_side {t : Tri ℝ} {e : Edge ℝ} (h : e ∈ t.outline) : t.HasSide e := by
  simp only [Tri.outline, List.mem_cons, List.not_mem_nil, or_false] at h
  unfold Tri.HasSide
  tauto

/-- points of a side, but not its ends: on that side, inside of the others, and in the plane -/
theorem Tri.Faces.on_side {t : Tri ℝ} (h : t.Faces) {e : Edge ℝ} (he : e ∈ t.outline) (τ : ℝ) :
    leftOf e.1 e.2 (edgeAt e τ) = 0 ∧ (edgeAt e τ).dot t.n = t.r ∧ ∀ e' ∈ t.outline, e' = e ∨ (0 < τ → τ < 1 → 0 < leftOf e'.1 e'.2 (edgeAt e τ)) := by
  have ha := h.turn
  simp only [Tri.outline, List.mem_cons, List.not_mem_nil, or_false] at he
  have p1 : ∀ τ, leftOf t.b t.c (edgeAt (t.a, t.b) τ) = leftOf t.a t.b t.c * (1 - τ) := by
    intro τ; simp only [leftOf, edgeAt, V3.smul, V3.add_x, V3.add_y, V3.sub_x, V3.sub_y]; ring
  have p2 : ∀ τ, leftOf t.c t.a (edgeAt (t.a, t.b) τ) = leftOf t.a t.b t.c * τ := by
    intro τ; simp only [leftOf, edgeAt, V3.smul, V3.add_x, V3.add_y, V3.sub_x, V3.sub_y]; ring
  have p3 : ∀ τ, leftOf t.c t.a (edgeAt (t.b, t.c) τ) = leftOf t.a t.b t.c * (1 - τ) := by
    intro τ; simp only [leftOf, edgeAt, V3.smul, V3.add_x, V3.add_y, V3.sub_x, V3.sub_y]; ring
  have p4 : ∀ τ, leftOf t.a t.b (edgeAt (t.b, t.c) τ) = leftOf t.a t.b t.c * τ := by
    intro τ; simp only [leftOf, edgeAt, V3.smul, V3.add_x, V3.add_y, V3.sub_x, V3.sub_y]; ring
  have p5 : ∀ τ, leftOf t.a t.b (edgeAt (t.c, t.a) τ) = leftOf t.a t.b t.c * (1 - τ) := by
    intro τ; simp only [leftOf, edgeAt, V3.smul, V3.add_x, V3.add_y, V3.sub_x, V3.sub_y]; ring
  have p6 : ∀ τ, leftOf t.b t.c (edgeAt (t.c, t.a) τ) = leftOf t.a t.b t.c * τ := by
    intro τ; simp only [leftOf, edgeAt, V3.smul, V3.add_x, V3.add_y, V3.sub_x, V3.sub_y]; ring
  have z : ∀ (c d : V3 ℝ), leftOf c d (edgeAt (c, d) τ) = 0 := by
    intro c d; simp only [leftOf, edgeAt, V3.smul, V3.add_x, V3.add_y, V3.sub_x, V3.sub_y]; ring
  have A : ∀ {x : ℝ}, 0 < τ → τ < 1 → 0 < leftOf t.a t.b t.c * (1 - τ) := fun _ h1 => mul_pos ha (by linarith)
  have B : ∀ {x : ℝ}, 0 < τ → τ < 1 → 0 < leftOf t.a t.b t.c * τ := fun h0 _ => mul_pos ha h0
  rcases he with rfl | rfl | rfl
  · refine ⟨z _ _, by rw [dot_at, h.first, h.second]; ring, ?_⟩
    intro e' he'
    simp only [Tri.outline, List.mem_cons, List.not_mem_nil, or_false] at he'
    rcases he' with rfl | rfl | rfl
    · exact Or.inl rfl
    · right; simp only [p1]; exact A (x := 0)
    · right; simp only [p2]; exact B (x := 0)
  · refine ⟨z _ _, by rw [dot_at, h.second, h.third]; ring, ?_⟩
    intro e' he'
    simp only [Tri.outline, List.mem_cons, List.not_mem_nil, or_false] at he'
    rcases he' with rfl | rfl | rfl
    · right; simp only [p4]; exact B (x := 0)
    · exact Or.inl rfl
    · right; simp only [p3]; exact A (x := 0)
  · refine ⟨z _ _, by rw [dot_at, h.third, h.first]; ring, ?_⟩
    intro e' he'
    simp only [Tri.outline, List.mem_cons, List.not_mem_nil, or_false] at he'
    rcases he' with rfl | rfl | rfl
    · right; simp only [p5]; exact A (x := 0)
    · right; simp only [p6]; exact B (x := 0)
    · exact Or.inl rfl

theorem faces_plane {t : Tri ℝ} (h : t.Faces) {c d : V3 ℝ} (hs : t.HasSide (c, d)) (τ : ℝ) : (edgeAt (c, d) τ).dot t.n = t.r := by
  rcases hs.out with he | he
  · exact (h.on_side he τ).2.1
  · rw [edgeAt_swap]; exact (h.on_side he (1 - τ)).2.1

/-- a point under another is behind the plane if the other is in it -/
theorem dot_under {n p q : V3 ℝ} {r : ℝ} (hn : 0 < n.z) (hxy : p.xy = q.xy) (hq : q.dot n = r) (hz : p.z < q.z) : p.dot n < r := by
  simp only [V3.xy, V2.mk.injEq] at hxy
  unfold V3.dot at *
  rw [hxy.1, hxy.2]
  nlinarith

/-- at either end of a part that a triangle hides: behind it, or below a side -/
def EndOf (a b : V3 ℝ) (t : Tri ℝ) (s : ℝ) : Prop :=
  (edgeAt (a, b) s).dot t.n < t.r ∧ ∀ e ∈ t.outline, 0 ≤ leftOf e.1 e.2 (edgeAt (a, b) s) ∧ (leftOf e.1 e.2 (edgeAt (a, b) s) = 0 → slant a b e.1 e.2 ≠ 0)

theorem end_behind {μ ζ : ℝ} (hμ : 0 < μ) (hζ : 0 < ζ) {a b : V3 ℝ} {t : Tri ℝ} {s : ℝ} (h : BehindBy μ ζ t (edgeAt (a, b) s)) : EndOf a b t s := by
  obtain ⟨h1, h2, h3, h4⟩ := h
  refine ⟨by linarith, ?_⟩
  intro e he
  have : 0 < leftOf e.1 e.2 (edgeAt (a, b) s) := by
    simp only [Tri.outline, List.mem_cons, List.not_mem_nil, or_false] at he
    rcases he with rfl | rfl | rfl <;> simp only <;> linarith
  exact ⟨this.le, fun h => absurd h this.ne'⟩

theorem end_under {κ ζ ρ : ℝ} (hκ : 0 < κ) (hζ : 0 < ζ) (hρ : 0 < ρ) {a b c d : V3 ℝ} {t : Tri ℝ} (hf : t.Faces) {s : ℝ} (hs : t.HasSide (c, d))
    (h : PassesUnder κ ζ ρ a b c d s) : EndOf a b t s ∧ ∃ e ∈ t.outline, leftOf e.1 e.2 (edgeAt (a, b) s) = 0 := by
  obtain ⟨c, d, he, h⟩ : ∃ c d, (c, d) ∈ t.outline ∧ PassesUnder κ ζ ρ a b c d s := by
    rcases hs.out with he | he
    · exact ⟨c, d, he, h⟩
    · exact ⟨d, c, he, h.flip⟩
  obtain ⟨h1, h2, h3, τ, h4, h5, h6, h7⟩ := h
  obtain ⟨k1, k2, k3⟩ := hf.on_side he τ
  refine ⟨⟨dot_under hf.up h6 k2 (by linarith), ?_⟩, (c, d), he, by rw [leftOf_xy h6]; exact k1⟩
  intro e' he'
  rw [leftOf_xy h6]
  rcases k3 e' he' with rfl | k
  · exact ⟨k1.ge, fun _ h0 => by rw [h0, abs_zero] at h1; linarith⟩
  · have := k (by linarith) (by linarith)
    exact ⟨this.le, fun h => absurd h this.ne'⟩

theorem HidesPart.end1 {μ κ ζ ρ : ℝ} (hμ : 0 < μ) (hκ : 0 < κ) (hζ : 0 < ζ) (hρ : 0 < ρ) {a b : V3 ℝ} {t : Tri ℝ} (hf : t.Faces) {s s' : ℝ}
    (h : HidesPart μ κ ζ ρ a b t s s') : EndOf a b t s := by
  rcases h.first with ⟨rfl, hb⟩ | ⟨c, d, hs, h⟩
  · refine end_behind hμ hζ (s := 0) ?_
    have : edgeAt (a, b) 0 = a := by ext <;> simp [edgeAt, V3.smul]
    rw [this]; exact hb
  · exact (end_under hκ hζ hρ hf hs h).1

theorem HidesPart.end2 {μ κ ζ ρ : ℝ} (hμ : 0 < μ) (hκ : 0 < κ) (hζ : 0 < ζ) (hρ : 0 < ρ) {a b : V3 ℝ} {t : Tri ℝ} (hf : t.Faces) {s s' : ℝ}
    (h : HidesPart μ κ ζ ρ a b t s s') : EndOf a b t s' := by
  rcases h.last with ⟨rfl, hb⟩ | ⟨c, d, hs, h⟩
  · refine end_behind hμ hζ (s := 1) ?_
    have : edgeAt (a, b) 1 = b := by ext <;> simp [edgeAt, V3.smul]
    rw [this]; exact hb
  · exact (end_under hκ hζ hρ hf hs h).1

/-- the triangle is before the whole part -/
theorem HidesPart.before {μ κ ζ ρ : ℝ} (hμ : 0 < μ) (hκ : 0 < κ) (hζ : 0 < ζ) (hρ : 0 < ρ) {a b : V3 ℝ} {t : Tri ℝ} (hf : t.Faces) {s s' : ℝ}
    (h : HidesPart μ κ ζ ρ a b t s s') {u : ℝ} (h1 : s < u) (h2 : u < s') : t.Before (edgeAt (a, b) u) := by
  obtain ⟨d1, e1⟩ := h.end1 hμ hκ hζ hρ hf
  obtain ⟨d2, e2⟩ := h.end2 hμ hκ hζ hρ hf
  rw [before_iff]
  constructor
  · rw [dot_at] at *
    by_contra hcon
    push Not at hcon
    rcases le_total 0 (b.dot t.n - a.dot t.n) with hs | hs <;> nlinarith
  · intro e he
    obtain ⟨l1, z1⟩ := e1 e he
    obtain ⟨l2, z2⟩ := e2 e he
    rw [leftOf_at] at *
    by_contra hcon
    push Not at hcon
    rcases lt_trichotomy 0 (slant a b e.1 e.2) with hs | hs | hs
    · nlinarith
    · exact z1 (by rw [← hs] at hcon l1 ⊢; linarith) hs.symm
    · nlinarith

/-- and before no more of the edge -/
theorem HidesPart.not_before {μ κ ζ ρ : ℝ} (hμ : 0 < μ) (hκ : 0 < κ) (hζ : 0 < ζ) (hρ : 0 < ρ) {a b : V3 ℝ} {t : Tri ℝ} (hf : t.Faces) {s s' : ℝ}
    (h : HidesPart μ κ ζ ρ a b t s s') {u : ℝ} (h0 : 0 ≤ u) (h1 : u ≤ 1) (h2 : u < s ∨ s' < u) : ¬ t.Before (edgeAt (a, b) u) := by
  rw [before_iff]
  rintro ⟨-, hb⟩
  have hl := h.long
  rcases h2 with h2 | h2
  · rcases h.first with ⟨rfl, -⟩ | ⟨c, d, hs, hp⟩
    · linarith
    obtain ⟨-, e, he, hz⟩ := end_under hκ hζ hρ hf hs hp
    have k1 := hb e he
    have k2 := ((h.end2 hμ hκ hζ hρ hf).2 e he).1
    rw [leftOf_at] at *
    norm_num at hl
    rcases le_total 0 (slant a b e.1 e.2) with hs | hs <;> nlinarith
  · rcases h.last with ⟨rfl, -⟩ | ⟨c, d, hs, hp⟩
    · linarith
    obtain ⟨-, e, he, hz⟩ := end_under hκ hζ hρ hf hs hp
    have k1 := hb e he
    have k2 := ((h.end1 hμ hκ hζ hρ hf).2 e he).1
    rw [leftOf_at] at *
    norm_num at hl
    rcases le_total 0 (slant a b e.1 e.2) with hs | hs <;> nlinarith

/-- the first of three to become 0 -/
theorem first_zero : ∀ (l : List (ℝ × ℝ)), (∀ p ∈ l, 0 < p.1) → (∃ p ∈ l, p.1 + p.2 < 0) →
    ∃ τ, 0 < τ ∧ τ < 1 ∧ (∀ p ∈ l, 0 ≤ p.1 + τ * p.2) ∧ ∃ p ∈ l, p.1 + τ * p.2 = 0
  | [], _, h => by simp at h
  | q :: l, h0, h => by
    have hq := h0 q (by simp)
    have one : q.1 + q.2 < 0 → 0 < q.1 / (-q.2) ∧ q.1 / (-q.2) < 1 ∧ q.1 + q.1 / (-q.2) * q.2 = 0 := by
      intro h
      have : 0 < -q.2 := by linarith
      refine ⟨div_pos hq this, (div_lt_one this).2 (by linarith), ?_⟩
      have h2 : q.2 ≠ 0 := by linarith
      field_simp
      ring
    by_cases hl : ∃ p ∈ l, p.1 + p.2 < 0
    · obtain ⟨τ, t0, t1, ha, p, hp, he⟩ := first_zero l (fun p hp => h0 p (by simp [hp])) hl
      by_cases hqz : 0 ≤ q.1 + τ * q.2
      · exact ⟨τ, t0, t1, by simpa using ⟨hqz, fun a b h => ha (a, b) h⟩, p, by simp [hp], he⟩
      · push Not at hqz
        have hqn : q.1 + q.2 < 0 := by nlinarith
        obtain ⟨k1, k2, k3⟩ := one hqn
        have hlt : q.1 / (-q.2) ≤ τ := by
          rw [div_le_iff₀ (by linarith)]; linarith
        refine ⟨_, k1, k2, ?_, q, by simp, k3⟩
        intro p' hp'
        rcases List.mem_cons.1 hp' with rfl | hp'
        · exact k3.ge
        · have := ha p' hp'
          have := h0 p' (by simp [hp'])
          generalize q.1 / (-q.2) = x at *
          rcases le_total 0 p'.2 with hs | hs
          · nlinarith
          · nlinarith
    · push Not at hl
      have hqn : q.1 + q.2 < 0 := by
        obtain ⟨p, hp, hn⟩ := h
        rcases List.mem_cons.1 hp with rfl | hp
        · exact hn
        · exact absurd hn (not_lt.2 (hl p hp))
      obtain ⟨k1, k2, k3⟩ := one hqn
      refine ⟨_, k1, k2, ?_, q, by simp, k3⟩
      intro p' hp'
      rcases List.mem_cons.1 hp' with rfl | hp'
      · exact k3.ge
      · have := hl p' hp'
        have := h0 p' (by simp [hp'])
        generalize q.1 / (-q.2) = x at *
        rcases le_total 0 p'.2 with hs | hs
        · nlinarith
        · nlinarith

/-- a point of the page on the line of a side, not outside of the others, is on the side -/
theorem Tri.Faces.of_zero {t : Tri ℝ} (h : t.Faces) {e : Edge ℝ} (he : e ∈ t.outline) {p : V3 ℝ} (hz : leftOf e.1 e.2 p = 0) (ho : ∀ e' ∈ t.outline, 0 ≤ leftOf e'.1 e'.2 p) :
    ∃ τ, 0 ≤ τ ∧ τ ≤ 1 ∧ p.xy = (edgeAt e τ).xy := by
  have hA := h.turn
  have hsum : leftOf t.a t.b p + leftOf t.b t.c p + leftOf t.c t.a p = leftOf t.a t.b t.c := by unfold leftOf; ring
  have o1 := ho (t.a, t.b) (by simp [Tri.outline])
  have o2 := ho (t.b, t.c) (by simp [Tri.outline])
  have o3 := ho (t.c, t.a) (by simp [Tri.outline])
  simp only at o1 o2 o3
  have hxy : ∀ (τ : ℝ) (e : Edge ℝ), leftOf t.a t.b t.c * p.x = leftOf t.a t.b t.c * (edgeAt e τ).x → leftOf t.a t.b t.c * p.y = leftOf t.a t.b t.c * (edgeAt e τ).y →
      p.xy = (edgeAt e τ).xy := by
    intro τ e h1 h2
    simp only [V3.xy, V2.mk.injEq]
    exact ⟨mul_left_cancel₀ hA.ne' h1, mul_left_cancel₀ hA.ne' h2⟩
  simp only [Tri.outline, List.mem_cons, List.not_mem_nil, or_false] at he
  have hA' : leftOf t.a t.b t.c ≠ 0 := hA.ne'
  rcases he with rfl | rfl | rfl
  · refine ⟨leftOf t.c t.a p / leftOf t.a t.b t.c, div_nonneg o3 hA.le, (div_le_one hA).2 (by linarith), hxy _ _ ?_ ?_⟩
    all_goals
      simp only at hz
      simp only [edgeAt, V3.smul, V3.add_x, V3.add_y, V3.sub_x, V3.sub_y]
      rw [mul_add, mul_left_comm, mul_div_cancel₀ _ hA']
      unfold leftOf at *
    · linear_combination (t.c.x - t.a.x) * hz
    · linear_combination (t.c.y - t.a.y) * hz
  · refine ⟨leftOf t.a t.b p / leftOf t.a t.b t.c, div_nonneg o1 hA.le, (div_le_one hA).2 (by linarith), hxy _ _ ?_ ?_⟩
    all_goals
      simp only at hz
      simp only [edgeAt, V3.smul, V3.add_x, V3.add_y, V3.sub_x, V3.sub_y]
      rw [mul_add, mul_left_comm, mul_div_cancel₀ _ hA']
      unfold leftOf at *
    · linear_combination (t.a.x - t.b.x) * hz
    · linear_combination (t.a.y - t.b.y) * hz
  · refine ⟨leftOf t.b t.c p / leftOf t.a t.b t.c, div_nonneg o2 hA.le, (div_le_one hA).2 (by linarith), hxy _ _ ?_ ?_⟩
    all_goals
      simp only at hz
      simp only [edgeAt, V3.smul, V3.add_x, V3.add_y, V3.sub_x, V3.sub_y]
      rw [mul_add, mul_left_comm, mul_div_cancel₀ _ hA']
      unfold leftOf at *
    · linear_combination (t.b.x - t.c.x) * hz
    · linear_combination (t.b.y - t.c.y) * hz

theorem corner_plane {t : Tri ℝ} (h : t.Faces) {p : V3 ℝ} (hp : p ∈ t.corners) : p.dot t.n = t.r := by
  simp only [Tri.corners, List.mem_cons, List.not_mem_nil, or_false] at hp
  rcases hp with rfl | rfl | rfl
  · exact h.first
  · exact h.second
  · exact h.third

/-- a triangle that hides nothing of an edge is not before any of its points -/
theorem ClearOf.not_before {μ κ ζ : ℝ} (hμ : 0 < μ) (hκ : 0 < κ) (hζ : 0 < ζ) {a b : V3 ℝ} {t : Tri ℝ} (hf : t.Faces)
    (h : ClearOf μ κ ζ a b t) {u : ℝ} (h0 : 0 ≤ u) (h1 : u ≤ 1) : ¬ t.Before (edgeAt (a, b) u) := by
  -- towards the end `b`, if the edge goes down there
  have main : ∀ {a b : V3 ℝ} {u : ℝ}, ClearOf μ κ ζ a b t → 0 ≤ u → u ≤ 1 → b.dot t.n - a.dot t.n ≤ 0 → ¬ t.Before (edgeAt (a, b) u) := by
    clear h h0 h1 a b u
    intro a b u h h0 h1 hdown hbef
    rcases h with hs | ⟨hends, hsides⟩
    · have := faces_plane hf hs u
      linarith [hbef.1]
    obtain ⟨hd, hin⟩ := (before_iff _ _).1 hbef
    have hb : edgeAt (a, b) 1 = b := by ext <;> simp [edgeAt, V3.smul]
    have hdown' : ∀ v, u ≤ v → (edgeAt (a, b) v).dot t.n < t.r := by
      intro v hv
      rw [dot_at] at *
      nlinarith
    by_cases hout : ∃ e ∈ t.outline, leftOf e.1 e.2 b < 0
    · obtain ⟨τ, t0, t1, ha, q, hq, hz⟩ := first_zero (t.outline.map (fun e => (leftOf e.1 e.2 (edgeAt (a, b) u), leftOf e.1 e.2 b - leftOf e.1 e.2 (edgeAt (a, b) u))))
        (by
          intro p hp
          obtain ⟨e, he, rfl⟩ := List.mem_map.1 hp
          exact hin e he)
        (by
          obtain ⟨e, he, hn⟩ := hout
          exact ⟨_, List.mem_map_of_mem he, by simpa using hn⟩)
      obtain ⟨e, he, rfl⟩ := List.mem_map.1 hq
      have at' : ∀ e : Edge ℝ, leftOf e.1 e.2 (edgeAt (a, b) u) + τ * (leftOf e.1 e.2 b - leftOf e.1 e.2 (edgeAt (a, b) u)) = leftOf e.1 e.2 (edgeAt (a, b) (u + τ * (1 - u))) := by
        intro e
        have h1 := leftOf_at e.1 e.2 a b 1
        rw [hb] at h1
        rw [h1, leftOf_at, leftOf_at]; ring
      simp only [at'] at hz
      have ha' : ∀ e' ∈ t.outline, 0 ≤ leftOf e'.1 e'.2 (edgeAt (a, b) (u + τ * (1 - u))) := by
        intro e' he'
        have := ha _ (List.mem_map_of_mem he')
        simp only [at'] at this
        exact this
      obtain ⟨τ', q0, q1, hxy⟩ := hf.of_zero he hz ha'
      have hv := hdown' (u + τ * (1 - u)) (by nlinarith)
      have hvu : u + τ * (1 - u) ≤ 1 := by nlinarith
      have hv0 : 0 ≤ u + τ * (1 - u) := by nlinarith
      generalize u + τ * (1 - u) = v at *
      have hsd := Tri.out_side he
      have hpl := faces_plane hf (c := e.1) (d := e.2) hsd τ'
      -- the side is not above
      have notz : ¬ (edgeAt (e.1, e.2) τ').z ≤ (edgeAt (a, b) v).z := by
        intro hz
        simp only [V3.xy, V2.mk.injEq] at hxy
        have hup := hf.up
        unfold V3.dot at hpl hv
        change (edgeAt (a, b) v).x = (edgeAt (e.1, e.2) τ').x ∧ (edgeAt (a, b) v).y = (edgeAt (e.1, e.2) τ').y at hxy
        rw [hxy.1, hxy.2] at hv
        nlinarith
      rcases hsides e.1 e.2 hsd with ⟨hsh, hk⟩ | hap | hhi | hov
      · -- an end in common: they meet there only, and it is in the plane
        have hs0 : slant a b e.1 e.2 ≠ 0 := by
          intro h0; rw [h0, abs_zero] at hk; linarith
        obtain ⟨v', τ'', hp, hpt⟩ : ∃ v' τ'', (edgeAt (a, b) v').xy = (edgeAt (e.1, e.2) τ'').xy ∧ (edgeAt (a, b) v').dot t.n = t.r := by
          have z0 : ∀ c d : V3 ℝ, edgeAt (c, d) 0 = c := fun c d => by ext <;> simp [edgeAt, V3.smul]
          have z1 : ∀ c d : V3 ℝ, edgeAt (c, d) 1 = d := fun c d => by ext <;> simp [edgeAt, V3.smul]
          have p0 := faces_plane hf (c := e.1) (d := e.2) hsd 0
          have p1 := faces_plane hf (c := e.1) (d := e.2) hsd 1
          rw [z0] at p0
          rw [z1] at p1
          rcases hsh with (g | g) | (g | g)
          · exact ⟨0, 0, by rw [z0, z0, g], by rw [z0, ← g]; exact p0⟩
          · exact ⟨0, 1, by rw [z0, z1, g], by rw [z0, ← g]; exact p1⟩
          · exact ⟨1, 0, by rw [z1, z0, g], by rw [z1, ← g]; exact p0⟩
          · exact ⟨1, 1, by rw [z1, z1, g], by rw [z1, ← g]; exact p1⟩
        have : v = v' := mul_right_cancel₀ hs0 ((cramer (E := (a, b)) (F := (e.1, e.2)) hxy).1.trans (cramer (E := (a, b)) (F := (e.1, e.2)) hp).1.symm)
        rw [this, hpt] at hv
        exact lt_irrefl _ hv
      · -- apart
        have f1 : leftOf a b (edgeAt (e.1, e.2) τ') = 0 := by
          rw [← leftOf_xy hxy]
          simp only [leftOf, edgeAt, V3.smul, V3.add_x, V3.add_y, V3.sub_x, V3.sub_y]; ring
        have f2 : leftOf a b (edgeAt (e.1, e.2) τ') = leftOf a b e.1 * (1 - τ') + leftOf a b e.2 * τ' := by
          simp only [leftOf, edgeAt, V3.smul, V3.add_x, V3.add_y, V3.sub_x, V3.sub_y]; ring
        have f3 : leftOf e.1 e.2 (edgeAt (a, b) v) = leftOf e.1 e.2 a * (1 - v) + leftOf e.1 e.2 b * v := by
          simp only [leftOf, edgeAt, V3.smul, V3.add_x, V3.add_y, V3.sub_x, V3.sub_y]; ring
        rw [f2] at f1
        rw [f3] at hz
        rcases hap with ⟨g1, g2⟩ | ⟨g1, g2⟩ | ⟨g1, g2⟩ | ⟨g1, g2⟩ <;> nlinarith
      · apply notz
        obtain ⟨g1, g2, g3, g4⟩ := hhi
        simp only [edgeAt, V3.smul, V3.add_z, V3.sub_z]
        have e1 : e.1.z + (e.2.z - e.1.z) * τ' = e.1.z * (1 - τ') + e.2.z * τ' := by ring
        have e2 : a.z + (b.z - a.z) * v = a.z * (1 - v) + b.z * v := by ring
        rw [e1, e2]
        have m1 : e.1.z * (1 - τ') + e.2.z * τ' ≤ max e.1.z e.2.z := by
          have i1 := mul_le_mul_of_nonneg_right (le_max_left e.1.z e.2.z) (sub_nonneg.2 q1)
          have i2 := mul_le_mul_of_nonneg_right (le_max_right e.1.z e.2.z) q0
          linarith
        have m2 : min a.z b.z ≤ a.z * (1 - v) + b.z * v := by
          have i1 := mul_le_mul_of_nonneg_right (min_le_left a.z b.z) (sub_nonneg.2 hvu)
          have i2 := mul_le_mul_of_nonneg_right (min_le_right a.z b.z) hv0
          linarith
        have m3 : max e.1.z e.2.z ≤ min a.z b.z := by
          rw [max_le_iff, le_min_iff, le_min_iff]
          refine ⟨⟨?_, ?_⟩, ?_, ?_⟩ <;> linarith
        linarith
      · exact notz (by have := hov.2 v τ' (by linarith) (by linarith) (by linarith) (by linarith) hxy; linarith)
    · push Not at hout
      have hbd := hdown' 1 h1
      rw [hb] at hbd
      rcases hends b (Or.inr rfl) with hc | hn
      · rw [corner_plane hf hc] at hbd
        exact lt_irrefl _ hbd
      · have o1 := hout (t.a, t.b) (by simp [Tri.outline])
        have o2 := hout (t.b, t.c) (by simp [Tri.outline])
        have o3 := hout (t.c, t.a) (by simp [Tri.outline])
        simp only at o1 o2 o3
        rcases hn with g | g | g | g <;> linarith
  rcases le_total (b.dot t.n - a.dot t.n) 0 with hd | hd
  · exact main h h0 h1 hd
  · have := main (a := b) (b := a) (u := 1 - u) h.swap (by linarith) (by linarith) (by linarith)
    rwa [edgeAt_swap, sub_sub_cancel] at this

/-- nothing is before a point that is in view -/
theorem VisibleAt.not_before {δ M : ℝ} (hM : 0 < M) {r : M3 ℝ} {ts : List (Tri ℝ)} {a b : V3 ℝ} {σ : ℝ} (h : VisibleAt δ M r ts a b σ) {t : Tri ℝ} (ht : t ∈ ts)
    (hz : -δ < (t.n.mulM r).z) (hf : (t.seenIn r).Faces) : ¬ (t.seenIn r).Before (edgeAt (a, b) σ) := by
  have h0 := h.low
  have h1 := h.high
  norm_num at h0 h1
  rcases h.clear t ht hz with hc | ⟨s, s', hp, ho⟩
  · exact hc.not_before (by positivity) (by positivity) (by positivity) hf (by linarith) (by linarith)
  · exact hp.not_before (by positivity) (by positivity) (by positivity) (by positivity) hf (by linarith) (by linarith) (by
      norm_num at ho
      exact ho.imp (fun h => by linarith) (fun h => by linarith))

theorem Tri.Front.faces {t : Tri ℝ} (h : t.Front) : t.Faces := by
  obtain ⟨k, hk, hc⟩ := h.ccw
  have dc : ∀ p q : V3 ℝ, p.dot q = q.dot p := by intro p q; simp only [V3.dot]; ring
  refine ⟨by rw [dc]; exact h.inA, by rw [dc]; exact h.inB, by rw [dc]; exact h.inC, h.facing, ?_⟩
  have h1 := congrArg V3.z hc
  simp only [V3.cross, V3.smul, V3.sub_x, V3.sub_y] at h1
  have h2 := mul_pos h.facing hk
  rw [← h1] at h2
  unfold leftOf
  linarith

theorem before_means {t : Tri ℝ} (h : t.Front) (p : V3 ℝ) : t.Before p ↔ InsideTri t p ∧ StrictlyBehind t p := by
  have hA := h.faces.turn
  have dc : p.dot t.n = t.n.dot p := by simp only [V3.dot]; ring
  unfold Tri.Before StrictlyBehind
  rw [dc, and_comm]
  refine and_congr_left fun _ => ?_
  constructor
  · rintro ⟨h1, h2, h3⟩
    refine ⟨leftOf t.b t.c p / leftOf t.a t.b t.c, leftOf t.c t.a p / leftOf t.a t.b t.c, leftOf t.a t.b p / leftOf t.a t.b t.c, div_pos h2 hA, div_pos h3 hA, div_pos h1 hA, ?_, ?_, ?_⟩
    · rw [← add_div, ← add_div, div_eq_one_iff_eq hA.ne']
      unfold leftOf; ring
    all_goals
      rw [div_mul_eq_mul_div, div_mul_eq_mul_div, div_mul_eq_mul_div, ← add_div, ← add_div, eq_div_iff hA.ne']
      unfold leftOf; ring
  · rintro ⟨u, v, w, hu, hv, hw, hs, hx, hy⟩
    have e1 : leftOf t.a t.b p = w * leftOf t.a t.b t.c := by
      unfold leftOf; rw [hx, hy]; linear_combination (t.b.x * t.a.y - t.a.x * t.b.y) * hs
    have e2 : leftOf t.b t.c p = u * leftOf t.a t.b t.c := by
      unfold leftOf; rw [hx, hy]; linear_combination (t.c.x * t.b.y - t.b.x * t.c.y) * hs
    have e3 : leftOf t.c t.a p = v * leftOf t.a t.b t.c := by
      unfold leftOf; rw [hx, hy]; linear_combination (t.a.x * t.c.y - t.c.x * t.a.y) * hs
    rw [e1, e2, e3]
    exact ⟨mul_pos hw hA, mul_pos hu hA, mul_pos hv hA⟩

theorem triOf_front {M : ℝ} (hM : 0 < M) {n a b c : V3 ℝ} (h : Stout M n a b c) {r : M3 ℝ} (hr : IsRotation r) (hz : 0 < ((triOf n a b c).n.mulM r).z) :
    ((triOf n a b c).seenIn r).Front := by
  have hL : 0 < len3 ((b - a).cross (c - a)) := lt_of_lt_of_le (by positivity) h.area
  set L := len3 ((b - a).cross (c - a)) with hLd
  have hu : ((b - a).cross (c - a)) = (unitNormal a b c).smul L := by
    unfold unitNormal
    rw [← hLd]
    ext <;> simp [V3.sdiv, V3.smul] <;> field_simp
  have msub : ∀ p q : V3 ℝ, p.mulM r - q.mulM r = (p - q).mulM r := by intro p q; ext <;> simp [V3.mulM] <;> ring
  have msm : ∀ (p : V3 ℝ) (k : ℝ), (p.smul k).mulM r = (p.mulM r).smul k := by intro p k; ext <;> simp [V3.mulM, V3.smul] <;> ring
  have mneg : ∀ v : V3 ℝ, (-v).mulM r = -(v.mulM r) := by intro v; ext <;> simp [V3.mulM] <;> ring
  have dneg : ∀ p v : V3 ℝ, (-v).dot p = - v.dot p := by intro p v; simp [V3.dot]; ring
  have hcr : (b.mulM r - a.mulM r).cross (c.mulM r - a.mulM r) = ((unitNormal a b c).mulM r).smul L := by
    rw [msub, msub, rotation_cross r hr, hu, msm]
  have hd : ∀ p q : V3 ℝ, (p.mulM r).dot (q.mulM r) = p.dot q := hr.1
  have pl : ∀ {p : V3 ℝ}, (p = a ∨ p = b ∨ p = c) → (unitNormal a b c).dot p = (unitNormal a b c).dot a := by
    intro p hp
    apply mul_left_cancel₀ hL.ne'
    have k1 : ∀ p : V3 ℝ, L * (unitNormal a b c).dot p = ((b - a).cross (c - a)).dot p := by
      intro p; rw [hu]; simp only [V3.dot, V3.smul]; ring
    rw [k1, k1]
    rcases hp with rfl | rfl | rfl <;> simp only [V3.dot, V3.cross, V3.sub_x, V3.sub_y, V3.sub_z] <;> ring
  unfold triOf at *
  split_ifs at hz ⊢ with hn
  · refine ⟨?_, ?_, ?_, ⟨L, hL, ?_⟩, hz⟩
    · simp only [Tri.seenIn]; rw [hd, dneg, pl (by simp)]
    · simp only [Tri.seenIn]; rw [hd, dneg, pl (by simp)]
    · simp only [Tri.seenIn]; rw [hd, dneg, pl (by simp)]
    · simp only [Tri.seenIn]
      have e : (b.mulM r - c.mulM r).cross (a.mulM r - c.mulM r) = -((b.mulM r - a.mulM r).cross (c.mulM r - a.mulM r)) := by
        ext <;> simp [V3.cross] <;> ring
      rw [e, hcr, mneg]
      ext <;> simp [V3.smul]
  · refine ⟨?_, ?_, ?_, ⟨L, hL, hcr⟩, hz⟩
    · simp only [Tri.seenIn]; rw [hd, pl (by simp)]
    · simp only [Tri.seenIn]; rw [hd, pl (by simp)]
    · simp only [Tri.seenIn]; rw [hd, pl (by simp)]

/-- the triangles of a body that is described by a text -/
theorem described_front {M : ℝ} (hM : 0 < M) {text : Str} {us : List (Tri ℝ)} (h : Describes M text us) {t : Tri ℝ} (ht : t ∈ us) {r : M3 ℝ} (hr : IsRotation r)
    (hz : 0 < (t.n.mulM r).z) : (t.seenIn r).Front := by
  obtain ⟨ls, rs, -, -, h⟩ := h
  obtain ⟨B, -, n, a, b, c, rest, -, hs, rfl⟩ := forall₂_right h t ht
  exact triOf_front hM hs hr hz

end S2P
