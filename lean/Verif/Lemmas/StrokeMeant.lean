import Verif.Lemmas.StrokeDim
import Verif.Props.NearDouble

set_option linter.unusedSectionVars false
set_option linter.unusedVariables false
set_option linter.unusedSimpArgs false

/-! # The strokes of a dimension between the points meant -/

namespace S2P

/-- close together on the page -/
def V2.Close (ρ : ℝ) (p q : V2 ℝ) : Prop := |p.x - q.x| ≤ ρ ∧ |p.y - q.y| ≤ ρ

theorem unit_le {e : V2 ℝ} (he : e.x ^ 2 + e.y ^ 2 = 1) : |e.x| ≤ 1 ∧ |e.y| ≤ 1 := by
  constructor <;> · rw [abs_le]; constructor <;> nlinarith [sq_nonneg e.x, sq_nonneg e.y]

theorem close_dot {ρ : ℝ} {e p q : V2 ℝ} (hx : |e.x| ≤ 1) (hy : |e.y| ≤ 1) (h : V2.Close ρ p q) : |p.dot e - q.dot e| ≤ 2 * ρ := by
  have e1 : p.dot e - q.dot e = (p.x - q.x) * e.x + (p.y - q.y) * e.y := by simp [V2.dot]; ring
  rw [e1]
  refine (abs_add_le _ _).trans ?_
  rw [abs_mul, abs_mul]
  have hρ : 0 ≤ ρ := (abs_nonneg _).trans h.1
  have := mul_le_mul h.1 hx (abs_nonneg _) hρ
  have := mul_le_mul h.2 hy (abs_nonneg _) hρ
  linarith

theorem close_sub {ρ : ℝ} {p q p' q' : V2 ℝ} (h : V2.Close ρ p q) (h' : V2.Close ρ p' q') : V2.Close (2 * ρ) (p - p') (q - q') := by
  have go : ∀ {a b c d : ℝ}, |a - b| ≤ ρ → |c - d| ≤ ρ → |a - c - (b - d)| ≤ 2 * ρ := by
    intro a b c d h1 h2
    rw [abs_le] at *
    constructor <;> linarith
  exact ⟨go h.1 h'.1, go h.2 h'.2⟩

theorem close_foot {ρ : ℝ} {e a a' p p' : V2 ℝ} (hx : |e.x| ≤ 1) (hy : |e.y| ≤ 1) (ha : V2.Close ρ a a') (hp : V2.Close ρ p p') :
    V2.Close (5 * ρ) (a.foot e p) (a'.foot e p') := by
  have hd := close_dot hx hy (close_sub hp ha)
  have hρ : 0 ≤ ρ := (abs_nonneg _).trans ha.1
  have go : ∀ {u v c d w : ℝ}, |u - v| ≤ ρ → |c - d| ≤ 2 * (2 * ρ) → |w| ≤ 1 → |u + w * c - (v + w * d)| ≤ 5 * ρ := by
    intro u v c d w h1 h2 h3
    have : u + w * c - (v + w * d) = (u - v) + w * (c - d) := by ring
    rw [this]
    refine (abs_add_le _ _).trans ?_
    rw [abs_mul]
    have := mul_le_mul h3 h2 (abs_nonneg _) (by norm_num)
    linarith
  constructor
  · have := go ha.1 hd hx
    simpa [V2.foot, V2.smul, mul_comm] using this
  · have := go ha.2 hd hy
    simpa [V2.foot, V2.smul, mul_comm] using this

theorem V2.Close.mono {ρ ρ' : ℝ} {p q : V2 ℝ} (h : V2.Close ρ p q) (hr : ρ ≤ ρ') : V2.Close ρ' p q := ⟨h.1.trans hr, h.2.trans hr⟩

theorem V2.Close.add_right {ρ : ℝ} {p q : V2 ℝ} (h : V2.Close ρ p q) (w : V2 ℝ) : V2.Close ρ (p + w) (q + w) := by
  refine ⟨?_, ?_⟩
  · have := h.1; simpa using this
  · have := h.2; simpa using this

theorem V2.Close.sub_right {ρ : ℝ} {p q : V2 ℝ} (h : V2.Close ρ p q) (w : V2 ℝ) : V2.Close ρ (p - w) (q - w) := by
  refine ⟨?_, ?_⟩
  · have := h.1; simpa using this
  · have := h.2; simpa using this

section
variable {R : Rounding}

theorem near_close {ε ρ : ℝ} {u : V2 (Fl R)} {p q : V2 ℝ} (h : V2.NearTo u p ε) (hc : V2.Close ρ p q) : V2.NearTo u q (ε + ρ) :=
  ⟨h.1.trans hc.1, h.2.trans hc.2⟩

/-- points that move a little move the strokes a little -/
theorem DimInk.shift {G ε ε' ρ : ℝ} {n : ℕ} {a f t a' f' t' e : V2 ℝ} {lines : List (Line (Fl R))} (he : e.x ^ 2 + e.y ^ 2 = 1) (ha : V2.Close ρ a a')
    (hf : V2.Close ρ f f') (ht : V2.Close ρ t t') (h : DimInk G ε ε' n a f t e lines) : DimInk G (ε + 5 * ρ) (ε' + 4 * ρ) n a' f' t' e lines := by
  obtain ⟨hl, fits, σf, σt, h1, h2, h3, h4, h5⟩ := h
  obtain ⟨hx, hy⟩ := unit_le he
  have hρ : 0 ≤ ρ := (abs_nonneg _).trans ha.1
  have hd := close_dot hx hy (close_sub ht hf)
  have side : ∀ {p p' : V2 ℝ} {σ : ℝ}, V2.Close ρ p p' → OnSide ε' a e p σ → OnSide (ε' + 4 * ρ) a' e p' σ := by
    intro p p' σ hp ho
    have := close_dot (e := e.left) (by simpa [V2.left] using hy) (by simpa [V2.left] using hx) (close_sub hp ha)
    rw [abs_le] at this
    rcases ho with ⟨r1, r2⟩ | ⟨r1, r2⟩
    · exact Or.inl ⟨r1, by linarith⟩
    · exact Or.inr ⟨r1, by linarith⟩
  rw [abs_le] at hd
  refine ⟨hl, fits, σf, σt, fun q => by linarith [h1 q], fun q => by linarith [h2 q], side hf h3, side ht h4, ?_⟩
  have cf := close_foot hx hy ha hf
  have ct := close_foot hx hy ha ht
  have ca := ha.mono (show ρ ≤ 5 * ρ by linarith)
  have cf0 := hf.mono (show ρ ≤ 5 * ρ by linarith)
  have ct0 := ht.mono (show ρ ≤ 5 * ρ by linarith)
  have tr : ∀ (l : List (Line (Fl R))) (m m' : List (Line ℝ)), List.Forall₂ (StrokeNear ε) l m →
      List.Forall₂ (fun x y => V2.Close (5 * ρ) x.o y.o ∧ V2.Close (5 * ρ) x.t y.t) m m' → List.Forall₂ (StrokeNear (ε + 5 * ρ)) l m' := by
    intro l m m' k1 k2
    induction k1 generalizing m' with
    | nil => cases k2; exact .nil
    | cons p _ ih =>
      cases k2 with
      | cons q qs => exact .cons ⟨near_close p.1 q.1, near_close p.2 q.2⟩ (ih _ qs)
  refine tr _ _ _ h5 ?_
  cases fits
  · exact .cons ⟨cf, cf.sub_right _⟩ <| .cons ⟨ct, ct.add_right _⟩ <| .cons ⟨cf.sub_right _, cf0.sub_right _⟩ <| .cons ⟨ct.sub_right _, ct0.sub_right _⟩ <|
      .cons ⟨cf, cf.add_right _⟩ <| .cons ⟨cf, cf.add_right _⟩ <| .cons ⟨ct, ct.sub_right _⟩ <| .cons ⟨ct, ct.sub_right _⟩ .nil
  · exact .cons ⟨cf, ca.sub_right _⟩ <| .cons ⟨ca.add_right _, ct⟩ <| .cons ⟨cf.sub_right _, cf0.sub_right _⟩ <| .cons ⟨ct.sub_right _, ct0.sub_right _⟩ <|
      .cons ⟨cf, cf.add_right _⟩ <| .cons ⟨cf, cf.add_right _⟩ <| .cons ⟨ct, ct.sub_right _⟩ <| .cons ⟨ct, ct.sub_right _⟩ .nil

theorem DimInk.mono {G ε ε' δ δ' : ℝ} {n : ℕ} {a f t e : V2 ℝ} {lines : List (Line (Fl R))} (h : DimInk G ε ε' n a f t e lines) (h1 : ε ≤ δ) (h2 : ε' ≤ δ') :
    DimInk G δ δ' n a f t e lines := by
  obtain ⟨hl, fits, σf, σt, k1, k2, k3, k4, k5⟩ := h
  refine ⟨hl, fits, σf, σt, fun q => by linarith [k1 q], fun q => by linarith [k2 q], ?_, ?_, ?_⟩
  · exact k3.imp (fun ⟨a, b⟩ => ⟨a, by linarith⟩) (fun ⟨a, b⟩ => ⟨a, by linarith⟩)
  · exact k4.imp (fun ⟨a, b⟩ => ⟨a, by linarith⟩) (fun ⟨a, b⟩ => ⟨a, by linarith⟩)
  · exact k5.imp (fun _ _ q => ⟨⟨q.1.1.mono h1, q.1.2.mono h1⟩, q.2.1.mono h1, q.2.2.mono h1⟩)

end

end S2P
