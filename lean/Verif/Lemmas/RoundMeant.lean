import Verif.Lemmas.RoundElbow
import Verif.Lemmas.AngleMeant
import Verif.Props.HoleDoubleFit

set_option linter.unusedSectionVars false
set_option linter.unusedVariables false
set_option linter.unusedSimpArgs false

/-! # A radius or diameter as drawn, in rounded arithmetic -/

namespace S2P

section
variable {R : Rounding} (hR : R.Accurate)
include hR

/-- how far the label is moved to the right -/
theorem label_shift {k κ : ℝ} (hu : Unit k κ) {K : Fl R} (hK : K = (Ext.fin k : Ext ℝ)) {n : ℕ} (hn : n ≤ 103) :
    Fl.Near (FP.lit kFontSize * FP.lit (3 / 10) * FP.lit (n : ℚ) / K : Fl R) (12 / 5 * n * κ) (1 / 2 ^ 36 * κ) := by
  subst hK
  have hn' : (n : ℝ) ≤ 103 := by exact_mod_cast hn
  have hn0 : (0 : ℝ) ≤ n := Nat.cast_nonneg n
  have hk := hu.pos
  have hκ := hu.pos'
  have eκ : κ = 1 / k := by rw [eq_div_iff hk.ne', mul_comm]; exact hu.one
  have up : ∀ {S : ℝ}, S ≤ 2 ^ 20 → S ≤ 2 ^ 1000 := fun h => h.trans (pow_le_pow_right₀ (by norm_num) (by norm_num))
  have l8 := Fl.near_lit hR (R := R) kFontSize (S := 8) (by norm_num [kFontSize]) (by norm_num) (up (by norm_num))
  have l3 := Fl.near_lit hR (R := R) (3 / 10) (S := 1) (by norm_num) (by norm_num) (up (by norm_num))
  have ln := Fl.near_lit hR (R := R) (n : ℚ) (S := 128) (by push_cast; rw [abs_of_nonneg hn0]; linarith) (by norm_num) (up (by norm_num))
  push_cast at l3 ln
  have e8 : ((kFontSize : ℚ) : ℝ) = 8 := by norm_num [kFontSize]
  rw [e8] at l8
  have m1 := (l8.mul hR l3 (A := 8) (B := 3 / 10) (S := 5 / 2) (by norm_num) (by norm_num) (by norm_num) (by norm_num) (up (by norm_num))).mono
    (show _ ≤ 16 / 2 ^ 51 by norm_num)
  have m2 := (m1.mul hR ln (A := 12 / 5) (B := 103) (S := 256) (by norm_num) (by rw [abs_of_nonneg hn0]; exact hn') (by norm_num) (by norm_num)
    (up (by norm_num))).mono (δ := 1 / 2 ^ 38) (by norm_num)
  have e : 8 * (3 / 10) * (n : ℝ) / k = 12 / 5 * n * κ := by rw [eκ]; ring
  have a1 : |12 / 5 * (n : ℝ) * κ| ≤ 248 * κ := by
    rw [abs_of_nonneg (by positivity)]
    exact mul_le_mul_of_nonneg_right (by linarith) hκ.le
  have q : (1 / 2 ^ 38 + |8 * (3 / 10) * (n : ℝ) / k| * 0) / (|k| - 0) = 1 / 2 ^ 38 * κ := by
    rw [mul_zero, add_zero, sub_zero, abs_of_pos hk, eκ]; ring
  refine ((m2.div hR (Fl.near_fin k) (by rw [abs_of_pos hk]; exact hk) (S := 256 * κ) ?_ (hu.bot (by linarith)) (hu.top (by norm_num; linarith))).mono ?_).congr e
  · rw [q, e]
    have : 1 / 2 ^ 38 * κ ≤ κ := by norm_num; linarith
    linarith
  · rw [q]; norm_num; linarith

/-- what is known of the parts of a radius or diameter -/
structure RoundParts (M k κ η ζ : ℝ) (o : V2 ℝ) (K : Fl R) (o' a c n : V2 (Fl R)) (rad : Fl R) (T C e : V2 ℝ) (ρ : ℝ) : Prop where
  size : RoundSize M k κ η ζ o
  hK : K = (Ext.fin k : Ext ℝ)
  ho : o' = ⟨(Ext.fin o.x : Ext ℝ), (Ext.fin o.y : Ext ℝ)⟩
  ha : V2.NearTo a T (8 * (M * η))
  hT : |T.x| ≤ 7 / 4 * M ∧ |T.y| ≤ 7 / 4 * M
  hc : V2.NearTo c C ζ
  hC : |C.x| ≤ M ∧ |C.y| ≤ M
  hn : V2.NearTo n e (100 * η)
  he : e.x ^ 2 + e.y ^ 2 = 1
  hr : Fl.Near rad ρ ζ
  pos : 0 < ρ
  hρ : ρ ≤ M

variable {M k κ η ζ : ℝ} {o : V2 ℝ} {K : Fl R} {o' a c n : V2 (Fl R)} {rad : Fl R} {T C e : V2 ℝ} {ρ : ℝ}

omit hR in
theorem RoundParts.offs (h : RoundParts M k κ η ζ o K o' a c n rad T C e ρ) :
    (o'.x = (Ext.fin o.x : Ext ℝ) ∧ |o.x| ≤ |o.x| + |o.y|) ∧ (o'.y = (Ext.fin o.y : Ext ℝ) ∧ |o.y| ≤ |o.x| + |o.y|) := by
  have := h.ho
  subst this
  exact ⟨⟨rfl, by linarith [abs_nonneg o.y]⟩, ⟨rfl, by linarith [abs_nonneg o.x]⟩⟩

/-- a point on the page -/
theorem RoundParts.page (h : RoundParts M k κ η ζ o K o' a c n rad T C e ρ) {z : V2 (Fl R)} {Z : V2 ℝ} (hz : V2.NearTo z Z (3 * ζ + 1000 * (M * η)))
    (hx : |Z.x| ≤ 7 * M) (hy : |Z.y| ≤ 7 * M) : V2.NearTo (z.moved K o') (Z.onPage k o) (roundError M k η ζ o) := by
  obtain ⟨⟨p1, p2⟩, p3, p4⟩ := h.offs
  have hκη : 0 ≤ 2 ^ 19 * η * κ := by
    have := h.size.unit.pos'
    have : 0 ≤ η := le_trans (by positivity) h.size.fine.lo
    positivity
  have one : ∀ {x w : Fl R} {X W : ℝ}, Fl.Near x X (3 * ζ + 1000 * (M * η)) → |X| ≤ 7 * M → w = (Ext.fin W : Ext ℝ) → |W| ≤ |o.x| + |o.y| → |W| ≤ 2 ^ 200 →
      Fl.Near (x * K + w) (X * k + W) (roundError M k η ζ o) := by
    intro x w X W q1 q2 q3 q4 q5
    refine (round_page hR h.size h.hK q3 q4 q5 q2 (D := 0) (by norm_num) ((q1.mono (by linarith)).congr (by ring))).congr (by ring)
  exact ⟨one hz.1 hx p1 p2 h.size.ox, one hz.2 hy p3 p4 h.size.oy⟩

/-- the ends of the diameter along the line -/
theorem RoundParts.ends (h : RoundParts M k κ η ζ o K o' a c n rad T C e ρ) :
    V2.NearTo (c + n.smul rad) (C + e.smul ρ) (2 * ζ + 700 * (M * η)) ∧ V2.NearTo (c - n.smul rad) (C - e.smul ρ) (2 * ζ + 700 * (M * η)) ∧
    (|(C + e.smul ρ).x| ≤ 7 * M ∧ |(C + e.smul ρ).y| ≤ 7 * M) ∧ |(C - e.smul ρ).x| ≤ 7 * M ∧ |(C - e.smul ρ).y| ≤ 7 * M := by
  obtain ⟨e1, e2⟩ := unit_le h.he
  have hM := h.size.small.one
  have hρ : |ρ| ≤ 6 * M := by rw [abs_of_pos h.pos]; linarith [h.hρ]
  obtain ⟨a1, a2, a3, a4⟩ := along_near hR h.size h.hc.1 h.hC.1 h.hn.1 e1 h.hr hρ le_rfl
  obtain ⟨b1, b2, b3, b4⟩ := along_near hR h.size h.hc.2 h.hC.2 h.hn.2 e2 h.hr hρ le_rfl
  have e : ζ + ζ + 700 * (M * η) = 2 * ζ + 700 * (M * η) := by ring
  rw [e] at a1 a2 b1 b2
  exact ⟨⟨a1, b1⟩, ⟨a2, b2⟩, ⟨a3, b3⟩, a4, b4⟩

/-- an arrowhead -/
theorem RoundParts.barb (h : RoundParts M k κ η ζ o K o' a c n rad T C e ρ) {t : V2 (Fl R)} {Z : V2 ℝ} (ht : V2.NearTo t Z (2 * ζ + 700 * (M * η)))
    (hx : |Z.x| ≤ 7 * M) (hy : |Z.y| ≤ 7 * M) {p q : ℚ} {A B : ℝ} (hp : (p : ℝ) = A) (hq : (q : ℝ) = B) (hA : |A| ≤ 6) (hB : |B| ≤ 2) :
    V2.NearTo (V2.moved (t + ((n.sdiv K).smul (FP.lit p) + (⟨-(n.sdiv K).y, (n.sdiv K).x⟩ : V2 (Fl R)).smul (FP.lit q))) K o')
      (Z.onPage k o + e.smul A + e.left.smul B) (roundError M k η ζ o) := by
  obtain ⟨e1, e2⟩ := unit_le h.he
  obtain ⟨⟨p1, p2⟩, p3, p4⟩ := h.offs
  have hη0 : 0 ≤ η := le_trans (by positivity) h.size.fine.lo
  have hη1 := h.size.fine.hi
  norm_num at hη1
  have nx := over_near hR h.size.unit h.hK h.hn.1 (by linarith) (by linarith)
  have ny := over_near hR h.size.unit h.hK h.hn.2 (by linarith) (by linarith)
  have f1 := barb_round hR h.size h.hK hp hq hA hB p1 p2 h.size.ox ht.1 hx nx e1 (ny.neg.congr (show -(e.y * κ) = -e.y * κ by ring)) (by rw [abs_neg]; exact e2)
  have f2 := barb_round hR h.size h.hK hp hq hA hB p3 p4 h.size.oy ht.2 hy ny e2 nx e1
  constructor
  · refine f1.congr ?_
    show _ = Z.x * k + o.x + e.x * A + -e.y * B
    ring
  · refine f2.congr ?_
    show _ = Z.y * k + o.y + e.y * A + e.x * B
    ring

/-- the elbow, and the ends of the line -/
theorem RoundParts.knee (h : RoundParts M k κ η ζ o K o' a c n rad T C e ρ) :
    ∃ m, ElbowAt (roundError M k η ζ o) k (ρ * k) (C.onPage k o) (T.onPage k o) e m ∧
      (∀ θ, 2 ^ 7 * η ≤ θ → θ ≤ 1 → ElbowClear (elbowError M k η ζ θ) θ k (ρ * k) (C.onPage k o) (T.onPage k o) e m) ∧
      V2.NearTo (V2.moved (if FP.lt (FP.lit 1) (FP.min ((a - c).x / n.x) ((a - c).y / n.y)) = true then c + n.smul (FP.min ((a - c).x / n.x) ((a - c).y / n.y)) else c + n.smul rad) K o')
        (C.onPage k o + e.smul m) (roundError M k η ζ o) := by
  obtain ⟨e1, e2⟩ := unit_le h.he
  obtain ⟨d1, d2, d3, -, -⟩ := h.size.nums
  have hM := h.size.small.one
  have hk := h.size.unit.pos
  have hζ := h.size.pos
  have hcl := h.size.clear
  have hη0 : 0 < η := lt_of_lt_of_le (by positivity) h.size.fine.lo
  norm_num at d1 d2
  have sub : ∀ {x y : Fl R} {X Y : ℝ}, Fl.Near x X (8 * (M * η)) → |X| ≤ 7 / 4 * M → Fl.Near y Y ζ → |Y| ≤ M → Fl.Near (x - y) (X - Y) (ζ + 10 * (M * η)) ∧ |X - Y| ≤ 11 / 4 * M := by
    intro x y X Y h1 h2 h3 h4
    have t := abs_sub X Y
    refine ⟨(h1.sub hR h3 (S := 3 * M) (by linarith) (h.size.wide.bot (by linarith)) (h.size.wide.top (by norm_num; linarith))).mono (by norm_num; linarith), by linarith⟩
  obtain ⟨sx, bx⟩ := sub h.ha.1 h.hT.1 h.hc.1 h.hC.1
  obtain ⟨sy, by_⟩ := sub h.ha.2 h.hT.2 h.hc.2 h.hC.2
  have hlen : ∀ θ, 2 ^ 7 * η ≤ θ → θ ≤ 1 → θ ≤ |e.x| → θ ≤ |e.y| →
      Fl.Near (FP.min ((a - c).x / n.x) ((a - c).y / n.y)) (min ((T.x - C.x) / e.x) ((T.y - C.y) / e.y)) (5 * ζ / θ + 2 ^ 11 * (M * η) / θ ^ 2) :=
    fun θ t1 t2 t3 t4 => clear_near hR h.size t1 t2 t3 t4 sx sy bx by_ h.hn.1 h.hn.2
  have hel := elbow_near hR h.size h.he sx sy bx by_ h.hn.1 h.hn.2
  change FP.lt (FP.lit 1) (FP.min ((a - c).x / n.x) ((a - c).y / n.y)) = true → _ at hel
  change FP.lt (FP.lit 1) (FP.min ((a - c).x / n.x) ((a - c).y / n.y)) = true →
    ∃ m : ℝ, FP.min ((a - c).x / n.x) ((a - c).y / n.y) = (Ext.fin m : Ext ℝ) ∧ 1 < m ∧ m ≤ 5 * M ∧
      (|e.x * m - (T.x - C.x)| ≤ ζ + 600 * (M * η) ∨ |e.y * m - (T.y - C.y)| ≤ ζ + 600 * (M * η)) at hel
  have quo : ∀ {X Y f : ℝ} {w : ℝ}, (X * k + w - (Y * k + w)) / f = (X - Y) / f * k := by intro X Y f w; ring
  have hq : min (((T.onPage k o).x - (C.onPage k o).x) / e.x) (((T.onPage k o).y - (C.onPage k o).y) / e.y) = min ((T.x - C.x) / e.x) ((T.y - C.y) / e.y) * k := by
    simp only [V2.onPage, quo]
    rw [min_mul_of_nonneg _ _ hk.le]
  have l1 : Fl.Near (FP.lit 1 : Fl R) 1 0 := by rw [lit_one_fl]; exact Fl.near_fin 1
  generalize FP.min ((a - c).x / n.x) ((a - c).y / n.y) = len at *
  cases hlt : FP.lt (FP.lit 1) len with
  | true =>
    obtain ⟨m, rfl, m1, m5, hlev⟩ := hel hlt
    rw [if_pos rfl]
    refine ⟨m * k, Or.inr ⟨by nlinarith, ?_⟩, ?_, ?_⟩
    · have hle : (ζ + 600 * (M * η)) * k ≤ roundError M k η ζ o := by
        unfold roundError
        have : 0 ≤ ζ * k := mul_nonneg hζ hk.le
        have : 0 ≤ M * η * k := by positivity
        have : 0 ≤ (|o.x| + |o.y|) / 2 ^ 45 := by positivity
        nlinarith
      have go : ∀ {f X Y w : ℝ}, |f * m - (X - Y)| ≤ ζ + 600 * (M * η) → |Y * k + w + f * (m * k) - (X * k + w)| ≤ roundError M k η ζ o := by
        intro f X Y w hf
        rw [show Y * k + w + f * (m * k) - (X * k + w) = (f * m - (X - Y)) * k by ring, abs_mul, abs_of_pos hk]
        exact (mul_le_mul_of_nonneg_right hf hk.le).trans hle
      exact hlev.imp go go
    · intro θ t1 t2 t3 t4
      obtain ⟨b, hb, hb2⟩ := hlen θ t1 t2 t3 t4
      injection hb with hb
      subst hb
      simp only [hq]
      unfold elbowError
      constructor
      · intro _
        rw [← sub_mul, abs_mul, abs_of_pos hk]
        exact mul_le_mul_of_nonneg_right hb2 hk.le
      · intro hlo
        exfalso
        rw [← add_mul] at hlo
        have h2 : (1 : ℝ) < (min ((T.x - C.x) / e.x) ((T.y - C.y) / e.y) + (5 * ζ / θ + 2 ^ 11 * (M * η) / θ ^ 2)) := by
          have := (abs_le.1 hb2).2
          linarith
        have := mul_lt_mul_of_pos_right h2 hk
        linarith
    · have hm6 : |m| ≤ 6 * M := by rw [abs_of_pos (by linarith)]; linarith
      obtain ⟨a1, -, a3, -⟩ := along_near hR h.size h.hc.1 h.hC.1 h.hn.1 e1 (Fl.near_fin m) hm6 hζ
      obtain ⟨b1, -, b3, -⟩ := along_near hR h.size h.hc.2 h.hC.2 h.hn.2 e2 (Fl.near_fin m) hm6 hζ
      have hp := h.page hR (z := c + n.smul (show Fl R from (Ext.fin m : Ext ℝ))) (Z := C + e.smul m) ⟨a1.mono (by linarith), b1.mono (by linarith)⟩ a3 b3
      refine ⟨hp.1.congr ?_, hp.2.congr ?_⟩
      · show (C.x + e.x * m) * k + o.x = C.x * k + o.x + e.x * (m * k); ring
      · show (C.y + e.y * m) * k + o.y = C.y * k + o.y + e.y * (m * k); ring
  | false =>
    simp only [Bool.false_eq_true, if_false]
    refine ⟨ρ * k, Or.inl rfl, ?_, ?_⟩
    · intro θ t1 t2 t3 t4
      have hb := not_lt_near l1 (hlen θ t1 t2 t3 t4) hlt
      simp only [hq]
      refine ⟨fun hhi => ?_, fun _ => trivial⟩
      exfalso
      unfold elbowError at hhi
      have := mul_le_mul_of_nonneg_right hb hk.le
      linarith
    · obtain ⟨f1, -, f3, -⟩ := h.ends hR
      have hp := h.page hR (z := c + n.smul rad) (Z := C + e.smul ρ) ⟨f1.1.mono (by linarith), f1.2.mono (by linarith)⟩ f3.1 f3.2
      refine ⟨hp.1.congr ?_, hp.2.congr ?_⟩
      · show (C.x + e.x * ρ) * k + o.x = C.x * k + o.x + e.x * (ρ * k); ring
      · show (C.y + e.y * ρ) * k + o.y = C.y * k + o.y + e.y * (ρ * k); ring

omit hR in
theorem two_lines {α : Type} {b : Bool} {p x y q : α} {f : α → α → β} : (if b = true then [f p x, f x q] else [f p y, f y q]) = [f p (if b = true then x else y), f (if b = true then x else y) q] := by
  cases b <;> rfl

/-- the strokes of a radius -/
theorem RoundParts.rad_ink (h : RoundParts M k κ η ζ o K o' a c n rad T C e ρ) {dir : V2 (Fl R)} (hd : dir.normalized = n) (g : Fl R → Str) :
    RoundInk radStrokes M k η ζ o (C.onPage k o) (T.onPage k o) e (ρ * k) ((radItems g K ⟨a, dir, c, rad⟩).moved K o').lines := by
  obtain ⟨m, h1, h2, h3⟩ := h.knee hR
  refine ⟨m, h1, h2, ?_⟩
  obtain ⟨d1, d2, d3, -, -⟩ := h.size.nums
  have hM := h.size.small.one
  have hζ := h.size.pos
  have hη0 : 0 < η := lt_of_lt_of_le (by positivity) h.size.fine.lo
  have hMη : 0 ≤ M * η := by positivity
  obtain ⟨f1, -, f3, -⟩ := h.ends hR
  have pa := h.page hR (z := a) (Z := T) ⟨h.ha.1.mono (by linarith), h.ha.2.mono (by linarith)⟩ (by linarith [h.hT.1]) (by linarith [h.hT.2])
  have pc := h.page hR (z := c) (Z := C) ⟨h.hc.1.mono (by linarith), h.hc.2.mono (by linarith)⟩ (by linarith [h.hC.1]) (by linarith [h.hC.2])
  have pr := h.page hR (z := c + n.smul rad) (Z := C + e.smul ρ) ⟨f1.1.mono (by linarith), f1.2.mono (by linarith)⟩ f3.1 f3.2
  have q1 := h.barb hR f1 f3.1 f3.2 (p := -6) (q := 2) (A := -6) (B := 2) (by norm_num) (by norm_num) (by norm_num) (by norm_num)
  have q2 := h.barb hR f1 f3.1 f3.2 (p := -6) (q := -2) (A := -6) (B := -2) (by norm_num) (by norm_num) (by norm_num) (by norm_num)
  have er : (C + e.smul ρ).onPage k o = C.onPage k o + e.smul (ρ * k) := by
    ext
    · show (C.x + e.x * ρ) * k + o.x = C.x * k + o.x + e.x * (ρ * k); ring
    · show (C.y + e.y * ρ) * k + o.y = C.y * k + o.y + e.y * (ρ * k); ring
  rw [er] at pr q1 q2
  simp only [OutPage.moved, radItems, radStrokes, hd, List.map_append, List.map_cons, List.map_nil]
  rw [two_lines (f := Line.mk)]
  simp only [List.map_cons, List.map_nil, List.cons_append, List.nil_append]
  refine .cons ⟨pc, h3⟩ (.cons ⟨h3, pa⟩ (.cons ⟨pr, ?_⟩ (.cons ⟨pr, ?_⟩ .nil)))
  · convert q1 using 1
    ext <;> simp [V2.smul] <;> ring
  · convert q2 using 1
    ext <;> simp [V2.smul] <;> ring

/-- the strokes of a diameter -/
theorem RoundParts.dia_ink (h : RoundParts M k κ η ζ o K o' a c n rad T C e ρ) {dir : V2 (Fl R)} (hd : dir.normalized = n) (g : Fl R → Str) :
    RoundInk diaStrokes M k η ζ o (C.onPage k o) (T.onPage k o) e (ρ * k) ((diaItems g K ⟨a, dir, c, rad⟩).moved K o').lines := by
  obtain ⟨m, h1, h2, h3⟩ := h.knee hR
  refine ⟨m, h1, h2, ?_⟩
  obtain ⟨d1, d2, d3, -, -⟩ := h.size.nums
  have hM := h.size.small.one
  have hζ := h.size.pos
  have hη0 : 0 < η := lt_of_lt_of_le (by positivity) h.size.fine.lo
  have hMη : 0 ≤ M * η := by positivity
  obtain ⟨f1, f2, f3, f4⟩ := h.ends hR
  have pa := h.page hR (z := a) (Z := T) ⟨h.ha.1.mono (by linarith), h.ha.2.mono (by linarith)⟩ (by linarith [h.hT.1]) (by linarith [h.hT.2])
  have pr := h.page hR (z := c + n.smul rad) (Z := C + e.smul ρ) ⟨f1.1.mono (by linarith), f1.2.mono (by linarith)⟩ f3.1 f3.2
  have pl := h.page hR (z := c - n.smul rad) (Z := C - e.smul ρ) ⟨f2.1.mono (by linarith), f2.2.mono (by linarith)⟩ f4.1 f4.2
  have q1 := h.barb hR f1 f3.1 f3.2 (p := -6) (q := 2) (A := -6) (B := 2) (by norm_num) (by norm_num) (by norm_num) (by norm_num)
  have q2 := h.barb hR f1 f3.1 f3.2 (p := -6) (q := -2) (A := -6) (B := -2) (by norm_num) (by norm_num) (by norm_num) (by norm_num)
  have q3 := h.barb hR f2 f4.1 f4.2 (p := 6) (q := 2) (A := 6) (B := 2) (by norm_num) (by norm_num) (by norm_num) (by norm_num)
  have q4 := h.barb hR f2 f4.1 f4.2 (p := 6) (q := -2) (A := 6) (B := -2) (by norm_num) (by norm_num) (by norm_num) (by norm_num)
  have er : (C + e.smul ρ).onPage k o = C.onPage k o + e.smul (ρ * k) := by
    ext
    · show (C.x + e.x * ρ) * k + o.x = C.x * k + o.x + e.x * (ρ * k); ring
    · show (C.y + e.y * ρ) * k + o.y = C.y * k + o.y + e.y * (ρ * k); ring
  have el : (C - e.smul ρ).onPage k o = C.onPage k o - e.smul (ρ * k) := by
    ext
    · show (C.x - e.x * ρ) * k + o.x = C.x * k + o.x - e.x * (ρ * k); ring
    · show (C.y - e.y * ρ) * k + o.y = C.y * k + o.y - e.y * (ρ * k); ring
  rw [er] at pr q1 q2
  rw [el] at pl q3 q4
  simp only [OutPage.moved, diaItems, diaStrokes, hd, List.map_append, List.map_cons, List.map_nil]
  rw [two_lines (f := Line.mk)]
  simp only [List.map_cons, List.map_nil, List.cons_append, List.nil_append]
  refine .cons ⟨pl, h3⟩ (.cons ⟨h3, pa⟩ (.cons ⟨pr, ?_⟩ (.cons ⟨pr, ?_⟩ (.cons ⟨pl, ?_⟩ (.cons ⟨pl, ?_⟩ .nil)))))
  · convert q1 using 1
    ext <;> simp [V2.smul] <;> ring
  · convert q2 using 1
    ext <;> simp [V2.smul] <;> ring
  · convert q3 using 1
  · convert q4 using 1
    ext <;> simp [V2.smul] <;> ring

/-- the place of the label -/
theorem RoundParts.label (h : RoundParts M k κ η ζ o K o' a c n rad T C e ρ) {j : ℕ} (hj : j ≤ 103) :
    V2.NearTo (V2.moved ⟨a.x + FP.lit kFontSize * FP.lit (3 / 10) * FP.lit (j : ℚ) / K, a.y⟩ K o') (T.onPage k o + ⟨12 / 5 * j, 0⟩) (roundError M k η ζ o) := by
  obtain ⟨d1, d2, d3, d4, d5⟩ := h.size.nums
  obtain ⟨⟨p1, p2⟩, p3, p4⟩ := h.offs
  have hM := h.size.small.one
  have hζ := h.size.pos
  have hκ := h.size.unit.pos'
  have hη0 : 0 < η := lt_of_lt_of_le (by positivity) h.size.fine.lo
  have hMη : 0 ≤ M * η := by positivity
  have hj' : (j : ℝ) ≤ 103 := by exact_mod_cast hj
  have hj0 : (0 : ℝ) ≤ j := Nat.cast_nonneg j
  have s := label_shift hR h.size.unit h.hK hj
  have a1 : |12 / 5 * (j : ℝ) * κ| ≤ 248 * κ := by
    rw [abs_of_nonneg (by positivity)]
    exact mul_le_mul_of_nonneg_right (by linarith) hκ.le
  have t := abs_add_le T.x (12 / 5 * j * κ)
  have hTx := h.hT.1
  norm_num at d1 d2 d4 d5
  have sm : 1 / 2 ^ 36 * κ ≤ κ := by norm_num; linarith
  obtain ⟨l1, l2⟩ := h.size.lohi (S := 2 * M + 256 * κ) (by linarith) (by norm_num; linarith)
  have q := h.ha.1.add hR s (S := 2 * M + 256 * κ) (by linarith) l1 l2
  constructor
  · refine (round_page hR h.size h.hK p1 p2 h.size.ox (Z := T.x) (by linarith) (D := 12 / 5 * j) ?_ (q.mono ?_)).congr ?_
    · rw [abs_of_nonneg (by positivity)]; norm_num; linarith
    · norm_num; linarith
    · show _ = T.x * k + o.x + 12 / 5 * j; ring
  · have := (h.page hR (z := a) (Z := T) ⟨h.ha.1.mono (by linarith), h.ha.2.mono (by linarith)⟩ (by linarith [h.hT.1]) (by linarith [h.hT.2])).2
    refine this.congr ?_
    show T.y * k + o.y = T.y * k + o.y + 0; ring

theorem RoundParts.label' (h : RoundParts M k κ η ζ o K o' a c n rad T C e ρ) {i j : ℕ} {x : ℝ} (e1 : i = j) (e2 : x = 12 / 5 * j) (hj : j ≤ 103) :
    V2.NearTo (V2.moved ⟨a.x + FP.lit kFontSize * FP.lit (3 / 10) * FP.lit (i : ℚ) / K, a.y⟩ K o') (T.onPage k o + ⟨x, 0⟩) (roundError M k η ζ o) := by
  subst e1 e2
  exact h.label hR hj

omit hR in
theorem rimErr_nonneg {N : ℕ} {B A s : ℝ} (hB : 0 ≤ B) (hs : 0 ≤ s) : 0 ≤ rimErr N B A s := by
  have hN : (0 : ℝ) ≤ N := Nat.cast_nonneg N
  unfold rimErr
  generalize (N : ℝ) = x at hN
  have : (0 : ℝ) < 2 ^ 51 := by norm_num
  generalize (2 : ℝ) ^ 51 = y at this
  positivity

omit hR in
/-- the line in the view, as a multiple of its unit vector -/
theorem legDir_len {r : M3 ℝ} {u : V3 ℝ} {e : V2 ℝ} (h : LegDir r u e) (hz : (u.mulM r).z = 0) : (u.mulM r).xy = e.smul (len3 (u.mulM r)) := by
  obtain ⟨e1, -, n1⟩ := legDir_unit h hz
  have l1 := len3_pos n1
  have x1 := congrArg V3.x e1
  have y1 := congrArg V3.y e1
  simp only [V3.sdiv, V3.map] at x1 y1
  rw [div_eq_iff l1.ne'] at x1 y1
  ext
  · exact x1
  · exact y1

/-- one radius or diameter -/
theorem round_meant {E : Env (Fl R)} {stl : Models (Fl R)} {n : ℕ} (hn : n ≤ 40) {name : Str} {ms : List (Meta (Fl R))} {sc rot loc file proj ls r kept k p off}
    (F : Framed E stl n name ms sc rot loc file proj ls r kept k p off) {η : ℝ} (hη : Fine η) (hm : M3.NearTo rot r η) (hk1 : 1 / 2 ^ 40 ≤ k) (hne : kept ≠ [])
    {v : Vis (Fl R)} (hv : v.rotation = rot) (hvs : v.scale = projScale sc)
    (hvd : v.d = projOffset loc proj.limits (projScale sc)) (hj : v.rotation.eqv E.junkM = false)
    {d : DimN (Fl R)} {g : Fl R → Str} {a u : V3 ℝ} {m : V2 ℝ} {ρ : ℝ} {N : ℕ} {B A s : ℝ} (h : RoundAsks E rot r v.points d g a u m ρ N B A s (2 ^ n)) :
    ∃ P L, dimContent E v d = .ok (true, P, L) ∧ RoundDone (2 ^ n) η r k off d g a u m ρ N B A s P := by
  have h1 : (1 : ℝ) ≤ 2 ^ n := one_le_pow₀ (by norm_num)
  have hSm : Small ((2 : ℝ) ^ n) := ⟨h1, pow_le_pow_right₀ (by norm_num) hn⟩
  have hM : Wide ((2 : ℝ) ^ n) := ⟨le_trans (by norm_num) h1, pow_le_pow_right₀ (by norm_num) (by omega)⟩
  have hr := F.rotation
  obtain ⟨hoff, o1, o2⟩ := F.offset hne
  have hk0 : 0 < k := lt_of_lt_of_le (by positivity) hk1
  have hkk : |k| = k := abs_of_pos hk0
  have hk2 : k ≤ 2 ^ 40 := by have := F.mid.scale; rwa [hkk] at this
  have hMk : (2 : ℝ) ^ n * k ≤ 2 ^ 40 * 2 ^ 40 := mul_le_mul hSm.top hk2 hk0.le (by positivity)
  have big : 4 * ((2 : ℝ) ^ n * |k|) + 2 * (|p.x| + |p.y|) + 1 ≤ 2 ^ 200 := by
    have := F.mid.loc
    rw [hkk]
    norm_num at this hMk ⊢
    linarith
  obtain ⟨q, t, p0, ps, ⟨lq, nq, hq⟩, hqt, hpts, hrim⟩ := h.rim.rim
  obtain ⟨c, rad, hl, cx, cy, hrad⟩ := locate_rim hR hrim hpts
  have h3 := rim_three hR hrim hpts
  have hdia := rim_twice hR hrim hrad
  have hsmall := C90_small hrim
  obtain ⟨b1, -, hin⟩ := hrim.near
  obtain ⟨hρ, hρB⟩ := hrim.rad
  obtain ⟨m1, m2⟩ := hin m (by simp)
  have hBM := h.within.2
  have he0 : 0 ≤ rimErr N B A s := by
    exact rimErr_nonneg (by linarith) hrim.slack.1
  have hζ0 : 0 ≤ 8 * B * rimErr N B A s / ρ := by positivity
  have hεζ : rimErr N B A s ≤ 8 * B * rimErr N B A s / ρ := by
    rw [le_div_iff₀ hρ]
    nlinarith
  rw [← hv] at hm
  have ex : ∀ z : V3 ℝ, V3.NearTo (R := R) (z.fin : V3 (Ext ℝ)) z 0 := fun z => ⟨Fl.near_fin _, Fl.near_fin _, Fl.near_fin _⟩
  have na := mulM_near' hR hM hη (ex a) h.within.1 hm hr
  have la : len3 (a.mulM r) ≤ 7 / 4 * 2 ^ n := by rw [rot_len hr]; exact len_within (by linarith) h.within.1
  have wa := within_len la
  obtain ⟨U, hU⟩ := h.largest
  have hU1 := hU.len
  rw [← rot_len hr u] at hU1
  have hUw : Wide U := ⟨hU.2.2.2.2.1, hU.2.2.2.2.2⟩
  have nu := mulM_near' hR hUw hη (ex u) ⟨hU.1, hU.2.1, hU.2.2.1⟩ hm hr
  have parts : ∀ e, LegDir r u e → RoundParts (2 ^ n) k (1 / k) η (8 * B * rimErr N B A s / ρ) off v.scale v.d (V3.mulM (α := Fl R) (a.fin : V3 (Ext ℝ)) v.rotation).xy c
      (V3.mulM (α := Fl R) (u.fin : V3 (Ext ℝ)) v.rotation).xy.normalized rad (a.mulM r).xy m e ρ := by
    intro e he
    have he2 : e.x ^ 2 + e.y ^ 2 = 1 := by have := he.1; simp only [V2.dot] at this; linarith
    have hd := legDir_len he h.square
    refine ⟨⟨hSm, unit_of hk1 hk2, hη, hζ0, by linarith, o1.trans big, o2.trans big⟩, hvs.trans F.scale, hvd.trans hoff, ⟨na.1, na.2.1⟩, ⟨wa.1, wa.2.1⟩,
      ⟨cx.mono hεζ, cy.mono hεζ⟩, ⟨m1.trans hBM, m2.trans hBM⟩, ?_, he2, hrad, hρ, hρB.trans hBM⟩
    refine dir2_near hR hUw hη he2 hU1.1 hU1.2 ?_
    rw [← hd]
    exact ⟨nu.1, nu.2.1⟩
  obtain ⟨e0, he0'⟩ := legDir_exists (u := u) (r := r) (by
    intro h0
    rw [h0] at hU1
    have h00 : len3 (⟨0, 0, 0⟩ : V3 ℝ) = 0 := by simp [len3]
    rw [h00] at hU1
    have := hU.2.2.2.2.1
    norm_num at this
    linarith) h.square
  have pt0 := literal_rot (E := E) (v := v) h.at_ 0
  have pt2 := literal_rot (E := E) (v := v) h.dir 2
  have pt1 : pointOf E v 1 d.metas c!"center" = some (q.mulM v.rotation) := by
    unfold pointOf
    rw [hq]
    rfl
  have hl' : locate v.points (q.mulM v.rotation).xy = some (c, rad) := by rw [hv, hqt]; exact hl
  rcases h.rim.kind with hk | hk
  · have hP : drawnItems E v d.kind d.metas = some (diaItems g v.scale ⟨(V3.mulM (α := Fl R) (a.fin : V3 (Ext ℝ)) v.rotation).xy, (V3.mulM (α := Fl R) (u.fin : V3 (Ext ℝ)) v.rotation).xy, c, rad⟩) := by
      rw [hk]
      simp only [drawnItems, drawnItems.circ, pt0, pt1, pt2, hl', h.rim.fmt, bind, Option.bind]
      rw [if_neg h3]
    obtain ⟨L, eq⟩ := (dimContent_items E v d hj).1 _ h.rim.good hP
    refine ⟨_, L, eq, rfl, fun _ => ⟨⟨_, rad * FP.lit 2, rfl, hdia, ?_⟩, ?_⟩, fun h0 => by rw [hk] at h0; cases h0⟩
    · intro hlen
      refine (parts e0 he0').label' hR (j := (g (rad * FP.lit 2)).length + 2) ?_ (by push_cast; ring) (by omega)
      show (c!"\\351" ++ g (rad * FP.lit 2)).length - 2 = _
      rw [List.length_append, show (c!"\\351" : Str).length = 4 by decide]; omega
    · intro e he
      exact (parts e he).dia_ink hR rfl g
  · have hP : drawnItems E v d.kind d.metas = some (radItems g v.scale ⟨(V3.mulM (α := Fl R) (a.fin : V3 (Ext ℝ)) v.rotation).xy, (V3.mulM (α := Fl R) (u.fin : V3 (Ext ℝ)) v.rotation).xy, c, rad⟩) := by
      rw [hk]
      simp only [drawnItems, drawnItems.circ, pt0, pt1, pt2, hl', h.rim.fmt, bind, Option.bind]
      rw [if_neg h3]
    obtain ⟨L, eq⟩ := (dimContent_items E v d hj).1 _ h.rim.good hP
    refine ⟨_, L, eq, rfl, fun h0 => (by rw [hk] at h0; cases h0), fun _ => ⟨⟨_, rad, rfl, hrad, ?_⟩, ?_⟩⟩
    · intro hlen
      refine (parts e0 he0').label' hR (j := (g rad).length + 3) ?_ (by push_cast; ring) (by omega)
      show (c!"R" ++ g rad).length + 2 = _
      rw [List.length_append, show (c!"R" : Str).length = 1 by decide]; omega
    · intro e he
      exact (parts e he).rad_ink hR rfl g

end
end S2P
